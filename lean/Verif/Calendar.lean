import Verif.Formats.Props

/-!
# Dates and times of Python

What `str(datetime.datetime(y, 1, 1) + datetime.timedelta(...))` gives, which the code writes for the times of Safari
cookies (safari_cookies.py 56-67) and of the Chrome cache (chrome_cache.py 345-348, 524-527 and 734-737).  The
model is that of the Python implementation of `datetime` (Lib/_pydatetime.py of Python 3.12, `_ord2ymd`, `_format_time`,
`datetime.__add__` and `datetime.isoformat`), the specification is a calendar that counts days one by one.
-/

namespace Dtf.Calendar
open Py Text Formats

abbrev Str := List Char

structure Date where
  year : Nat
  month : Nat
  day : Nat
deriving DecidableEq, Repr

/-! ## Model -/

/-- `_DAYS_BEFORE_MONTH`, with nothing for month 0. -/
def beforeMonth : List Nat := [0, 0, 31, 59, 90, 120, 151, 181, 212, 243, 273, 304, 334]

/-- `_DAYS_IN_MONTH`, with nothing for month 0. -/
def inMonth : List Nat := [0, 31, 28, 31, 30, 31, 30, 31, 31, 30, 31, 30, 31]

/-- The month and the day of a day of the year, counted from 0 (`_ord2ymd`, lines 145-155). -/
def monthDay (leap : Bool) (n : Nat) : Nat × Nat :=
  let month := (n + 50) >>> 5
  let preceding := beforeMonth.getD month 0 + if 2 < month ∧ leap then 1 else 0
  if n < preceding then
    (month - 1, n - (preceding - (inMonth.getD (month - 1) 0 + if month - 1 = 2 ∧ leap then 1 else 0)) + 1)
  else (month, n - preceding + 1)

/-- `_ord2ymd` (lines 95-155): day 1 is the first of January of the year 1. -/
def ord2ymd (ordinal : Nat) : Date :=
  let n := ordinal - 1
  let n400 := n / 146097
  let n := n % 146097
  let n100 := n / 36524
  let n := n % 36524
  let n4 := n / 1461
  let n := n % 1461
  let n1 := n / 365
  let n := n % 365
  let year := n400 * 400 + 1 + n100 * 100 + n4 * 4 + n1
  if n1 = 4 ∨ n100 = 4 then ⟨year - 1, 12, 31⟩
  else
    let x := monthDay (n1 = 3 ∧ (n4 ≠ 24 ∨ n100 = 3)) n
    ⟨year, x.1, x.2⟩

/-- The ordinals of the first of January of 1601 and 2001. -/
def year1601 : Nat := 584389
def year2001 : Nat := 730486

/-- `_MAXORDINAL`, the 31st of December of 9999. -/
def maxOrdinal : Nat := 3652059

/-- A date of which the ordinal is given plus a time in microseconds: the ordinal and the microseconds of the day.  Nothing
is an OverflowError, of `timedelta` or of the sum. -/
def shift (epoch : Nat) (micros : Int) : Option (Nat × Nat) :=
  let days := micros / 86400000000
  if 999999999 < days.natAbs then none
  else if 0 < epoch + days ∧ epoch + days ≤ maxOrdinal then some ((epoch + days).toNat, (micros % 86400000000).toNat)
  else none

def padded (w n : Nat) : Str := zpad w (dec n)

/-- `_format_time`. -/
def clock (micros : Nat) : Str :=
  let seconds := micros / 1000000
  let us := micros % 1000000
  padded 2 (seconds / 3600) ++ ':' :: (padded 2 (seconds / 60 % 60) ++ ':' :: (padded 2 (seconds % 60) ++
    if us = 0 then [] else '.' :: padded 6 us))

/-- `str` of a `datetime`. -/
def text (ordinal micros : Nat) : Str :=
  let d := ord2ymd ordinal
  padded 4 d.year ++ '-' :: (padded 2 d.month ++ '-' :: (padded 2 d.day ++ ' ' :: clock micros))

/-- `str(datetime + timedelta)`. -/
def shown (epoch : Nat) (micros : Int) : Option Str := (shift epoch micros).map fun x => text x.1 x.2

/-! ## Specification -/

def Leap (y : Nat) : Prop := 4 ∣ y ∧ (100 ∣ y → 400 ∣ y)

instance (y : Nat) : Decidable (Leap y) := by unfold Leap; infer_instance

def lengthOf (y : Nat) : Nat → Nat
  | 2 => if Leap y then 29 else 28
  | 4 => 30
  | 6 => 30
  | 9 => 30
  | 11 => 30
  | _ => 31

/-- The next day. -/
def next (d : Date) : Date :=
  if d.day < lengthOf d.year d.month then ⟨d.year, d.month, d.day + 1⟩
  else if d.month < 12 then ⟨d.year, d.month + 1, 1⟩
  else ⟨d.year + 1, 1, 1⟩

/-- The day so many days after the first of January of the year 1. -/
def dayAfter : Nat → Date
  | 0 => ⟨1, 1, 1⟩
  | n + 1 => next (dayAfter n)

/-- The text of a time of a day. -/
def written (d : Date) (h m s us : Nat) : Str :=
  padded 4 d.year ++ "-".toList ++ padded 2 d.month ++ "-".toList ++ padded 2 d.day ++ " ".toList ++ padded 2 h ++ ":".toList ++
    padded 2 m ++ ":".toList ++ padded 2 s ++ if us = 0 then [] else ".".toList ++ padded 6 us

/-- The text is that of the time so many microseconds after the start of the year 1, before the year 10000. -/
def IsTime (t : Str) (micros : Int) : Prop :=
  ∃ n h m s us : Nat, n < 3652059 ∧ h < 24 ∧ m < 60 ∧ s < 60 ∧ us < 1000000 ∧
    micros = (((n * 24 + h) * 60 + m) * 60 + s) * 1000000 + us ∧ t = written (dayAfter n) h m s us

/-! ## Proofs -/

def Valid (d : Date) : Prop := 1 ≤ d.year ∧ 1 ≤ d.month ∧ d.month ≤ 12 ∧ 1 ≤ d.day ∧ d.day ≤ lengthOf d.year d.month

/-- The days of a year before a date. -/
def before (leap : Bool) (m d : Nat) : Nat := beforeMonth.getD m 0 + (if 2 < m ∧ leap then 1 else 0) + d - 1

def daysBefore (y : Nat) : Nat := (y - 1) * 365 + (y - 1) / 4 - (y - 1) / 100 + (y - 1) / 400

def ordinal (d : Date) : Nat := daysBefore d.year + before (Leap d.year) d.month d.day

theorem leap_iff (y : Nat) : Leap y ↔ y % 4 = 0 ∧ (y % 100 = 0 → y % 400 = 0) := by
  unfold Leap
  omega

theorem length_eq (y m : Nat) : lengthOf y m = if m = 2 then (if Leap y then 29 else 28) else lengthOf 1 m := by
  unfold lengthOf
  split <;> simp_all

theorem div_succ (y k : Nat) (h : 1 ≤ y) (hk : 0 < k) : y / k = (y - 1) / k + if y % k = 0 then 1 else 0 := by
  have := Nat.succ_div (a := y - 1) (b := k)
  rw [Nat.sub_add_cancel h] at this
  rw [this]
  simp only [Nat.dvd_iff_mod_eq_zero]

theorem daysBefore_succ (y : Nat) (h : 1 ≤ y) : daysBefore (y + 1) = daysBefore y + 365 + if Leap y then 1 else 0 := by
  unfold daysBefore
  rw [Nat.add_sub_cancel, div_succ y 4 h (by decide), div_succ y 100 h (by decide), div_succ y 400 h (by decide)]
  have h1 : (y - 1) / 100 ≤ (y - 1) * 365 := by omega
  generalize (y - 1) / 4 = p at *
  generalize (y - 1) / 100 = q at *
  generalize (y - 1) / 400 = r at *
  by_cases hl : Leap y
  · rw [if_pos hl]
    rw [leap_iff] at hl
    rw [if_pos hl.1]
    by_cases hc : y % 100 = 0
    · rw [if_pos hc, if_pos (hl.2 hc)]
      omega
    · rw [if_neg hc, if_neg (by omega)]
      omega
  · rw [if_neg hl]
    rw [leap_iff] at hl
    by_cases h4 : y % 4 = 0
    · have hc : y % 100 = 0 ∧ y % 400 ≠ 0 := by
        by_cases hc : y % 100 = 0
        · exact ⟨hc, fun h => hl ⟨h4, fun _ => h⟩⟩
        · exact absurd ⟨h4, fun h => absurd h hc⟩ hl
      rw [if_pos h4, if_pos hc.1, if_neg hc.2]
      omega
    · rw [if_neg h4, if_neg (by omega), if_neg (by omega)]
      omega

/-- The days of a month, with the years left out. -/
def monthLength (leap : Bool) (m : Nat) : Nat := if m = 2 then (if leap then 29 else 28) else lengthOf 1 m

def Row (leap : Bool) (m d : Nat) : Prop :=
    monthDay leap (before leap m d) = (m, d) ∧ before leap m d ≤ (if leap then 365 else 364) ∧
    ((if d < monthLength leap m then before leap m (d + 1)
      else if m < 12 then before leap (m + 1) 1 else (if leap then 366 else 365)) = before leap m d + 1) ∧
    (before leap m d = 365 → m = 12 ∧ d = 31)

instance (leap : Bool) (m d : Nat) : Decidable (Row leap m d) := by unfold Row; infer_instance

theorem month_table (leap : Bool) : ∀ m < 12, ∀ d < monthLength leap (m + 1), Row leap (m + 1) (d + 1) := by
  cases leap <;> decide +kernel

theorem valid_table (d : Date) (h : Valid d) :
    monthDay (Leap d.year) (before (Leap d.year) d.month d.day) = (d.month, d.day) ∧
    before (Leap d.year) d.month d.day ≤ (if Leap d.year then 365 else 364) ∧
    (if d.day < lengthOf d.year d.month then before (Leap d.year) d.month (d.day + 1)
      else if d.month < 12 then before (Leap d.year) (d.month + 1) 1 else (if Leap d.year then 366 else 365)) =
        before (Leap d.year) d.month d.day + 1 ∧
    (before (Leap d.year) d.month d.day = 365 → d.month = 12 ∧ d.day = 31) := by
  obtain ⟨_, h1, h2, h3, h4⟩ := h
  have hl : lengthOf d.year d.month = monthLength (Leap d.year) d.month := by
    rw [length_eq]
    unfold monthLength
    simp
  have := month_table (Leap d.year) (d.month - 1) (by omega) (d.day - 1) (by rw [Nat.sub_add_cancel h1, ← hl]; omega)
  rw [Nat.sub_add_cancel h1, Nat.sub_add_cancel h3] at this
  unfold Row at this
  rw [← hl] at this
  simpa using this

theorem next_valid (d : Date) (h : Valid d) : Valid (next d) ∧ ordinal (next d) = ordinal d + 1 := by
  have ht := (valid_table d h).2.2.1
  obtain ⟨h0, h1, h2, h3, h4⟩ := h
  have hp : ∀ y m, 1 ≤ lengthOf y m := by
    intro y m
    unfold lengthOf
    repeat' split
    all_goals omega
  unfold next
  by_cases hd : d.day < lengthOf d.year d.month
  · rw [if_pos hd] at ht ⊢
    refine ⟨⟨h0, h1, h2, by dsimp only; omega, hd⟩, ?_⟩
    unfold ordinal
    dsimp only
    omega
  · rw [if_neg hd] at ht ⊢
    by_cases hm : d.month < 12
    · rw [if_pos hm] at ht ⊢
      refine ⟨⟨h0, by dsimp only; omega, by dsimp only; omega, by dsimp only; omega, hp _ _⟩, ?_⟩
      unfold ordinal
      dsimp only
      omega
    · rw [if_neg hm] at ht ⊢
      refine ⟨⟨by dsimp only; omega, Nat.le_refl 1, Nat.le_of_ble_eq_true rfl, Nat.le_refl 1, hp _ _⟩, ?_⟩
      unfold ordinal
      dsimp only
      rw [daysBefore_succ _ h0]
      have : ∀ b, before b 1 1 = 0 := by decide
      rw [this]
      split at ht <;> simp_all <;> omega

theorem ord2ymd_ordinal (d : Date) (h : Valid d) : ord2ymd (ordinal d + 1) = d := by
  obtain ⟨t1, t2, _, t4⟩ := valid_table d h
  obtain ⟨h0, h1, h2, h3, h4⟩ := h
  unfold ordinal
  generalize before (Leap d.year) d.month d.day = k at *
  obtain ⟨a, b, c, e, hy, hb, hc, he⟩ : ∃ a b c e, d.year = 400 * a + 100 * b + 4 * c + e + 1 ∧ b ≤ 3 ∧ c ≤ 24 ∧ e ≤ 3 :=
    ⟨(d.year - 1) / 400, (d.year - 1) % 400 / 100, (d.year - 1) % 100 / 4, (d.year - 1) % 4, by omega, by omega, by omega,
      by omega⟩
  have hl : Leap d.year ↔ e = 3 ∧ (c ≠ 24 ∨ b = 3) := by
    rw [leap_iff]
    omega
  have hd : daysBefore d.year = 146097 * a + 36524 * b + 1461 * c + 365 * e := by
    unfold daysBefore
    rw [hy]
    omega
  have hk : k ≤ 365 ∧ (k = 365 → e = 3 ∧ (c ≠ 24 ∨ b = 3)) := by
    by_cases hL : Leap d.year
    · rw [if_pos hL] at t2
      exact ⟨t2, fun _ => hl.mp hL⟩
    · rw [if_neg hL] at t2
      exact ⟨by omega, fun _ => by omega⟩
  have r1 : (146097 * a + 36524 * b + 1461 * c + 365 * e + k) / 146097 = a := by omega
  have r1' : (146097 * a + 36524 * b + 1461 * c + 365 * e + k) % 146097 = 36524 * b + 1461 * c + 365 * e + k := by omega
  unfold ord2ymd
  dsimp only
  rw [hd, Nat.add_sub_cancel, r1, r1']
  by_cases hlast : k = 365
  · obtain ⟨e3, hbc⟩ := hk.2 hlast
    have hmd := t4 hlast
    subst hlast
    subst e3
    by_cases h24 : c = 24
    · have hb3 : b = 3 := by omega
      subst h24
      subst hb3
      have ed : d = ⟨400 * a + 400, 12, 31⟩ := by
        cases d
        simp_all
      rw [ed]
      have q0 : (36524 * 3 + 1461 * 24 + 365 * 3 + 365) / 36524 = 4 := rfl
      have q1 : (36524 * 3 + 1461 * 24 + 365 * 3 + 365) % 36524 = 0 := rfl
      rw [q0, q1, if_pos (.inr rfl)]
      simp
      omega
    · have q1 : (36524 * b + 1461 * c + 365 * 3 + 365) / 36524 = b := by omega
      have q2 : (36524 * b + 1461 * c + 365 * 3 + 365) % 36524 = 1461 * c + 1460 := by omega
      rw [q1, q2]
      have q3 : (1461 * c + 1460) / 1461 = c := by omega
      have q4 : (1461 * c + 1460) % 1461 = 1460 := by omega
      rw [q3, q4, if_pos (.inl rfl)]
      cases d
      simp_all
      omega
  · have hk' : k < 365 := by omega
    have q1 : (36524 * b + 1461 * c + 365 * e + k) / 36524 = b := by omega
    have q2 : (36524 * b + 1461 * c + 365 * e + k) % 36524 = 1461 * c + 365 * e + k := by omega
    have q3 : (1461 * c + 365 * e + k) / 1461 = c := by omega
    have q4 : (1461 * c + 365 * e + k) % 1461 = 365 * e + k := by omega
    have q5 : (365 * e + k) / 365 = e := by omega
    have q6 : (365 * e + k) % 365 = k := by omega
    rw [q1, q2, q3, q4, q5, q6, if_neg (by omega)]
    have el : decide (e = 3 ∧ (c ≠ 24 ∨ b = 3)) = decide (Leap d.year) := decide_eq_decide.mpr hl.symm
    rw [el, t1]
    cases d
    simp_all
    omega

theorem dayAfter_valid (n : Nat) : Valid (dayAfter n) ∧ ordinal (dayAfter n) = n := by
  induction n with
  | zero => exact ⟨⟨by decide, by decide, by decide, by decide, by decide⟩, by decide +kernel⟩
  | succ n ih =>
    have := next_valid _ ih.1
    exact ⟨this.1, by rw [dayAfter, this.2, ih.2]⟩

/-- The date of an ordinal is that of the calendar, for all ordinals. -/
theorem ord2ymd_eq (n : Nat) : ord2ymd (n + 1) = dayAfter n := by
  have h := dayAfter_valid n
  have := ord2ymd_ordinal _ h.1
  rw [h.2] at this
  exact this

theorem dayAfter_injective (m n : Nat) (h : dayAfter m = dayAfter n) : m = n := by
  rw [← (dayAfter_valid m).2, h, (dayAfter_valid n).2]

/-- The days of the years before 10000 are the ordinals up to the largest. -/
theorem year_max : dayAfter 3652058 = ⟨9999, 12, 31⟩ := by
  rw [← ord2ymd_eq]
  decide +kernel

theorem text_written (n h m s us : Nat) (hh : h < 24) (hm : m < 60) (hs : s < 60) (hu : us < 1000000) :
    text (n + 1) (((h * 60 + m) * 60 + s) * 1000000 + us) = written (dayAfter n) h m s us := by
  unfold text clock written
  dsimp only
  have e1 : (((h * 60 + m) * 60 + s) * 1000000 + us) / 1000000 = (h * 60 + m) * 60 + s := by omega
  have e2 : (((h * 60 + m) * 60 + s) * 1000000 + us) % 1000000 = us := by omega
  have e3 : ((h * 60 + m) * 60 + s) / 3600 = h := by omega
  have e4 : ((h * 60 + m) * 60 + s) / 60 % 60 = m := by omega
  have e5 : ((h * 60 + m) * 60 + s) % 60 = s := by omega
  rw [e1, e2, e3, e4, e5, ord2ymd_eq]
  simp only [List.append_assoc]
  rfl

/-- What is shown is the time of the calendar, and there is none exactly when it is not in the years 1 to 9999. -/
theorem shown_iff (epoch : Nat) (he : 1 ≤ epoch) (he' : epoch ≤ maxOrdinal) (micros : Int) (t : Str) :
    shown epoch micros = some t ↔ IsTime t (micros + (epoch - 1) * 86400000000) := by
  unfold maxOrdinal at he'
  unfold shown shift maxOrdinal
  dsimp only
  constructor
  · intro h
    split at h
    · cases h
    · split at h
      · rename_i h1 h2
        cases h
        have hr := Int.emod_nonneg micros (b := 86400000000) (by decide)
        have hr' := Int.emod_lt_of_pos micros (b := 86400000000) (by decide)
        have hd := Int.mul_ediv_add_emod micros 86400000000
        generalize micros % 86400000000 = r at *
        generalize micros / 86400000000 = q at *
        obtain ⟨r, rfl⟩ := Int.eq_ofNat_of_zero_le hr
        obtain ⟨n, hn⟩ : ∃ n : Nat, (epoch : Int) + q = n + 1 := ⟨((epoch : Int) + q - 1).toNat, by omega⟩
        have er : r = ((r / 3600000000 * 60 + r / 60000000 % 60) * 60 + r / 1000000 % 60) * 1000000 + r % 1000000 := by omega
        refine ⟨n, r / 3600000000, r / 60000000 % 60, r / 1000000 % 60, r % 1000000, by omega, by omega, by omega, by omega, by omega,
          by omega, ?_⟩
        rw [hn, ← text_written _ _ _ _ _ (by omega) (by omega) (by omega) (by omega), ← er]
        rfl
      · cases h
  · rintro ⟨n, h, m, s, us, hn, hh, hm, hs, hu, e, rfl⟩
    have e1 : micros / 86400000000 = n + 1 - epoch := by omega
    have e2 : micros % 86400000000 = (((h * 60 + m) * 60 + s) * 1000000 + us : Nat) := by omega
    rw [e1, e2, if_neg (by omega), if_pos (by omega), ← text_written n h m s us hh hm hs hu]
    have e3 : ((epoch : Int) + (n + 1 - epoch)).toNat = n + 1 := by omega
    rw [e3]
    rfl

/-- There is a time exactly in the years 1 to 9999. -/
theorem isTime_exists (micros : Int) : (∃ t, IsTime t micros) ↔ 0 ≤ micros ∧ micros < 3652059 * 86400000000 := by
  constructor
  · rintro ⟨t, n, h, m, s, us, hn, hh, hm, hs, hu, e, _⟩
    omega
  · rintro ⟨h0, h1⟩
    obtain ⟨r, rfl⟩ := Int.eq_ofNat_of_zero_le h0
    exact ⟨_, r / 86400000000, r / 3600000000 % 24, r / 60000000 % 60, r / 1000000 % 60, r % 1000000, by omega, by omega, by omega,
      by omega, by omega, by omega, rfl⟩

/-- What comes before the first of a character. -/
theorem cut {c : Char} {s t x y : Str} (hs : c ∉ s) (ht : c ∉ t) (h : s ++ c :: x = t ++ c :: y) : s = t ∧ x = y := by
  induction s generalizing t with
  | nil =>
    cases t with
    | nil => exact ⟨rfl, (List.cons.inj h).2⟩
    | cons a t =>
      have := (List.cons.inj h).1
      exact absurd (by rw [this]; exact List.mem_cons_self) ht
  | cons a s ih =>
    cases t with
    | nil =>
      have := (List.cons.inj h).1
      exact absurd (by rw [← this]; exact List.mem_cons_self) hs
    | cons b t =>
      obtain ⟨e1, e2⟩ := List.cons.inj h
      obtain ⟨e3, e4⟩ := ih (fun h => hs (List.mem_cons_of_mem _ h)) (fun h => ht (List.mem_cons_of_mem _ h)) e2
      exact ⟨by rw [e1, e3], e4⟩

theorem padded_notMem (w n : Nat) (c : Char) (h : ∀ d < 10, digitChar d ≠ c) : c ∉ padded w n := by
  intro hm
  obtain ⟨d, hd, e⟩ := mem_zpad_digits 10 n w (by decide) c hm
  exact h d hd e.symm

theorem padded_injective (w m n : Nat) (h : padded w m = padded w n) : m = n :=
  zpad_digits_injective 10 w (by decide) (by decide) m n h

theorem padded_length (n : Nat) (h : n < 100) : (padded 2 n).length = 2 :=
  zpad_length 2 _ (digits_length_le 10 n 1 (by decide) h)

/-- The text determines the time. -/
theorem isTime_injective (t : Str) (a b : Int) (ha : IsTime t a) (hb : IsTime t b) : a = b := by
  obtain ⟨n, h, m, s, us, hn, hh, hm, hs, hu, ea, rfl⟩ := ha
  obtain ⟨n', h', m', s', us', hn', hh', hm', hs', hu', eb, e⟩ := hb
  have d1 : ∀ x : Str, "-".toList ++ x = '-' :: x := fun _ => rfl
  have d2 : ∀ x : Str, " ".toList ++ x = ' ' :: x := fun _ => rfl
  have d3 : ∀ x : Str, ":".toList ++ x = ':' :: x := fun _ => rfl
  unfold written at e
  simp only [List.append_assoc, d1, d2, d3] at e
  obtain ⟨e1, e⟩ := cut (padded_notMem 4 _ '-' (by decide)) (padded_notMem 4 _ '-' (by decide)) e
  obtain ⟨e2, e⟩ := cut (padded_notMem 2 _ '-' (by decide)) (padded_notMem 2 _ '-' (by decide)) e
  obtain ⟨e3, e⟩ := cut (padded_notMem 2 _ ' ' (by decide)) (padded_notMem 2 _ ' ' (by decide)) e
  obtain ⟨e4, e⟩ := cut (padded_notMem 2 _ ':' (by decide)) (padded_notMem 2 _ ':' (by decide)) e
  obtain ⟨e5, e⟩ := cut (padded_notMem 2 _ ':' (by decide)) (padded_notMem 2 _ ':' (by decide)) e
  obtain ⟨e6, e⟩ := List.append_inj e (by rw [padded_length _ (by omega), padded_length _ (by omega)])
  have hd : dayAfter n = dayAfter n' := by
    generalize dayAfter n = x at *
    generalize dayAfter n' = y at *
    cases x
    cases y
    have f1 := padded_injective _ _ _ e1
    have f2 := padded_injective _ _ _ e2
    have f3 := padded_injective _ _ _ e3
    dsimp only at f1 f2 f3
    rw [f1, f2, f3]
  have k1 := dayAfter_injective _ _ hd
  have k2 := padded_injective _ _ _ e4
  have k3 := padded_injective _ _ _ e5
  have k4 := padded_injective _ _ _ e6
  have k5 : us = us' := by
    by_cases h0 : us = 0
    · by_cases h0' : us' = 0
      · omega
      · rw [if_pos h0, if_neg h0'] at e
        cases e
    · by_cases h0' : us' = 0
      · rw [if_neg h0, if_pos h0'] at e
        cases e
      · rw [if_neg h0, if_neg h0'] at e
        exact padded_injective _ _ _ (List.cons.inj e).2
  omega

example : ord2ymd year1601 = ⟨1601, 1, 1⟩ ∧ ord2ymd year2001 = ⟨2001, 1, 1⟩ ∧ ord2ymd maxOrdinal = ⟨9999, 12, 31⟩ := by decide +kernel

/-- The 29th of February of 2024. -/
example : shown year2001 (730857600 * 1000000 + 1) = some "2024-02-29 00:00:00.000001".toList := by decide +kernel

example : shown year2001 (-1) = some "2000-12-31 23:59:59.999999".toList := by decide +kernel

example : shown year2001 (252455616000 * 1000000) = none := by decide +kernel

end Dtf.Calendar
