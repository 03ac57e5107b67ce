import Verif.Calendar
import Verif.Scripts.Reports
import Verif.Scripts.Shortcuts
import Verif.DebugShown

/-!
# Dates and times of dfdatetime (C190)

The other modules have the texts of dfdatetime as parameters.  Here they are as its documentation has them: the date of the
Gregorian calendar, the time of the day and a fraction with as many digits as the kind of timestamp has.  How dfdatetime
finds the date is not modelled, `Calendar.ord2ymd` is used for it.
-/

namespace Dtf.Dates
open Py Text Formats Calendar

/-! ## Model -/

/-- A kind of timestamp: the days from the first of January of the year 1 to its epoch and the number of digits of the
fraction of a second that it counts. -/
structure Kind where
  epoch : Nat
  width : Nat

/-- The units in a second. -/
def Kind.unit (k : Kind) : Nat := 10 ^ k.width

/-- dfdatetime `CopyToDateTimeString`; times before the year 1 have no text here. -/
def Kind.text (k : Kind) (v : Int) : Option Str :=
  let t := v + (k.epoch * 86400 * k.unit : Nat)
  if t < 0 then none
  else
    let n := t.toNat
    let seconds := n / k.unit
    let d := ord2ymd (seconds / 86400 + 1)
    some (padded 4 d.year ++ '-' :: (padded 2 d.month ++ '-' :: (padded 2 d.day ++ ' ' :: (padded 2 (seconds / 3600 % 24) ++
      ':' :: (padded 2 (seconds / 60 % 60) ++ ':' :: (padded 2 (seconds % 60) ++
        if k.width = 0 then [] else '.' :: padded k.width (n % k.unit)))))))

/-- `Filetime`: intervals of 100 nanoseconds since 1601 (data_format.py 335). -/
def filetime : Kind := ⟨584388, 7⟩
/-- `HFSTime`: seconds since 1904 (data_format.py 390). -/
def hfs : Kind := ⟨695055, 0⟩
/-- `PosixTime`: seconds since 1970 (data_format.py 409). -/
def posix : Kind := ⟨719162, 0⟩
/-- `PosixTimeInMicroseconds` (data_format.py 428). -/
def micros : Kind := ⟨719162, 6⟩
/-- `PosixTimeInNanoseconds` (data_format.py 447). -/
def nanos : Kind := ⟨719162, 9⟩

/-- `HFSTime` has a text for values of 32 bits only. -/
def hfsText (v : Int) : Option Str := if 0 ≤ v ∧ v < 2 ^ 32 then hfs.text v else none

/-- The end of the formatters of times (data_format.py 335-340, 390-395, 409-414, 428-433 and 447-452). -/
def orNumber (text : Int → Option Str) (v : Int) : Str :=
  match text v with
  | none => "0x".toList ++ hexInt 8 v
  | some s => if s = [] then "0x".toList ++ hexInt 8 v else s ++ " UTC".toList

/-- `_FormatIntegerAsFiletime` (data_format.py 319-340), the text of the tuple, which is what `_DebugPrintFiletimeValue`
(data_format.py 89-108) shows as well. -/
def formatFiletime (v : Int) : Str :=
  if v = 0 then "Not set (0)".toList
  else if v = 0x7FFFFFFFFFFFFFFF then "Never (0x7fffffffffffffff)".toList
  else orNumber filetime.text v

/-- `_FormatIntegerAsHFSTime` (data_format.py 378-395). -/
def formatHfs (v : Int) : Str := if v = 0 then "Not set (0)".toList else orNumber hfsText v

/-- `_FormatIntegerAsPosixTime`, `_FormatIntegerAsPosixTimeInMicroseconds` and `_FormatIntegerAsPosixTimeInNanoseconds`
(data_format.py 397-452); `_DebugPrintPosixTimeValue` (data_format.py 120-137) shows the same. -/
def formatPosix (k : Kind) (v : Int) : Str := if v = 0 then "Not set (0)".toList else orNumber k.text v

/-! ## Specification -/

/-- A date, a time and a fraction of so many digits, as they are written. -/
def writtenAs (width : Nat) (d : Date) (h m s f : Nat) : Str :=
  padded 4 d.year ++ "-".toList ++ padded 2 d.month ++ "-".toList ++ padded 2 d.day ++ " ".toList ++ padded 2 h ++ ":".toList ++
    padded 2 m ++ ":".toList ++ padded 2 s ++ if width = 0 then [] else ".".toList ++ padded width f

/-- The text is that of the time so many units of `10 ^ -width` seconds after the start of `day`. -/
def IsTimeSince (start : Date) (width : Nat) (t : Str) (v : Int) : Prop :=
  ∃ e n h m s f : Nat, dayAfter e = start ∧ h < 24 ∧ m < 60 ∧ s < 60 ∧ f < 10 ^ width ∧
    v = (((((n : Int) - e) * 24 + h) * 60 + m) * 60 + s) * (10 ^ width : Nat) + f ∧ t = writtenAs width (dayAfter n) h m s f

/-- A text that is sorted before another, by the first character in which they differ. -/
def Before (s t : Str) : Prop := ∃ p a b x y, s = p ++ a :: x ∧ t = p ++ b :: y ∧ a.toNat < b.toNat

/-! ## Proofs -/

theorem text_writtenAs (k : Kind) (v : Int) (n h m s f : Nat) (hh : h < 24) (hm : m < 60) (hs : s < 60) (hf : f < k.unit)
    (e : v = (((((n : Int) - k.epoch) * 24 + h) * 60 + m) * 60 + s) * k.unit + f) :
    k.text v = some (writtenAs k.width (dayAfter n) h m s f) := by
  have ht : v + (k.epoch * 86400 * k.unit : Nat) = ((n * 86400 + h * 3600 + m * 60 + s) * k.unit + f : Nat) := by
    rw [e]
    push_cast
    have : (((((n : Int) - k.epoch) * 24 + h) * 60 + m) * 60 + s) = ((n : Int) * 86400 + h * 3600 + m * 60 + s) - k.epoch * 86400 := by omega
    rw [this, Int.sub_mul]
    omega
  unfold Kind.text
  rw [ht]
  dsimp only
  rw [if_neg (by omega), Int.toNat_natCast]
  have hu : 0 < k.unit := by omega
  have e1 : ((n * 86400 + h * 3600 + m * 60 + s) * k.unit + f) / k.unit = n * 86400 + h * 3600 + m * 60 + s := by
    rw [Nat.mul_comm, Nat.mul_add_div hu, Nat.div_eq_of_lt hf, Nat.add_zero]
  have e2 : ((n * 86400 + h * 3600 + m * 60 + s) * k.unit + f) % k.unit = f := by
    rw [Nat.mul_comm, Nat.mul_add_mod, Nat.mod_eq_of_lt hf]
  rw [e1, e2]
  have e3 : (n * 86400 + h * 3600 + m * 60 + s) / 86400 = n := by omega
  have e4 : (n * 86400 + h * 3600 + m * 60 + s) / 3600 % 24 = h := by omega
  have e5 : (n * 86400 + h * 3600 + m * 60 + s) / 60 % 60 = m := by omega
  have e6 : (n * 86400 + h * 3600 + m * 60 + s) % 60 = s := by omega
  rw [e3, e4, e5, e6, ord2ymd_eq]
  unfold writtenAs
  simp only [List.append_assoc]
  rfl

/-- The parts of a time. -/
theorem parts (k : Kind) (v : Int) (h : 0 ≤ v + (k.epoch * 86400 * k.unit : Nat)) :
    ∃ n h m s f : Nat, h < 24 ∧ m < 60 ∧ s < 60 ∧ f < k.unit ∧
      v = (((((n : Int) - k.epoch) * 24 + h) * 60 + m) * 60 + s) * k.unit + f := by
  obtain ⟨t, ht⟩ := Int.eq_ofNat_of_zero_le h
  have hu : 0 < k.unit := Nat.pow_pos (by decide)
  have hd := Nat.div_add_mod t k.unit
  have hm := Nat.mod_lt t hu
  generalize hq : t / k.unit = q at hd
  generalize t % k.unit = f at hd hm
  refine ⟨q / 86400, q / 3600 % 24, q / 60 % 60, q % 60, f, by omega, by omega, by omega, hm, ?_⟩
  have e : ((((((q / 86400 : Nat) : Int) - k.epoch) * 24 + (q / 3600 % 24 : Nat)) * 60 + (q / 60 % 60 : Nat)) * 60 + (q % 60 : Nat)) =
      (q : Int) - k.epoch * 86400 := by omega
  rw [e, Int.sub_mul]
  have hd' : (k.unit : Int) * q + f = t := by exact_mod_cast hd
  push_cast at ht
  rw [Int.mul_comm (q : Int)]
  omega

theorem epoch_day (k : Kind) (d : Date) (hv : Valid d) (h : ordinal d = k.epoch) : dayAfter k.epoch = d := by
  rw [← h, ← ord2ymd_eq, ord2ymd_ordinal d hv]

/-- The text of a timestamp is that of the time of the calendar; there is one exactly from the year 1 on. -/
theorem text_iff (k : Kind) (start : Date) (hk : dayAfter k.epoch = start) (v : Int) (t : Str) :
    k.text v = some t ↔ 0 ≤ v + (k.epoch * 86400 * k.unit : Nat) ∧ IsTimeSince start k.width t v := by
  constructor
  · intro h
    have h0 : 0 ≤ v + (k.epoch * 86400 * k.unit : Nat) := by
      unfold Kind.text at h
      dsimp only at h
      split at h
      · cases h
      · omega
    obtain ⟨n, hh, m, s, f, b1, b2, b3, b4, e⟩ := parts k v h0
    rw [text_writtenAs k v n hh m s f b1 b2 b3 b4 e] at h
    exact ⟨h0, k.epoch, n, hh, m, s, f, hk, b1, b2, b3, b4, e, (Option.some.inj h).symm⟩
  · rintro ⟨h0, e, n, h, m, s, f, he, b1, b2, b3, b4, ev, rfl⟩
    have : e = k.epoch := dayAfter_injective _ _ (he.trans hk.symm)
    subst this
    exact text_writtenAs k v n h m s f b1 b2 b3 b4 ev

theorem writtenAs_injective (w n h m s f n' h' m' s' f' : Nat) (hf : w = 0 → f = f')
    (hs : s < 60) (hs' : s' < 60)
    (e : writtenAs w (dayAfter n) h m s f = writtenAs w (dayAfter n') h' m' s' f') :
    n = n' ∧ h = h' ∧ m = m' ∧ s = s' ∧ f = f' := by
  have d1 : ∀ x : Str, "-".toList ++ x = '-' :: x := fun _ => rfl
  have d2 : ∀ x : Str, " ".toList ++ x = ' ' :: x := fun _ => rfl
  have d3 : ∀ x : Str, ":".toList ++ x = ':' :: x := fun _ => rfl
  unfold writtenAs at e
  simp only [List.append_assoc, d1, d2, d3] at e
  obtain ⟨e1, e⟩ := cut (padded_notMem 4 _ '-' (by decide)) (padded_notMem 4 _ '-' (by decide)) e
  obtain ⟨e2, e⟩ := cut (padded_notMem 2 _ '-' (by decide)) (padded_notMem 2 _ '-' (by decide)) e
  obtain ⟨e3, e⟩ := cut (padded_notMem 2 _ ' ' (by decide)) (padded_notMem 2 _ ' ' (by decide)) e
  obtain ⟨e4, e⟩ := cut (padded_notMem 2 _ ':' (by decide)) (padded_notMem 2 _ ':' (by decide)) e
  obtain ⟨e5, e⟩ := cut (padded_notMem 2 _ ':' (by decide)) (padded_notMem 2 _ ':' (by decide)) e
  obtain ⟨e6, e⟩ := List.append_inj e (by rw [padded_length _ (by omega), padded_length _ (by omega)])
  have hd : dayAfter n = dayAfter n' := by
    generalize dayAfter n = x at *
    generalize dayAfter n' = y at *
    cases x
    cases y
    have f1 := padded_injective _ _ _ e1
    have f2 := padded_injective _ _ _ e2
    have f3 := padded_injective _ _ _ e3
    dsimp only at f1 f2 f3
    rw [f1, f2, f3]
  refine ⟨dayAfter_injective _ _ hd, padded_injective _ _ _ e4, padded_injective _ _ _ e5, padded_injective _ _ _ e6, ?_⟩
  by_cases h0 : w = 0
  · exact hf h0
  · rw [if_neg h0, if_neg h0] at e
    exact padded_injective _ _ _ (List.cons.inj e).2

theorem text_injective (k : Kind) (v w : Int) (t : Str) (hv : k.text v = some t) (hw : k.text w = some t) : v = w := by
  obtain ⟨_, e, n, h, m, s, f, he, b1, b2, b3, b4, ev, rfl⟩ := (text_iff k _ rfl v t).mp hv
  obtain ⟨_, e', n', h', m', s', f', he', b1', b2', b3', b4', ew, ht⟩ := (text_iff k _ rfl w _).mp hw
  have h1 : e = e' := dayAfter_injective _ _ (he.trans he'.symm)
  obtain ⟨rfl, rfl, rfl, rfl, rfl⟩ := writtenAs_injective k.width n h m s f n' h' m' s' f' (by
    intro h0
    rw [h0] at b4 b4'
    omega) b3 b3' ht
  rw [ev, ew, h1]

/-- The characters of a text. -/
theorem text_mem (k : Kind) (v : Int) (t : Str) (h : k.text v = some t) (c : Char) (hc : c ∈ t) :
    (∃ d < 10, c = digitChar d) ∨ c = '-' ∨ c = ' ' ∨ c = ':' ∨ c = '.' := by
  obtain ⟨_, e, n, hh, m, s, f, he, b1, b2, b3, b4, ev, rfl⟩ := (text_iff k _ rfl v t).mp h
  have hp : ∀ w n, c ∈ padded w n → ∃ d < 10, c = digitChar d := fun w n hm => by
    obtain ⟨d, hd, e⟩ := mem_zpad_digits 10 n w (by decide) c hm
    exact ⟨d, hd, e⟩
  have d1 : "-".toList = ['-'] := rfl
  have d2 : " ".toList = [' '] := rfl
  have d3 : ":".toList = [':'] := rfl
  have d4 : ".".toList = ['.'] := rfl
  unfold writtenAs at hc
  simp only [List.mem_append, d1, d2, d3, d4, List.mem_singleton] at hc
  rcases hc with (((((((((((hc | hc) | hc) | hc) | hc) | hc) | hc) | hc) | hc) | hc) | hc) | hc)
  all_goals first
    | exact .inl (hp _ _ hc)
    | exact .inr (by simp [hc])
    | skip
  split at hc
  · cases hc
  · rw [List.mem_append, List.mem_singleton] at hc
    rcases hc with hc | hc
    · exact .inr (by simp [hc])
    · exact .inl (hp _ _ hc)

/-- A text begins with two digits. -/
theorem text_digits (k : Kind) (v : Int) (t : Str) (h : k.text v = some t) :
    ∃ a b r, t = digitChar a :: digitChar b :: r ∧ a < 10 ∧ b < 10 := by
  obtain ⟨_, e, n, hh, m, s, f, he, b1, b2, b3, b4, ev, rfl⟩ := (text_iff k _ rfl v t).mp h
  have hl : 4 ≤ (padded 4 (dayAfter n).year).length := by
    unfold padded zpad
    rw [List.length_append, List.length_replicate]
    omega
  have hm : ∀ c ∈ padded 4 (dayAfter n).year, ∃ d < 10, c = digitChar d := fun c hm => by
    obtain ⟨d, hd, e⟩ := mem_zpad_digits 10 _ 4 (by decide) c hm
    exact ⟨d, hd, e⟩
  unfold writtenAs
  simp only [List.append_assoc]
  generalize padded 4 (dayAfter n).year = p at hl hm
  match p, hl, hm with
  | a :: b :: r, _, hm =>
    obtain ⟨d, hd, rfl⟩ := hm a (by simp)
    obtain ⟨d', hd', rfl⟩ := hm b (by simp)
    exact ⟨d, d', _, rfl, hd, hd'⟩

/-! ## Order -/

theorem Before.left {s t : Str} (h : Before s t) (p : Str) : Before (p ++ s) (p ++ t) := by
  obtain ⟨q, a, b, x, y, rfl, rfl, h⟩ := h
  exact ⟨p ++ q, a, b, x, y, by simp, by simp, h⟩

theorem Before.right {s t : Str} (h : Before s t) (x y : Str) : Before (s ++ x) (t ++ y) := by
  obtain ⟨q, a, b, x', y', rfl, rfl, h⟩ := h
  exact ⟨q, a, b, x' ++ x, y' ++ y, by simp, by simp, h⟩

theorem digit_lt : ∀ n < 10, ∀ m < n, (digitChar m).toNat < (digitChar n).toNat := by decide

theorem padded_one (n : Nat) (h : n < 10) : padded 1 n = [digitChar n] := by
  unfold padded dec
  rw [digits_eq, if_neg (by omega)]
  rfl

theorem padded_succ (w n : Nat) : padded (w + 2) n = padded (w + 1) (n / 10) ++ [digitChar (n % 10)] := by
  unfold padded dec
  rw [digits_eq 10 n]
  split
  · unfold zpad
    rw [List.length_append, List.append_assoc]
    congr 2
    simp only [List.length_singleton]
    omega
  · have h0 : n / 10 = 0 := by omega
    have h1 : n % 10 = n := by omega
    rw [h0, h1]
    unfold zpad
    have : digits 10 0 = ['0'] := by decide
    rw [this]
    simp only [List.length_singleton]
    rw [show w + 2 - 1 = w + 1 from rfl, show w + 1 - 1 = w from rfl, List.replicate_succ', List.append_assoc]

theorem padded_before (w m n : Nat) (hmn : m < n) (hn : n < 10 ^ w) : Before (padded w m) (padded w n) := by
  match w with
  | 0 => omega
  | w + 1 =>
    induction w generalizing m n with
    | zero =>
      have : n < 10 := by simpa using hn
      rw [padded_one _ (by omega), padded_one _ this]
      exact ⟨[], _, _, [], [], rfl, rfl, digit_lt n this m hmn⟩
    | succ w ih =>
      rw [padded_succ, padded_succ]
      rcases Nat.lt_or_ge (m / 10) (n / 10) with h | h
      · refine (ih (m / 10) (n / 10) h ?_).right _ _
        rw [Nat.pow_succ] at hn
        omega
      · have e : m / 10 = n / 10 := by omega
        rw [e]
        exact Before.left ⟨[], _, _, [], [], rfl, rfl, digit_lt _ (by omega) _ (by omega)⟩ _

/-- A day is before another. -/
def DayBefore (d e : Date) : Prop :=
  d.year < e.year ∨ d.year = e.year ∧ (d.month < e.month ∨ d.month = e.month ∧ d.day < e.day)

theorem next_before (d : Date) : DayBefore d (next d) := by
  unfold next DayBefore
  split
  · exact .inr ⟨rfl, .inr ⟨rfl, Nat.lt_succ_self _⟩⟩
  · split
    · exact .inr ⟨rfl, .inl (Nat.lt_succ_self _)⟩
    · exact .inl (Nat.lt_succ_self _)

theorem day_before (m n : Nat) (h : m < n) : DayBefore (dayAfter m) (dayAfter n) := by
  induction n with
  | zero => omega
  | succ n ih =>
    have h1 := next_before (dayAfter n)
    rcases Nat.lt_or_ge m n with h' | h'
    · have h2 := ih h'
      show DayBefore _ (next (dayAfter n))
      unfold DayBefore at *
      omega
    · have : m = n := by omega
      subst this
      exact h1

theorem written_before (w n h m s f n' h' m' s' f' : Nat) (hy : (dayAfter n').year < 10000) (hh : h' < 24) (hm : m' < 60) (hs : s' < 60)
    (hf : f' < 10 ^ w)
    (lt : n < n' ∨ n = n' ∧ (h < h' ∨ h = h' ∧ (m < m' ∨ m = m' ∧ (s < s' ∨ s = s' ∧ f < f')))) :
    Before (writtenAs w (dayAfter n) h m s f) (writtenAs w (dayAfter n') h' m' s' f') := by
  have hv := (dayAfter_valid n').1
  obtain ⟨_, _, v3, _, v5⟩ := hv
  have hl : ∀ y m, lengthOf y m ≤ 31 := by
    intro y m
    unfold lengthOf
    split <;> (try split) <;> decide
  have v5 := Nat.le_trans v5 (hl _ _)
  unfold writtenAs
  simp only [List.append_assoc]
  rcases lt with lt | ⟨rfl, lt⟩
  · rcases day_before n n' lt with lt | ⟨e, lt⟩
    · exact (padded_before 4 _ _ lt hy).right _ _
    · rw [e]
      refine (Before.left ?_ _).left _
      rcases lt with lt | ⟨e, lt⟩
      · exact (padded_before 2 _ _ lt (by omega)).right _ _
      · rw [e]
        refine (Before.left ?_ _).left _
        exact (padded_before 2 _ _ lt (by omega)).right _ _
  · refine Before.left (Before.left (Before.left (Before.left (Before.left (Before.left ?_ _) _) _) _) _) _
    rcases lt with lt | ⟨rfl, lt⟩
    · exact (padded_before 2 _ _ lt (by omega)).right _ _
    · refine Before.left (Before.left ?_ _) _
      rcases lt with lt | ⟨rfl, lt⟩
      · exact (padded_before 2 _ _ lt (by omega)).right _ _
      · refine Before.left (Before.left ?_ _) _
        rcases lt with lt | ⟨rfl, lt⟩
        · exact (padded_before 2 _ _ lt (by omega)).right _ _
        · refine Before.left ?_ _
          by_cases h0 : w = 0
          · subst h0; omega
          · rw [if_neg h0, if_neg h0]
            exact Before.left (padded_before w _ _ lt hf) _

theorem parts_before (u : Int) (hu : 0 < u) (e : Int) (n h m s f n' h' m' s' f' : Nat) (b1 : h < 24) (b2 : m < 60) (b3 : s < 60)
    (_b4 : f < u) (b1' : h' < 24) (b2' : m' < 60) (b3' : s' < 60) (b4' : f' < u)
    (lt : (((((n : Int) - e) * 24 + h) * 60 + m) * 60 + s) * u + f < (((((n' : Int) - e) * 24 + h') * 60 + m') * 60 + s') * u + f') :
    n < n' ∨ n = n' ∧ (h < h' ∨ h = h' ∧ (m < m' ∨ m = m' ∧ (s < s' ∨ s = s' ∧ f < f'))) := by
  generalize hq : (((((n : Int) - e) * 24 + h) * 60 + m) * 60 + s) = q at lt
  generalize hq' : (((((n' : Int) - e) * 24 + h') * 60 + m') * 60 + s') = q' at lt
  rcases Int.lt_trichotomy q q' with c | c | c
  · omega
  · subst c
    omega
  · exfalso
    have : (q' + 1) * u ≤ q * u := Int.mul_le_mul_of_nonneg_right c (by omega)
    rw [Int.add_mul, Int.one_mul] at this
    omega

/-- Texts of times before the year 10000 are sorted as the times are. -/
theorem text_before (k : Kind) (v w : Int) (s t : Str) (hv : k.text v = some s) (hw : k.text w = some t)
    (hy : ∃ y r, t = padded 4 y ++ '-' :: r ∧ y < 10000) (lt : v < w) : Before s t := by
  obtain ⟨_, e, n, h, m, x, f, he, b1, b2, b3, b4, ev, rfl⟩ := (text_iff k _ rfl v s).mp hv
  obtain ⟨_, e', n', h', m', x', f', he', b1', b2', b3', b4', ew, rfl⟩ := (text_iff k _ rfl w t).mp hw
  have h1 : e = e' := dayAfter_injective _ _ (he.trans he'.symm)
  subst h1
  obtain ⟨y, r, hy, hy'⟩ := hy
  have d1 : ∀ x : Str, "-".toList ++ x = '-' :: x := fun _ => rfl
  have : (dayAfter n').year = y := by
    unfold writtenAs at hy
    simp only [List.append_assoc, d1] at hy
    exact padded_injective _ _ _ (cut (padded_notMem 4 _ '-' (by decide)) (padded_notMem 4 _ '-' (by decide)) hy).1
  refine written_before k.width n h m x f n' h' m' x' f' (by omega) b1' b2' b3' b4' ?_
  rw [ev, ew] at lt
  have hp : (0 : Int) < (10 ^ k.width : Nat) := by exact_mod_cast Nat.pow_pos (by decide)
  exact parts_before _ hp e n h m x f n' h' m' x' f' b1 b2 b3 (by exact_mod_cast b4) b1' b2' b3' (by exact_mod_cast b4') lt

/-! ## What is shown -/

theorem start_filetime : dayAfter filetime.epoch = ⟨1601, 1, 1⟩ := by
  rw [← ord2ymd_eq]
  decide +kernel

theorem start_hfs : dayAfter hfs.epoch = ⟨1904, 1, 1⟩ := by
  rw [← ord2ymd_eq]
  decide +kernel

theorem start_posix : dayAfter 719162 = ⟨1970, 1, 1⟩ := by
  rw [← ord2ymd_eq]
  decide +kernel

theorem text_some (k : Kind) (v : Int) (h : 0 ≤ v + (k.epoch * 86400 * k.unit : Nat)) :
    ∃ t, k.text v = some t ∧ IsTimeSince (dayAfter k.epoch) k.width t v := by
  obtain ⟨n, hh, m, s, f, b1, b2, b3, b4, e⟩ := parts k v h
  have := text_writtenAs k v n hh m s f b1 b2 b3 b4 e
  exact ⟨_, this, ((text_iff k _ rfl v _).mp this).2⟩

theorem orNumber_some (text : Int → Option Str) (k : Kind) (v : Int) (t : Str) (h : text v = some t) (hk : k.text v = some t) :
    orNumber text v = t ++ " UTC".toList := by
  obtain ⟨a, b, r, e, _⟩ := text_digits k v t hk
  unfold orNumber
  rw [h]
  dsimp only
  rw [if_neg (by rw [e]; simp)]

theorem orNumber_none (text : Int → Option Str) (v : Int) (h : text v = none) : orNumber text v = "0x".toList ++ hexInt 8 v := by
  unfold orNumber
  rw [h]

theorem digit_x : ∀ d < 10, digitChar d ≠ 'x' ∧ digitChar d ≠ 'N' := by decide

/-- Two values have two texts, and no text begins with an N. -/
theorem orNumber_injective (text : Int → Option Str) (k : Kind) (ht : ∀ v t, text v = some t → k.text v = some t) (v w : Int)
    (h : orNumber text v = orNumber text w) : v = w := by
  have key : ∀ v, (text v = none ∧ orNumber text v = "0x".toList ++ hexInt 8 v) ∨
      ∃ t a b r, text v = some t ∧ k.text v = some t ∧ orNumber text v = t ++ " UTC".toList ∧ t = a :: b :: r ∧ b ≠ 'x' := by
    intro v
    cases hv : text v with
    | none => exact .inl ⟨rfl, orNumber_none text v hv⟩
    | some t =>
      obtain ⟨a, b, r, e, _, hb⟩ := text_digits k v t (ht v t hv)
      exact .inr ⟨t, _, _, r, rfl, ht v t hv, orNumber_some text k v t hv (ht v t hv), e, (digit_x b hb).1⟩
  rcases key v with ⟨_, e1⟩ | ⟨t, a, b, r, _, e1, e2, rfl, hb⟩ <;> rcases key w with ⟨_, f1⟩ | ⟨u, a', b', r', _, f1, f2, rfl, hb'⟩
  · rw [e1, f1] at h
    exact DebugShown.hexInt_injective 8 v w (List.append_cancel_left h)
  · rw [e1, f2] at h
    exact absurd (List.cons.inj (List.cons.inj h).2).1.symm hb'
  · rw [e2, f1] at h
    exact absurd (List.cons.inj (List.cons.inj h).2).1 hb
  · rw [e2, f2] at h
    have := List.append_cancel_right h
    rw [this] at e1
    exact text_injective k v w _ e1 f1

theorem orNumber_first (text : Int → Option Str) (k : Kind) (ht : ∀ v t, text v = some t → k.text v = some t) (v : Int) :
    (orNumber text v).head? ≠ some 'N' := by
  cases hv : text v with
  | none => rw [orNumber_none text v hv]; exact fun h => absurd (Option.some.inj h) (by decide)
  | some t =>
    obtain ⟨a, b, r, e, ha, _⟩ := text_digits k v t (ht v t hv)
    rw [orNumber_some text k v t hv (ht v t hv), e]
    intro h
    exact (digit_x a ha).2 (Option.some.inj h)

theorem hfsText_text (v : Int) (t : Str) (h : hfsText v = some t) : hfs.text v = some t := by
  unfold hfsText at h
  split at h
  · exact h
  · cases h

/-- A FILETIME is shown as the time of the calendar, in units of 100 nanoseconds since 1601. -/
theorem C190_filetime (v : Nat) (h0 : v ≠ 0) (h1 : v ≠ 0x7FFFFFFFFFFFFFFF) :
    ∃ t, IsTimeSince ⟨1601, 1, 1⟩ 7 t v ∧ formatFiletime v = t ++ " UTC".toList := by
  obtain ⟨t, e, ht⟩ := text_some filetime v (by omega)
  rw [start_filetime] at ht
  refine ⟨t, ht, ?_⟩
  unfold formatFiletime
  rw [if_neg (by omega), if_neg (by omega)]
  exact orNumber_some _ filetime v t e e

/-- An HFS time of 32 bits is shown as the time of the calendar, in seconds since 1904; a larger one as a number. -/
theorem C190_hfs (v : Nat) (h0 : v ≠ 0) :
    (v < 2 ^ 32 → ∃ t, IsTimeSince ⟨1904, 1, 1⟩ 0 t v ∧ formatHfs v = t ++ " UTC".toList) ∧
      (2 ^ 32 ≤ v → formatHfs v = "0x".toList ++ hexw 8 v) := by
  unfold formatHfs
  rw [if_neg (by omega)]
  constructor
  · intro hv
    obtain ⟨t, e, ht⟩ := text_some hfs v (by omega)
    rw [start_hfs] at ht
    refine ⟨t, ht, orNumber_some _ hfs v t ?_ e⟩
    unfold hfsText
    rw [if_pos (by omega), e]
  · intro hv
    rw [orNumber_none]
    · rfl
    · unfold hfsText
      rw [if_neg (by omega)]

/-- The kinds of POSIX time. -/
def Posix (k : Kind) : Prop := k = posix ∨ k = micros ∨ k = nanos

theorem Posix.epoch {k : Kind} (h : Posix k) : k.epoch = 719162 := by
  rcases h with rfl | rfl | rfl <;> rfl

/-- A POSIX time is shown as the time of the calendar, in units since 1970, from the year 1 on. -/
theorem C190_posix (k : Kind) (hk : Posix k) (v : Int) (h0 : v ≠ 0) (h1 : -(62135596800 * (10 ^ k.width : Nat)) ≤ v) :
    ∃ t, IsTimeSince ⟨1970, 1, 1⟩ k.width t v ∧ formatPosix k v = t ++ " UTC".toList := by
  obtain ⟨t, e, ht⟩ := text_some k v (by
    rw [hk.epoch]
    unfold Kind.unit
    push_cast at *
    omega)
  rw [hk.epoch, start_posix] at ht
  refine ⟨t, ht, ?_⟩
  unfold formatPosix
  rw [if_neg h0]
  exact orNumber_some _ k v t e e

/-- The same, with the digits of each kind: seconds, microseconds and nanoseconds. -/
theorem C190_posix_units (v : Int) (h0 : v ≠ 0) :
    (-62135596800 ≤ v → ∃ t, IsTimeSince ⟨1970, 1, 1⟩ 0 t v ∧ formatPosix posix v = t ++ " UTC".toList) ∧
      (-62135596800000000 ≤ v → ∃ t, IsTimeSince ⟨1970, 1, 1⟩ 6 t v ∧ formatPosix micros v = t ++ " UTC".toList) ∧
      (-62135596800000000000 ≤ v → ∃ t, IsTimeSince ⟨1970, 1, 1⟩ 9 t v ∧ formatPosix nanos v = t ++ " UTC".toList) :=
  ⟨fun h => C190_posix posix (.inl rfl) v h0 (by rw [show posix.width = 0 from rfl]; omega),
    fun h => C190_posix micros (.inr (.inl rfl)) v h0 (by rw [show micros.width = 6 from rfl]; omega),
    fun h => C190_posix nanos (.inr (.inr rfl)) v h0 (by rw [show nanos.width = 9 from rfl]; omega)⟩

/-- Only 0 is shown as not set, and only the largest positive value as never. -/
theorem C190_special (k : Kind) (v : Int) :
    (formatFiletime v = "Not set (0)".toList ↔ v = 0) ∧
      (formatFiletime v = "Never (0x7fffffffffffffff)".toList ↔ v = 0x7FFFFFFFFFFFFFFF) ∧
      (formatHfs v = "Not set (0)".toList ↔ v = 0) ∧ (formatPosix k v = "Not set (0)".toList ↔ v = 0) := by
  have n1 := orNumber_first filetime.text filetime (fun _ _ h => h) v
  have n2 := orNumber_first hfsText hfs hfsText_text v
  have n3 := orNumber_first k.text k (fun _ _ h => h) v
  refine ⟨⟨fun h => ?_, fun h => ?_⟩, ⟨fun h => ?_, fun h => ?_⟩, ⟨fun h => ?_, fun h => ?_⟩, ⟨fun h => ?_, fun h => ?_⟩⟩
  · unfold formatFiletime at h
    split at h
    · assumption
    · split at h
      · exact absurd h (by decide)
      · rw [h] at n1; exact absurd rfl n1
  · rw [h]; rfl
  · unfold formatFiletime at h
    split at h
    · exact absurd h (by decide)
    · split at h
      · assumption
      · rw [h] at n1; exact absurd rfl n1
  · rw [h]; rfl
  · unfold formatHfs at h
    split at h
    · assumption
    · rw [h] at n2; exact absurd rfl n2
  · rw [h]; rfl
  · unfold formatPosix at h
    split at h
    · assumption
    · rw [h] at n3; exact absurd rfl n3
  · rw [h]; rfl

/-- Two values are never shown as one text. -/
theorem C190_distinct (k : Kind) (v w : Int) :
    (formatFiletime v = formatFiletime w → v = w) ∧ (formatHfs v = formatHfs w → v = w) ∧
      (formatPosix k v = formatPosix k w → v = w) := by
  obtain ⟨a1, a2, a3, a4⟩ := C190_special k v
  obtain ⟨b1, b2, b3, b4⟩ := C190_special k w
  refine ⟨fun h => ?_, fun h => ?_, fun h => ?_⟩
  · by_cases h0 : w = 0
    · rw [b1.mpr h0] at h; rw [a1.mp h, h0]
    by_cases h1 : w = 0x7FFFFFFFFFFFFFFF
    · rw [b2.mpr h1] at h; rw [a2.mp h, h1]
    by_cases h0' : v = 0
    · rw [a1.mpr h0'] at h; rw [b1.mp h.symm, h0']
    by_cases h1' : v = 0x7FFFFFFFFFFFFFFF
    · rw [a2.mpr h1'] at h; rw [b2.mp h.symm, h1']
    unfold formatFiletime at h
    rw [if_neg h0, if_neg h1, if_neg h0', if_neg h1'] at h
    exact orNumber_injective _ filetime (fun _ _ h => h) v w h
  · by_cases h0 : w = 0
    · rw [b3.mpr h0] at h; rw [a3.mp h, h0]
    by_cases h0' : v = 0
    · rw [a3.mpr h0'] at h; rw [b3.mp h.symm, h0']
    unfold formatHfs at h
    rw [if_neg h0, if_neg h0'] at h
    exact orNumber_injective _ hfs hfsText_text v w h
  · by_cases h0 : w = 0
    · rw [b4.mpr h0] at h; rw [a4.mp h, h0]
    by_cases h0' : v = 0
    · rw [a4.mpr h0'] at h; rw [b4.mp h.symm, h0']
    unfold formatPosix at h
    rw [if_neg h0, if_neg h0'] at h
    exact orNumber_injective _ k (fun _ _ h => h) v w h

/-- The day of a time before the year 10000. -/
theorem year_bound (k : Kind) (w : Int) (t : Str) (hw : k.text w = some t)
    (h : w + (k.epoch * 86400 * k.unit : Nat) < (3652059 * 86400 * k.unit : Nat)) : ∃ y r, t = padded 4 y ++ '-' :: r ∧ y < 10000 := by
  have h0 := ((text_iff k _ rfl w t).mp hw).1
  obtain ⟨n, hh, m, s, f, b1, b2, b3, b4, e⟩ := parts k w h0
  rw [text_writtenAs k w n hh m s f b1 b2 b3 b4 e] at hw
  have hn : n < 3652059 := by
    rcases Nat.lt_or_ge n 3652059 with c | c
    · exact c
    · exfalso
      have hq : ((((((n : Int) - k.epoch) * 24 + hh) * 60 + m) * 60 + s)) = ((n * 86400 + hh * 3600 + m * 60 + s : Nat) : Int) -
          (k.epoch * 86400 : Nat) := by omega
      rw [hq, Int.sub_mul] at e
      have h2 : 3652059 * 86400 * k.unit ≤ (n * 86400 + hh * 3600 + m * 60 + s) * k.unit := Nat.mul_le_mul_right _ (by omega)
      rw [e] at h
      push_cast at h h2
      have h2' : (3652059 * 86400 * (k.unit : Int)) ≤ ((n : Int) * 86400 + hh * 3600 + m * 60 + s) * k.unit := by exact_mod_cast h2
      omega
  have hy : (dayAfter n).year < 10000 := by
    rcases Nat.lt_or_ge n 3652058 with c | c
    · have := day_before n 3652058 c
      rw [year_max] at this
      unfold DayBefore at this
      dsimp only at this
      omega
    · have : n = 3652058 := by omega
      rw [this, year_max]
      decide
  have ht := (Option.some.inj hw).symm
  unfold writtenAs at ht
  simp only [List.append_assoc] at ht
  exact ⟨(dayAfter n).year, _, ht, hy⟩

/-- Times before the year 10000 are sorted by their texts. -/
theorem C190_order (k : Kind) (hk : Posix k) (v w : Int) (h0 : v ≠ 0) (h0' : w ≠ 0)
    (h1 : -(62135596800 * (10 ^ k.width : Nat)) ≤ v) (h2 : w < 253402300800 * (10 ^ k.width : Nat)) :
    (v < w → Before (formatPosix k v) (formatPosix k w)) := by
  intro lt
  have hu : k.unit = 10 ^ k.width := rfl
  obtain ⟨s, es, _⟩ := text_some k v (by rw [hk.epoch, hu]; push_cast at *; omega)
  obtain ⟨t, et, _⟩ := text_some k w (by rw [hk.epoch, hu]; push_cast at *; omega)
  have := text_before k v w s t es et (year_bound k w t et (by rw [hk.epoch, hu]; push_cast at *; omega)) lt
  unfold formatPosix
  rw [if_neg h0, if_neg h0', orNumber_some _ k v s es es, orNumber_some _ k w t et et]
  exact this.right _ _

/-- The same of FILETIMEs. -/
theorem C190_filetime_order (v w : Nat) (h0 : v ≠ 0) (h1 : w < 2650467744000000000) (lt : v < w) :
    Before (formatFiletime v) (formatFiletime w) := by
  obtain ⟨s, es, _⟩ := text_some filetime v (by omega)
  obtain ⟨t, et, _⟩ := text_some filetime w (by omega)
  have hu : filetime.unit = 10000000 := by decide
  have := text_before filetime v w s t es et (year_bound filetime w t et (by
    rw [hu]
    show (w : Int) + (584388 * 86400 * 10000000 : Nat) < _
    omega)) (by omega)
  unfold formatFiletime
  rw [if_neg (by omega), if_neg (by omega), if_neg (by omega), if_neg (by omega), orNumber_some _ filetime v s es es,
    orNumber_some _ filetime w t et et]
  exact this.right _ _

/-! ## In the place of parameters -/

/-- What the Recycle.Bin script asks of dates is true of FILETIMEs. -/
theorem dateTimes : Reports.DateTimes (fun t => filetime.text t) := by
  constructor
  · intro t s h hn
    rcases text_mem filetime t s h '\n' hn with ⟨d, hd, e⟩ | h | h | h | h
    · revert e
      revert d
      decide
    all_goals exact absurd h (by decide)
  · intro t u s _ h1 h2
    exact Int.ofNat.inj (text_injective filetime t u s h1 h2)

/-- What the jump list script asks of dates is true of FILETIMEs. -/
theorem dateTexts : Shortcuts.DateTexts (fun t => filetime.text t) := by
  intro v s h
  obtain ⟨a, b, r, e, ha, hb⟩ := text_digits filetime v s h
  exact ⟨_, _, r, e, (digit_x a ha).2, (digit_x b hb).1⟩

/-- Two metadata files with the same report are the same, whatever their times and names. -/
theorem C190_recycle (decode : List Nat → List Char) (m n : RecycleBin.Metadata)
    (h : Reports.metadataText (fun t => filetime.text t) decode m = Reports.metadataText (fun t => filetime.text t) decode n) :
    m.version = n.version ∧ m.deletion = n.deletion ∧ m.size = n.size ∧ decode m.name = decode n.name := by
  have := Reports.C188_recycle_distinct _ dateTimes decode m n h
  tauto

/-! ## Witnesses -/

example : ord2ymd (filetime.epoch + 1) = ⟨1601, 1, 1⟩ ∧ ord2ymd (hfs.epoch + 1) = ⟨1904, 1, 1⟩ ∧ ord2ymd (posix.epoch + 1) = ⟨1970, 1, 1⟩ := by
  decide +kernel

example : formatFiletime 133513920000000001 = "2024-02-03 00:00:00.0000001 UTC".toList := by decide +kernel

example : formatPosix posix (-1) = "1969-12-31 23:59:59 UTC".toList := by decide +kernel

example : formatPosix micros 1709164800000001 = "2024-02-29 00:00:00.000001 UTC".toList := by decide +kernel

example : formatPosix nanos 1709164800000000001 = "2024-02-29 00:00:00.000000001 UTC".toList := by decide +kernel

example : formatHfs 3600 = "1904-01-01 01:00:00 UTC".toList ∧ formatHfs (2 ^ 32) = "0x100000000".toList := by decide +kernel

end Dtf.Dates
