import Verif.Cookies
import Verif.Calendar
import Verif.HexDump.Props

/-!
# Safari cookies files in debug mode (C178)

The cookies of a file are shown only in debug mode.
-/

namespace Dtf.Cookies.DebugMode
open Py DataFormat Formats Calendar

/-! ## Model -/

/-- What is raised.  OverflowError is raised nowhere else in the model. -/
inductive Raised
  | of (e : Err)
  | overflow
deriving DecidableEq, Repr

abbrev Out (α : Type) := Except Raised α

def lift {α : Type} : Res α → Out α
  | .error e => .error (.of e)
  | .ok x => .ok x

/-- `int` of the floating-point number with these bits. -/
def truncated (bits : Nat) : Out Int :=
  let e := bits / 2 ^ 52 % 2048
  let m := bits % 2 ^ 52
  if e = 2047 then (if m = 0 then .error .overflow else .error (.of .valueError))
  else
    let n : Nat := if e = 0 then 0 else if 1075 ≤ e then (2 ^ 52 + m) * 2 ^ (e - 1075) else (2 ^ 52 + m) / 2 ^ (1075 - e)
    .ok (if bits / 2 ^ 63 % 2 = 1 then -n else n)

/-- `datetime.datetime(2001, 1, 1) + datetime.timedelta(seconds=int(...))` (safari_cookies.py 56-64). -/
def date (bits : Nat) : Out Str :=
  match truncated bits with
  | .error e => .error e
  | .ok n =>
    match shown year2001 (n * 1000000) with
    | none => .error .overflow
    | some t => .ok t

/-- The integers of the header of a record (safari_cookies.py 46-54). -/
def numbersText (b : Bytes) : Str :=
  formatValue "Size".toList (dec (leNat (slice b 0 4))) ++
    formatValue "Unknown1".toList ("0x".toList ++ hexw 8 (leNat (slice b 4 8))) ++
    formatValue "Flags".toList ("0x".toList ++ hexw 8 (leNat (slice b 8 12))) ++
    formatValue "Unknown2".toList ("0x".toList ++ hexw 8 (leNat (slice b 12 16))) ++
    formatValue "URL offset".toList (dec (leNat (slice b 16 20))) ++
    formatValue "Name offset".toList (dec (leNat (slice b 20 24))) ++
    formatValue "Path offset".toList (dec (leNat (slice b 24 28))) ++
    formatValue "Value offset".toList (dec (leNat (slice b 28 32))) ++
    formatValue "Unknown3".toList ("0x".toList ++ hexw 8 (leNat (slice b 32 40)))

/-- A time of the header of a record (safari_cookies.py 59-61 and 65-67).  `fixed` is the format `f` of floating-point numbers. -/
def timeText (fixed : Nat → Str) (description : Str) (bits : Nat) (t : Str) : Str :=
  formatValue description (t ++ " (".toList ++ fixed bits ++ ")".toList)

/-- `_DebugPrintRecordHeader` (safari_cookies.py 40-68) of the data at the offset of a record. -/
def headerText (fixed : Nat → Str) (b : Bytes) : Out Str :=
  match date (leNat (slice b 40 48)) with
  | .error e => .error e
  | .ok expiration =>
    match date (leNat (slice b 48 56)) with
    | .error e => .error e
    | .ok creation =>
      .ok (numbersText b ++ timeText fixed "Expiration time".toList (leNat (slice b 40 48)) expiration ++
        timeText fixed "Creation time".toList (leNat (slice b 48 56)) creation ++ ['\n'])

def ascii (b : Bytes) : Str := b.map fun c => Char.ofNat c.toNat

/-- `_ReadRecord` in debug mode (safari_cookies.py 240-306): the cookie and the text that is written. -/
def readRecordDebug (fixed : Nat → Str) (page : Bytes) (off : Nat) : Out (Cookie × Str) :=
  let b := page.drop off
  if b.length < 56 then .error (.of .parseError)
  else
    match headerText fixed b with
    | .error e => .error e
    | .ok header =>
      match readString page off (leNat (slice b 16 20)), readString page off (leNat (slice b 20 24)),
        readString page off (leNat (slice b 24 28)), readString page off (leNat (slice b 28 32)) with
      | .ok url, .ok name, .ok path, .ok value =>
        .ok (⟨leNat (slice b 8 12), url, name, path, value, leNat (slice b 40 48), leNat (slice b 48 56)⟩,
          "Record data:\n".toList ++ HexDump.dump (slice b 0 (leNat (slice b 0 4))) ++ header ++
            formatValue "URL".toList (ascii url) ++ formatValue "Name".toList (ascii name) ++
            formatValue "Path".toList (ascii path) ++ formatValue "Value".toList (ascii value) ++ ['\n'])
      | _, _, _, _ => .error (.of .parseError)

/-- The readers of `Verif.Cookies` with another one for the records. -/
def recordsWith {α : Type} (record : Bytes → Nat → Out α) (page : Bytes) : List Nat → Out (List α)
  | [] => .ok []
  | o :: os =>
    match record page o with
    | .error e => .error e
    | .ok c =>
      match recordsWith record page os with
      | .error e => .error e
      | .ok cs => .ok (c :: cs)

/-- `_ReadPage` (safari_cookies.py 175-227). -/
def pageWith {α : Type} (record : Bytes → Nat → Out α) (page : Bytes) : Out (List α) :=
  let n := leNat (slice page 4 8)
  if page.length < 8 ∨ page.length < 8 + 4 * n then .error (.of .parseError)
  else recordsWith record page (leNats 4 n (page.drop 8))

/-- `_ReadPages` (safari_cookies.py 229-238). -/
def pagesWith {α : Type} (record : Bytes → Nat → Out α) (data : Bytes) : Nat → List Nat → Out (List (List α) × Nat)
  | pos, [] => .ok ([], pos)
  | pos, n :: ns =>
    match lift (dataAt data pos n) with
    | .error e => .error e
    | .ok page =>
      match pageWith record page with
      | .error e => .error e
      | .ok cookies =>
        match pagesWith record data (pos + n) ns with
        | .error e => .error e
        | .ok (rest, pos) => .ok (cookies :: rest, pos)

/-- `ReadFileObject` (safari_cookies.py 308-316). -/
def fileWith {α : Type} (record : Bytes → Nat → Out α) (data : Bytes) : Out (List (List α)) :=
  match lift (structAt headerMap data 0) with
  | .error e => .error e
  | .ok (n, _) =>
    match lift (readSizes data n) with
    | .error e => .error e
    | .ok sizes =>
      match pagesWith record data (8 + 4 * n) sizes with
      | .error e => .error e
      | .ok (cookies, pos) =>
        match lift (structAt (fixedMap 8 id) data pos) with
        | .error e => .error e
        | .ok _ => .ok cookies

/-- A file that is read in debug mode: the cookies and what is written of each.  What is written of the file header, the sizes and
the headers of the pages is not modelled. -/
def readFileDebug (fixed : Nat → Str) (data : Bytes) : Out (List (List (Cookie × Str))) := fileWith (readRecordDebug fixed) data

/-! ## Specification -/

/-- A floating-point number with these bits is neither infinite nor not a number, and the integer is what is before its point. -/
def IsTruncated (bits : Nat) (n : Int) : Prop :=
  ∃ sign exponent fraction : Nat, sign < 2 ∧ exponent < 2047 ∧ fraction < 2 ^ 52 ∧
    bits % 2 ^ 64 = sign * 2 ^ 63 + exponent * 2 ^ 52 + fraction ∧ (sign = 0 → 0 ≤ n) ∧ (sign = 1 → n ≤ 0) ∧
    (if exponent = 0 then n = 0
      else n.natAbs * 2 ^ 1075 ≤ (2 ^ 52 + fraction) * 2 ^ exponent ∧
        (2 ^ 52 + fraction) * 2 ^ exponent < (n.natAbs + 1) * 2 ^ 1075)

/-- The microseconds between the start of the year 1 and so many seconds after the start of 2001. -/
def micros (n : Int) : Int := (n + 730485 * 86400) * 1000000

/-- The time is in the years 1 to 9999. -/
def Good (bits : Nat) : Prop := ∃ n, IsTruncated bits n ∧ 0 ≤ n + 730485 * 86400 ∧ n + 730485 * 86400 < 3652059 * 86400

/-- Not a number. -/
def IsNaN (bits : Nat) : Prop := bits / 2 ^ 52 % 2048 = 2047 ∧ bits % 2 ^ 52 ≠ 0

/-- The lines of consecutive integers: a description, a size and how an integer is written. -/
def fieldLines : List (Str × Nat × (Nat → Str)) → Bytes → Str
  | [], _ => []
  | (d, n, f) :: l, b => formatValue d (f (leNat (b.take n))) ++ fieldLines l (b.drop n)

def hex (n : Nat) : Str := "0x".toList ++ hexw 8 n

/-- The integers of the header of a record, in the order of the format. -/
def recordFields : List (Str × Nat × (Nat → Str)) :=
  [("Size".toList, 4, dec), ("Unknown1".toList, 4, hex), ("Flags".toList, 4, hex), ("Unknown2".toList, 4, hex),
    ("URL offset".toList, 4, dec), ("Name offset".toList, 4, dec), ("Path offset".toList, 4, dec), ("Value offset".toList, 4, dec),
    ("Unknown3".toList, 8, hex)]

/-! ## Proofs -/

theorem take_eq_slice (b : Bytes) (i n : Nat) : (b.drop i).take n = slice b i (i + n) := by
  unfold slice
  rw [List.drop_take]
  congr 1
  omega

theorem numbers_eq (b : Bytes) : numbersText b = fieldLines recordFields b := by
  have h0 : b.take 4 = slice b 0 4 := rfl
  simp only [numbersText, recordFields, fieldLines, hex, List.drop_drop, take_eq_slice, h0, List.append_assoc, List.append_nil]

theorem truncated_iff (bits : Nat) (n : Int) : truncated bits = .ok n ↔ IsTruncated bits n := by
  have two : ∀ k : Nat, 0 < 2 ^ k := fun k => Nat.pow_pos (by decide)
  -- the magnitude
  have mag : ∀ e f k : Nat, e ≠ 0 → ((k = if 1075 ≤ e then (2 ^ 52 + f) * 2 ^ (e - 1075) else (2 ^ 52 + f) / 2 ^ (1075 - e)) ↔
      k * 2 ^ 1075 ≤ (2 ^ 52 + f) * 2 ^ e ∧ (2 ^ 52 + f) * 2 ^ e < (k + 1) * 2 ^ 1075) := by
    intro e f k _
    generalize 2 ^ 52 + f = M
    by_cases he : 1075 ≤ e
    · rw [if_pos he]
      have h2 : 2 ^ e = 2 ^ (e - 1075) * 2 ^ 1075 := by rw [← Nat.pow_add, Nat.sub_add_cancel he]
      rw [h2, ← Nat.mul_assoc, Nat.mul_le_mul_right_iff (two 1075), Nat.mul_lt_mul_right (two 1075)]
      omega
    · rw [if_neg he]
      have h2 : 2 ^ 1075 = 2 ^ (1075 - e) * 2 ^ e := by rw [← Nat.pow_add, Nat.sub_add_cancel (by omega)]
      rw [h2, ← Nat.mul_assoc, ← Nat.mul_assoc, Nat.mul_le_mul_right_iff (two e), Nat.mul_lt_mul_right (two e)]
      generalize 2 ^ (1075 - e) = P at *
      have hP : 0 < P := Nat.pos_of_ne_zero (by
        rintro rfl
        rw [Nat.zero_mul] at h2
        exact absurd h2 (Nat.pos_iff_ne_zero.mp (two 1075)))
      rw [← Nat.le_div_iff_mul_le hP, ← Nat.div_lt_iff_lt_mul hP]
      omega
  unfold truncated IsTruncated
  dsimp only
  have hb : bits % 2 ^ 64 = bits / 2 ^ 63 % 2 * 2 ^ 63 + bits / 2 ^ 52 % 2048 * 2 ^ 52 + bits % 2 ^ 52 := by omega
  constructor
  · intro h
    by_cases he : bits / 2 ^ 52 % 2048 = 2047
    · rw [if_pos he] at h
      split at h <;> cases h
    · rw [if_neg he] at h
      refine ⟨bits / 2 ^ 63 % 2, bits / 2 ^ 52 % 2048, bits % 2 ^ 52, by omega, by omega, by omega, hb, ?_⟩
      generalize bits / 2 ^ 52 % 2048 = e at *
      generalize bits % 2 ^ 52 = f at *
      generalize bits / 2 ^ 63 % 2 = s at *
      by_cases h0 : e = 0
      · rw [if_pos h0] at h ⊢
        have := Except.ok.inj h
        split at this <;> omega
      · rw [if_neg h0] at h ⊢
        have hk := (mag e f n.natAbs h0).mp
        generalize (if 1075 ≤ e then (2 ^ 52 + f) * 2 ^ (e - 1075) else (2 ^ 52 + f) / 2 ^ (1075 - e)) = k at *
        have hn := Except.ok.inj h
        refine ⟨?_, ?_, hk ?_⟩
        all_goals split at hn <;> omega
  · rintro ⟨s, e, f, hs, he, hf, hbits, s0, s1, hn⟩
    have e1 : bits / 2 ^ 63 % 2 = s := by omega
    have e2 : bits / 2 ^ 52 % 2048 = e := by omega
    have e3 : bits % 2 ^ 52 = f := by omega
    rw [e1, e2, e3, if_neg (by omega)]
    congr 1
    by_cases h0 : e = 0
    · rw [if_pos h0] at hn ⊢
      split <;> omega
    · rw [if_neg h0] at hn ⊢
      have hk := (mag e f n.natAbs h0).mpr hn
      rw [← hk]
      split <;> omega

theorem date_iff (bits : Nat) (t : Str) : date bits = .ok t ↔ ∃ n, IsTruncated bits n ∧ IsTime t (micros n) := by
  have hm : ∀ n : Int, n * 1000000 + ((year2001 : Nat) - 1) * 86400000000 = micros n := by
    intro n
    unfold micros year2001
    omega
  unfold date
  constructor
  · intro h
    cases ht : truncated bits with
    | error e =>
      rw [ht] at h
      cases h
    | ok n =>
      rw [ht] at h
      dsimp only at h
      cases hs : shown year2001 (n * 1000000) with
      | none =>
        rw [hs] at h
        cases h
      | some u =>
        rw [hs] at h
        cases h
        rw [shown_iff _ (by decide) (by decide), hm] at hs
        exact ⟨n, (truncated_iff bits n).mp ht, hs⟩
  · rintro ⟨n, h1, h2⟩
    rw [(truncated_iff bits n).mpr h1]
    dsimp only
    rw [(shown_iff year2001 (by decide) (by decide) (n * 1000000) t).mpr (by rw [hm]; exact h2)]

theorem date_good (bits : Nat) : (∃ t, date bits = .ok t) ↔ Good bits := by
  constructor
  · rintro ⟨t, h⟩
    obtain ⟨n, h1, h2⟩ := (date_iff bits t).mp h
    have := (isTime_exists _).mp ⟨t, h2⟩
    unfold micros at this
    exact ⟨n, h1, by omega, by omega⟩
  · rintro ⟨n, h1, h2, h3⟩
    obtain ⟨t, ht⟩ := (isTime_exists (micros n)).mpr (by unfold micros; omega)
    exact ⟨t, (date_iff bits t).mpr ⟨n, h1, ht⟩⟩

/-- What is raised instead of a date. -/
theorem date_error (bits : Nat) (h : ¬ Good bits) :
    (IsNaN bits → date bits = .error (.of .valueError)) ∧ (¬ IsNaN bits → date bits = .error .overflow) := by
  have hb : ∀ t, date bits ≠ .ok t := fun t ht => h ((date_good bits).mp ⟨t, ht⟩)
  unfold IsNaN
  unfold date truncated at *
  dsimp only at *
  by_cases he : bits / 2 ^ 52 % 2048 = 2047
  · by_cases hm : bits % 2 ^ 52 = 0
    · rw [if_pos he, if_pos hm]
      exact ⟨fun h => absurd hm h.2, fun _ => rfl⟩
    · rw [if_pos he, if_neg hm]
      exact ⟨fun _ => rfl, fun h => absurd ⟨he, hm⟩ h⟩
  · rw [if_neg he] at hb ⊢
    refine ⟨fun h => absurd h.1 he, fun _ => ?_⟩
    dsimp only at hb ⊢
    generalize shown year2001 _ = o at *
    cases o with
    | none => rfl
    | some t => exact absurd rfl (hb t)

/-- A record is read in debug mode exactly when it is read otherwise and its times are dates. -/
theorem record_iff (fixed : Nat → Str) (page : Bytes) (off : Nat) (c : Cookie) :
    (∃ text, readRecordDebug fixed page off = .ok (c, text)) ↔
      readRecord page off = .ok c ∧ Good c.expiration ∧ Good c.creation := by
  unfold readRecordDebug readRecord
  dsimp only
  by_cases hl : (page.drop off).length < 56
  · rw [if_pos hl, if_pos hl]
    exact ⟨fun ⟨_, h⟩ => (by cases h), fun ⟨h, _⟩ => (by cases h)⟩
  rw [if_neg hl, if_neg hl]
  generalize readString page off (leNat (slice (page.drop off) 16 20)) = r1
  generalize readString page off (leNat (slice (page.drop off) 20 24)) = r2
  generalize readString page off (leNat (slice (page.drop off) 24 28)) = r3
  generalize readString page off (leNat (slice (page.drop off) 28 32)) = r4
  constructor
  · rintro ⟨text, h⟩
    cases hh : headerText fixed (page.drop off) with
    | error e =>
      rw [hh] at h
      cases h
    | ok header =>
      rw [hh] at h
      dsimp only at h
      unfold headerText at hh
      cases d1 : date (leNat (slice (page.drop off) 40 48)) with
      | error e =>
        rw [d1] at hh
        cases hh
      | ok t1 =>
        cases d2 : date (leNat (slice (page.drop off) 48 56)) with
        | error e =>
          rw [d1, d2] at hh
          cases hh
        | ok t2 =>
          rcases r1 with _ | r1
          · cases h
          rcases r2 with _ | r2
          · cases h
          rcases r3 with _ | r3
          · cases h
          rcases r4 with _ | r4
          · cases h
          cases h
          exact ⟨rfl, (date_good _).mp ⟨_, d1⟩, (date_good _).mp ⟨_, d2⟩⟩
  · rintro ⟨h, g1, g2⟩
    rcases r1 with _ | r1
    · cases h
    rcases r2 with _ | r2
    · cases h
    rcases r3 with _ | r3
    · cases h
    rcases r4 with _ | r4
    · cases h
    cases h
    obtain ⟨t1, d1⟩ := (date_good _).mpr g1
    obtain ⟨t2, d2⟩ := (date_good _).mpr g2
    unfold headerText
    dsimp only at d1 d2 ⊢
    rw [d1, d2]
    exact ⟨_, rfl⟩

/-! ### Readers with other records -/

variable {α β : Type}

theorem records_mono (r : Bytes → Nat → Out α) (q : Bytes → Nat → Out β) (f : α → β) (P : α → Prop)
    (h : ∀ p o x, r p o = .ok x → q p o = .ok (f x) ∧ P x) (page : Bytes) (os : List Nat) (l : List α)
    (hl : recordsWith r page os = .ok l) : recordsWith q page os = .ok (l.map f) ∧ ∀ x ∈ l, P x := by
  induction os generalizing l with
  | nil =>
    cases hl
    exact ⟨rfl, fun _ hx => absurd hx List.not_mem_nil⟩
  | cons o os ih =>
    unfold recordsWith at hl ⊢
    cases h1 : r page o with
    | error e =>
      rw [h1] at hl
      cases hl
    | ok x =>
      cases h2 : recordsWith r page os with
      | error e =>
        rw [h1, h2] at hl
        cases hl
      | ok xs =>
        rw [h1, h2] at hl
        cases hl
        obtain ⟨hq, hp⟩ := h _ _ _ h1
        obtain ⟨hqs, hps⟩ := ih xs h2
        rw [hq, hqs]
        refine ⟨rfl, fun y hy => ?_⟩
        rcases List.mem_cons.mp hy with rfl | hy
        · exact hp
        · exact hps y hy

theorem page_mono (r : Bytes → Nat → Out α) (q : Bytes → Nat → Out β) (f : α → β) (P : α → Prop)
    (h : ∀ p o x, r p o = .ok x → q p o = .ok (f x) ∧ P x) (page : Bytes) (l : List α)
    (hl : pageWith r page = .ok l) : pageWith q page = .ok (l.map f) ∧ ∀ x ∈ l, P x := by
  unfold pageWith at hl ⊢
  dsimp only at hl ⊢
  by_cases hc : page.length < 8 ∨ page.length < 8 + 4 * leNat (slice page 4 8)
  · rw [if_pos hc] at hl
    cases hl
  · rw [if_neg hc] at hl ⊢
    exact records_mono r q f P h page _ l hl

theorem pages_mono (r : Bytes → Nat → Out α) (q : Bytes → Nat → Out β) (f : α → β) (P : α → Prop)
    (h : ∀ p o x, r p o = .ok x → q p o = .ok (f x) ∧ P x) (data : Bytes) (ns : List Nat) (pos : Nat) (l : List (List α)) (end' : Nat)
    (hl : pagesWith r data pos ns = .ok (l, end')) :
    pagesWith q data pos ns = .ok (l.map (List.map f), end') ∧ ∀ x ∈ l.flatten, P x := by
  induction ns generalizing pos l with
  | nil =>
    cases hl
    exact ⟨rfl, fun _ hx => absurd hx List.not_mem_nil⟩
  | cons n ns ih =>
    unfold pagesWith at hl ⊢
    cases h0 : lift (dataAt data pos n) with
    | error e =>
      rw [h0] at hl
      cases hl
    | ok page =>
      cases h1 : pageWith r page with
      | error e =>
        simp only [h0, h1] at hl
        cases hl
      | ok x =>
        cases h2 : pagesWith r data (pos + n) ns with
        | error e =>
          simp only [h0, h1, h2] at hl
          cases hl
        | ok y =>
          obtain ⟨xs, e'⟩ := y
          simp only [h0, h1, h2] at hl
          cases hl
          obtain ⟨hq, hp⟩ := page_mono r q f P h page x h1
          obtain ⟨hqs, hps⟩ := ih _ xs h2
          simp only [hq, hqs]
          refine ⟨rfl, fun y hy => ?_⟩
          rw [List.flatten_cons] at hy
          rcases List.mem_append.mp hy with hy | hy
          · exact hp y hy
          · exact hps y hy

theorem file_mono (r : Bytes → Nat → Out α) (q : Bytes → Nat → Out β) (f : α → β) (P : α → Prop)
    (h : ∀ p o x, r p o = .ok x → q p o = .ok (f x) ∧ P x) (data : Bytes) (l : List (List α))
    (hl : fileWith r data = .ok l) : fileWith q data = .ok (l.map (List.map f)) ∧ ∀ x ∈ l.flatten, P x := by
  unfold fileWith at hl ⊢
  cases h0 : lift (structAt headerMap data 0) with
  | error e =>
    rw [h0] at hl
    cases hl
  | ok n =>
    cases h1 : lift (readSizes data n.1) with
    | error e =>
      simp only [h0, h1] at hl
      cases hl
    | ok sizes =>
      cases h2 : pagesWith r data (8 + 4 * n.1) sizes with
      | error e =>
        simp only [h0, h1, h2] at hl
        cases hl
      | ok y =>
        obtain ⟨m, pos⟩ := y
        cases h3 : lift (structAt (fixedMap 8 id) data pos) with
        | error e =>
          simp only [h0, h1, h2, h3] at hl
          cases hl
        | ok z =>
          simp only [h0, h1, h2, h3] at hl
          cases hl
          obtain ⟨hq, hp⟩ := pages_mono r q f P h data sizes _ _ _ h2
          simp only [h1, hq, h3]
          exact ⟨trivial, hp⟩

theorem records_all (r : Bytes → Nat → Out α) (q : Bytes → Nat → Out β) (f : β → α) (P : α → Prop)
    (h : ∀ p o x, r p o = .ok x → P x → ∃ y, q p o = .ok y ∧ f y = x) (page : Bytes) (os : List Nat) (l : List α)
    (hl : recordsWith r page os = .ok l) (hp : ∀ x ∈ l, P x) : ∃ m, recordsWith q page os = .ok m ∧ m.map f = l := by
  induction os generalizing l with
  | nil =>
    cases hl
    exact ⟨[], rfl, rfl⟩
  | cons o os ih =>
    unfold recordsWith at hl ⊢
    cases h1 : r page o with
    | error e =>
      rw [h1] at hl
      cases hl
    | ok x =>
      cases h2 : recordsWith r page os with
      | error e =>
        rw [h1, h2] at hl
        cases hl
      | ok xs =>
        rw [h1, h2] at hl
        cases hl
        obtain ⟨y, hq, hy⟩ := h _ _ _ h1 (hp x List.mem_cons_self)
        obtain ⟨ys, hqs, hys⟩ := ih xs h2 (fun z hz => hp z (List.mem_cons_of_mem _ hz))
        rw [hq, hqs]
        exact ⟨y :: ys, rfl, by rw [List.map_cons, hy, hys]⟩

theorem page_all (r : Bytes → Nat → Out α) (q : Bytes → Nat → Out β) (f : β → α) (P : α → Prop)
    (h : ∀ p o x, r p o = .ok x → P x → ∃ y, q p o = .ok y ∧ f y = x) (page : Bytes) (l : List α)
    (hl : pageWith r page = .ok l) (hp : ∀ x ∈ l, P x) : ∃ m, pageWith q page = .ok m ∧ m.map f = l := by
  unfold pageWith at hl ⊢
  dsimp only at hl ⊢
  by_cases hc : page.length < 8 ∨ page.length < 8 + 4 * leNat (slice page 4 8)
  · rw [if_pos hc] at hl
    cases hl
  · rw [if_neg hc] at hl ⊢
    exact records_all r q f P h page _ l hl hp

theorem pages_all (r : Bytes → Nat → Out α) (q : Bytes → Nat → Out β) (f : β → α) (P : α → Prop)
    (h : ∀ p o x, r p o = .ok x → P x → ∃ y, q p o = .ok y ∧ f y = x) (data : Bytes) (ns : List Nat) (pos : Nat) (l : List (List α))
    (end' : Nat) (hl : pagesWith r data pos ns = .ok (l, end')) (hp : ∀ x ∈ l.flatten, P x) :
    ∃ m, pagesWith q data pos ns = .ok (m, end') ∧ m.map (List.map f) = l := by
  induction ns generalizing pos l with
  | nil =>
    cases hl
    exact ⟨[], rfl, rfl⟩
  | cons n ns ih =>
    unfold pagesWith at hl ⊢
    cases h0 : lift (dataAt data pos n) with
    | error e =>
      rw [h0] at hl
      cases hl
    | ok page =>
      cases h1 : pageWith r page with
      | error e =>
        simp only [h0, h1] at hl
        cases hl
      | ok x =>
        cases h2 : pagesWith r data (pos + n) ns with
        | error e =>
          simp only [h0, h1, h2] at hl
          cases hl
        | ok y =>
          obtain ⟨xs, e'⟩ := y
          simp only [h0, h1, h2] at hl
          cases hl
          rw [List.flatten_cons] at hp
          obtain ⟨y, hq, hy⟩ := page_all r q f P h page x h1 (fun z hz => hp z (List.mem_append_left _ hz))
          obtain ⟨ys, hqs, hys⟩ := ih _ xs h2 (fun z hz => hp z (List.mem_append_right _ hz))
          simp only [hq, hqs]
          exact ⟨y :: ys, rfl, by rw [List.map_cons, hy, hys]⟩

theorem file_all (r : Bytes → Nat → Out α) (q : Bytes → Nat → Out β) (f : β → α) (P : α → Prop)
    (h : ∀ p o x, r p o = .ok x → P x → ∃ y, q p o = .ok y ∧ f y = x) (data : Bytes) (l : List (List α))
    (hl : fileWith r data = .ok l) (hp : ∀ x ∈ l.flatten, P x) : ∃ m, fileWith q data = .ok m ∧ m.map (List.map f) = l := by
  unfold fileWith at hl ⊢
  cases h0 : lift (structAt headerMap data 0) with
  | error e =>
    rw [h0] at hl
    cases hl
  | ok n =>
    cases h1 : lift (readSizes data n.1) with
    | error e =>
      simp only [h0, h1] at hl
      cases hl
    | ok sizes =>
      cases h2 : pagesWith r data (8 + 4 * n.1) sizes with
      | error e =>
        simp only [h0, h1, h2] at hl
        cases hl
      | ok y =>
        obtain ⟨m, pos⟩ := y
        cases h3 : lift (structAt (fixedMap 8 id) data pos) with
        | error e =>
          simp only [h0, h1, h2, h3] at hl
          cases hl
        | ok z =>
          simp only [h0, h1, h2, h3] at hl
          cases hl
          obtain ⟨m, hq, hm⟩ := pages_all r q f P h data sizes _ _ _ h2 hp
          simp only [h1, hq, h3]
          exact ⟨m, rfl, hm⟩

/-- The readers with the records of `Verif.Cookies` are those. -/
theorem records_plain (page : Bytes) (os : List Nat) :
    recordsWith (fun p o => lift (readRecord p o)) page os = lift (readRecords page os) := by
  induction os with
  | nil => rfl
  | cons o os ih =>
    unfold recordsWith readRecords
    rw [ih]
    cases readRecord page o with
    | error e => rfl
    | ok c =>
      cases readRecords page os with
      | error e => rfl
      | ok cs => rfl

theorem page_plain (page : Bytes) : pageWith (fun p o => lift (readRecord p o)) page = lift (readPage page) := by
  unfold pageWith readPage
  dsimp only
  by_cases hc : page.length < 8 ∨ page.length < 8 + 4 * leNat (slice page 4 8)
  · rw [if_pos hc, if_pos hc]
    rfl
  · rw [if_neg hc, if_neg hc, records_plain]

theorem pages_plain (data : Bytes) (ns : List Nat) (pos : Nat) :
    pagesWith (fun p o => lift (readRecord p o)) data pos ns = lift (readPages data pos ns) := by
  induction ns generalizing pos with
  | nil => rfl
  | cons n ns ih =>
    unfold pagesWith readPages
    rw [ih]
    cases dataAt data pos n with
    | error e => rfl
    | ok page =>
      have hl : ∀ {γ : Type} (x : γ), lift (.ok x) = .ok x := fun _ => rfl
      simp only [hl, page_plain]
      cases readPage page with
      | error e => rfl
      | ok c =>
        cases readPages data (pos + n) ns with
        | error e => rfl
        | ok x => rfl

/-- Without debug mode the file is read as in `Verif.Cookies`. -/
theorem file_plain (data : Bytes) : fileWith (fun p o => lift (readRecord p o)) data = lift (readFile data) := by
  have hl : ∀ {γ : Type} (x : γ), lift (.ok x) = .ok x := fun _ => rfl
  unfold fileWith readFile
  cases structAt headerMap data 0 with
  | error e => rfl
  | ok n =>
    simp only [hl]
    cases readSizes data n.1 with
    | error e => rfl
    | ok sizes =>
      simp only [hl, pages_plain]
      cases readPages data (8 + 4 * n.1) sizes with
      | error e => rfl
      | ok x =>
        simp only [hl]
        cases structAt (fixedMap 8 id) data x.2 with
        | error e => rfl
        | ok y => rfl

/-! ## C178 -/

/-- C178, as a user reads it: a file that can be read can be shown. -/
def C178_shown_claim : Prop :=
  ∀ (fixed : Nat → Str) (data : Bytes) (l : List (List Cookie)), readFile data = .ok l →
    ∃ m, readFileDebug fixed data = .ok m ∧ m.map (List.map Prod.fst) = l

/-- C178.  A file is shown in debug mode, with the same cookies, exactly when it is read otherwise and the times of all its cookies
are in the years 1 to 9999.  Missing: files with other times, which are not shown, see `C178_shown_claim_false` and `C178_raises`. -/
theorem C178_shown_partial (fixed : Nat → Str) (data : Bytes) (l : List (List Cookie)) :
    (∃ m, readFileDebug fixed data = .ok m ∧ m.map (List.map Prod.fst) = l) ↔
      readFile data = .ok l ∧ ∀ c ∈ l.flatten, Good c.expiration ∧ Good c.creation := by
  constructor
  · rintro ⟨m, hm, rfl⟩
    obtain ⟨h1, h2⟩ := file_mono (readRecordDebug fixed) (fun p o => lift (readRecord p o)) Prod.fst
      (fun x => Good x.1.expiration ∧ Good x.1.creation) (fun p o x hx => by
        obtain ⟨hr, hg⟩ := (record_iff fixed p o x.1).mp ⟨x.2, hx⟩
        exact ⟨by rw [hr]; rfl, hg⟩) data m hm
    rw [file_plain] at h1
    refine ⟨?_, ?_⟩
    · cases hf : readFile data with
      | error e =>
        rw [hf] at h1
        cases h1
      | ok x =>
        rw [hf] at h1
        cases h1
        rfl
    · intro c hc
      rw [List.mem_flatten] at hc
      obtain ⟨cs, hcs, hc⟩ := hc
      obtain ⟨xs, hxs, rfl⟩ := List.mem_map.mp hcs
      obtain ⟨x, hx, rfl⟩ := List.mem_map.mp hc
      exact h2 x (List.mem_flatten.mpr ⟨xs, hxs, hx⟩)
  · rintro ⟨hr, hg⟩
    refine file_all (fun p o => lift (readRecord p o)) (readRecordDebug fixed) Prod.fst
      (fun c => Good c.expiration ∧ Good c.creation) (fun p o x hx hx' => ?_) data l (by rw [file_plain, hr]; rfl) hg
    have hr : readRecord p o = .ok x := by
      cases hf : readRecord p o with
      | error e =>
        rw [hf] at hx
        cases hx
      | ok y =>
        rw [hf] at hx
        cases hx
        rfl
    obtain ⟨text, ht⟩ := (record_iff fixed p o x).mpr ⟨hr, hx'⟩
    exact ⟨(x, text), ht, rfl⟩

/-- A page with a cookie that does not expire: its time is infinite. -/
def endlessPage : Bytes :=
  [[0, 0, 1, 0], leBytes 4 1, leBytes 4 16, [0, 0, 0, 0], List.replicate 8 0, leBytes 4 5, List.replicate 4 0, leBytes 4 59,
    leBytes 4 56, leBytes 4 0, leBytes 4 61, List.replicate 8 0, leBytes 8 0x7FF0000000000000, leBytes 8 8,
    [98, 99, 0, 97, 0, 100, 0]].flatten

theorem endless_read : readFile (fileBytes [endlessPage] (List.replicate 8 0)) =
    .ok [[⟨5, [97], [98, 99], [], [100], 0x7FF0000000000000, 8⟩]] := by
  decide +kernel

theorem endless_bad : ¬ Good 0x7FF0000000000000 := by
  intro h
  obtain ⟨t, ht⟩ := (date_good _).mpr h
  revert ht
  have : date 0x7FF0000000000000 = .error .overflow := by decide +kernel
  rw [this]
  intro ht
  cases ht

/-- C178.  False of the code: a time that is infinite, or after the year 9999, raises an OverflowError. -/
theorem C178_shown_claim_false : ¬ C178_shown_claim := by
  intro h
  have := (C178_shown_partial (fun _ => []) _ _).mp (h _ _ _ endless_read)
  exact endless_bad (this.2 _ (List.mem_flatten.mpr ⟨_, List.mem_singleton.mpr rfl, List.mem_singleton.mpr rfl⟩)).1

/-- C178.  A record with a time that is not a date raises a ValueError if it is not a number, an OverflowError otherwise. -/
theorem C178_raises (fixed : Nat → Str) (page : Bytes) (off : Nat) (c : Cookie) (h : readRecord page off = .ok c) :
    (¬ Good c.expiration → IsNaN c.expiration → readRecordDebug fixed page off = .error (.of .valueError)) ∧
    (¬ Good c.expiration → ¬ IsNaN c.expiration → readRecordDebug fixed page off = .error .overflow) ∧
    (Good c.expiration → ¬ Good c.creation → IsNaN c.creation → readRecordDebug fixed page off = .error (.of .valueError)) ∧
    (Good c.expiration → ¬ Good c.creation → ¬ IsNaN c.creation → readRecordDebug fixed page off = .error .overflow) := by
  unfold readRecord at h
  dsimp only at h
  unfold readRecordDebug headerText
  dsimp only
  by_cases hl : (page.drop off).length < 56
  · rw [if_pos hl] at h
    cases h
  rw [if_neg hl] at h ⊢
  have hc : c.expiration = leNat (slice (page.drop off) 40 48) ∧ c.creation = leNat (slice (page.drop off) 48 56) := by
    split at h
    · cases h
      exact ⟨rfl, rfl⟩
    · cases h
  rw [hc.1, hc.2]
  refine ⟨fun g n => ?_, fun g n => ?_, fun g g' n => ?_, fun g g' n => ?_⟩
  · rw [(date_error _ g).1 n]
  · rw [(date_error _ g).2 n]
  · obtain ⟨t, ht⟩ := (date_good _).mpr g
    rw [ht, (date_error _ g').1 n]
  · obtain ⟨t, ht⟩ := (date_good _).mpr g
    rw [ht, (date_error _ g').2 n]

/-- C178.  The times that are written are those of the record, to the second, and they are between the bytes
and the integers of the record and the strings of the cookie. -/
theorem C178_times (fixed : Nat → Str) (page : Bytes) (off : Nat) (c : Cookie) (text : Str)
    (h : readRecordDebug fixed page off = .ok (c, text)) :
    ∃ (t u : Str) (m n : Int), IsTruncated c.expiration m ∧ IsTime t (micros m) ∧ IsTruncated c.creation n ∧
      IsTime u (micros n) ∧ text = "Record data:\n".toList ++
        HexDump.dump ((page.drop off).take (leNat ((page.drop off).take 4))) ++ fieldLines recordFields (page.drop off) ++
        formatValue "Expiration time".toList (t ++ " (".toList ++ fixed c.expiration ++ ")".toList) ++
        formatValue "Creation time".toList (u ++ " (".toList ++ fixed c.creation ++ ")".toList) ++ "\n".toList ++
        formatValue "URL".toList (ascii c.url) ++ formatValue "Name".toList (ascii c.name) ++
        formatValue "Path".toList (ascii c.path) ++ formatValue "Value".toList (ascii c.value) ++ "\n".toList := by
  unfold readRecordDebug at h
  dsimp only at h
  by_cases hl : (page.drop off).length < 56
  · rw [if_pos hl] at h
    cases h
  rw [if_neg hl] at h
  generalize readString page off (leNat (slice (page.drop off) 16 20)) = r1 at h
  generalize readString page off (leNat (slice (page.drop off) 20 24)) = r2 at h
  generalize readString page off (leNat (slice (page.drop off) 24 28)) = r3 at h
  generalize readString page off (leNat (slice (page.drop off) 28 32)) = r4 at h
  cases hh : headerText fixed (page.drop off) with
  | error e =>
    rw [hh] at h
    cases h
  | ok header =>
    rw [hh] at h
    dsimp only at h
    unfold headerText at hh
    cases d1 : date (leNat (slice (page.drop off) 40 48)) with
    | error e =>
      rw [d1] at hh
      cases hh
    | ok t1 =>
      cases d2 : date (leNat (slice (page.drop off) 48 56)) with
      | error e =>
        rw [d1, d2] at hh
        cases hh
      | ok t2 =>
        rw [d1, d2] at hh
        rcases r1 with _ | r1
        · cases h
        rcases r2 with _ | r2
        · cases h
        rcases r3 with _ | r3
        · cases h
        rcases r4 with _ | r4
        · cases h
        obtain ⟨m, m1, m2⟩ := (date_iff _ _).mp d1
        obtain ⟨n, n1, n2⟩ := (date_iff _ _).mp d2
        cases hh
        cases h
        refine ⟨t1, t2, m, n, m1, m2, n1, n2, ?_⟩
        rw [← numbers_eq]
        simp only [← List.append_assoc]
        rfl

/-- C178.  Times that are written with the same text are the same, to the second. -/
theorem C178_seen (a b : Nat) (t : Str) (ha : date a = .ok t) (hb : date b = .ok t) :
    ∃ n, IsTruncated a n ∧ IsTruncated b n := by
  obtain ⟨m, m1, m2⟩ := (date_iff _ _).mp ha
  obtain ⟨n, n1, n2⟩ := (date_iff _ _).mp hb
  have := isTime_injective t _ _ m2 n2
  have e : m = n := by
    unfold micros at this
    omega
  exact ⟨m, m1, e ▸ n1⟩

/-- The 29th of February of 2024, 730857600.5 seconds after the start of 2001. -/
example : date 0x41C5C80040400000 = .ok "2024-02-29 00:00:00".toList := by decide +kernel

/-- A time before 2001 is truncated towards it. -/
example : date 0xBFF8000000000000 = .ok "2000-12-31 23:59:59".toList := by decide +kernel

example : IsNaN 0x7FF8000000000000 ∧ ¬ IsNaN 0x7FF0000000000000 := by
  unfold IsNaN
  decide

example : Good 7 ∧ Good 8 := ⟨(date_good 7).mp ⟨_, rfl⟩, (date_good 8).mp ⟨_, rfl⟩⟩

/-- The file of the example of C98 is shown. -/
example (fixed : Nat → Str) : ∃ m, readFileDebug fixed (fileBytes [samplePage] (List.replicate 8 0)) = .ok m ∧
    m.map (List.map Prod.fst) = [[sampleCookie]] := by
  refine (C178_shown_partial fixed _ _).mpr ⟨by decide +kernel, ?_⟩
  intro c hc
  have : c = sampleCookie := by simpa using hc
  rw [this]
  exact ⟨(date_good 7).mp ⟨_, rfl⟩, (date_good 8).mp ⟨_, rfl⟩⟩

end Dtf.Cookies.DebugMode
