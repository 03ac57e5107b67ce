import Verif.ChromeCache.Files
import Verif.CookiesDebug

/-!
# Index files of the Chrome cache in debug mode (C179)
-/

namespace Dtf.ChromeCache.DebugMode
open Py DataFormat Formats Calendar
open Cookies.DebugMode (Raised Out lift fieldLines hex take_eq_slice)

/-! ## Model -/

/-- `_FormatIntegerAsTimestamp` (chrome_cache.py 515-527). -/
def timestamp (n : Nat) : Out Str :=
  match shown year1601 n with
  | none => .error .overflow
  | some t => .ok (t ++ " (0x".toList ++ hexw 8 n ++ ")".toList)

/-- `_FILE_TYPE_DESCRIPTIONS` (chrome_cache.py 101-107). -/
def typeText : Nat → Str
  | 0 => "Separate file".toList
  | 1 => "Rankings block file".toList
  | 2 => "256 byte block file".toList
  | 3 => "1024 byte block file".toList
  | 4 => "4096 byte block file".toList
  | _ => "Unknown".toList

def boolText (b : Bool) : Str := if b then "True".toList else "False".toList

/-- `GetDebugString` (chrome_cache.py 144-168); `None` has no format `s` or `d`. -/
def addressText (c : CacheAddress) : Out Str :=
  if c.value = 0 then .ok ("0x".toList ++ hexw 8 c.value ++ " (uninitialized)".toList)
  else
    match c.filename with
    | none => .error (.of .typeError)
    | some filename =>
      let start := "0x".toList ++ hexw 8 c.value ++ " (initialized: ".toList ++ boolText c.isInitialized ++ ", file type: ".toList ++
        typeText c.fileType ++ ", filename: ".toList ++ filename
      if c.fileType = 0 then .ok (start ++ ")".toList)
      else
        match c.blockNumber, c.blockOffset, c.blockSize with
        | some number, some offset, some size =>
          .ok (start ++ ", block number: ".toList ++ dec number ++ ", block offset: 0x".toList ++ hexw 8 offset ++
            ", block size: ".toList ++ dec size ++ ")".toList)
        | _, _, _ => .error (.of .typeError)

/-- The line of an address. -/
def addressLine (description : Str) (value : Nat) : Out Str :=
  match addressText (cacheAddress value) with
  | .error e => .error e
  | .ok t => .ok (formatValue description t)

/-- The lines of addresses, with their indexes. -/
def addressLines (description : Str) : Nat → List Nat → Out Str
  | _, [] => .ok []
  | index, v :: vs =>
    match addressLine (description ++ dec index) v with
    | .error e => .error e
    | .ok line =>
      match addressLines description (index + 1) vs with
      | .error e => .error e
      | .ok lines => .ok (line ++ lines)

def number (b : Bytes) (i j : Nat) : Nat := leNat (slice b i j)

def hexLine (description : Str) (n : Nat) : Str := formatValue description ("0x".toList ++ hexw 8 n)

/-- The header as `_DebugPrintStructureObject` writes it (chrome_cache.debug.yaml 66-103; every value has a single line). -/
def headerText (b : Bytes) : Out Str :=
  match timestamp (number b 40 48) with
  | .error e => .error e
  | .ok creation =>
    .ok (hexLine "Signature".toList (number b 0 4) ++
      formatValue "Minor format version".toList (dec (number b 4 6)) ++
      formatValue "Major format version".toList (dec (number b 6 8)) ++
      formatValue "Number of entries".toList (dec (number b 8 12)) ++
      formatValue "Stored data size".toList (dec (number b 12 16)) ++
      formatValue "Last created file number".toList (dec (number b 16 20) ++ " (f_".toList ++ hexw 6 (number b 16 20) ++ ")".toList) ++
      hexLine "Unknown1".toList (number b 20 24) ++ hexLine "Unknown2".toList (number b 24 28) ++
      formatValue "Table size".toList (dec (number b 28 32)) ++ hexLine "Unknown3".toList (number b 32 36) ++
      hexLine "Unknown4".toList (number b 36 40) ++ formatValue "Creation time".toList creation ++ ['\n'])

/-- `_DebugPrintLRUData` (chrome_cache.py 473-502). -/
def lruText (b : Bytes) : Out Str :=
  match addressLines "Head address: ".toList 0 (leNats 4 5 (b.drop 32)) with
  | .error e => .error e
  | .ok heads =>
    match addressLines "Tail address: ".toList 0 (leNats 4 5 (b.drop 52)) with
    | .error e => .error e
    | .ok tails =>
      match addressLine "Transaction address".toList (number b 72 76) with
      | .error e => .error e
      | .ok transaction =>
        .ok (hexLine "Filled flag".toList (number b 8 12) ++
          (leNats 4 5 (b.drop 12)).flatMap (fun n => formatValue "Size".toList (dec n)) ++ heads ++ tails ++ transaction ++
          hexLine "Operation".toList (number b 76 80) ++ hexLine "Operation list".toList (number b 80 84) ++ ['\n'])

/-- `_ReadIndexTable` (chrome_cache.py 575-618). -/
def tableDebug (index : Nat) : Bytes → Out (List (Nat × CacheAddress) × Str)
  | b0 :: b1 :: b2 :: b3 :: rest =>
    let value := leNat [b0, b1, b2, b3]
    if value ≠ 0 then
      match addressLine ("Cache address: ".toList ++ dec index) value with
      | .error e => .error e
      | .ok line =>
        match tableDebug (index + 1) rest with
        | .error e => .error e
        | .ok (entries, text) => .ok ((index, cacheAddress value) :: entries, line ++ text)
    else tableDebug (index + 1) rest
  | _ => .ok ([], ['\n'])

/-- The header before the test on the version (chrome_cache.py 538-547). -/
def anyHeaderMap : DataTypeMap Bytes :=
  (fixedMap 256 id).refine (fun b => if leNat (slice b 0 4) = 0xC103CAC3 then some b else none)

/-- `ReadFileObject` in debug mode (chrome_cache.py 529-631): what is read and what is written. -/
def readIndexDebug (data : Bytes) : Out ((Nat × List (Nat × CacheAddress)) × Str) :=
  match lift (structAt anyHeaderMap data 0) with
  | .error e => .error e
  | .ok (b, _) =>
    match headerText b with
    | .error e => .error e
    | .ok header =>
      if supported b then
        match lift (structAt lruMap data 256) with
        | .error e => .error e
        | .ok (l, _) =>
          match lruText l with
          | .error e => .error e
          | .ok lru =>
            match tableDebug 0 (data.drop 368) with
            | .error e => .error e
            | .ok (entries, table) => .ok ((number b 40 48, entries), header ++ lru ++ table)
      else .error (.of .parseError)

/-! ## Specification -/

/-- An address is of no file or of a type of file that there is: its bits 28 to 30 are not more than 4. -/
def Known (a : Nat) : Prop := a / 2 ^ 28 % 8 ≤ 4

/-- The addresses at the start of the file, by their offsets: five heads, five tails and that of the transaction. -/
def lruAddresses (data : Bytes) : List Nat :=
  [288, 292, 296, 300, 304, 308, 312, 316, 320, 324, 328].map fun o => leNat (slice data o (o + 4))

/-- The microseconds between the start of the year 1 and so many microseconds after the start of 1601. -/
def micros (n : Nat) : Int := n + 584388 * 86400000000

/-- The time is before the year 10000. -/
def Before10000 (n : Nat) : Prop := n < (3652059 - 584388) * 86400000000

/-- The integers at the start of the file, in the order of the format. -/
def headerFields : List (Str × Nat × (Nat → Str)) :=
  [("Signature".toList, 4, hex), ("Minor format version".toList, 2, dec), ("Major format version".toList, 2, dec),
    ("Number of entries".toList, 4, dec), ("Stored data size".toList, 4, dec),
    ("Last created file number".toList, 4, fun n => dec n ++ " (f_".toList ++ hexw 6 n ++ ")".toList), ("Unknown1".toList, 4, hex),
    ("Unknown2".toList, 4, hex), ("Table size".toList, 4, dec), ("Unknown3".toList, 4, hex), ("Unknown4".toList, 4, hex)]

/-- The integers before and after the addresses of the least recently used entries. -/
def lruFirst : List (Str × Nat × (Nat → Str)) :=
  ("Filled flag".toList, 4, hex) :: List.replicate 5 ("Size".toList, 4, dec)

def lruLast : List (Str × Nat × (Nat → Str)) := [("Operation".toList, 4, hex), ("Operation list".toList, 4, hex)]

/-! ## Proofs -/

theorem timestamp_ok (n : Nat) (t : Str) : timestamp n = .ok t ↔
    ∃ u, IsTime u (micros n) ∧ t = u ++ " (0x".toList ++ hexw 8 n ++ ")".toList := by
  have hm : (n : Int) + ((year1601 : Nat) - 1) * 86400000000 = micros n := by
    unfold micros year1601
    omega
  unfold timestamp
  constructor
  · intro h
    cases hs : shown year1601 n with
    | none =>
      rw [hs] at h
      cases h
    | some u =>
      rw [hs] at h
      rw [shown_iff _ (by decide) (by decide), hm] at hs
      exact ⟨u, hs, (Except.ok.inj h).symm⟩
  · rintro ⟨u, hu, rfl⟩
    rw [(shown_iff year1601 (by decide) (by decide) n u).mpr (by rw [hm]; exact hu)]

theorem timestamp_exists (n : Nat) : (∃ t, timestamp n = .ok t) ↔ Before10000 n := by
  unfold Before10000
  constructor
  · rintro ⟨t, h⟩
    obtain ⟨u, hu, _⟩ := (timestamp_ok n t).mp h
    have := (isTime_exists _).mp ⟨u, hu⟩
    unfold micros at this
    omega
  · intro h
    obtain ⟨u, hu⟩ := (isTime_exists (micros n)).mpr (by unfold micros; omega)
    exact ⟨_, (timestamp_ok n _).mpr ⟨u, hu, rfl⟩⟩

theorem fileType_eq (a : Nat) : (a &&& 0x70000000) >>> 28 = a / 2 ^ 28 % 8 := by
  rw [Nat.shiftRight_and_distrib, Nat.shiftRight_eq_div_pow]
  exact Nat.and_two_pow_sub_one_eq_mod _ 3

theorem address_ok' (a : Nat) : (∃ t, addressText (cacheAddress a) = .ok t) ↔ a = 0 ∨ Known a := by
  unfold Known addressText cacheAddress
  dsimp only
  rw [fileType_eq]
  by_cases h0 : a = 0
  · subst h0
    simp
  · rw [if_pos h0]
    generalize a / 2 ^ 28 % 8 = k
    by_cases hk : k = 0
    · subst hk
      simp [h0]
    · rw [if_neg hk]
      by_cases h4 : k ∈ [1, 2, 3, 4]
      · rw [if_pos h4]
        simp only [h0, hk, if_false, false_or]
        simp only [List.mem_cons, List.not_mem_nil, or_false] at h4
        exact ⟨fun _ => by omega, fun _ => ⟨_, rfl⟩⟩
      · rw [if_neg h4]
        simp only [h0, if_false, false_or]
        simp only [List.mem_cons, List.not_mem_nil, or_false] at h4
        exact ⟨fun ⟨t, h⟩ => (by cases h), fun _ => by omega⟩

theorem address_ok (a : Nat) : (∃ t, addressText (cacheAddress a) = .ok t) ↔ Known a := by
  rw [address_ok']
  refine ⟨fun h => ?_, .inr⟩
  rcases h with rfl | h
  · unfold Known
    decide
  · exact h

/-- The errors of addresses. -/
theorem address_error (a : Nat) (e : Raised) (h : addressText (cacheAddress a) = .error e) : e = .of .typeError := by
  unfold addressText at h
  dsimp only at h
  split at h
  · cases h
  · split at h
    · cases h
      rfl
    · split at h
      · cases h
      · split at h
        · cases h
        · cases h
          rfl

theorem line_ok (d : Str) (a : Nat) : (∃ t, addressLine d a = .ok t) ↔ Known a := by
  rw [← address_ok]
  unfold addressLine
  cases addressText (cacheAddress a) with
  | error e => exact ⟨fun ⟨t, h⟩ => (by cases h), fun ⟨t, h⟩ => (by cases h)⟩
  | ok t => exact ⟨fun _ => ⟨t, rfl⟩, fun _ => ⟨_, rfl⟩⟩

theorem line_error (d : Str) (a : Nat) (h : ¬ Known a) : addressLine d a = .error (.of .typeError) := by
  cases hl : addressLine d a with
  | ok t => exact absurd ((line_ok d a).mp ⟨t, hl⟩) h
  | error e =>
    unfold addressLine at hl
    cases ha : addressText (cacheAddress a) with
    | ok t =>
      rw [ha] at hl
      cases hl
    | error e' =>
      rw [ha] at hl
      cases hl
      rw [address_error a _ ha]

theorem lines_ok (d : Str) (i : Nat) (l : List Nat) : (∃ t, addressLines d i l = .ok t) ↔ ∀ a ∈ l, Known a := by
  induction l generalizing i with
  | nil => exact ⟨fun _ _ h => absurd h List.not_mem_nil, fun _ => ⟨_, rfl⟩⟩
  | cons a l ih =>
    rw [List.forall_mem_cons, ← line_ok (d ++ dec i), ← ih (i + 1)]
    rw [addressLines]
    cases addressLine (d ++ dec i) a with
    | error e => exact ⟨fun ⟨t, h⟩ => (by cases h), fun ⟨⟨t, h⟩, _⟩ => (by cases h)⟩
    | ok t =>
      cases addressLines d (i + 1) l with
      | error e => exact ⟨fun ⟨t, h⟩ => (by cases h), fun ⟨_, t, h⟩ => (by cases h)⟩
      | ok u => exact ⟨fun _ => ⟨⟨_, rfl⟩, _, rfl⟩, fun _ => ⟨_, rfl⟩⟩

theorem lines_error (d : Str) (i : Nat) (l : List Nat) (e : Raised) (h : addressLines d i l = .error e) : e = .of .typeError := by
  induction l generalizing i with
  | nil => cases h
  | cons a l ih =>
    rw [addressLines] at h
    cases ha : addressLine (d ++ dec i) a with
    | error e' =>
      rw [ha] at h
      cases h
      by_cases hk : Known a
      · obtain ⟨t, ht⟩ := (line_ok (d ++ dec i) a).mpr hk
        rw [ht] at ha
        cases ha
      · rw [line_error _ _ hk] at ha
        cases ha
        rfl
    | ok t =>
      rw [ha] at h
      cases hl : addressLines d (i + 1) l with
      | error e' =>
        rw [hl] at h
        cases h
        exact ih _ hl
      | ok u =>
        rw [hl] at h
        cases h

theorem value_eq (a : Nat) : (cacheAddress a).value = a := by
  unfold cacheAddress
  dsimp only
  repeat' split
  all_goals rfl

theorem table_ok (i : Nat) (b : Bytes) (es : List (Nat × CacheAddress)) :
    (∃ t, tableDebug i b = .ok (es, t)) ↔ es = readIndexTable i b ∧ ∀ e ∈ es, Known e.2.value := by
  induction i, b using readIndexTable.induct generalizing es with
  | case1 i b0 b1 b2 b3 rest value hv ih =>
    have hv' : leNat [b0, b1, b2, b3] ≠ 0 := hv
    have ih' := ih (readIndexTable (i + 1) rest)
    rw [tableDebug, readIndexTable]
    rw [if_pos hv', if_pos hv']
    constructor
    · rintro ⟨t, h⟩
      cases hl : addressLine ("Cache address: ".toList ++ dec i) (leNat [b0, b1, b2, b3]) with
      | error e =>
        rw [hl] at h
        cases h
      | ok line =>
        cases ht : tableDebug (i + 1) rest with
        | error e =>
          rw [hl, ht] at h
          cases h
        | ok x =>
          obtain ⟨entries, text⟩ := x
          rw [hl, ht] at h
          cases h
          obtain ⟨rfl, hk⟩ := (ih entries).mp ⟨text, ht⟩
          refine ⟨rfl, ?_⟩
          rw [List.forall_mem_cons, value_eq]
          exact ⟨(line_ok _ _).mp ⟨_, hl⟩, hk⟩
    · rintro ⟨rfl, hk⟩
      rw [List.forall_mem_cons, value_eq] at hk
      obtain ⟨line, hl⟩ := (line_ok ("Cache address: ".toList ++ dec i) _).mpr hk.1
      obtain ⟨text, ht⟩ := ih'.mpr ⟨rfl, hk.2⟩
      rw [hl, ht]
      exact ⟨_, rfl⟩
  | case2 i b0 b1 b2 b3 rest value hv ih =>
    have hv' : ¬ leNat [b0, b1, b2, b3] ≠ 0 := hv
    rw [tableDebug, readIndexTable]
    rw [if_neg hv', if_neg hv']
    exact ih es
  | case3 b i hb =>
    have he : readIndexTable i b = [] := by
      rw [readIndexTable.eq_def]
      split
      · exact absurd rfl (hb _ _ _ _ _)
      · rfl
    rw [tableDebug.eq_def, he]
    split
    · exact absurd rfl (hb _ _ _ _ _)
    · constructor
      · rintro ⟨t, h⟩
        cases h
        exact ⟨rfl, fun _ h => absurd h List.not_mem_nil⟩
      · rintro ⟨rfl, _⟩
        exact ⟨_, rfl⟩

theorem table_error (i : Nat) (b : Bytes) (e : Raised) (h : tableDebug i b = .error e) : e = .of .typeError := by
  induction i, b using readIndexTable.induct with
  | case1 i b0 b1 b2 b3 rest value hv ih =>
    have hv' : leNat [b0, b1, b2, b3] ≠ 0 := hv
    rw [tableDebug] at h
    rw [if_pos hv'] at h
    cases hl : addressLine ("Cache address: ".toList ++ dec i) (leNat [b0, b1, b2, b3]) with
    | error e' =>
      rw [hl] at h
      cases h
      by_cases hk : Known (leNat [b0, b1, b2, b3])
      · obtain ⟨t, ht⟩ := (line_ok ("Cache address: ".toList ++ dec i) _).mpr hk
        rw [ht] at hl
        cases hl
      · rw [line_error _ _ hk] at hl
        cases hl
        rfl
    | ok line =>
      cases ht : tableDebug (i + 1) rest with
      | error e' =>
        rw [hl, ht] at h
        cases h
        exact ih ht
      | ok x =>
        rw [hl, ht] at h
        cases h
  | case2 i b0 b1 b2 b3 rest value hv ih =>
    have hv' : ¬ leNat [b0, b1, b2, b3] ≠ 0 := hv
    rw [tableDebug] at h
    rw [if_neg hv'] at h
    exact ih h
  | case3 b i hb =>
    rw [tableDebug.eq_def] at h
    split at h
    · exact absurd rfl (hb _ _ _ _ _)
    · cases h

theorem header_ok (b : Bytes) : (∃ t, headerText b = .ok t) ↔ Before10000 (number b 40 48) := by
  rw [← timestamp_exists]
  unfold headerText
  cases timestamp (number b 40 48) with
  | error e => exact ⟨fun ⟨t, h⟩ => (by cases h), fun ⟨t, h⟩ => (by cases h)⟩
  | ok t => exact ⟨fun _ => ⟨t, rfl⟩, fun _ => ⟨_, rfl⟩⟩

theorem header_error (b : Bytes) (h : ¬ Before10000 (number b 40 48)) : headerText b = .error .overflow := by
  rw [← timestamp_exists] at h
  unfold headerText
  unfold timestamp at h ⊢
  cases hs : shown year1601 (number b 40 48) with
  | none => rfl
  | some t =>
    rw [hs] at h
    exact absurd ⟨_, rfl⟩ h

theorem take_slice (b : Bytes) (i : Nat) : (b.drop i).take 4 = slice b i (i + 4) := by
  unfold slice
  rw [List.drop_take]
  congr 1
  omega

theorem leNats_five (b : Bytes) (i : Nat) : leNats 4 5 (b.drop i) =
    [i, i + 4, i + 8, i + 12, i + 16].map fun o => leNat (slice b o (o + 4)) := by
  simp only [leNats, List.drop_drop, take_slice, List.map_cons, List.map_nil]

theorem lru_ok (l : Bytes) : (∃ t, lruText l = .ok t) ↔
    ∀ o ∈ [32, 36, 40, 44, 48, 52, 56, 60, 64, 68, 72], Known (leNat (slice l o (o + 4))) := by
  have split : (∀ o ∈ [32, 36, 40, 44, 48, 52, 56, 60, 64, 68, 72], Known (leNat (slice l o (o + 4)))) ↔
      (∀ a ∈ leNats 4 5 (l.drop 32), Known a) ∧ (∀ a ∈ leNats 4 5 (l.drop 52), Known a) ∧ Known (number l 72 76) := by
    rw [leNats_five, leNats_five]
    unfold number
    simp only [List.forall_mem_map, List.forall_mem_cons, List.not_mem_nil, false_imp_iff, implies_true, and_true]
    tauto
  rw [split, ← lines_ok "Head address: ".toList 0, ← lines_ok "Tail address: ".toList 0, ← line_ok "Transaction address".toList]
  unfold lruText
  cases addressLines "Head address: ".toList 0 (leNats 4 5 (l.drop 32)) with
  | error e => exact ⟨fun ⟨t, h⟩ => (by cases h), fun ⟨⟨t, h⟩, _⟩ => (by cases h)⟩
  | ok t =>
    cases addressLines "Tail address: ".toList 0 (leNats 4 5 (l.drop 52)) with
    | error e => exact ⟨fun ⟨t, h⟩ => (by cases h), fun ⟨_, ⟨t, h⟩, _⟩ => (by cases h)⟩
    | ok u =>
      cases addressLine "Transaction address".toList (number l 72 76) with
      | error e => exact ⟨fun ⟨t, h⟩ => (by cases h), fun ⟨_, _, t, h⟩ => (by cases h)⟩
      | ok v => exact ⟨fun _ => ⟨⟨_, rfl⟩, ⟨_, rfl⟩, _, rfl⟩, fun _ => ⟨_, rfl⟩⟩

theorem lru_error (l : Bytes) (e : Raised) (h : lruText l = .error e) : e = .of .typeError := by
  unfold lruText at h
  cases h1 : addressLines "Head address: ".toList 0 (leNats 4 5 (l.drop 32)) with
  | error e' =>
    rw [h1] at h
    cases h
    exact lines_error _ _ _ _ h1
  | ok t =>
    cases h2 : addressLines "Tail address: ".toList 0 (leNats 4 5 (l.drop 52)) with
    | error e' =>
      rw [h1, h2] at h
      cases h
      exact lines_error _ _ _ _ h2
    | ok u =>
      cases h3 : addressLine "Transaction address".toList (number l 72 76) with
      | error e' =>
        rw [h1, h2, h3] at h
        cases h
        by_cases hk : Known (number l 72 76)
        · obtain ⟨t, ht⟩ := (line_ok "Transaction address".toList _).mpr hk
          rw [ht] at h3
          cases h3
        · rw [line_error _ _ hk] at h3
          cases h3
          rfl
      | ok v =>
        rw [h1, h2, h3] at h
        cases h

theorem slice_part (data : Bytes) (k n i : Nat) (h : i + 4 ≤ n) :
    slice ((data.drop k).take n) i (i + 4) = slice data (k + i) (k + i + 4) := by
  unfold slice
  rw [List.take_take, Nat.min_eq_left h, List.drop_take, List.drop_take, List.drop_drop]
  congr 1
  omega

/-- What is read without debug mode, of the data. -/
theorem index_eq (data : Bytes) : readIndex data =
    if data.length < 256 then .error .parseError
    else if leNat (slice data 0 4) = 0xC103CAC3 then
      if supported (data.take 256) then
        if data.length < 368 then .error .parseError
        else .ok (number (data.take 256) 40 48, readIndexTable 0 (data.drop 368))
      else .error .parseError
    else .error .parseError := by
  unfold readIndex indexHeaderMap lruMap
  rw [structAt_refine, show (0 : Int) = ((0 : Nat) : Int) from rfl, show (256 : Int) = ((256 : Nat) : Int) from rfl,
    structAt_fixed _ _ _ _ (by omega), structAt_fixed _ _ _ _ (by omega), Nat.zero_add]
  by_cases h1 : data.length < 256
  · rw [if_pos h1, if_pos h1]
  rw [if_neg h1, if_neg h1]
  dsimp only [id]
  unfold parseIndexHeader
  rw [slice_zero _ _ _ _ (by omega)]
  by_cases h2 : leNat (slice data 0 4) = 0xC103CAC3
  · rw [if_pos h2]
    by_cases h3 : supported (data.take 256) = true
    · rw [if_pos ⟨h2, h3⟩, if_pos h3]
      dsimp only
      by_cases h4 : data.length < 368
      · rw [if_pos h4, if_pos h4]
      · rw [if_neg h4, if_neg h4]
        rfl
    · rw [if_neg (fun h => h3 h.2), if_neg h3]
  · rw [if_neg (fun h => h2 h.1), if_neg h2]

/-- The same in debug mode. -/
theorem debug_eq (data : Bytes) : readIndexDebug data =
    if data.length < 256 then .error (.of .parseError)
    else if leNat (slice data 0 4) = 0xC103CAC3 then
      match headerText (data.take 256) with
      | .error e => .error e
      | .ok header =>
        if supported (data.take 256) then
          if data.length < 368 then .error (.of .parseError)
          else
            match lruText ((data.drop 256).take 112) with
            | .error e => .error e
            | .ok lru =>
              match tableDebug 0 (data.drop 368) with
              | .error e => .error e
              | .ok (entries, table) => .ok ((number (data.take 256) 40 48, entries), header ++ lru ++ table)
        else .error (.of .parseError)
    else .error (.of .parseError) := by
  have hl : ∀ {γ : Type} (x : γ), lift (.ok x) = .ok x := fun _ => rfl
  unfold readIndexDebug anyHeaderMap lruMap
  rw [structAt_refine, show (0 : Int) = ((0 : Nat) : Int) from rfl, show (256 : Int) = ((256 : Nat) : Int) from rfl,
    structAt_fixed _ _ _ _ (by omega), structAt_fixed _ _ _ _ (by omega), Nat.zero_add]
  by_cases h1 : data.length < 256
  · rw [if_pos h1, if_pos h1]
    rfl
  rw [if_neg h1, if_neg h1]
  dsimp only [id]
  rw [slice_zero _ _ _ _ (by omega)]
  by_cases h2 : leNat (slice data 0 4) = 0xC103CAC3
  · rw [if_pos h2, if_pos h2, List.drop_zero]
    simp only [hl]
    cases headerText (data.take 256) with
    | error e => rfl
    | ok header =>
      dsimp only
      by_cases h3 : supported (data.take 256) = true
      · rw [if_pos h3, if_pos h3]
        by_cases h4 : data.length < 368
        · rw [if_pos h4, if_pos h4]
          rfl
        · rw [if_neg h4, if_neg h4]
          rfl
      · rw [if_neg h3, if_neg h3]
  · rw [if_neg h2, if_neg h2]
    rfl

/-! ## C179 -/

/-- C179, as a user reads it: an index file that can be read can be shown. -/
def C179_shown_claim : Prop := ∀ data x, readIndex data = .ok x → ∃ text, readIndexDebug data = .ok (x, text)

theorem lru_known (data : Bytes) : (∃ t, lruText ((data.drop 256).take 112) = .ok t) ↔ ∀ a ∈ lruAddresses data, Known a := by
  rw [lru_ok]
  unfold lruAddresses
  simp only [List.forall_mem_map, List.forall_mem_cons, List.not_mem_nil, false_imp_iff, implies_true, and_true]
  rw [slice_part _ _ _ _ (by decide), slice_part _ _ _ _ (by decide), slice_part _ _ _ _ (by decide), slice_part _ _ _ _ (by decide),
    slice_part _ _ _ _ (by decide), slice_part _ _ _ _ (by decide), slice_part _ _ _ _ (by decide), slice_part _ _ _ _ (by decide),
    slice_part _ _ _ _ (by decide), slice_part _ _ _ _ (by decide), slice_part _ _ _ _ (by decide)]

/-- C179.  An index file is shown in debug mode, with the same table, exactly when it is read otherwise, was created before the year
10000 and all its addresses are of files.  Missing: other files, see `C179_shown_claim_false`, `C179_late` and `C179_unknown`. -/
theorem C179_shown_partial (data : Bytes) (x : Nat × List (Nat × CacheAddress)) :
    (∃ text, readIndexDebug data = .ok (x, text)) ↔
      readIndex data = .ok x ∧ Before10000 x.1 ∧ (∀ a ∈ lruAddresses data, Known a) ∧ ∀ e ∈ x.2, Known e.2.value := by
  obtain ⟨creation, entries⟩ := x
  rw [debug_eq, index_eq, ← lru_known]
  by_cases h1 : data.length < 256
  · rw [if_pos h1, if_pos h1]
    exact ⟨fun ⟨_, h⟩ => (by cases h), fun ⟨h, _⟩ => (by cases h)⟩
  rw [if_neg h1, if_neg h1]
  by_cases h2 : leNat (slice data 0 4) = 0xC103CAC3
  · rw [if_pos h2, if_pos h2]
    have ho := header_ok (data.take 256)
    have ht := table_ok 0 (data.drop 368) entries
    cases hh : headerText (data.take 256) with
    | error e =>
      rw [hh] at ho
      refine ⟨fun ⟨_, h⟩ => (by cases h), fun ⟨h, hb, _⟩ => ?_⟩
      split at h
      · split at h
        · cases h
        · cases h
          obtain ⟨t, h⟩ := ho.mpr hb
          cases h
      · cases h
    | ok header =>
      rw [hh] at ho
      dsimp only
      by_cases h3 : supported (data.take 256) = true
      · rw [if_pos h3, if_pos h3]
        by_cases h4 : data.length < 368
        · rw [if_pos h4, if_pos h4]
          exact ⟨fun ⟨_, h⟩ => (by cases h), fun ⟨h, _⟩ => (by cases h)⟩
        rw [if_neg h4, if_neg h4]
        cases hl : lruText ((data.drop 256).take 112) with
        | error e => exact ⟨fun ⟨_, h⟩ => (by cases h), fun ⟨_, _, ⟨_, h⟩, _⟩ => (by cases h)⟩
        | ok lru =>
          dsimp only
          cases htd : tableDebug 0 (data.drop 368) with
          | error e =>
            rw [htd] at ht
            refine ⟨fun ⟨_, h⟩ => (by cases h), fun ⟨h, _, _, hk⟩ => ?_⟩
            cases h
            obtain ⟨t, h⟩ := ht.mpr ⟨rfl, hk⟩
            cases h
          | ok y =>
            obtain ⟨es, text⟩ := y
            rw [htd] at ht
            dsimp only
            constructor
            · rintro ⟨t, h⟩
              cases h
              obtain ⟨he, hk⟩ := ht.mp ⟨_, rfl⟩
              exact ⟨by rw [he], ho.mp ⟨_, rfl⟩, ⟨_, rfl⟩, hk⟩
            · rintro ⟨h, _, _, hk⟩
              cases h
              obtain ⟨t, h⟩ := ht.mpr ⟨rfl, hk⟩
              cases h
              exact ⟨_, rfl⟩
      · rw [if_neg h3, if_neg h3]
        exact ⟨fun ⟨_, h⟩ => (by cases h), fun ⟨h, _⟩ => (by cases h)⟩
  · rw [if_neg h2, if_neg h2]
    exact ⟨fun ⟨_, h⟩ => (by cases h), fun ⟨h, _⟩ => (by cases h)⟩

/-- C179.  A creation time after the year 9999 raises an OverflowError, even if the version is not supported. -/
theorem C179_late (data : Bytes) (h1 : 256 ≤ data.length) (h2 : leNat (slice data 0 4) = 0xC103CAC3)
    (h3 : ¬ Before10000 (leNat (slice data 40 48))) : readIndexDebug data = .error .overflow := by
  rw [debug_eq, if_neg (by omega), if_pos h2, header_error]
  unfold number
  have := slice_zero data 256 40 48 (by omega)
  rw [List.drop_zero] at this
  rw [this]
  exact h3

/-- C179.  Another file that is not shown, though it is read, raises a type error. -/
theorem C179_unknown (data : Bytes) (x : Nat × List (Nat × CacheAddress)) (h : readIndex data = .ok x) (hb : Before10000 x.1)
    (hk : ¬ ((∀ a ∈ lruAddresses data, Known a) ∧ ∀ e ∈ x.2, Known e.2.value)) :
    readIndexDebug data = .error (.of .typeError) := by
  cases hd : readIndexDebug data with
  | ok y =>
    obtain ⟨y, text⟩ := y
    have hy := (C179_shown_partial data y).mp ⟨text, hd⟩
    rw [h] at hy
    cases hy.1
    exact absurd hy.2.2 hk
  | error e =>
    rw [index_eq] at h
    rw [debug_eq] at hd
    split at h
    · cases h
    · rename_i h1
      split at h
      · rename_i h2
        split at h
        · rename_i h3
          split at h
          · cases h
          · rename_i h4
            cases h
            obtain ⟨header, hh⟩ := (header_ok (data.take 256)).mpr hb
            rw [if_neg h1, if_pos h2, hh] at hd
            dsimp only at hd
            rw [if_pos h3, if_neg h4] at hd
            cases hl : lruText ((data.drop 256).take 112) with
            | error e' =>
              rw [hl] at hd
              cases hd
              rw [lru_error _ _ hl]
            | ok lru =>
              rw [hl] at hd
              dsimp only at hd
              cases ht : tableDebug 0 (data.drop 368) with
              | error e' =>
                rw [ht] at hd
                cases hd
                rw [table_error _ _ _ ht]
              | ok y =>
                rw [ht] at hd
                cases hd
        · cases h
      · cases h

/-- The lines of addresses with their positions. -/
theorem lines_eq (d : Str) (i : Nat) (l : List Nat) (t : Str) (h : addressLines d i l = .ok t) :
    ∃ ts : List Str, ts.length = l.length ∧ (∀ x ∈ l.zip ts, addressText (cacheAddress x.1) = .ok x.2) ∧
      t = (ts.mapIdx fun j u => formatValue (d ++ dec (i + j)) u).flatten := by
  induction l generalizing i t with
  | nil =>
    cases h
    exact ⟨[], rfl, fun _ hx => absurd hx List.not_mem_nil, rfl⟩
  | cons a l ih =>
    rw [addressLines] at h
    unfold addressLine at h
    cases ha : addressText (cacheAddress a) with
    | error e =>
      rw [ha] at h
      cases h
    | ok u =>
      rw [ha] at h
      cases hl : addressLines d (i + 1) l with
      | error e =>
        rw [hl] at h
        cases h
      | ok v =>
        rw [hl] at h
        cases h
        obtain ⟨ts, h1, h2, rfl⟩ := ih _ _ hl
        refine ⟨u :: ts, by rw [List.length_cons, List.length_cons, h1], ?_, ?_⟩
        · intro x hx
          rcases List.mem_cons.mp hx with rfl | hx
          · exact ha
          · exact h2 x hx
        · rw [List.mapIdx_cons, List.flatten_cons, Nat.add_zero]
          congr 3
          funext j w
          rw [Nat.add_right_comm, Nat.add_assoc, Nat.add_comm j 1]

/-- The integers of the header as the model writes them. -/
theorem header_lines (data : Bytes) : hexLine "Signature".toList (number (data.take 256) 0 4) ++
      formatValue "Minor format version".toList (dec (number (data.take 256) 4 6)) ++
      formatValue "Major format version".toList (dec (number (data.take 256) 6 8)) ++
      formatValue "Number of entries".toList (dec (number (data.take 256) 8 12)) ++
      formatValue "Stored data size".toList (dec (number (data.take 256) 12 16)) ++
      formatValue "Last created file number".toList (dec (number (data.take 256) 16 20) ++ " (f_".toList ++
        hexw 6 (number (data.take 256) 16 20) ++ ")".toList) ++
      hexLine "Unknown1".toList (number (data.take 256) 20 24) ++ hexLine "Unknown2".toList (number (data.take 256) 24 28) ++
      formatValue "Table size".toList (dec (number (data.take 256) 28 32)) ++
      hexLine "Unknown3".toList (number (data.take 256) 32 36) ++ hexLine "Unknown4".toList (number (data.take 256) 36 40) =
    fieldLines headerFields data := by
  have h : ∀ i j, j ≤ 256 → number (data.take 256) i j = leNat (slice data i j) := by
    intro i j hj
    have := slice_zero data 256 i j hj
    rw [List.drop_zero] at this
    unfold number
    rw [this]
  have h0 : data.take 4 = slice data 0 4 := rfl
  rw [h 0 4 (by decide), h 4 6 (by decide), h 6 8 (by decide), h 8 12 (by decide), h 12 16 (by decide), h 16 20 (by decide),
    h 20 24 (by decide), h 24 28 (by decide), h 28 32 (by decide), h 32 36 (by decide), h 36 40 (by decide)]
  simp only [headerFields, fieldLines, hex, hexLine, List.drop_drop, take_eq_slice, h0, List.append_assoc, List.append_nil]

theorem number_part (data : Bytes) (i : Nat) (h : i + 4 ≤ 112) :
    number ((data.drop 256).take 112) i (i + 4) = leNat (slice data (256 + i) (256 + i + 4)) := by
  unfold number
  rw [slice_part _ _ _ _ h]

theorem lru_first (data : Bytes) : hexLine "Filled flag".toList (number ((data.drop 256).take 112) 8 12) ++
      (leNats 4 5 (((data.drop 256).take 112).drop 12)).flatMap (fun n => formatValue "Size".toList (dec n)) =
    fieldLines lruFirst (data.drop 264) := by
  rw [number_part data 8 (by decide), leNats_five]
  simp only [List.map_cons, List.map_nil]
  rw [slice_part _ _ _ 12 (by decide), slice_part _ _ _ _ (by decide), slice_part _ _ _ _ (by decide), slice_part _ _ _ _ (by decide),
    slice_part _ _ _ _ (by decide)]
  simp only [lruFirst, List.replicate, fieldLines, hex, hexLine, List.drop_drop, take_eq_slice, List.append_assoc, List.append_nil,
    List.flatMap_cons, List.flatMap_nil]

theorem lru_last (data : Bytes) : hexLine "Operation".toList (number ((data.drop 256).take 112) 76 80) ++
      hexLine "Operation list".toList (number ((data.drop 256).take 112) 80 84) = fieldLines lruLast (data.drop 332) := by
  rw [number_part data 76 (by decide), number_part data 80 (by decide)]
  simp only [lruLast, fieldLines, hex, hexLine, List.drop_drop, take_eq_slice, List.append_assoc, List.append_nil]

/-- C179.  The text begins with the integers of the header, the creation time of the file, to the microsecond, the flag and the sizes
of the lists, and the five heads, the five tails and the transaction with their texts. -/
theorem C179_text (data : Bytes) (x : Nat × List (Nat × CacheAddress)) (text : Str) (h : readIndexDebug data = .ok (x, text)) :
    ∃ (u : Str) (heads tails : List Str) (transaction table : Str), IsTime u (micros x.1) ∧ heads.length = 5 ∧ tails.length = 5 ∧
      (∀ y ∈ (lruAddresses data).zip (heads ++ tails ++ [transaction]), addressText (cacheAddress y.1) = .ok y.2) ∧
      tableDebug 0 (data.drop 368) = .ok (x.2, table) ∧
      text = fieldLines headerFields data ++
        formatValue "Creation time".toList (u ++ " (0x".toList ++ hexw 8 x.1 ++ ")".toList) ++ "\n".toList ++
        fieldLines lruFirst (data.drop 264) ++
        (heads.mapIdx fun j a => formatValue ("Head address: ".toList ++ dec j) a).flatten ++
        (tails.mapIdx fun j a => formatValue ("Tail address: ".toList ++ dec j) a).flatten ++
        formatValue "Transaction address".toList transaction ++ fieldLines lruLast (data.drop 332) ++ "\n".toList ++ table := by
  rw [debug_eq] at h
  by_cases h1 : data.length < 256
  · rw [if_pos h1] at h
    cases h
  rw [if_neg h1] at h
  by_cases h2 : leNat (slice data 0 4) = 0xC103CAC3
  · rw [if_pos h2] at h
    cases hh : headerText (data.take 256) with
    | error e =>
      rw [hh] at h
      cases h
    | ok header =>
      rw [hh] at h
      dsimp only at h
      by_cases h3 : supported (data.take 256) = true
      · rw [if_pos h3] at h
        by_cases h4 : data.length < 368
        · rw [if_pos h4] at h
          cases h
        · rw [if_neg h4] at h
          cases hl : lruText ((data.drop 256).take 112) with
          | error e =>
            rw [hl] at h
            cases h
          | ok lru =>
            rw [hl] at h
            dsimp only at h
            cases ht : tableDebug 0 (data.drop 368) with
            | error e =>
              rw [ht] at h
              cases h
            | ok y =>
              rw [ht] at h
              obtain ⟨es, table⟩ := y
              cases h
              unfold headerText at hh
              cases hc : timestamp (number (data.take 256) 40 48) with
              | error e =>
                rw [hc] at hh
                cases hh
              | ok creation =>
                rw [hc] at hh
                obtain ⟨u, hu, rfl⟩ := (timestamp_ok _ _).mp hc
                dsimp only at hh
                unfold lruText at hl
                cases l1 : addressLines "Head address: ".toList 0 (leNats 4 5 (((data.drop 256).take 112).drop 32)) with
                | error e =>
                  rw [l1] at hl
                  cases hl
                | ok t1 =>
                  cases l2 : addressLines "Tail address: ".toList 0 (leNats 4 5 (((data.drop 256).take 112).drop 52)) with
                  | error e =>
                    rw [l1, l2] at hl
                    cases hl
                  | ok t2 =>
                    cases l3 : addressLine "Transaction address".toList (number ((data.drop 256).take 112) 72 76) with
                    | error e =>
                      rw [l1, l2, l3] at hl
                      cases hl
                    | ok t3 =>
                      rw [l1, l2, l3] at hl
                      dsimp only at hl
                      obtain ⟨heads, a1, a2, rfl⟩ := lines_eq _ _ _ _ l1
                      obtain ⟨tails, b1, b2, rfl⟩ := lines_eq _ _ _ _ l2
                      unfold addressLine at l3
                      cases l4 : addressText (cacheAddress (number ((data.drop 256).take 112) 72 76)) with
                      | error e =>
                        rw [l4] at l3
                        cases l3
                      | ok transaction =>
                        rw [l4] at l3
                        cases l3
                        rw [leNats_five] at a1 a2 b1 b2
                        refine ⟨u, heads, tails, transaction, table, hu, a1, b1, ?_, rfl, ?_⟩
                        · have hz : lruAddresses data = ([32, 36, 40, 44, 48].map fun o => leNat (slice ((data.drop 256).take 112) o (o + 4))) ++
                              ([52, 56, 60, 64, 68].map fun o => leNat (slice ((data.drop 256).take 112) o (o + 4))) ++
                              [number ((data.drop 256).take 112) 72 76] := by
                            unfold lruAddresses number
                            simp only [List.map_cons, List.map_nil, List.cons_append, List.nil_append]
                            rw [slice_part _ _ _ _ (by decide), slice_part _ _ _ _ (by decide), slice_part _ _ _ _ (by decide),
                              slice_part _ _ _ _ (by decide), slice_part _ _ _ _ (by decide), slice_part _ _ _ _ (by decide),
                              slice_part _ _ _ _ (by decide), slice_part _ _ _ _ (by decide), slice_part _ _ _ _ (by decide),
                              slice_part _ _ _ _ (by decide), slice_part _ _ _ 72 (by decide)]
                          rw [hz, List.zip_append (by rw [List.length_append, List.length_append, a1, b1]),
                            List.zip_append (by rw [a1])]
                          intro y hy
                          rw [List.mem_append, List.mem_append] at hy
                          rcases hy with (hy | hy) | hy
                          · exact a2 y hy
                          · exact b2 y hy
                          · cases List.mem_singleton.mp hy
                            exact l4
                        · rw [← Except.ok.inj hh, ← Except.ok.inj hl]
                          rw [← header_lines, ← lru_first, ← lru_last]
                          simp only [Nat.zero_add, List.append_assoc]
                          rfl
      · rw [if_neg h3] at h
        cases h
  · rw [if_neg h2] at h
    cases h

/-- C179.  Every address of the table is written, in the order of the table, with its position. -/
theorem C179_table (i : Nat) (b : Bytes) (es : List (Nat × CacheAddress)) (text : Str) (h : tableDebug i b = .ok (es, text)) :
    ∃ ts : List Str, ts.length = es.length ∧ (∀ x ∈ es.zip ts, addressText x.1.2 = .ok x.2) ∧
      text = ((es.zip ts).map fun x => formatValue ("Cache address: ".toList ++ dec x.1.1) x.2).flatten ++ "\n".toList := by
  induction i, b using readIndexTable.induct generalizing es text with
  | case1 i b0 b1 b2 b3 rest value hv ih =>
    have hv' : leNat [b0, b1, b2, b3] ≠ 0 := hv
    rw [tableDebug] at h
    rw [if_pos hv'] at h
    cases hl : addressLine ("Cache address: ".toList ++ dec i) (leNat [b0, b1, b2, b3]) with
    | error e =>
      rw [hl] at h
      cases h
    | ok line =>
      cases ht : tableDebug (i + 1) rest with
      | error e =>
        rw [hl, ht] at h
        cases h
      | ok x =>
        obtain ⟨entries, t⟩ := x
        rw [hl, ht] at h
        cases h
        obtain ⟨ts, h1, h2, rfl⟩ := ih _ _ ht
        unfold addressLine at hl
        cases ha : addressText (cacheAddress (leNat [b0, b1, b2, b3])) with
        | error e =>
          rw [ha] at hl
          cases hl
        | ok u =>
          rw [ha] at hl
          cases hl
          refine ⟨u :: ts, by rw [List.length_cons, List.length_cons, h1], ?_, ?_⟩
          · intro x hx
            rcases List.mem_cons.mp hx with rfl | hx
            · exact ha
            · exact h2 x hx
          · simp only [List.zip_cons_cons, List.map_cons, List.flatten_cons, List.append_assoc]
  | case2 i b0 b1 b2 b3 rest value hv ih =>
    have hv' : ¬ leNat [b0, b1, b2, b3] ≠ 0 := hv
    rw [tableDebug] at h
    rw [if_neg hv'] at h
    exact ih _ _ h
  | case3 b i hb =>
    rw [tableDebug.eq_def] at h
    split at h
    · exact absurd rfl (hb _ _ _ _ _)
    · cases h
      exact ⟨[], rfl, fun _ hx => absurd hx List.not_mem_nil, rfl⟩

/-- C179.  The text of an address determines it. -/
theorem C179_address (a b : Nat) (t : Str) (ha : addressText (cacheAddress a) = .ok t) (hb : addressText (cacheAddress b) = .ok t) :
    a = b := by
  have key : ∀ c : Nat, ∀ t : Str, addressText (cacheAddress c) = .ok t → ∃ r, t = "0x".toList ++ (hexw 8 c ++ ' ' :: r) := by
    intro c t h
    unfold addressText at h
    rw [value_eq] at h
    dsimp only at h
    split at h
    · cases h
      exact ⟨"(uninitialized)".toList, by simp⟩
    · split at h
      · cases h
      · split at h
        · cases h
          simp only [List.append_assoc]
          exact ⟨_, rfl⟩
        · split at h
          · cases h
            simp only [List.append_assoc]
            exact ⟨_, rfl⟩
          · cases h
  obtain ⟨r, h1⟩ := key a t ha
  obtain ⟨s, h2⟩ := key b t hb
  rw [h1] at h2
  have := List.append_cancel_left h2
  have hn : ∀ n, ' ' ∉ hexw 8 n := fun n => hexw_notMem 8 n ' ' (by decide)
  exact hexw_injective 8 _ _ (cut (hn a) (hn b) this).1

/-- An index file of version 2.0 with a creation time, a first head address and one address in the table. -/
def sample (creation : Nat) (head : Bytes) (entry : Bytes) : Bytes :=
  [0xC3, 0xCA, 0x03, 0xC1, 0, 0, 2, 0] ++ List.replicate 32 0 ++ leBytes 8 creation ++ List.replicate 240 0 ++ head ++
    List.replicate 76 0 ++ entry

/-- C179.  The claim is false: a file of the year 10000 or with an address of a file type without files is read but not shown. -/
theorem C179_shown_claim_false : ¬ C179_shown_claim := by
  intro h
  have hr : readIndex (sample (0 : Nat) [0, 0, 0, 0] [0, 0, 0, 0xD0]) = .ok (0, [(0, cacheAddress 0xD0000000)]) := by
    rw [index_eq]
    decide +kernel
  obtain ⟨t, ht⟩ := h _ _ hr
  have := ((C179_shown_partial _ _).mp ⟨t, ht⟩).2.2.2 _ (List.mem_singleton.mpr rfl)
  rw [value_eq] at this
  revert this
  unfold Known
  decide

/-- A file that is shown. -/
example : ∃ text, readIndexDebug (sample 13000000000000000 [1, 0, 0, 0x90] [2, 0, 1, 0xA0]) =
    .ok ((13000000000000000, [(0, cacheAddress 0xA0010002)]), text) := by
  rw [C179_shown_partial]
  refine ⟨?_, ?_, ?_, ?_⟩
  · rw [index_eq]
    decide +kernel
  · unfold Before10000
    decide
  · unfold Known
    decide +kernel
  · unfold Known
    decide +kernel

/-- A late file of an unsupported version. -/
example : readIndexDebug ([0xC3, 0xCA, 0x03, 0xC1] ++ List.replicate 36 0 ++ List.replicate 8 0xFF ++ List.replicate 208 0) =
    .error .overflow :=
  C179_late _ (by decide +kernel) (by decide +kernel) (by unfold Before10000; decide +kernel)

/-- A file with an unknown address among the least recently used. -/
example : readIndexDebug (sample 0 [0, 0, 0, 0xE0] []) = .error (.of .typeError) := by
  refine C179_unknown _ (0, []) ?_ ?_ ?_
  · rw [index_eq]
    decide +kernel
  · unfold Before10000
    decide
  · unfold Known
    decide +kernel

end Dtf.ChromeCache.DebugMode
