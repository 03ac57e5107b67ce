import Verif.ChangeLogDebug
import Verif.UsnDebug
import Verif.Firefox

/-!
# What is shown of Firefox cache map files in debug mode (C200)

Nothing of the records is kept by the code: what is shown in debug mode is all that a user sees of them.
-/

namespace Dtf.FirefoxDebug
open Py DataFormat Formats Firefox
open Job (decimal custom)
open ChangeLogDebug (Out write raise fixed loop)

abbrev Str := List Char

/-! ## Model -/

def big (b : Bytes) (i j : Nat) : Nat := beNat (slice b i j)

/-- A sequence of `uint32` in big endian (firefox_cache1.yaml 60-67). -/
def numbers (b : Bytes) : Nat → Nat → List Nat
  | _, 0 => []
  | i, n + 1 => big b i (i + 4) :: numbers b (i + 4) n

/-- `_FormatArrayOfIntegersAsDecimals` (data_format.py 229-240). -/
def decimals : List Nat → Str
  | [] => []
  | [n] => dec n
  | n :: m :: l => dec n ++ ", ".toList ++ decimals (m :: l)

/-- The debug information of a header (firefox_cache1.debug.yaml 39-64).  The numbers of entries and records have a sign. -/
def headerAttributes (b : Bytes) : List (Option Attribute) :=
  [decimal "Major format version" (big b 0 2), decimal "Minor format version" (big b 2 4), decimal "Data size" (big b 4 8),
    some ⟨some "Number of entries".toList, decInt (signed 4 (big b 8 12)), false⟩, decimal "Is dirty flag" (big b 12 16),
    some ⟨some "Number of records".toList, decInt (signed 4 (big b 16 20)), false⟩,
    some ⟨some "Eviction ranks".toList, decimals (numbers b 20 32), false⟩,
    some ⟨some "Bucket usage".toList, decimals (numbers b 148 32), false⟩]

/-- The debug information of a record (firefox_cache1.debug.yaml 66-79).  There is no callback of the name `cache_lcation`, thus the
locations are written as they are (data_format.py 563 and 806). -/
def recordAttributes (r : MapRecord) : List (Option Attribute) :=
  [decimal "Hash number" r.hash, decimal "Eviction rank" r.rank, decimal "Data location" r.dataLocation,
    decimal "Metadata location" r.metadataLocation]

/-- `_ReadFileHeader` (firefox_cache1.py 53-81) in debug mode. -/
def showHeader (data : Bytes) : Out Unit :=
  (fixed "file header".toList 276 data 0).bind fun h =>
  match formatStructure (headerAttributes h) with
  | .error e => raise e
  | .ok t =>
    write t <|
    if big h 0 2 = 1 then
      if (big h 4 8 : Int) = data.length - 276 then ([], .ok ()) else raise .parseError
    else raise .parseError

def parseRecord (b : Bytes) : MapRecord := ⟨big b 0 4, big b 4 8, big b 8 12, big b 12 16⟩

/-- `_ReadRecord` (firefox_cache1.py 83-102) in debug mode: the record and the offset after it. -/
def showRecord (data : Bytes) (off : Nat) : Out (MapRecord × Nat) :=
  (fixed "record".toList 16 data off).bind fun b =>
  match formatStructure (recordAttributes (parseRecord b)) with
  | .error e => raise e
  | .ok t => (t, .ok (parseRecord b, off + 16))

/-- `ReadFileObject` (firefox_cache1.py 104-118) in debug mode; `none` is out of fuel. -/
def showMap (data : Bytes) (fuel : Nat) : Option (Out (List MapRecord)) :=
  match showHeader data with
  | (t, .error e) => some (t, .error e)
  | (t, .ok _) => (loop (showRecord data) data.length fuel 276).map (write t)

/-- `Main` (scripts/firefox_cache1.py 13-84) for a source of the name `_CACHE_MAP_` in debug mode.  Nothing is caught. -/
def script (data : Bytes) (fuel : Nat) : Option (Str × Option Err) :=
  (showMap data fuel).map fun
    | (t, .error e) => (t, some e)
    | (t, .ok _) => (t ++ "Firefox cache version 1 information:\n\n".toList, none)

/-! ## Specification -/

open RpLog.DebugMode (announcedAt dumpOf)
open Utmp.DebugMode (shownAs)

/-- A map: what is in its header but for the version and the size, and its records. -/
structure Map where
  minor : Nat
  entries : Int
  dirty : Nat
  count : Int
  ranks : List Nat
  usage : List Nat
  records : List MapRecord

def Map.Ok (m : Map) : Prop :=
  m.minor < 2 ^ 16 ∧ Utmp.Fits 4 m.entries ∧ m.dirty < 2 ^ 32 ∧ Utmp.Fits 4 m.count ∧ m.ranks.length = 32 ∧ m.usage.length = 32 ∧
    (∀ n ∈ m.ranks, n < 2 ^ 32) ∧ (∀ n ∈ m.usage, n < 2 ^ 32) ∧ 16 * m.records.length < 2 ^ 32 ∧ ∀ r ∈ m.records, r.Ok

def Map.header (m : Map) : Bytes :=
  ([beBytes 2 1, beBytes 2 m.minor, beBytes 4 (16 * m.records.length), beBytes 4 (unsigned 4 m.entries), beBytes 4 m.dirty,
    beBytes 4 (unsigned 4 m.count)] ++ m.ranks.map (beBytes 4) ++ m.usage.map (beBytes 4)).flatten

def Map.bytes (m : Map) : Bytes := m.header ++ m.records.flatMap (·.bytes)

def digits (n : Nat) : Str := Text.digits 10 n

/-- A number with its sign. -/
def withSign (v : Int) : Str := if v < 0 then '-' :: digits v.natAbs else digits v.natAbs

/-- Numbers with commas between them. -/
def listed (l : List Nat) : Str := ((l.map digits).intersperse ", ".toList).flatten

/-- What is meant to be shown of a record at an offset; `location` is the text of a location. -/
def recordShown (location : Nat → Str) (off : Nat) (r : MapRecord) : Str :=
  [announcedAt "record" off, dumpOf "Record data" r.bytes, shownAs "Hash number" (digits r.hash), shownAs "Eviction rank" (digits r.rank),
    shownAs "Data location" (location r.dataLocation), shownAs "Metadata location" (location r.metadataLocation), ['\n']].flatten

def recordsShown (location : Nat → Str) : Nat → List MapRecord → Str
  | _, [] => []
  | off, r :: l => recordShown location off r ++ recordsShown location (off + 16) l

/-- What is meant to be shown of a map. -/
def Map.shown (location : Nat → Str) (m : Map) : Str :=
  [announcedAt "file header" 0, dumpOf "File header data" m.header, shownAs "Major format version" "1".toList,
    shownAs "Minor format version" (digits m.minor), shownAs "Data size" (digits (16 * m.records.length)),
    shownAs "Number of entries" (withSign m.entries), shownAs "Is dirty flag" (digits m.dirty),
    shownAs "Number of records" (withSign m.count), shownAs "Eviction ranks" (listed m.ranks), shownAs "Bucket usage" (listed m.usage),
    ['\n'], recordsShown location 276 m.records].flatten

/-! ## Proofs -/

theorem decInt_line (v : Int) : '\n' ∉ decInt v := by
  unfold decInt
  split
  · rw [List.mem_cons, not_or]
    exact ⟨by decide, Job.dec_line _⟩
  · exact Job.dec_line _

theorem decimals_line : ∀ l, '\n' ∉ decimals l
  | [] => by simp [decimals]
  | [n] => Job.dec_line n
  | n :: m :: l => by
    rw [decimals, List.mem_append, List.mem_append]
    rintro ((h | h) | h)
    · exact Job.dec_line n h
    · revert h; decide
    · exact decimals_line (m :: l) h

theorem decimals_listed : ∀ l, decimals l = listed l
  | [] => rfl
  | [n] => by simp [decimals, listed, digits]; rfl
  | n :: m :: l => by
    rw [decimals, decimals_listed (m :: l)]
    simp only [listed, List.map_cons, List.intersperse_cons_cons, List.flatten_cons, List.append_assoc]
    rfl

theorem decInt_sign (v : Int) : decInt v = withSign v := by
  unfold decInt withSign
  rfl

theorem header_text (b : Bytes) : formatStructure (headerAttributes b) = .ok
    ([shownAs "Major format version" (digits (big b 0 2)), shownAs "Minor format version" (digits (big b 2 4)),
    shownAs "Data size" (digits (big b 4 8)), shownAs "Number of entries" (withSign (signed 4 (big b 8 12))),
    shownAs "Is dirty flag" (digits (big b 12 16)), shownAs "Number of records" (withSign (signed 4 (big b 16 20))),
    shownAs "Eviction ranks" (listed (numbers b 20 32)), shownAs "Bucket usage" (listed (numbers b 148 32)), ['\n']].flatten) := by
  unfold headerAttributes
  simp only [← decInt_sign, ← decimals_listed]
  generalize numbers b 20 32 = ranks
  generalize numbers b 148 32 = usage
  rw [Job.structure_fine]
  · simp only [List.filterMap_cons, List.filterMap_nil, UsnDebug.blockOf_decimal, UsnDebug.blockOf_line _ _ _ (decInt_line _),
      UsnDebug.blockOf_line _ _ _ (decimals_line _)]
    have := Job.closed_line [Job.line "Major format version" (dec (big b 0 2)), Job.line "Minor format version" (dec (big b 2 4)),
      Job.line "Data size" (dec (big b 4 8)), Job.line "Number of entries" (decInt (signed 4 (big b 8 12))),
      Job.line "Is dirty flag" (dec (big b 12 16)), Job.line "Number of records" (decInt (signed 4 (big b 16 20))),
      Job.line "Eviction ranks" (decimals ranks)] "Bucket usage" _ (decimals_line usage)
    simp only [List.cons_append, List.nil_append] at this
    rw [this]
    simp only [UsnDebug.line_shownAs, List.flatten_cons, List.flatten_nil, List.append_assoc, List.append_nil]
    rfl
  · simp only [List.mem_cons, List.not_mem_nil, or_false]
    rintro a (rfl | rfl | rfl | rfl | rfl | rfl | rfl | rfl)
    all_goals first
      | exact Job.fine_decimal _ _
      | exact ⟨⟨_, rfl⟩, .inr (decInt_line _)⟩
      | exact ⟨⟨_, rfl⟩, .inr (decimals_line _)⟩

theorem record_text (r : MapRecord) : formatStructure (recordAttributes r) = .ok
    ([shownAs "Hash number" (digits r.hash), shownAs "Eviction rank" (digits r.rank), shownAs "Data location" (digits r.dataLocation),
    shownAs "Metadata location" (digits r.metadataLocation), ['\n']].flatten) := by
  unfold recordAttributes
  rw [Job.structure_fine]
  · simp only [List.filterMap_cons, List.filterMap_nil, UsnDebug.blockOf_decimal]
    have := Job.closed_line [Job.line "Hash number" (dec r.hash), Job.line "Eviction rank" (dec r.rank),
      Job.line "Data location" (dec r.dataLocation)] "Metadata location" _ (Job.dec_line r.metadataLocation)
    simp only [List.cons_append, List.nil_append] at this
    rw [this]
    simp only [UsnDebug.line_shownAs, List.flatten_cons, List.flatten_nil, List.append_assoc, List.append_nil]
    rfl
  · simp only [List.mem_cons, List.not_mem_nil, or_false]
    rintro a (rfl | rfl | rfl | rfl) <;> exact Job.fine_decimal _ _

theorem bind_same (a : Out α) (f : α → Out β) : (a.bind f).2 =
    match a.2 with
    | .error e => .error e
    | .ok x => (f x).2 := by
  rcases a with ⟨t, e | x⟩ <;> rfl

theorem record_same (data : Bytes) (off : Nat) : (showRecord data off).2 =
    match structAt recordMap data off with
    | .error e => .error e
    | .ok (r, n) => .ok (r, off + n.toNat) := by
  unfold showRecord recordMap fixed
  rw [structAt_refine, structAt_fixed _ _ _ _ (by decide)]
  by_cases hl : data.length < off + 16
  · rw [if_pos hl]; rfl
  · rw [if_neg hl, bind_same]
    dsimp only [write]
    rw [record_text]
    rfl

theorem loop_same (data : Bytes) (stop : Nat) : ∀ (fuel off : Nat) (acc : List MapRecord),
    readUntil recordMap data stop fuel off acc = (loop (showRecord data) stop fuel off).map fun r => r.2.map (acc ++ ·) := by
  intro fuel
  induction fuel with
  | zero => intro off acc; rfl
  | succ fuel ih =>
    intro off acc
    rw [loop, readUntil]
    by_cases hc : off < stop
    · rw [if_pos hc, if_pos hc]
      have hs := record_same data off
      rcases hx : structAt recordMap data (off : Int) with e | ⟨x, n⟩ <;> rw [hx] at hs
      · rcases hr : showRecord data off with ⟨t, e' | y⟩
        · rw [hr] at hs; cases hs; rfl
        · rw [hr] at hs; cases hs
      · rcases hr : showRecord data off with ⟨t, e' | y⟩
        · rw [hr] at hs; cases hs
        · rw [hr] at hs
          cases hs
          dsimp only
          rw [ih]
          rcases loop (showRecord data) stop fuel (off + n.toNat) with _ | ⟨t', e | xs⟩
          · rfl
          · rfl
          · simp [Except.map]
    · rw [if_neg hc, if_neg hc]
      simp [Except.map]

/-! ## C200 -/

/-- In debug mode the same records are read as otherwise, and the same files are refused with the same exceptions. -/
theorem C200_same (data : Bytes) (fuel : Nat) : (showMap data fuel).map (·.2) = readMap data fuel := by
  unfold showMap readMap showHeader mapHeaderMap fixed
  have e0 : ((0 : Nat) : Int) = 0 := rfl
  rw [structAt_refine, ← e0, structAt_fixed _ _ _ _ (by decide)]
  by_cases hl : data.length < 0 + 276
  · rw [if_pos hl]; rfl
  · rw [if_neg hl]
    dsimp only [write, ChangeLogDebug.Out.bind, id]
    generalize List.take 276 (List.drop 0 data) = b
    rw [header_text]
    dsimp only
    rw [show beNat (slice b 0 2) = big b 0 2 from rfl, show beNat (slice b 4 8) = big b 4 8 from rfl]
    by_cases h1 : big b 0 2 = 1
    · rw [if_pos h1, if_pos h1]
      dsimp only
      by_cases h2 : (big b 4 8 : Int) = data.length - 276
      · rw [if_pos h2, if_neg (by simpa using h2), loop_same]
        dsimp only
        rw [Option.map_map, show ((276 : Nat) : Int).toNat = 276 from rfl]
        congr 1
        funext r
        rcases r with ⟨t, e | xs⟩ <;> rfl
      · rw [if_neg h2, if_pos (by simpa using h2)]; rfl
    · rw [if_neg h1, if_neg h1]; rfl

theorem numbers_fields : ∀ (l : List Nat) (a c : List Bytes) (n : Nat), (a.map List.length).sum = n → (∀ v ∈ l, v < 2 ^ 32) →
    numbers (a ++ l.map (beBytes 4) ++ c).flatten n l.length = l
  | [], _, _, _, _, _ => rfl
  | v :: l, a, c, n, hn, h => by
    have h1 : big (a ++ (v :: l).map (beBytes 4) ++ c).flatten n (n + 4) = v := by
      have := beField a 4 v (l.map (beBytes 4) ++ c) n (n + 4) hn rfl (h v (by simp))
      unfold big
      rw [show a ++ (v :: l).map (beBytes 4) ++ c = a ++ beBytes 4 v :: (l.map (beBytes 4) ++ c) by simp]
      exact this
    have h2 := numbers_fields l (a ++ [beBytes 4 v]) c (n + 4) (by simp [hn]) fun w hw => h w (List.mem_cons_of_mem _ hw)
    rw [List.length_cons, numbers, h1]
    rw [show a ++ [beBytes 4 v] ++ l.map (beBytes 4) ++ c = a ++ (v :: l).map (beBytes 4) ++ c by simp] at h2
    rw [h2]

theorem sum_words (l : List Nat) : ((l.map (beBytes 4)).map List.length).sum = 4 * l.length := by
  induction l with
  | nil => rfl
  | cons v l ih => simp only [List.map_cons, List.sum_cons, ih, beBytes_length, List.length_cons]; omega

theorem header_length (m : Map) (h : m.Ok) : m.header.length = 276 := by
  obtain ⟨_, _, _, _, h5, h6, _⟩ := h
  unfold Map.header
  rw [List.length_flatten, List.map_append, List.map_append, List.sum_append, List.sum_append, sum_words, sum_words, h5, h6]
  simp

theorem header_values (m : Map) (h : m.Ok) : big m.header 0 2 = 1 ∧ big m.header 2 4 = m.minor ∧
    big m.header 4 8 = 16 * m.records.length ∧ signed 4 (big m.header 8 12) = m.entries ∧ big m.header 12 16 = m.dirty ∧
    signed 4 (big m.header 16 20) = m.count ∧ numbers m.header 20 32 = m.ranks ∧ numbers m.header 148 32 = m.usage := by
  obtain ⟨h1, h2, h3, h4, h5, h6, h7, h8, h9, _⟩ := h
  have f8 : numbers m.header 148 32 = m.usage := by
    have := numbers_fields m.usage ([beBytes 2 1, beBytes 2 m.minor, beBytes 4 (16 * m.records.length), beBytes 4 (unsigned 4 m.entries),
      beBytes 4 m.dirty, beBytes 4 (unsigned 4 m.count)] ++ m.ranks.map (beBytes 4)) [] 148
      (by rw [List.map_append, List.sum_append, sum_words, h5]; simp) h8
    rw [List.append_nil, h6] at this
    exact this
  have f7 : numbers m.header 20 32 = m.ranks := by
    have := numbers_fields m.ranks [beBytes 2 1, beBytes 2 m.minor, beBytes 4 (16 * m.records.length), beBytes 4 (unsigned 4 m.entries),
      beBytes 4 m.dirty, beBytes 4 (unsigned 4 m.count)] (m.usage.map (beBytes 4)) 20 (by simp) h7
    rw [h5] at this
    exact this
  have s (v : Int) (hv : Utmp.Fits 4 v) : signed 4 (unsigned 4 v) = v := signed_unsigned 4 v hv.1 hv.2
  refine ⟨?_, ?_, ?_, ?_, ?_, ?_, f7, f8⟩
  · exact beField [] 2 _ _ 0 2 rfl rfl (by omega)
  · exact beField [_] 2 _ _ 2 4 (by simp) rfl (by omega)
  · exact beField [_, _] 4 _ _ 4 8 (by simp) rfl (by omega)
  · rw [← s _ h2]
    congr 1
    exact beField [_, _, _] 4 _ _ 8 12 (by simp) rfl (unsigned_lt 4 _)
  · exact beField [_, _, _, _] 4 _ _ 12 16 (by simp) rfl (by omega)
  · rw [← s _ h4]
    congr 1
    exact beField [_, _, _, _, _] 4 _ _ 16 20 (by simp) rfl (unsigned_lt 4 _)

theorem parse_bytes (r : MapRecord) (h : r.Ok) : parseRecord r.bytes = r := by
  obtain ⟨h1, h2, h3, h4⟩ := h
  have f0 : big r.bytes 0 4 = r.hash := beField [] 4 _ _ 0 4 rfl rfl (by omega)
  have f1 : big r.bytes 4 8 = r.rank := beField [_] 4 _ _ 4 8 (by simp) rfl (by omega)
  have f2 : big r.bytes 8 12 = r.dataLocation := beField [_, _] 4 _ _ 8 12 (by simp) rfl (by omega)
  have f3 : big r.bytes 12 16 = r.metadataLocation := beField [_, _, _] 4 _ _ 12 16 (by simp) rfl (by omega)
  unfold parseRecord
  rw [f0, f1, f2, f3]

theorem bytes_length (r : MapRecord) : r.bytes.length = 16 := by simp [MapRecord.bytes]

theorem showRecord_stored (r : MapRecord) (h : r.Ok) (pre post : Bytes) : showRecord (pre ++ r.bytes ++ post) pre.length =
    (recordShown digits pre.length r, .ok (r, pre.length + 16)) := by
  unfold showRecord
  rw [ChangeLogDebug.fixed_stored _ 16 pre r.bytes post (by decide) (bytes_length r)]
  dsimp only [ChangeLogDebug.Out.bind, write]
  rw [parse_bytes r h, record_text]
  dsimp only
  refine Prod.ext ?_ rfl
  simp only [recordShown, List.flatten_cons, List.flatten_nil, List.append_assoc, List.append_nil]
  rfl

theorem loop_records : ∀ (l : List MapRecord) (_ : ∀ r ∈ l, r.Ok) (pre : Bytes) (stop fuel : Nat), l.length < fuel →
    stop = pre.length + (l.flatMap (·.bytes)).length →
    loop (showRecord (pre ++ l.flatMap (·.bytes))) stop fuel pre.length = some (recordsShown digits pre.length l, .ok l) := by
  intro l
  induction l with
  | nil =>
    intro _ pre stop fuel hf hs
    obtain ⟨fuel, rfl⟩ : ∃ n, fuel = n + 1 := ⟨fuel - 1, by simp at hf; omega⟩
    rw [loop, if_neg (by simp at hs; omega)]
    rfl
  | cons r l ih =>
    intro h pre stop fuel hf hs
    obtain ⟨fuel, rfl⟩ : ∃ n, fuel = n + 1 := ⟨fuel - 1, by simp at hf; omega⟩
    rw [List.flatMap_cons, List.length_append, bytes_length] at hs
    have ih := ih (fun x hx => h x (List.mem_cons_of_mem _ hx)) (pre ++ r.bytes) stop fuel (by simp at hf; omega)
      (by rw [List.length_append, bytes_length]; omega)
    rw [List.length_append, bytes_length] at ih
    rw [loop, if_pos (by omega), List.flatMap_cons, ← List.append_assoc, showRecord_stored r (h r (by simp))]
    dsimp only
    rw [ih]
    rfl

/-- All values of all maps are shown, the locations however as numbers. -/
theorem C200_shown_partial (m : Map) (h : m.Ok) (fuel : Nat) (hf : m.records.length < fuel) :
    showMap m.bytes fuel = some (m.shown digits, .ok m.records) := by
  have hl := header_length m h
  have hr : (m.records.flatMap (·.bytes)).length = 16 * m.records.length := flatMap_fixed_length 16 _ bytes_length m.records
  obtain ⟨v1, v2, v3, v4, v5, v6, v7, v8⟩ := header_values m h
  have hx := ChangeLogDebug.fixed_stored "file header".toList 276 [] m.header (m.records.flatMap (·.bytes)) (by decide) hl
  rw [List.nil_append] at hx
  have hh : showHeader m.bytes = (readingText "file header".toList 0 ++ structureText "file header".toList m.header ++
      ([shownAs "Major format version" (digits 1), shownAs "Minor format version" (digits m.minor),
      shownAs "Data size" (digits (16 * m.records.length)), shownAs "Number of entries" (withSign m.entries),
      shownAs "Is dirty flag" (digits m.dirty), shownAs "Number of records" (withSign m.count),
      shownAs "Eviction ranks" (listed m.ranks), shownAs "Bucket usage" (listed m.usage), ['\n']].flatten ++ []), .ok ()) := by
    unfold showHeader
    rw [show m.bytes = m.header ++ m.records.flatMap (·.bytes) from rfl,
      show fixed "file header".toList 276 (m.header ++ m.records.flatMap (·.bytes)) 0 = _ from hx]
    dsimp only [ChangeLogDebug.Out.bind, write]
    rw [header_text, v1, v2, v3, v4, v5, v6, v7, v8]
    dsimp only
    rw [if_pos rfl, if_pos (by rw [List.length_append, hl, hr]; omega)]
    rfl
  have ho := loop_records m.records h.2.2.2.2.2.2.2.2.2 m.header m.bytes.length fuel hf (by unfold Map.bytes; rw [List.length_append])
  rw [hl] at ho
  unfold showMap
  rw [hh]
  dsimp only
  rw [show loop (showRecord m.bytes) m.bytes.length fuel 276 = _ from ho, Option.map_some]
  refine congrArg some (Prod.ext ?_ rfl)
  unfold write Map.shown
  simp only [List.flatten_cons, List.flatten_nil, List.append_assoc, List.append_nil]
  rfl

/-- The script writes all of this and then its title; it has nothing else to say. -/
theorem C200_script (m : Map) (h : m.Ok) (fuel : Nat) (hf : m.records.length < fuel) :
    script m.bytes fuel = some (m.shown digits ++ "Firefox cache version 1 information:\n\n".toList, none) := by
  unfold script
  rw [C200_shown_partial m h fuel hf]
  rfl

/-- The locations are shown by their parts, as `_FormatCacheLocation` writes them. -/
def C200_location_claim : Prop := ∀ m : Map, m.Ok → ∀ fuel, m.records.length < fuel →
  (showMap m.bytes fuel).map (·.1) = some (m.shown formatCacheLocation)

/-- A map of one record. -/
def sample : Map := ⟨19, 1, 0, -1, List.replicate 32 7, List.replicate 32 9, [⟨5, 6, 0x91000003, 0xA1000004⟩]⟩

theorem sample_ok : sample.Ok := by
  refine ⟨by decide, by constructor <;> decide, by decide, by constructor <;> decide, rfl, rfl, ?_, ?_, by decide, ?_⟩
  · intro n hn; rw [List.eq_of_mem_replicate hn]; omega
  · intro n hn; rw [List.eq_of_mem_replicate hn]; omega
  · intro r hr
    rw [List.mem_singleton.mp hr]
    exact ⟨by decide, by decide, by decide, by decide⟩

example : showMap sample.bytes 2 = some (sample.shown digits, .ok sample.records) := C200_shown_partial sample sample_ok 2 (by decide)

theorem location_length (a b : Nat → Str) (h : sample.shown a = sample.shown b) :
    (a 0x91000003).length + (a 0xA1000004).length = (b 0x91000003).length + (b 0xA1000004).length := by
  unfold Map.shown at h
  simp only [List.flatten_cons, List.append_cancel_left_eq] at h
  have h := congrArg List.length h
  simp only [sample, recordsShown, recordShown, List.flatten_cons, List.flatten_nil, List.length_append, Utmp.DebugMode.shownAs,
    List.length_nil] at h
  omega

/-- No location is shown by its parts, as the debug information asks for a callback that does not exist. -/
theorem C200_location_claim_false : ¬ C200_location_claim := by
  intro h
  have h := h sample sample_ok 2 (by decide)
  rw [C200_shown_partial sample sample_ok 2 (by decide), Option.map_some, Option.some.injEq] at h
  have := location_length _ _ h
  revert this
  decide +kernel

end Dtf.FirefoxDebug
