import Verif.FirefoxBlocks
import Verif.Systemd

/-!
# What is shown of the data objects of systemd journals in debug mode (C202)

The entry arrays, the entries and the header of a journal are in C203, C204 and C205.
-/

namespace Dtf.SystemdDebug
open Py DataFormat Formats Systemd
open Job (number decimal hexadecimal custom)
open ChangeLogDebug (Out write raise)

abbrev Str := List Char

/-! ## Model -/

/-- `_OBJECT_TYPES` (systemd.py 40-49). -/
def objectTypes : List Str :=
  ["OBJECT_UNUSED".toList, "OBJECT_DATA".toList, "OBJECT_FIELD".toList, "OBJECT_ENTRY".toList, "OBJECT_DATA_HASH_TABLE".toList,
    "OBJECT_FIELD_HASH_TABLE".toList, "OBJECT_ENTRY_ARRAY".toList, "OBJECT_TAG".toList]

/-- `_FormatIntegerAsObjectType` (systemd.py 132-143). -/
def formatType (n : Nat) : Str := dec n ++ " (".toList ++ objectTypes.getD n "UNKNOWN".toList ++ ")".toList

/-- `_FormatIntegerAsObjectFlags` (systemd.py 116-130) with `_OBJECT_FLAGS` (29). -/
def formatFlags (n : Nat) : Str :=
  if n = 0 then "0x".toList ++ hexw 2 n
  else "0x".toList ++ hexw 2 n ++ " (".toList ++
    (if n = 1 then "OBJECT_COMPRESSED_XZ".toList else if n = 2 then "OBJECT_COMPRESSED_LZ4".toList else "UNKNOWN".toList) ++ ")".toList

/-- The debug information of the header of an object (systemd.debug.yaml).  No structure has a member of the name `data_sizes`, which is
thus left out. -/
def headerAttributes (b : Bytes) : List (Option Attribute) :=
  [custom "Object type" (formatType (number b 0 1)), custom "Object flags" (formatFlags (number b 1 2)),
    custom "Reserved" (HexDump.dump (slice b 2 8)), none]

/-- The debug information of the values of a data object (systemd.debug.yaml 3-22). -/
def valueAttributes (b : Bytes) : List (Option Attribute) :=
  [hexadecimal 8 "Hash" (number b 16 24), hexadecimal 8 "Next hash offset" (number b 24 32),
    hexadecimal 8 "Next field offset" (number b 32 40), hexadecimal 8 "Entry offset" (number b 40 48),
    hexadecimal 8 "Entry array offset" (number b 48 56), decimal "Number of entries" (number b 56 64)]

/-- `systemd_journal_data_object` (systemd.yaml 127-157): the size of the data is that of the object less 64 and has to be a size. -/
def structureMap : DataTypeMap Bytes := (objectMap 64).refine fun b => if 64 ≤ number b 8 16 then some b else none

/-- `_ReadDataObject` (systemd.py 145-191) in debug mode: the data. -/
def showData (data : Bytes) (off : Nat) : Out Bytes :=
  write (readingText "data object".toList off) <|
  match structAt structureMap data off with
  | .error e => raise e
  | .ok (b, _) =>
    write (structureText "data object".toList b) <|
    match formatStructure (headerAttributes b) with
    | .error e => raise e
    | .ok t =>
      write t <|
      if number b 0 1 = 1 then
        if number b 1 2 ∈ [0, 1, 2] then
          match formatStructure (valueAttributes b) with
          | .error e => raise e
          | .ok t => (t, .ok (b.drop 64))
        else raise .parseError
      else raise .parseError

/-! ## Specification -/

open RpLog.DebugMode (announcedAt dumpOf hexadecimalOf)
open Utmp.DebugMode (shownAs)

/-- A data object. -/
structure Object where
  compression : UInt8
  reserved : Bytes
  hash : Nat
  nextHash : Nat
  nextField : Nat
  entry : Nat
  array : Nat
  count : Nat
  content : Bytes

def Object.Ok (o : Object) : Prop :=
  o.compression.toNat ≤ 2 ∧ o.reserved.length = 6 ∧ o.hash < 2 ^ 64 ∧ o.nextHash < 2 ^ 64 ∧ o.nextField < 2 ^ 64 ∧ o.entry < 2 ^ 64 ∧
    o.array < 2 ^ 64 ∧ o.count < 2 ^ 64 ∧ 64 + o.content.length < 2 ^ 64

def Object.rest (o : Object) : Bytes :=
  [leBytes 8 o.hash, leBytes 8 o.nextHash, leBytes 8 o.nextField, leBytes 8 o.entry, leBytes 8 o.array, leBytes 8 o.count].flatten

/-- The bytes of the object, as in C93. -/
def Object.bytes (o : Object) : Bytes := dataBytes o.compression o.reserved o.rest o.content

/-- The text of the compression. -/
def compressionText (c : UInt8) : Str :=
  if c = 0 then "0x00".toList else if c = 1 then "0x01 (OBJECT_COMPRESSED_XZ)".toList else "0x02 (OBJECT_COMPRESSED_LZ4)".toList

/-- What is meant to be shown of an object at an offset; `size` is what is shown of its size. -/
def Object.shown (size : Nat → Str) (off : Nat) (o : Object) : Str :=
  [announcedAt "data object" off, dumpOf "Data object data" o.bytes, shownAs "Object type" "1 (OBJECT_DATA)".toList,
    shownAs "Object flags" (compressionText o.compression), dumpOf "Reserved" o.reserved, size o.bytes.length,
    shownAs "Hash" (hexadecimalOf o.hash), shownAs "Next hash offset" (hexadecimalOf o.nextHash),
    shownAs "Next field offset" (hexadecimalOf o.nextField), shownAs "Entry offset" (hexadecimalOf o.entry),
    shownAs "Entry array offset" (hexadecimalOf o.array), shownAs "Number of entries" (Text.digits 10 o.count), ['\n']].flatten

/-! ## Proofs -/

theorem type_line (n : Nat) : '\n' ∉ formatType n := by
  have key : ∀ n, n < 8 → '\n' ∉ objectTypes.getD n "UNKNOWN".toList := by decide +kernel
  have h : '\n' ∉ objectTypes.getD n "UNKNOWN".toList := by
    by_cases hn : n < 8
    · exact key n hn
    · rw [List.getD_eq_default _ _ (by show 8 ≤ n; omega)]
      decide
  unfold formatType
  exact Job.append_line (Job.append_line (Job.append_line (Job.dec_line n) (by decide)) h) (by decide)

theorem flags_line (n : Nat) : '\n' ∉ formatFlags n := by
  have h : '\n' ∉ "0x".toList ++ hexw 2 n := Job.append_line (by decide) (Job.hexw_line _ _)
  unfold formatFlags
  split
  · exact h
  · refine Job.append_line (Job.append_line (Job.append_line h (by decide)) ?_) (by decide)
    split
    · decide
    · split <;> decide

theorem header_text (b : Bytes) : formatStructure (headerAttributes b) = .ok
    ([shownAs "Object type" (formatType (number b 0 1)), shownAs "Object flags" (formatFlags (number b 1 2)),
    dumpOf "Reserved" (slice b 2 8)].flatten) := by
  have h1 := type_line (number b 0 1)
  have h2 := flags_line (number b 1 2)
  unfold headerAttributes
  generalize formatType (number b 0 1) = t1 at *
  generalize formatFlags (number b 1 2) = t2 at *
  rw [Job.structure_fine]
  · simp only [List.filterMap_cons, List.filterMap_nil, Job.blockOf_custom _ _ h1, Job.blockOf_custom _ _ h2, Job.blockOf_none,
      Job.blockOf_lines "Reserved" _ (Analyzer.dump_lines _)]
    have := FirefoxBlocks.closed_dump [Job.line "Object type" t1, Job.line "Object flags" t2] "Reserved" (slice b 2 8)
    simp only [List.cons_append, List.nil_append] at this
    rw [this]
    simp only [UsnDebug.line_shownAs, List.flatten_cons, List.flatten_nil, List.append_assoc, List.append_nil]
  · simp only [List.mem_cons, List.not_mem_nil, or_false]
    rintro a (rfl | rfl | rfl | rfl)
    · exact Job.fine_custom _ _
    · exact Job.fine_custom _ _
    · exact Job.fine_custom _ _
    · trivial

theorem value_text (b : Bytes) : formatStructure (valueAttributes b) = .ok
    ([shownAs "Hash" (hexadecimalOf (number b 16 24)), shownAs "Next hash offset" (hexadecimalOf (number b 24 32)),
    shownAs "Next field offset" (hexadecimalOf (number b 32 40)), shownAs "Entry offset" (hexadecimalOf (number b 40 48)),
    shownAs "Entry array offset" (hexadecimalOf (number b 48 56)), shownAs "Number of entries" (Text.digits 10 (number b 56 64)),
    ['\n']].flatten) := by
  unfold valueAttributes
  rw [Job.structure_fine]
  · simp only [List.filterMap_cons, List.filterMap_nil, UsnDebug.blockOf_decimal, GzipDebug.blockOf_hex]
    have := Job.closed_line [Job.line "Hash" ("0x".toList ++ hexw 8 (number b 16 24)),
      Job.line "Next hash offset" ("0x".toList ++ hexw 8 (number b 24 32)),
      Job.line "Next field offset" ("0x".toList ++ hexw 8 (number b 32 40)), Job.line "Entry offset" ("0x".toList ++ hexw 8 (number b 40 48)),
      Job.line "Entry array offset" ("0x".toList ++ hexw 8 (number b 48 56))] "Number of entries" _ (Job.dec_line (number b 56 64))
    simp only [List.cons_append, List.nil_append] at this
    rw [this]
    simp only [UsnDebug.line_shownAs, List.flatten_cons, List.flatten_nil, List.append_assoc, List.append_nil]
    rfl
  · simp only [List.mem_cons, List.not_mem_nil, or_false]
    rintro a (rfl | rfl | rfl | rfl | rfl | rfl)
    all_goals first
      | exact Job.fine_decimal _ _
      | exact Job.fine_hexadecimal _ _ _

/-! ## C202 -/

/-- In debug mode the same data is read as otherwise, and the same objects are refused with the same exceptions. -/
theorem C202_same (data : Bytes) (off : Nat) : (showData data off).2 = readAt dataMap data off := by
  unfold showData readAt dataMap structureMap write raise
  rw [structAt_refine, structAt_refine]
  rcases structAt (objectMap 64) data off with e | ⟨b, n⟩
  · rfl
  · dsimp only
    rw [show parseData b = if number b 0 1 = 1 ∧ number b 1 2 ∈ [0, 1, 2] ∧ 64 ≤ number b 8 16 then some (b.drop 64) else none from rfl]
    by_cases h : 64 ≤ number b 8 16
    · rw [if_pos h]
      dsimp only
      rw [header_text, value_text]
      dsimp only
      by_cases h1 : number b 0 1 = 1
      · by_cases h2 : number b 1 2 ∈ [0, 1, 2]
        · rw [if_pos h1, if_pos h2, if_pos ⟨h1, h2, h⟩]
        · rw [if_pos h1, if_neg h2, if_neg fun hc => h2 hc.2.1]
      · rw [if_neg h1, if_neg fun hc => h1 hc.1]
    · rw [if_neg h, if_neg fun hc => h hc.2.2]

theorem flags_text : ∀ c : UInt8, c.toNat ≤ 2 → formatFlags (leNat [c]) = compressionText c := by
  have key : ∀ n, n ≤ 2 → formatFlags (leNat [UInt8.ofNat n]) = compressionText (UInt8.ofNat n) := by decide +kernel
  intro c hc
  have := key c.toNat hc
  rwa [UInt8.ofNat_toNat] at this

/-- All values of an object are shown with the offset at which it is, but for its size. -/
theorem C202_shown_partial (o : Object) (h : o.Ok) (pre post : Bytes) :
    showData (pre ++ o.bytes ++ post) pre.length = (o.shown (fun _ => []) pre.length, .ok o.content) := by
  obtain ⟨h1, h2, h3, h4, h5, h6, h7, h8, h9⟩ := h
  have hr : o.rest.length = 48 := by simp [Object.rest]
  refine Prod.ext ?_ ?_
  · have hb : o.bytes = [[1], [o.compression], o.reserved, leBytes 8 (64 + o.content.length), leBytes 8 o.hash, leBytes 8 o.nextHash,
      leBytes 8 o.nextField, leBytes 8 o.entry, leBytes 8 o.array, leBytes 8 o.count, o.content].flatten := by
      simp [Object.bytes, dataBytes, Object.rest]
    have hl : o.bytes.length = 64 + o.content.length := by rw [hb]; simp [h2]; omega
    have f0 : number o.bytes 0 1 = 1 := by
      have s : slice o.bytes 0 1 = [1] := by rw [hb]; exact slice_fields [] [1] _ 0 1 rfl rfl
      unfold number; rw [s]; rfl
    have f1 : number o.bytes 1 2 = leNat [o.compression] := by
      have s : slice o.bytes 1 2 = [o.compression] := by rw [hb]; exact slice_fields [[1]] [o.compression] _ 1 2 rfl rfl
      unfold number; rw [s]
    have f2 : slice o.bytes 2 8 = o.reserved := by
      rw [hb]; exact slice_fields [[1], [o.compression]] o.reserved _ 2 8 rfl (by rw [h2])
    have f3 : number o.bytes 8 16 = 64 + o.content.length := by
      rw [hb]; exact leField [_, _, _] 8 _ _ 8 16 (by simp [h2]) rfl (by omega)
    have f4 : number o.bytes 16 24 = o.hash := by
      rw [hb]; exact leField [_, _, _, _] 8 _ _ 16 24 (by simp [h2]) rfl (by omega)
    have f5 : number o.bytes 24 32 = o.nextHash := by
      rw [hb]; exact leField [_, _, _, _, _] 8 _ _ 24 32 (by simp [h2]) rfl (by omega)
    have f6 : number o.bytes 32 40 = o.nextField := by
      rw [hb]; exact leField [_, _, _, _, _, _] 8 _ _ 32 40 (by simp [h2]) rfl (by omega)
    have f7 : number o.bytes 40 48 = o.entry := by
      rw [hb]; exact leField [_, _, _, _, _, _, _] 8 _ _ 40 48 (by simp [h2]) rfl (by omega)
    have f8 : number o.bytes 48 56 = o.array := by
      rw [hb]; exact leField [_, _, _, _, _, _, _, _] 8 _ _ 48 56 (by simp [h2]) rfl (by omega)
    have f9 : number o.bytes 56 64 = o.count := by
      rw [hb]; exact leField [_, _, _, _, _, _, _, _, _] 8 _ _ 56 64 (by simp [h2]) rfl (by omega)
    have he : Encodes structureMap o.bytes o.bytes := by
      refine encodes_refine _ _ _ _ _ (object_encodes 64 _ (by omega) (by omega) (by rw [hl]; exact f3)) ?_
      rw [f3, if_pos (by omega)]
    have hm : leNat [o.compression] ∈ [0, 1, 2] := by
      rw [show leNat [o.compression] = o.compression.toNat by simp [leNat]]
      simp only [List.mem_cons, List.not_mem_nil, or_false]
      omega
    unfold showData
    rw [he pre post]
    dsimp only
    rw [header_text, value_text, f0, f1, f2, f4, f5, f6, f7, f8, f9, flags_text _ h1]
    dsimp only
    rw [if_pos rfl, if_pos hm]
    unfold write Object.shown
    dsimp only
    simp only [List.flatten_cons, List.flatten_nil, List.append_nil, List.append_assoc, List.nil_append]
    rfl
  · rw [C202_same]
    exact readAt_of _ _ _ _ _ ⟨pre, post, rfl, rfl⟩ (data_encodes _ _ _ _ h1 h2 hr h9)

/-- All values of an object are shown, also its size. -/
def C202_size_claim : Prop := ∀ o : Object, o.Ok → ∀ pre post : Bytes, (showData (pre ++ o.bytes ++ post) pre.length).1 =
  o.shown (fun n => shownAs "Data size" (Text.digits 10 n) ++ ['\n']) pre.length

/-- A data object of an entry. -/
def sample : Object := ⟨0, [0, 0, 0, 0, 0, 0], 7, 0, 0, 400, 0, 1, [65, 61, 66]⟩

theorem sample_ok : sample.Ok := by
  refine ⟨by decide, rfl, ?_, ?_, ?_, ?_, ?_, ?_, ?_⟩ <;> simp [sample]

example (pre post : Bytes) : showData (pre ++ sample.bytes ++ post) pre.length = (sample.shown (fun _ => []) pre.length, .ok [65, 61, 66]) :=
  C202_shown_partial sample sample_ok pre post

/-- The size of no object is shown, as the debug information has a member that does not exist. -/
theorem C202_size_claim_false : ¬ C202_size_claim := by
  intro h
  have h := h sample sample_ok [] []
  rw [C202_shown_partial sample sample_ok [] []] at h
  have h := congrArg List.length h
  simp only [Object.shown, List.flatten_cons, List.flatten_nil, List.length_append, List.length_nil, List.length_cons] at h
  omega

end Dtf.SystemdDebug
