import Verif.SystemdDebug

/-!
# What is shown of the entry arrays of systemd journals in debug mode (C203)

The data objects of a journal are in C202, its entries in C204 and its header in C205.
-/

namespace Dtf.SystemdArrays
open Py DataFormat Formats Systemd
open Job (number decimal hexadecimal custom)
open ChangeLogDebug (Out write raise)
open SystemdDebug (headerAttributes header_text)

abbrev Str := List Char

/-! ## Model -/

/-- `_FormatEntryObjectOffsets` (systemd.py 99-116), from an index on. -/
def formatOffsets : Nat → List Nat → Str
  | _, [] => []
  | i, o :: l => formatValue ("    Entry object offset: ".toList ++ dec i) ("0x".toList ++ hexw 8 o) ++ formatOffsets (i + 1) l

/-- The debug information of the values of an entry array (systemd.debug.yaml 24-31). -/
def valueAttributes (next : Nat) (offsets : List Nat) : List (Option Attribute) :=
  [hexadecimal 8 "Next entry array offset" next, custom "Entry object offsets" (formatOffsets 0 offsets)]

/-- `systemd_journal_entry_array_object` (systemd.yaml 202-221): the size of the offsets is that of the object less 24, has to be a size
and a multiple of 8. -/
def structureMap : DataTypeMap Bytes :=
  (objectMap 24).refine fun b => if 24 ≤ number b 8 16 ∧ (number b 8 16 - 24) % 8 = 0 then some b else none

/-- `_ReadEntryArrayObject` (systemd.py 193-235) in debug mode: the offset of the next array and the offsets of the entries. -/
def showArray (data : Bytes) (off : Nat) : Out (Nat × List Nat) :=
  write (readingText "entry array object".toList off) <|
  match structAt structureMap data off with
  | .error e => raise e
  | .ok (b, _) =>
    write (structureText "entry array object".toList b) <|
    match formatStructure (headerAttributes b) with
    | .error e => raise e
    | .ok t =>
      write t <|
      if number b 0 1 = 6 then
        if number b 1 2 = 0 then
          match formatStructure (valueAttributes (number b 16 24) (ints ((number b 8 16 - 24) / 8) (b.drop 24))) with
          | .error e => raise e
          | .ok t => (t, .ok (number b 16 24, ints ((number b 8 16 - 24) / 8) (b.drop 24)))
        else raise .parseError
      else raise .parseError

/-- The entry arrays (systemd.py 356-365) in debug mode.  `none` is out of fuel. -/
def showArrays (data : Bytes) : Nat → Nat → List Nat → Option (Out (List Nat))
  | 0, _, _ => none
  | fuel + 1, off, acc =>
    match showArray data off with
    | (t, .error e) => some (t, .error e)
    | (t, .ok (next, offsets)) =>
      if next = 0 then some (t, .ok (acc ++ offsets))
      else
        match showArrays data fuel next (acc ++ offsets) with
        | none => none
        | some r => some (write t r)

/-! ## Specification -/

open RpLog.DebugMode (announcedAt dumpOf hexadecimalOf)
open Utmp.DebugMode (shownAs)

/-- An entry array, the offset at which it is and the offsets of entries in it. -/
structure Array where
  offset : Nat
  reserved : Bytes
  entries : List Nat

/-- The offset of the first of some arrays, 0 if there is none. -/
def first : List Array → Nat
  | [] => 0
  | a :: _ => a.offset

/-- The arrays are in the file, each with the offset of the next. -/
def Linked (data : Bytes) : List Array → Prop
  | [] => True
  | a :: l => (HasAt data a.offset (arrayBytes a.reserved (first l) a.entries) ∧ a.reserved.length = 6 ∧ first l < 2 ^ 64 ∧
      (∀ o ∈ a.entries, o < 2 ^ 64) ∧ 24 + 8 * a.entries.length < 2 ^ 64) ∧ (∀ b ∈ l, b.offset ≠ 0) ∧ Linked data l

/-- What is meant to be shown of the offsets of entries: a line for each, with its number. -/
def listed : List Nat → Str
  | [] => shownAs "Entry object offsets" []
  | l => "Entry object offsets:\n".toList ++
      (l.zipIdx.map fun p => shownAs ("    Entry object offset: " ++ String.ofList (Text.digits 10 p.2)) (hexadecimalOf p.1)).flatten

/-- What is meant to be shown of an array when the next is at an offset. -/
def Array.shown (a : Array) (next : Nat) : Str :=
  [announcedAt "entry array object" a.offset, dumpOf "Entry array object data" (arrayBytes a.reserved next a.entries),
    shownAs "Object type" "6 (OBJECT_ENTRY_ARRAY)".toList, shownAs "Object flags" "0x00".toList, dumpOf "Reserved" a.reserved,
    shownAs "Next entry array offset" (hexadecimalOf next), listed a.entries, ['\n']].flatten

/-- What is meant to be shown of arrays. -/
def allShown : List Array → Str
  | [] => []
  | a :: l => a.shown (first l) ++ allShown l

/-! ## Proofs -/

theorem closed_end (l : List Str) (b : Str) (h : ¬ ['\n', '\n'] <:+ b) : Job.closed (l ++ [b]) = l.flatten ++ b ++ ['\n'] := by
  unfold Job.closed
  rw [if_neg]
  · simp
  · rwa [List.getLastD_eq_getLast?, List.getLast?_concat]

theorem offset_line (i o : Nat) : formatValue ("    Entry object offset: ".toList ++ dec i) ("0x".toList ++ hexw 8 o) =
    Job.line ("    Entry object offset: " ++ String.ofList (dec i)) ("0x".toList ++ hexw 8 o) := by
  unfold Job.line
  rw [String.toList_append, show (String.ofList (dec i)).toList = dec i from String.toList_ofList]

theorem offsets_last (l : List Nat) (o i : Nat) : ∃ (x : Str) (d : String) (t : Str), formatOffsets i (o :: l) = x ++ Job.line d t ∧ '\n' ∉ t := by
  induction l generalizing o i with
  | nil => exact ⟨[], _, _, by rw [formatOffsets, formatOffsets, offset_line, List.append_nil, List.nil_append], GzipDebug.hex_line 8 o⟩
  | cons o' l ih =>
    obtain ⟨x, d, t, h, ht⟩ := ih o' (i + 1)
    exact ⟨_ ++ x, d, t, by rw [formatOffsets, h, List.append_assoc], ht⟩

theorem offsets_zip (l : List Nat) (i : Nat) : formatOffsets i l =
    ((l.zipIdx i).map fun p => shownAs ("    Entry object offset: " ++ String.ofList (Text.digits 10 p.2)) (hexadecimalOf p.1)).flatten := by
  induction l generalizing i with
  | nil => rfl
  | cons o l ih =>
    rw [formatOffsets, ih, offset_line, List.zipIdx_cons, List.map_cons, List.flatten_cons]
    rfl

theorem line_length (d : String) (t : Str) : 2 ≤ (Job.line d t).length := by
  rw [UsnDebug.line_shownAs]
  unfold shownAs
  simp only [List.length_append, show ": ".toList.length = 2 from rfl]
  omega

theorem value_text (next : Nat) (l : List Nat) : formatStructure (valueAttributes next l) = .ok
    ([shownAs "Next entry array offset" (hexadecimalOf next), listed l, ['\n']].flatten) := by
  unfold valueAttributes
  rw [Job.structure_fine]
  · cases l with
    | nil =>
      simp only [List.filterMap_cons, List.filterMap_nil, GzipDebug.blockOf_hex,
        Job.blockOf_custom "Entry object offsets" (formatOffsets 0 []) (by simp [formatOffsets])]
      have := Job.closed_line [Job.line "Next entry array offset" ("0x".toList ++ hexw 8 next)] "Entry object offsets" (formatOffsets 0 [])
        (by simp [formatOffsets])
      simp only [List.cons_append, List.nil_append] at this
      rw [this]
      simp only [UsnDebug.line_shownAs, List.flatten_cons, List.flatten_nil, List.append_assoc, List.append_nil]
      rfl
    | cons o l =>
      obtain ⟨x, d, t, h, ht⟩ := offsets_last l o 0
      have hm : '\n' ∈ formatOffsets 0 (o :: l) := by
        rw [h, UsnDebug.line_shownAs]
        unfold shownAs
        simp
      simp only [List.filterMap_cons, List.filterMap_nil, GzipDebug.blockOf_hex, Job.blockOf_lines "Entry object offsets" _ hm]
      have := closed_end [Job.line "Next entry array offset" ("0x".toList ++ hexw 8 next)]
        ("Entry object offsets".toList ++ ":\n".toList ++ formatOffsets 0 (o :: l)) (by
          rw [h, ← List.append_assoc]
          intro hs
          exact Job.line_end d t ht (List.suffix_of_suffix_length_le hs (List.suffix_append _ _) (line_length d t)))
      simp only [List.cons_append, List.nil_append] at this
      rw [this, offsets_zip]
      simp only [UsnDebug.line_shownAs, List.flatten_cons, List.flatten_nil, List.append_assoc, List.append_nil, listed]
      rfl
  · simp only [List.mem_cons, List.not_mem_nil, or_false]
    rintro a (rfl | rfl)
    · exact Job.fine_hexadecimal _ _ _
    · exact Job.fine_custom _ _

theorem array_same (data : Bytes) (off : Nat) : (showArray data off).2 = readAt arrayMap data off := by
  unfold showArray readAt arrayMap structureMap write raise
  rw [structAt_refine, structAt_refine]
  rcases structAt (objectMap 24) data off with e | ⟨b, n⟩
  · rfl
  · dsimp only
    rw [show parseArray b = if number b 0 1 = 6 ∧ number b 1 2 = 0 ∧ 24 ≤ number b 8 16 ∧ (number b 8 16 - 24) % 8 = 0 then
      some (number b 16 24, ints ((number b 8 16 - 24) / 8) (b.drop 24)) else none from rfl]
    by_cases h : 24 ≤ number b 8 16 ∧ (number b 8 16 - 24) % 8 = 0
    · rw [if_pos h]
      dsimp only
      rw [header_text, value_text]
      dsimp only
      by_cases h1 : number b 0 1 = 6
      · by_cases h2 : number b 1 2 = 0
        · rw [if_pos h1, if_pos h2, if_pos ⟨h1, h2, h⟩]
        · rw [if_pos h1, if_neg h2, if_neg fun hc => h2 hc.2.1]
      · rw [if_neg h1, if_neg fun hc => h1 hc.1]
    · rw [if_neg h, if_neg fun hc => h hc.2.2]

theorem array_shown (data : Bytes) (a : Array) (next : Nat) (h : HasAt data a.offset (arrayBytes a.reserved next a.entries))
    (h1 : a.reserved.length = 6) (h2 : next < 2 ^ 64) (h3 : ∀ o ∈ a.entries, o < 2 ^ 64) (h4 : 24 + 8 * a.entries.length < 2 ^ 64) :
    showArray data a.offset = (a.shown next, .ok (next, a.entries)) := by
  obtain ⟨off, reserved, entries⟩ := a
  dsimp only at *
  have hr := array_same data off
  rw [readAt_of _ _ _ _ _ h (array_encodes reserved next entries h1 h2 h3 h4)] at hr
  refine Prod.ext ?_ hr
  have hl : (arrayBytes reserved next entries).length = 24 + 8 * entries.length := by
    simp only [arrayBytes, List.flatten_cons, List.flatten_nil, List.length_append, leBytes_length,
      length_flatMap_le, h1, List.length_cons, List.length_nil]
    omega
  have f0 : number (arrayBytes reserved next entries) 8 16 = 24 + 8 * entries.length :=
    leField [[6], [0], reserved] 8 _ _ 8 16 (by simp [h1]) rfl (by omega)
  have f1 : number (arrayBytes reserved next entries) 16 24 = next :=
    leField [[6], [0], reserved, leBytes 8 _] 8 _ _ 16 24 (by simp [h1]) rfl (by omega)
  have f2 : number (arrayBytes reserved next entries) 0 1 = 6 := by
    have s : slice (arrayBytes reserved next entries) 0 1 = [6] := slice_fields [] [6] _ 0 1 rfl rfl
    unfold number; rw [s]; rfl
  have f3 : number (arrayBytes reserved next entries) 1 2 = 0 := by
    have s : slice (arrayBytes reserved next entries) 1 2 = [0] := slice_fields [[6]] [0] _ 1 2 rfl rfl
    unfold number; rw [s]; rfl
  have f4 : slice (arrayBytes reserved next entries) 2 8 = reserved := slice_fields [[6], [0]] reserved _ 2 8 rfl (by rw [h1])
  have f5 : ints entries.length ((arrayBytes reserved next entries).drop 24) = entries := by
    have e : arrayBytes reserved next entries = [[6], [0], reserved, leBytes 8 (24 + 8 * entries.length), leBytes 8 next].flatten ++
        (entries.flatMap (leBytes 8) ++ []) := by simp [arrayBytes]
    rw [e, List.drop_left' (by simp [h1]), ints_bytes _ h3]
  have he : Encodes structureMap (arrayBytes reserved next entries) (arrayBytes reserved next entries) := by
    refine encodes_refine _ _ _ _ _ (object_encodes 24 _ (by omega) (by omega) (by rw [hl]; exact f0)) ?_
    rw [f0, if_pos ⟨by omega, by omega⟩]
  obtain ⟨pre, post, rfl, rfl⟩ := h
  unfold showArray
  rw [he pre post]
  dsimp only
  rw [header_text, f0, f1, f2, f3, f4, show (24 + 8 * entries.length - 24) / 8 = entries.length by omega, f5, value_text]
  dsimp only
  rw [if_pos rfl, if_pos rfl]
  unfold write Array.shown
  dsimp only
  rw [show SystemdDebug.formatType 6 = "6 (OBJECT_ENTRY_ARRAY)".toList by decide +kernel,
    show SystemdDebug.formatFlags 0 = "0x00".toList by decide +kernel]
  simp only [List.flatten_cons, List.flatten_nil, List.append_nil, List.append_assoc]
  rfl

/-! ## C203 -/

/-- In debug mode the same offsets of entries are read as otherwise, and the same files are refused with the same exceptions. -/
theorem C203_same (data : Bytes) (fuel off : Nat) (acc : List Nat) :
    (showArrays data fuel off acc).map (·.2) = readArrays data fuel off acc := by
  induction fuel generalizing off acc with
  | zero => rfl
  | succ fuel ih =>
    have h := array_same data off
    unfold showArrays readArrays
    rw [← h]
    rcases showArray data off with ⟨t, e | ⟨next, offsets⟩⟩
    · rfl
    · dsimp only
      by_cases hn : next = 0
      · rw [if_pos hn, if_pos hn]
        rfl
      · rw [if_neg hn, if_neg hn, ← ih]
        rcases showArrays data fuel next (acc ++ offsets) with _ | r <;> rfl

theorem arrays_shown (data : Bytes) (l : List Array) (a : Array) (h : Linked data (a :: l)) (acc : List Nat) (fuel : Nat)
    (hf : l.length < fuel) :
    showArrays data fuel a.offset acc = some (allShown (a :: l), .ok (acc ++ (a :: l).flatMap (·.entries))) := by
  induction l generalizing a acc fuel with
  | nil =>
    obtain ⟨fuel, rfl⟩ : ∃ k, fuel = k + 1 := ⟨fuel - 1, by omega⟩
    obtain ⟨⟨h0, h1, h2, h3, h4⟩, _, _⟩ := h
    unfold showArrays
    rw [array_shown data a _ h0 h1 h2 h3 h4]
    simp [first, allShown]
  | cons b l ih =>
    obtain ⟨fuel, rfl⟩ : ∃ k, fuel = k + 1 := ⟨fuel - 1, by omega⟩
    obtain ⟨⟨h0, h1, h2, h3, h4⟩, hn, hl⟩ := h
    unfold showArrays
    rw [array_shown data a _ h0 h1 h2 h3 h4]
    dsimp only
    rw [if_neg (show first (b :: l) ≠ 0 from hn b (by simp)), show first (b :: l) = b.offset from rfl,
      ih b hl _ fuel (by simp only [List.length_cons] at hf; omega)]
    simp [write, first, allShown]

/-- All arrays are shown in their order, each with its offset, its bytes, the offset of the next and a numbered line for each entry, but
not its size; the offsets of all entries are read. -/
theorem C203_shown (data : Bytes) (a : Array) (l : List Array) (h : Linked data (a :: l)) (fuel : Nat) (hf : l.length < fuel) :
    showArrays data fuel a.offset [] = some (allShown (a :: l), .ok ((a :: l).flatMap (·.entries))) := by
  simpa using arrays_shown data l a h [] fuel hf

/-- An array with two entries, and one with none after it. -/
def sample : List Array := [⟨0, [0, 0, 0, 0, 0, 0], [4096, 8192]⟩, ⟨40, [0, 0, 0, 0, 0, 0], []⟩]

theorem sample_linked : Linked (arrayBytes [0, 0, 0, 0, 0, 0] 40 [4096, 8192] ++ arrayBytes [0, 0, 0, 0, 0, 0] 0 []) sample := by
  refine ⟨⟨⟨[], arrayBytes [0, 0, 0, 0, 0, 0] 0 [], rfl, rfl⟩, rfl, by decide, by decide, by decide⟩, by decide,
    ⟨⟨arrayBytes [0, 0, 0, 0, 0, 0] 40 [4096, 8192], [], by simp [first], by decide⟩, rfl, by decide, by decide, by decide⟩, by decide, trivial⟩

example : showArrays (arrayBytes [0, 0, 0, 0, 0, 0] 40 [4096, 8192] ++ arrayBytes [0, 0, 0, 0, 0, 0] 0 []) 2 0 [] =
    some (allShown sample, .ok [4096, 8192]) := C203_shown _ _ _ sample_linked 2 (by decide)

end Dtf.SystemdArrays
