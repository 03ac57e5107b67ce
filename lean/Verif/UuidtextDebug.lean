import Verif.SystemdArrays
import Verif.Unified.Strings

/-!
# What is shown of uuidtext files in debug mode (C207)
-/

namespace Dtf.UuidtextDebug
open Py DataFormat Formats Unified
open Job (number decimal custom)
open ChangeLogDebug (Out write raise)

abbrev Str := List Char

/-! ## Model -/

/-- One line of `_FormatArrayOfEntryDescriptors` (unified_logging.py 5136-5139). -/
def entryText (i : Nat) (d : Nat × Nat) : Str :=
  "\t[".toList ++ Job.padded 3 i ++ "] offset: 0x".toList ++ hexw 8 d.1 ++ ", data size: ".toList ++ dec d.2

/-- The lines, from an index on. -/
def entryTexts : Nat → List (Nat × Nat) → List Str
  | _, [] => []
  | i, d :: l => entryText i d :: entryTexts (i + 1) l

/-- `_FormatArrayOfEntryDescriptors` (unified_logging.py 5124-5145). -/
def formatEntries (l : List (Nat × Nat)) : Str := Text.join ['\n'] (entryTexts 0 l) ++ ['\n']

/-- The descriptors of a header. -/
def descriptors (b : Bytes) : List (Nat × Nat) := parseDescriptors (number b 12 16) (b.drop 16)

/-- The debug information of the header (aul_uuidtext.debug.yaml 9-25).  Two bytes of the signature are not printable
(data_format.py 49-53 and 465-476). -/
def headerAttributes (b : Bytes) : List (Option Attribute) :=
  [custom "Signature" "\\x99\\x88wf".toList, decimal "Major format version" (number b 4 8), decimal "Minor format version" (number b 8 12),
    decimal "Number of entries" (number b 12 16), custom "Entry descriptors" (formatEntries (descriptors b))]

/-- `uuidtext_file_header` (aul_uuidtext.yaml), as its bytes. -/
def structureMap : DataTypeMap Bytes :=
  (sizedMap 16 (fun h => 8 * leNat (slice h 12 16)) id).refine fun b => if b.take 4 = [0x99, 0x88, 0x77, 0x66] then some b else none

/-- `_ReadFileHeader` (unified_logging.py 5172-5208) in debug mode: the descriptors and the size of the header. -/
def showHeader (data : Bytes) : Out (List (Nat × Nat) × Int) :=
  write (readingText "file header".toList 0) <|
  match structAt structureMap data 0 with
  | .error e => raise e
  | .ok (b, size) =>
    write (structureText "file header".toList b) <|
    match formatStructure (headerAttributes b) with
    | .error e => raise e
    | .ok t => write t <| if (number b 4 8, number b 8 12) ≠ (2, 1) then raise .parseError else ([], .ok (descriptors b, size))

/-- `ReadFileObject` (unified_logging.py 5265-5284) in debug mode.  What is written and returned for the footer at an offset is a
parameter. -/
def showFile {S : Type} (footer : Nat → Out S) (data : Bytes) : Out (List Entry × S) :=
  match showHeader data with
  | (t, .error e) => (t, .error e)
  | (t, .ok (ds, size)) =>
    write t <|
    match footer (layOut size.toNat ds).2 with
    | (u, .error e) => (u, .error e)
    | (u, .ok path) => (u, .ok ((layOut size.toNat ds).1, path))

/-! ## Specification -/

open RpLog.DebugMode (announcedAt dumpOf hexadecimalOf)
open Utmp.DebugMode (shownAs)

/-- What is meant to be shown of an entry: its number with at least three digits, its offset and its size. -/
def listed (i : Nat) (e : Nat × Bytes) : Str :=
  "\t[".toList ++ Text.zpad 3 (Text.digits 10 i) ++ "] offset: ".toList ++ hexadecimalOf e.1 ++ ", data size: ".toList ++
    Text.digits 10 e.2.length ++ ['\n']

/-- The bytes of the header of a file with entries, each with its offset and its strings. -/
def headerBytes (entries : List (Nat × Bytes)) : Bytes :=
  [[0x99, 0x88, 0x77, 0x66], leBytes 4 2, leBytes 4 1, leBytes 4 entries.length,
    entries.flatMap fun e => leBytes 4 e.1 ++ leBytes 4 e.2.length].flatten

/-- What is meant to be shown of the header. -/
def headerShown (entries : List (Nat × Bytes)) : Str :=
  [announcedAt "file header" 0, dumpOf "File header data" (headerBytes entries), shownAs "Signature" "\\x99\\x88wf".toList,
    shownAs "Major format version" ['2'], shownAs "Minor format version" ['1'],
    shownAs "Number of entries" (Text.digits 10 entries.length), "Entry descriptors:\n".toList,
    (entries.zipIdx.map fun p => listed p.2 p.1).flatten, ['\n']].flatten

/-! ## Proofs -/

theorem join_lines (l : List Str) (h : l ≠ []) : Text.join ['\n'] l ++ ['\n'] = (l.map (· ++ ['\n'])).flatten := by
  induction l with
  | nil => exact absurd rfl h
  | cons a l ih =>
    cases l with
    | nil => simp [Text.join]
    | cons b l =>
      rw [Text.join, List.append_assoc, ih (by simp)]
      · rfl
      · simp

theorem entry_line (i : Nat) (d : Nat × Nat) : ∃ x, entryText i d = x ++ dec d.2 := ⟨_, rfl⟩

theorem entries_end (l : List (Nat × Nat)) (d : Nat × Nat) (i : Nat) : ∃ (x : Str) (n : Nat),
    ((entryTexts i (d :: l)).map (· ++ ['\n'])).flatten = x ++ (dec n ++ ['\n']) := by
  induction l generalizing d i with
  | nil =>
    obtain ⟨x, hx⟩ := entry_line i d
    exact ⟨x, d.2, by simp [entryTexts, hx]⟩
  | cons e l ih =>
    obtain ⟨x, n, h⟩ := ih e (i + 1)
    exact ⟨(entryText i d ++ ['\n']) ++ x, n, by
      rw [entryTexts, List.map_cons, List.flatten_cons, h]; simp only [List.append_assoc]⟩

theorem dec_end (x : Str) (n : Nat) : ¬ ['\n', '\n'] <:+ x ++ (dec n ++ ['\n']) := by
  rintro ⟨y, hy⟩
  have h1 : (y ++ ['\n']) ++ ['\n'] = (x ++ dec n) ++ ['\n'] := by simpa using hy
  have h2 := List.append_cancel_right h1
  have hd : dec n ≠ [] := by
    intro hc
    have := Text.digits_ne_nil 10 n
    exact this hc
  have h3 : (dec n).getLast hd = '\n' := by
    have h4 : (x ++ dec n).getLast? = some '\n' := by rw [← h2]; simp
    rw [List.getLast?_append_of_ne_nil _ hd, List.getLast?_eq_getLast_of_ne_nil hd] at h4
    exact Option.some.inj h4
  exact Job.dec_line n (h3 ▸ List.getLast_mem hd)

theorem header_text (b : Bytes) : formatStructure (headerAttributes b) = .ok
    ([shownAs "Signature" "\\x99\\x88wf".toList, shownAs "Major format version" (Text.digits 10 (number b 4 8)),
    shownAs "Minor format version" (Text.digits 10 (number b 8 12)), shownAs "Number of entries" (Text.digits 10 (number b 12 16)),
    "Entry descriptors:\n".toList, ((entryTexts 0 (descriptors b)).map (· ++ ['\n'])).flatten, ['\n']].flatten) := by
  unfold headerAttributes
  generalize descriptors b = l
  generalize hsig : "\\x99\\x88wf".toList = sig
  have h3 : '\n' ∉ sig := by rw [← hsig]; decide
  have hm : '\n' ∈ formatEntries l := by unfold formatEntries; simp
  rw [Job.structure_fine]
  · simp only [List.filterMap_cons, List.filterMap_nil, UsnDebug.blockOf_decimal, Job.blockOf_custom _ _ h3, Job.blockOf_lines _ _ hm]
    refine congrArg Except.ok ?_
    cases l with
    | nil =>
      unfold Job.closed
      rw [if_pos]
      · simp only [UsnDebug.line_shownAs, List.flatten_cons, List.flatten_nil, List.append_assoc, List.append_nil]
        rfl
      · exact ⟨"Entry descriptors:".toList, rfl⟩
    | cons d l =>
      obtain ⟨x, n, h⟩ := entries_end l d 0
      have hj : formatEntries (d :: l) = ((entryTexts 0 (d :: l)).map (· ++ ['\n'])).flatten :=
        join_lines _ (by simp [entryTexts])
      rw [hj]
      refine Eq.trans (SystemdArrays.closed_end [_, _, _, _] _ ?_) ?_
      · rw [h, ← List.append_assoc]
        exact dec_end _ n
      · simp only [UsnDebug.line_shownAs, List.flatten_cons, List.flatten_nil, List.append_assoc, List.append_nil]
        rfl
  · simp only [List.mem_cons, List.not_mem_nil, or_false]
    rintro a (rfl | rfl | rfl | rfl | rfl)
    all_goals first
      | exact Job.fine_decimal _ _
      | exact Job.fine_custom _ _

theorem texts_listed (entries : List (Nat × Bytes)) (i : Nat) :
    ((entryTexts i (entries.map fun e => (e.1, e.2.length))).map (· ++ ['\n'])).flatten =
      ((entries.zipIdx i).map fun p => listed p.2 p.1).flatten := by
  induction entries generalizing i with
  | nil => rfl
  | cons e l ih =>
    rw [List.map_cons, entryTexts, List.map_cons, List.flatten_cons, ih, List.zipIdx_cons, List.map_cons, List.flatten_cons]
    congr 1
    unfold entryText listed hexadecimalOf
    simp only [List.append_assoc]
    rfl

/-! ## C207 -/

/-- In debug mode the same entries and the same image path are read as otherwise, and the same files are refused with the same
exceptions, if that is so for the footer. -/
theorem C207_same {S : Type} (footer : Nat → Out S) (data : Bytes) :
    (showFile footer data).2 = readUuidtext (fun off => (footer off).2) data := by
  unfold showFile showHeader readUuidtext structureMap headerMap write raise
  rw [structAt_refine, structAt_refine]
  rcases structAt (sizedMap 16 (fun h => 8 * leNat (slice h 12 16)) id) data 0 with e | ⟨b, n⟩
  · rfl
  · dsimp only
    by_cases hs : b.take 4 = [0x99, 0x88, 0x77, 0x66]
    · rw [if_pos hs, if_pos hs]
      dsimp only
      rw [header_text]
      dsimp only
      rw [show (leNat (slice b 4 8), leNat (slice b 8 12)) = (number b 4 8, number b 8 12) from rfl]
      by_cases hv : (number b 4 8, number b 8 12) ≠ (2, 1)
      · rw [if_pos hv, if_pos hv]
      · rw [if_neg hv, if_neg hv]
        dsimp only
        rw [show parseDescriptors (leNat (slice b 12 16)) (b.drop 16) = descriptors b from rfl]
        rcases footer (layOut n.toNat (descriptors b)).2 with ⟨u, e | p⟩ <;> rfl
    · rw [if_neg hs, if_neg hs]

/-- The header is shown with all its values and one line for each entry, and then the footer, which is where the strings of the entries
end.  What is missing is the text of the footer itself, a parameter here. -/
theorem C207_shown_partial {S : Type} (footer : Nat → Out S) (entries : List (Nat × Bytes)) (tail : Bytes)
    (h : ∀ e ∈ entries, e.1 < 2 ^ 32 ∧ e.2.length < 2 ^ 32) (hn : entries.length < 2 ^ 32) :
    (showFile footer (uuidtextFile entries tail)).1 =
      headerShown entries ++ (footer ((headerBytes entries).length + (entries.flatMap (·.2)).length)).1 := by
  have hdl : (entries.flatMap (fun e => leBytes 4 e.1 ++ leBytes 4 e.2.length)).length = 8 * entries.length := by
    clear h hn
    induction entries with
    | nil => rfl
    | cons e es ih => rw [List.flatMap_cons, List.length_append, ih]; simp; omega
  have hfile : uuidtextFile entries tail = headerBytes entries ++ (entries.flatMap (·.2) ++ tail) := by
    simp [uuidtextFile, headerBytes]
  have hd : descriptors (headerBytes entries) = entries.map fun e => (e.1, e.2.length) := by
    have f3 : number (headerBytes entries) 12 16 = entries.length := leField [_, _, _] 4 _ _ 12 16 (by simp) rfl (by norm_num; omega)
    have e : headerBytes entries = [[0x99, 0x88, 0x77, 0x66], leBytes 4 2, leBytes 4 1, leBytes 4 entries.length].flatten ++
      (entries.flatMap (fun e => leBytes 4 e.1 ++ leBytes 4 e.2.length) ++ []) := by simp [headerBytes]
    unfold descriptors
    rw [f3, e, List.drop_left' (by simp), parseDescriptors_bytes entries [] h]
  have f1 : number (headerBytes entries) 4 8 = 2 := leField [_] 4 _ _ 4 8 (by simp) rfl (by norm_num)
  have f2 : number (headerBytes entries) 8 12 = 1 := leField [_, _] 4 _ _ 8 12 (by simp) rfl (by norm_num)
  have f3 : number (headerBytes entries) 12 16 = entries.length := leField [_, _, _] 4 _ _ 12 16 (by simp) rfl (by norm_num; omega)
  have hl : (headerBytes entries).length = 16 + 8 * entries.length := by
    have e : headerBytes entries = [[0x99, 0x88, 0x77, 0x66], leBytes 4 2, leBytes 4 1, leBytes 4 entries.length].flatten ++
      entries.flatMap (fun e => leBytes 4 e.1 ++ leBytes 4 e.2.length) := by simp [headerBytes]
    rw [e, List.length_append, hdl]
    simp
  have henc : Encodes structureMap (headerBytes entries) (headerBytes entries) := by
    refine encodes_refine _ _ _ (headerBytes entries) _ (encodes_sized 16 (fun h => 8 * leNat (slice h 12 16)) id _ (by decide) (by omega) ?_) ?_
    · rw [hl]
      have : slice ((headerBytes entries).take 16) 12 16 = slice (headerBytes entries) 12 16 := by
        unfold slice
        rw [List.take_take]
        rfl
      rw [this]
      have f3 : leNat (slice (headerBytes entries) 12 16) = entries.length := f3
      rw [f3]
    · exact if_pos rfl
  have hst := henc [] (entries.flatMap (·.2) ++ tail)
  rw [List.nil_append, ← hfile] at hst
  unfold showFile showHeader
  rw [show ((0 : Int)) = ((([] : Bytes).length : Nat) : Int) from rfl, hst]
  dsimp only
  rw [header_text, f1, f2, f3, hd, texts_listed]
  dsimp only
  rw [if_neg (by simp)]
  unfold write
  dsimp only
  rw [Int.toNat_natCast, layOut_spec]
  dsimp only
  unfold headerShown
  rcases footer ((headerBytes entries).length + (entries.flatMap (·.2)).length) with ⟨u, e | p⟩ <;>
  · simp only [List.flatten_cons, List.flatten_nil, List.append_nil, List.append_assoc]
    rfl

/-- A file with two entries. -/
example : (showFile (fun off => (dec off, Except.ok off)) (uuidtextFile [(0x100, [97, 0]), (0x200, [98, 99, 0])] [47, 0])).1 =
    headerShown [(0x100, [97, 0]), (0x200, [98, 99, 0])] ++ "37".toList := by
  rw [C207_shown_partial _ _ _ (by decide) (by decide)]
  rfl

end Dtf.UuidtextDebug
