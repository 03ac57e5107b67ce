import Verif.SystemdArrays

/-!
# What is shown of the entries of systemd journals in debug mode (C204)

The data objects are as in C202; the entry arrays are in C203 and the header in C205.
-/

namespace Dtf.SystemdEntries
open Py DataFormat Formats Systemd
open Job (number decimal hexadecimal custom)
open ChangeLogDebug (Out write raise)
open SystemdDebug (headerAttributes header_text showData)
open SystemdArrays (closed_end line_length)

abbrev Str := List Char

/-! ## Model -/

/-- `_FormatEntryItems` (systemd.py 76-97), from an index on, of the offsets and hashes one after the other. -/
def formatItems : Nat → List Nat → Str
  | i, o :: h :: l =>
    formatValue ("    Entry item: ".toList ++ dec i ++ " object offset".toList) ("0x".toList ++ hexw 8 o) ++
      (formatValue ("    Entry item: ".toList ++ dec i ++ " hash".toList) ("0x".toList ++ hexw 8 h) ++ formatItems (i + 1) l)
  | _, _ => []

/-- The debug information of the values of an entry (systemd.debug.yaml 33-52). -/
def valueAttributes (b : Bytes) (items : List Nat) : List (Option Attribute) :=
  [decimal "Sequence number" (number b 16 24), custom "Real time" (Dates.formatPosix Dates.micros (number b 24 32)),
    hexadecimal 8 "Monotonic" (number b 32 40), custom "Boot identifier" (HexDump.dump (slice b 40 56)),
    hexadecimal 8 "XOR hash" (number b 56 64), custom "Entry items" (formatItems 0 items)]

/-- `systemd_journal_entry_object` (systemd.yaml 169-200): the size of the items is that of the object less 64, has to be a size and a
multiple of 16. -/
def structureMap : DataTypeMap Bytes :=
  (objectMap 64).refine fun b => if 64 ≤ number b 8 16 ∧ (number b 8 16 - 64) % 16 = 0 then some b else none

/-- `_ReadEntryObject` (systemd.py 237-279) in debug mode. -/
def showObject (data : Bytes) (off : Nat) : Out Entry :=
  write (readingText "entry object".toList off) <|
  match structAt structureMap data off with
  | .error e => raise e
  | .ok (b, _) =>
    write (structureText "entry object".toList b) <|
    match formatStructure (headerAttributes b) with
    | .error e => raise e
    | .ok t =>
      write t <|
      if number b 0 1 = 3 then
        if number b 1 2 = 0 then
          match formatStructure (valueAttributes b (ints ((number b 8 16 - 64) / 8) (b.drop 64))) with
          | .error e => raise e
          | .ok t => (t, .ok ⟨number b 16 24, number b 24 32, ints ((number b 8 16 - 64) / 8) (b.drop 64)⟩)
        else raise .parseError
      else raise .parseError

/-- Reading at one offset after the other. -/
def showAll {σ : Type} (f : Nat → Out σ) : List Nat → Out (List σ)
  | [] => ([], .ok [])
  | off :: l =>
    match f off with
    | (t, .error e) => (t, .error e)
    | (t, .ok x) =>
      write t <|
      match showAll f l with
      | (u, .error e) => (u, .error e)
      | (u, .ok xs) => (u, .ok (x :: xs))

/-- An entry with its data (systemd.py 371-374) in debug mode. -/
def showEntry (data : Bytes) (off : Nat) : Out (Entry × List Bytes) :=
  match showObject data off with
  | (t, .error e) => (t, .error e)
  | (t, .ok e) =>
    write t <|
    match showAll (showData data) (evens e.items) with
    | (u, .error e) => (u, .error e)
    | (u, .ok ds) => (u, .ok (e, ds))

/-- The entries at some offsets (systemd.py 367-374) in debug mode. -/
def showEntries (data : Bytes) (offsets : List Nat) : Out (List (Entry × List Bytes)) :=
  showAll (showEntry data) (offsets.filter (· ≠ 0))

/-! ## Specification -/

open RpLog.DebugMode (announcedAt dumpOf hexadecimalOf)
open Utmp.DebugMode (shownAs)

/-- An item: the offset at which its data object is, its hash and the object. -/
structure Item where
  offset : Nat
  hash : Nat
  object : SystemdDebug.Object

/-- An entry and the offset at which it is. -/
structure Stored where
  offset : Nat
  reserved : Bytes
  sequence : Nat
  time : Nat
  monotonic : Nat
  boot : Bytes
  xorHash : Nat
  items : List Item

/-- The entry object, as in C93. -/
def Stored.object (e : Stored) : StoredEntry :=
  ⟨e.reserved, e.sequence, e.time, leBytes 8 e.monotonic ++ e.boot ++ leBytes 8 e.xorHash, e.items.map fun i => (i.offset, i.hash)⟩

/-- The entry and all of its data objects are in the file. -/
def Stored.In (data : Bytes) (e : Stored) : Prop :=
  e.object.Ok ∧ e.monotonic < 2 ^ 64 ∧ e.boot.length = 16 ∧ e.xorHash < 2 ^ 64 ∧ e.offset ≠ 0 ∧ HasAt data e.offset e.object.bytes ∧
    ∀ i ∈ e.items, i.object.Ok ∧ HasAt data i.offset i.object.bytes

/-- The text of a number of microseconds since 1970, or that it is not set. -/
def Moment (v : Nat) (t : Str) : Prop :=
  (v = 0 ∧ t = "Not set (0)".toList) ∨ (v ≠ 0 ∧ ∃ c, Dates.IsTimeSince ⟨1970, 1, 1⟩ 6 c v ∧ t = c ++ " UTC".toList)

/-- What is meant to be shown of items: two lines for each, with its number. -/
def listed : List (Nat × Nat) → Str
  | [] => shownAs "Entry items" []
  | l => "Entry items:\n".toList ++ (l.zipIdx.map fun p =>
      shownAs ("    Entry item: " ++ String.ofList (Text.digits 10 p.2) ++ " object offset") (hexadecimalOf p.1.1) ++
        shownAs ("    Entry item: " ++ String.ofList (Text.digits 10 p.2) ++ " hash") (hexadecimalOf p.1.2)).flatten

/-- What is meant to be shown of an entry and then of its data objects, with the text of its time. -/
def Stored.shown (moment : Nat → Str) (e : Stored) : Str :=
  [announcedAt "entry object" e.offset, dumpOf "Entry object data" e.object.bytes, shownAs "Object type" "3 (OBJECT_ENTRY)".toList,
    shownAs "Object flags" "0x00".toList, dumpOf "Reserved" e.reserved, shownAs "Sequence number" (Text.digits 10 e.sequence),
    shownAs "Real time" (moment e.time), shownAs "Monotonic" (hexadecimalOf e.monotonic), dumpOf "Boot identifier" e.boot,
    shownAs "XOR hash" (hexadecimalOf e.xorHash), listed e.object.items, ['\n'],
    e.items.flatMap fun i => i.object.shown (fun _ => []) i.offset].flatten

/-! ## Proofs -/

theorem moment_of (v : Nat) : Moment v (Dates.formatPosix Dates.micros v) := by
  by_cases h0 : v = 0
  · subst h0; exact .inl ⟨rfl, rfl⟩
  · exact .inr ⟨h0, (Dates.C190_posix_units v (by omega)).2.1 (by omega)⟩

theorem moment_line (v : Nat) (t : Str) (h : Moment v t) : '\n' ∉ t := by
  rcases h with ⟨_, rfl⟩ | ⟨_, c, ⟨_, n, hh, m, s, f, _, _, _, _, _, _, rfl⟩, rfl⟩
  · decide
  · rw [List.mem_append]
    rintro (h | h)
    · exact UsnDebug.writtenAs_line _ _ _ _ _ _ h
    · revert h; decide

theorem item_line (i o : Nat) (s : String) : formatValue ("    Entry item: ".toList ++ dec i ++ s.toList) ("0x".toList ++ hexw 8 o) =
    Job.line ("    Entry item: " ++ String.ofList (dec i) ++ s) ("0x".toList ++ hexw 8 o) := by
  unfold Job.line
  rw [String.toList_append, String.toList_append, show (String.ofList (dec i)).toList = dec i from String.toList_ofList]

theorem items_last : ∀ (i : Nat) (l : List Nat), formatItems i l = [] ∨
    ∃ (x : Str) (d : String) (t : Str), formatItems i l = x ++ Job.line d t ∧ '\n' ∉ t
  | i, o :: h :: l => by
    refine .inr ?_
    rw [formatItems]
    rcases items_last (i + 1) l with e | ⟨x, d, t, e, ht⟩
    · exact ⟨_, _, _, by rw [e, item_line i h, List.append_nil], GzipDebug.hex_line 8 h⟩
    · rw [e]
      generalize formatValue _ ("0x".toList ++ hexw 8 o) = u
      generalize formatValue _ ("0x".toList ++ hexw 8 h) = w
      exact ⟨u ++ (w ++ x), d, t, by simp, ht⟩
  | _, [] => .inl rfl
  | _, [_] => .inl rfl

theorem items_zip (l : List (Nat × Nat)) (i : Nat) : formatItems i (l.flatMap fun p => [p.1, p.2]) =
    ((l.zipIdx i).map fun p =>
      shownAs ("    Entry item: " ++ String.ofList (Text.digits 10 p.2) ++ " object offset") (hexadecimalOf p.1.1) ++
        shownAs ("    Entry item: " ++ String.ofList (Text.digits 10 p.2) ++ " hash") (hexadecimalOf p.1.2)).flatten := by
  induction l generalizing i with
  | nil => rfl
  | cons p l ih =>
    rw [List.flatMap_cons, List.cons_append, List.cons_append, List.nil_append, formatItems, ih, item_line, item_line, List.zipIdx_cons,
      List.map_cons, List.flatten_cons, List.append_assoc]
    rfl

/-- What is shown of items as the code has them. -/
def block (items : List Nat) : Str :=
  if formatItems 0 items = [] then shownAs "Entry items" [] else "Entry items:\n".toList ++ formatItems 0 items

theorem items_block (items : List Nat) : Job.blockOf (custom "Entry items" (formatItems 0 items)) = some (block items) ∧
    ¬ ['\n', '\n'] <:+ block items := by
  unfold block
  rcases items_last 0 items with e | ⟨x, d, t, e, ht⟩
  · rw [e, if_pos rfl, Job.blockOf_custom _ _ (by simp)]
    exact ⟨rfl, Job.line_end _ [] (by simp)⟩
  · have hm : '\n' ∈ formatItems 0 items := by
      rw [e, UsnDebug.line_shownAs]
      unfold shownAs
      simp
    rw [if_neg (List.ne_nil_of_mem hm), Job.blockOf_lines _ _ hm]
    refine ⟨rfl, ?_⟩
    rw [e, ← List.append_assoc]
    intro hs
    exact Job.line_end d t ht (List.suffix_of_suffix_length_le hs (List.suffix_append _ _) (line_length d t))

theorem block_listed (l : List (Nat × Nat)) : block (l.flatMap fun p => [p.1, p.2]) = listed l := by
  unfold block
  cases l with
  | nil => rfl
  | cons p l =>
    rw [if_neg, items_zip]
    · rfl
    · rw [List.flatMap_cons, List.cons_append, List.cons_append, formatItems]
      unfold formatValue
      simp

theorem value_text (b : Bytes) (items : List Nat) : formatStructure (valueAttributes b items) = .ok
    ([shownAs "Sequence number" (Text.digits 10 (number b 16 24)), shownAs "Real time" (Dates.formatPosix Dates.micros (number b 24 32)),
    shownAs "Monotonic" (hexadecimalOf (number b 32 40)), dumpOf "Boot identifier" (slice b 40 56),
    shownAs "XOR hash" (hexadecimalOf (number b 56 64)), block items, ['\n']].flatten) := by
  have h1 := moment_line _ _ (moment_of (number b 24 32))
  obtain ⟨h2, h3⟩ := items_block items
  unfold valueAttributes
  generalize Dates.formatPosix Dates.micros (number b 24 32) = t1 at *
  rw [Job.structure_fine]
  · simp only [List.filterMap_cons, List.filterMap_nil, UsnDebug.blockOf_decimal, GzipDebug.blockOf_hex, Job.blockOf_custom _ _ h1,
      Job.blockOf_lines "Boot identifier" _ (Analyzer.dump_lines _), h2]
    have := closed_end [Job.line "Sequence number" (dec (number b 16 24)), Job.line "Real time" t1,
      Job.line "Monotonic" ("0x".toList ++ hexw 8 (number b 32 40)), "Boot identifier".toList ++ ":\n".toList ++ HexDump.dump (slice b 40 56),
      Job.line "XOR hash" ("0x".toList ++ hexw 8 (number b 56 64))] (block items) h3
    simp only [List.cons_append, List.nil_append] at this
    refine congrArg Except.ok (Eq.trans this ?_)
    simp only [UsnDebug.line_shownAs, List.flatten_cons, List.flatten_nil, List.append_assoc, List.append_nil, dumpOf]
    rfl
  · simp only [List.mem_cons, List.not_mem_nil, or_false]
    rintro a (rfl | rfl | rfl | rfl | rfl | rfl)
    all_goals first
      | exact Job.fine_decimal _ _
      | exact Job.fine_hexadecimal _ _ _
      | exact Job.fine_custom _ _

theorem object_same (data : Bytes) (off : Nat) : (showObject data off).2 = readAt entryMap data off := by
  unfold showObject readAt entryMap structureMap write raise
  rw [structAt_refine, structAt_refine]
  rcases structAt (objectMap 64) data off with e | ⟨b, n⟩
  · rfl
  · dsimp only
    rw [show parseEntry b = if number b 0 1 = 3 ∧ number b 1 2 = 0 ∧ 64 ≤ number b 8 16 ∧ (number b 8 16 - 64) % 16 = 0 then
      some ⟨number b 16 24, number b 24 32, ints ((number b 8 16 - 64) / 8) (b.drop 64)⟩ else none from rfl]
    by_cases h : 64 ≤ number b 8 16 ∧ (number b 8 16 - 64) % 16 = 0
    · rw [if_pos h]
      dsimp only
      rw [header_text, value_text]
      dsimp only
      by_cases h1 : number b 0 1 = 3
      · by_cases h2 : number b 1 2 = 0
        · rw [if_pos h1, if_pos h2, if_pos ⟨h1, h2, h⟩]
        · rw [if_pos h1, if_neg h2, if_neg fun hc => h2 hc.2.1]
      · rw [if_neg h1, if_neg fun hc => h1 hc.1]
    · rw [if_neg h, if_neg fun hc => h hc.2.2]

theorem all_same {σ : Type} (f : Nat → Out σ) (g : Nat → Res σ) (h : ∀ off, (f off).2 = g off) (l : List Nat) :
    (showAll f l).2 = readAll g l := by
  induction l with
  | nil => rfl
  | cons off l ih =>
    unfold showAll readAll
    rw [← h off, ← ih]
    rcases f off with ⟨t, e | x⟩
    · rfl
    · dsimp only [write]
      rcases showAll f l with ⟨u, e | xs⟩ <;> rfl

theorem entry_same (data : Bytes) (off : Nat) : (showEntry data off).2 = readEntry data off := by
  unfold showEntry readEntry
  rw [← object_same]
  rcases showObject data off with ⟨t, e | e⟩
  · rfl
  · dsimp only [write]
    rw [← all_same _ _ (SystemdDebug.C202_same data)]
    rcases showAll (showData data) (evens e.items) with ⟨u, e | xs⟩ <;> rfl

theorem all_shown {α σ : Type} (f : Nat → Out σ) (off : α → Nat) (text : α → Str) (value : α → σ) (l : List α)
    (h : ∀ a ∈ l, f (off a) = (text a, .ok (value a))) : showAll f (l.map off) = (l.flatMap text, .ok (l.map value)) := by
  induction l with
  | nil => rfl
  | cons a l ih =>
    rw [List.map_cons, showAll, h a (by simp), ih fun b hb => h b (List.mem_cons_of_mem _ hb)]
    rfl

theorem object_shown (data : Bytes) (e : Stored) (h : e.In data) : (showObject data e.offset) =
    ([announcedAt "entry object" e.offset, dumpOf "Entry object data" e.object.bytes, shownAs "Object type" "3 (OBJECT_ENTRY)".toList,
    shownAs "Object flags" "0x00".toList, dumpOf "Reserved" e.reserved, shownAs "Sequence number" (Text.digits 10 e.sequence),
    shownAs "Real time" (Dates.formatPosix Dates.micros e.time), shownAs "Monotonic" (hexadecimalOf e.monotonic),
    dumpOf "Boot identifier" e.boot, shownAs "XOR hash" (hexadecimalOf e.xorHash), listed e.object.items, ['\n']].flatten,
    .ok e.object.value) := by
  obtain ⟨hk, h7, h8, h9, _, hat, _⟩ := h
  have hr := object_same data e.offset
  rw [readAt_of _ _ _ _ _ hat (entry_encodes e.object hk)] at hr
  refine Prod.ext ?_ hr
  obtain ⟨h1, h2, h3, h4, h5, h6⟩ := hk
  have hb : e.object.bytes = [[3], [0], e.reserved, leBytes 8 (64 + 16 * e.object.items.length), leBytes 8 e.sequence, leBytes 8 e.time,
      leBytes 8 e.monotonic, e.boot, leBytes 8 e.xorHash, (e.object.items.flatMap fun i => [i.1, i.2]).flatMap (leBytes 8)].flatten := by
    rw [← items_bytes]
    simp [StoredEntry.bytes, Stored.object]
  have h1 : e.reserved.length = 6 := h1
  have h2 : e.sequence < 2 ^ 64 := h2
  have h3 : e.time < 2 ^ 64 := h3
  generalize hB : e.object.bytes = B at *
  generalize e.object.items = items at *
  have hl : B.length = 64 + 16 * items.length := by
    rw [hb]
    simp only [List.flatten_cons, List.flatten_nil, List.length_append, leBytes_length, length_flatMap_le, length_items, h1, h8,
      List.length_cons, List.length_nil]
    omega
  have f0 : number B 8 16 = 64 + 16 * items.length := by
    rw [hb]; exact leField [_, _, _] 8 _ _ 8 16 (by simp [h1]) rfl (by omega)
  have f1 : number B 16 24 = e.sequence := by
    rw [hb]; exact leField [_, _, _, _] 8 _ _ 16 24 (by simp [h1]) rfl (by omega)
  have f2 : number B 24 32 = e.time := by
    rw [hb]; exact leField [_, _, _, _, _] 8 _ _ 24 32 (by simp [h1]) rfl (by omega)
  have f3 : number B 32 40 = e.monotonic := by
    rw [hb]; exact leField [_, _, _, _, _, _] 8 _ _ 32 40 (by simp [h1]) rfl (by omega)
  have f4 : slice B 40 56 = e.boot := by
    rw [hb]; exact slice_fields [_, _, _, _, _, _, _] e.boot _ 40 56 (by simp [h1]) (by rw [h8])
  have f5 : number B 56 64 = e.xorHash := by
    rw [hb]; exact leField [_, _, _, _, _, _, _, _] 8 _ _ 56 64 (by simp [h1, h8]) rfl (by omega)
  have f6 : number B 0 1 = 3 := by
    have s : slice B 0 1 = [3] := by rw [hb]; exact slice_fields [] [3] _ 0 1 rfl rfl
    unfold number; rw [s]; rfl
  have f7 : number B 1 2 = 0 := by
    have s : slice B 1 2 = [0] := by rw [hb]; exact slice_fields [[3]] [0] _ 1 2 rfl rfl
    unfold number; rw [s]; rfl
  have f8 : slice B 2 8 = e.reserved := by
    rw [hb]; exact slice_fields [[3], [0]] e.reserved _ 2 8 rfl (by rw [h1])
  have f9 : ints (2 * items.length) (B.drop 64) = items.flatMap fun i => [i.1, i.2] := by
    have e' : B = [[3], [0], e.reserved, leBytes 8 (64 + 16 * items.length), leBytes 8 e.sequence, leBytes 8 e.time, leBytes 8 e.monotonic,
        e.boot, leBytes 8 e.xorHash].flatten ++ ((items.flatMap fun i => [i.1, i.2]).flatMap (leBytes 8) ++ []) := by
      rw [hb]; simp
    rw [e', List.drop_left' (by simp [h1, h8]), ← length_items, ints_bytes]
    intro o ho
    simp only [List.mem_flatMap, List.mem_cons, List.not_mem_nil, or_false] at ho
    obtain ⟨i, hi, rfl | rfl⟩ := ho
    · exact (h5 i hi).1
    · exact (h5 i hi).2
  have he : Encodes structureMap B B := by
    refine encodes_refine _ _ _ _ _ (object_encodes 64 _ (by omega) (by omega) (by rw [hl]; exact f0)) ?_
    rw [f0, if_pos ⟨by omega, by omega⟩]
  obtain ⟨pre, post, hd, ho⟩ := hat
  rw [← ho, hd]
  unfold showObject
  rw [he pre post]
  dsimp only
  rw [header_text, value_text, f0, f1, f2, f3, f4, f5, f6, f7, f8, show (64 + 16 * items.length - 64) / 8 = 2 * items.length by omega, f9,
    block_listed]
  dsimp only
  rw [if_pos rfl, if_pos rfl]
  unfold write
  dsimp only
  rw [show SystemdDebug.formatType 3 = "3 (OBJECT_ENTRY)".toList by decide +kernel,
    show SystemdDebug.formatFlags 0 = "0x00".toList by decide +kernel]
  simp only [List.flatten_cons, List.flatten_nil, List.append_nil, List.append_assoc]
  rfl

theorem entry_shown (data : Bytes) (e : Stored) (h : e.In data) : showEntry data e.offset =
    (e.shown fun v => Dates.formatPosix Dates.micros v, .ok (e.object.value, e.items.map fun i => i.object.content)) := by
  unfold showEntry
  rw [object_shown data e h]
  dsimp only
  rw [show evens e.object.value.items = e.items.map (·.offset) by
    show evens (e.object.items.flatMap fun i => [i.1, i.2]) = _
    rw [evens_items]
    simp [Stored.object]]
  rw [all_shown (showData data) (·.offset) (fun i => i.object.shown (fun _ => []) i.offset) (fun i => i.object.content) e.items (by
    intro i hi
    obtain ⟨hk, pre, post, rfl, ho⟩ := h.2.2.2.2.2.2 i hi
    rw [← ho]
    exact SystemdDebug.C202_shown_partial i.object hk pre post)]
  unfold write Stored.shown
  simp only [List.flatten_cons, List.flatten_nil, List.append_nil, List.append_assoc]

/-! ## C204 -/

/-- In debug mode the same entries and data are read as otherwise, and the same files are refused with the same exceptions. -/
theorem C204_same (data : Bytes) (offsets : List Nat) :
    (showEntries data offsets).2 = readAll (readEntry data) (offsets.filter (· ≠ 0)) :=
  all_same _ _ (entry_same data) _

/-- All entries are shown in the order of their offsets, each with all its values, its time as one of the calendar, and then all of its data
objects; offsets that are 0 are left out. -/
theorem C204_shown (data : Bytes) (es : List Stored) (h : ∀ e ∈ es, e.In data) (offsets : List Nat)
    (ho : offsets.filter (· ≠ 0) = es.map (·.offset)) :
    ∃ moment : Nat → Str, (∀ v, Moment v (moment v)) ∧ showEntries data offsets =
      (es.flatMap (·.shown moment), .ok (es.map fun e => (e.object.value, e.items.map fun i => i.object.content))) := by
  refine ⟨fun v => Dates.formatPosix Dates.micros v, moment_of, ?_⟩
  unfold showEntries
  rw [ho]
  exact all_shown _ _ _ _ es fun e he => entry_shown data e (h e he)

/-- An entry with two items of the same data object. -/
def sample : Stored :=
  ⟨67, [0, 0, 0, 0, 0, 0], 1, 1700000000000000, 5, List.replicate 16 7, 9, [⟨0, 7, SystemdDebug.sample⟩, ⟨0, 8, SystemdDebug.sample⟩]⟩

theorem sample_in : sample.In (SystemdDebug.sample.bytes ++ sample.object.bytes) := by
  refine ⟨⟨rfl, by decide, by decide, by decide, by decide, by decide⟩, by decide, rfl, by decide, by decide,
    ⟨SystemdDebug.sample.bytes, [], by simp, by decide⟩, ?_⟩
  intro i hi
  simp only [sample, List.mem_cons, List.not_mem_nil, or_false] at hi
  rcases hi with rfl | rfl <;> exact ⟨SystemdDebug.sample_ok, [], _, rfl, rfl⟩

example : ∃ moment : Nat → Str, (∀ v, Moment v (moment v)) ∧ showEntries (SystemdDebug.sample.bytes ++ sample.object.bytes) [67, 0, 67] =
    (([sample, sample] : List Stored).flatMap (·.shown moment), .ok [(sample.object.value, [[65, 61, 66], [65, 61, 66]]),
      (sample.object.value, [[65, 61, 66], [65, 61, 66]])]) :=
  C204_shown _ [sample, sample] (by
    intro e he
    simp only [List.mem_cons, List.not_mem_nil, or_false] at he
    rcases he with rfl | rfl <;> exact sample_in) [67, 0, 67] (by decide)

end Dtf.SystemdEntries
