import Verif.SystemdEntries

/-!
# What is shown of systemd journals in debug mode (C205)
-/

namespace Dtf.SystemdFile
open Py DataFormat Formats Systemd
open Job (number decimal hexadecimal custom)
open ChangeLogDebug (Out write raise)
open SystemdArrays (showArrays)
open SystemdEntries (showEntries Moment)

abbrev Str := List Char

/-! ## Model -/

/-- The debug information of the header of a journal (systemd.debug.yaml 54-127).  The characters of the signature are printable and stay
the same in `_FormatStreamAsString` (data_format.py 465-476). -/
def headerAttributes (b : Bytes) : List (Option Attribute) :=
  [custom "Signature" ((slice b 0 8).map fun c => Char.ofNat c.toNat), hexadecimal 8 "Compatible flags" (number b 8 12),
    hexadecimal 8 "Incompatible flags" (number b 12 16), hexadecimal 2 "State" (number b 16 17),
    custom "Reserved" (HexDump.dump (slice b 17 24)), custom "File identifier" (HexDump.dump (slice b 24 40)),
    custom "Machine identifier" (HexDump.dump (slice b 40 56)), custom "Boot identifier" (HexDump.dump (slice b 56 72)),
    custom "Sequence number identifier" (HexDump.dump (slice b 72 88)), decimal "Header size" (number b 88 96),
    decimal "Arena size" (number b 96 104), hexadecimal 8 "Data hash table offset" (number b 104 112),
    decimal "Data hash table size" (number b 112 120), hexadecimal 8 "Field hash table offset" (number b 120 128),
    decimal "Field hash table size" (number b 128 136), hexadecimal 8 "Tail object offset" (number b 136 144),
    decimal "Number of objects" (number b 144 152), decimal "Number of entry objects" (number b 152 160),
    hexadecimal 8 "Tail entry sequence number" (number b 160 168), hexadecimal 8 "Head entry sequence number" (number b 168 176),
    hexadecimal 8 "Entry array offset" (number b 176 184), custom "Head entry real time" (Dates.formatPosix Dates.micros (number b 184 192)),
    custom "Tail entry real time" (Dates.formatPosix Dates.micros (number b 192 200)),
    hexadecimal 8 "Tail entry monotonic" (number b 200 208)]

/-- `systemd_journal_file_header` (systemd.yaml 43-107). -/
def structureMap : DataTypeMap Bytes := (fixedMap 208 id).refine fun b => if slice b 0 8 = signature then some b else none

/-- `_ReadFileHeader` (systemd.py 281-315) in debug mode: the offset of the first entry array. -/
def showHeader (data : Bytes) : Out Nat :=
  write (readingText "file header".toList 0) <|
  match structAt structureMap data 0 with
  | .error e => raise e
  | .ok (b, _) =>
    write (structureText "file header".toList b) <|
    match formatStructure (headerAttributes b) with
    | .error e => raise e
    | .ok t => write t <| if number b 88 96 ∈ [208, 224, 240] then ([], .ok (number b 176 184)) else raise .parseError

/-- `ReadFileObject` (systemd.py 345-374) in debug mode. -/
def showFile (data : Bytes) (fuel : Nat) : Option (Out (List (Entry × List Bytes))) :=
  match showHeader data with
  | (t, .error e) => some (t, .error e)
  | (t, .ok off) =>
    match showArrays data fuel off [] with
    | none => none
    | some (u, .error e) => some (t ++ u, .error e)
    | some (u, .ok offsets) => some (write t (write u (showEntries data offsets)))

/-- `Main` of scripts/systemd.py 14-73 with `--debug`: what is written, and the exception that ends it. -/
def script (data : Bytes) (fuel : Nat) : Option (Str × Option Err) :=
  (showFile data fuel).map fun
    | (t, .error e) => (t, some e)
    | (t, .ok _) => (t ++ "Systemd journal information:\n\n".toList, none)

/-! ## Specification -/

open RpLog.DebugMode (announcedAt dumpOf hexadecimalOf)
open Utmp.DebugMode (shownAs)

/-- The header of a journal. -/
structure Header where
  compatible : Nat
  incompatible : Nat
  state : UInt8
  reserved : Bytes
  file : Bytes
  machine : Bytes
  boot : Bytes
  sequence : Bytes
  size : Nat
  arena : Nat
  dataTable : Nat
  dataTableSize : Nat
  fieldTable : Nat
  fieldTableSize : Nat
  tailObject : Nat
  objects : Nat
  entries : Nat
  tailSequence : Nat
  headSequence : Nat
  array : Nat
  headTime : Nat
  tailTime : Nat
  tailMonotonic : Nat

def Header.Ok (h : Header) : Prop :=
  (h.compatible < 2 ^ 32 ∧ h.incompatible < 2 ^ 32) ∧ (h.reserved.length = 7 ∧ h.file.length = 16 ∧ h.machine.length = 16 ∧
    h.boot.length = 16 ∧ h.sequence.length = 16) ∧ (h.size = 208 ∨ h.size = 224 ∨ h.size = 240) ∧
  ∀ v ∈ [h.arena, h.dataTable, h.dataTableSize, h.fieldTable, h.fieldTableSize, h.tailObject, h.objects, h.entries, h.tailSequence,
    h.headSequence, h.array, h.headTime, h.tailTime, h.tailMonotonic], v < 2 ^ 64

def Header.bytes (h : Header) : Bytes :=
  [magic, leBytes 4 h.compatible, leBytes 4 h.incompatible, [h.state], h.reserved, h.file, h.machine, h.boot, h.sequence, leBytes 8 h.size,
    leBytes 8 h.arena, leBytes 8 h.dataTable, leBytes 8 h.dataTableSize, leBytes 8 h.fieldTable, leBytes 8 h.fieldTableSize,
    leBytes 8 h.tailObject, leBytes 8 h.objects, leBytes 8 h.entries, leBytes 8 h.tailSequence, leBytes 8 h.headSequence, leBytes 8 h.array,
    leBytes 8 h.headTime, leBytes 8 h.tailTime, leBytes 8 h.tailMonotonic].flatten

/-- What is meant to be shown of a header, with the texts of its times. -/
def Header.shown (moment : Nat → Str) (h : Header) : Str :=
  [announcedAt "file header" 0, dumpOf "File header data" h.bytes, shownAs "Signature" "LPKSHHRH".toList,
    shownAs "Compatible flags" (hexadecimalOf h.compatible), shownAs "Incompatible flags" (hexadecimalOf h.incompatible),
    shownAs "State" ("0x".toList ++ Text.zpad 2 (Text.digits 16 h.state.toNat)), dumpOf "Reserved" h.reserved, dumpOf "File identifier" h.file,
    dumpOf "Machine identifier" h.machine, dumpOf "Boot identifier" h.boot, dumpOf "Sequence number identifier" h.sequence,
    shownAs "Header size" (Text.digits 10 h.size), shownAs "Arena size" (Text.digits 10 h.arena),
    shownAs "Data hash table offset" (hexadecimalOf h.dataTable), shownAs "Data hash table size" (Text.digits 10 h.dataTableSize),
    shownAs "Field hash table offset" (hexadecimalOf h.fieldTable), shownAs "Field hash table size" (Text.digits 10 h.fieldTableSize),
    shownAs "Tail object offset" (hexadecimalOf h.tailObject), shownAs "Number of objects" (Text.digits 10 h.objects),
    shownAs "Number of entry objects" (Text.digits 10 h.entries), shownAs "Tail entry sequence number" (hexadecimalOf h.tailSequence),
    shownAs "Head entry sequence number" (hexadecimalOf h.headSequence), shownAs "Entry array offset" (hexadecimalOf h.array),
    shownAs "Head entry real time" (moment h.headTime), shownAs "Tail entry real time" (moment h.tailTime),
    shownAs "Tail entry monotonic" (hexadecimalOf h.tailMonotonic), ['\n']].flatten

/-- A journal: its header, its entry arrays and its entries are in the file. -/
structure Journal (data : Bytes) (h : Header) (a : SystemdArrays.Array) (l : List SystemdArrays.Array)
    (es : List SystemdEntries.Stored) : Prop where
  header : h.Ok ∧ HasAt data 0 h.bytes ∧ h.array = a.offset
  arrays : SystemdArrays.Linked data (a :: l)
  entries : ∀ e ∈ es, e.In data
  offsets : ((a :: l).flatMap (·.entries)).filter (· ≠ 0) = es.map (·.offset)

/-! ## Proofs -/

theorem header_text (b : Bytes) (hs : slice b 0 8 = signature) : formatStructure (headerAttributes b) = .ok
    ([shownAs "Signature" "LPKSHHRH".toList, shownAs "Compatible flags" (hexadecimalOf (number b 8 12)),
    shownAs "Incompatible flags" (hexadecimalOf (number b 12 16)), shownAs "State" ("0x".toList ++ hexw 2 (number b 16 17)),
    dumpOf "Reserved" (slice b 17 24), dumpOf "File identifier" (slice b 24 40),
    dumpOf "Machine identifier" (slice b 40 56), dumpOf "Boot identifier" (slice b 56 72), dumpOf "Sequence number identifier" (slice b 72 88),
    shownAs "Header size" (Text.digits 10 (number b 88 96)), shownAs "Arena size" (Text.digits 10 (number b 96 104)),
    shownAs "Data hash table offset" (hexadecimalOf (number b 104 112)), shownAs "Data hash table size" (Text.digits 10 (number b 112 120)),
    shownAs "Field hash table offset" (hexadecimalOf (number b 120 128)), shownAs "Field hash table size" (Text.digits 10 (number b 128 136)),
    shownAs "Tail object offset" (hexadecimalOf (number b 136 144)), shownAs "Number of objects" (Text.digits 10 (number b 144 152)),
    shownAs "Number of entry objects" (Text.digits 10 (number b 152 160)), shownAs "Tail entry sequence number" (hexadecimalOf (number b 160 168)),
    shownAs "Head entry sequence number" (hexadecimalOf (number b 168 176)), shownAs "Entry array offset" (hexadecimalOf (number b 176 184)),
    shownAs "Head entry real time" (Dates.formatPosix Dates.micros (number b 184 192)),
    shownAs "Tail entry real time" (Dates.formatPosix Dates.micros (number b 192 200)),
    shownAs "Tail entry monotonic" (hexadecimalOf (number b 200 208)), ['\n']].flatten) := by
  have h1 := SystemdEntries.moment_line _ _ (SystemdEntries.moment_of (number b 184 192))
  have h2 := SystemdEntries.moment_line _ _ (SystemdEntries.moment_of (number b 192 200))
  unfold headerAttributes
  rw [hs, show signature.map (fun c => Char.ofNat c.toNat) = "LPKSHHRH".toList by decide +kernel]
  generalize Dates.formatPosix Dates.micros (number b 184 192) = t1 at *
  generalize Dates.formatPosix Dates.micros (number b 192 200) = t2 at *
  generalize hsig : "LPKSHHRH".toList = sig
  have h3 : '\n' ∉ sig := by rw [← hsig]; decide
  rw [Job.structure_fine]
  · simp only [List.filterMap_cons, List.filterMap_nil, UsnDebug.blockOf_decimal, GzipDebug.blockOf_hex, Job.blockOf_custom _ _ h1,
      Job.blockOf_custom _ _ h2, Job.blockOf_custom _ _ h3, Job.blockOf_lines _ _ (Analyzer.dump_lines _)]
    refine congrArg Except.ok (Eq.trans (Job.closed_line [_, _, _, _, _, _, _, _, _, _, _, _, _, _, _, _, _, _, _, _, _, _, _]
      "Tail entry monotonic" _ (GzipDebug.hex_line 8 (number b 200 208))) ?_)
    simp only [UsnDebug.line_shownAs, List.flatten_cons, List.flatten_nil, List.append_assoc, List.append_nil, dumpOf]
    rfl
  · simp only [List.mem_cons, List.not_mem_nil, or_false]
    rintro a (rfl | rfl | rfl | rfl | rfl | rfl | rfl | rfl | rfl | rfl | rfl | rfl | rfl | rfl | rfl | rfl | rfl | rfl | rfl | rfl | rfl | rfl |
      rfl | rfl)
    all_goals first
      | exact Job.fine_decimal _ _
      | exact Job.fine_hexadecimal _ _ _
      | exact Job.fine_custom _ _

theorem header_same (data : Bytes) : (showHeader data).2 = readAt headerMap data 0 := by
  unfold showHeader readAt headerMap structureMap write raise
  rw [show ((0 : Nat) : Int) = 0 from rfl, structAt_refine, structAt_refine]
  rcases structAt (fixedMap 208 id) data 0 with e | ⟨b, n⟩
  · rfl
  · dsimp only
    rw [show parseHeader b = if slice b 0 8 = signature ∧ number b 88 96 ∈ [208, 224, 240] then some (number b 176 184) else none from rfl]
    by_cases h : slice b 0 8 = signature
    · rw [if_pos h]
      dsimp only
      rw [header_text b h]
      dsimp only
      by_cases h1 : number b 88 96 ∈ [208, 224, 240]
      · rw [if_pos h1, if_pos ⟨h, h1⟩]
      · rw [if_neg h1, if_neg fun hc => h1 hc.2]
    · rw [if_neg h, if_neg fun hc => h hc.1]

theorem header_shown (data : Bytes) (h : Header) (hk : h.Ok) (hat : HasAt data 0 h.bytes) :
    showHeader data = (h.shown fun v => Dates.formatPosix Dates.micros v, .ok h.array) := by
  obtain ⟨⟨k1, k2⟩, ⟨k3, k4, k5, k6, k7⟩, k8, k9⟩ := hk
  simp only [List.forall_mem_cons, List.not_mem_nil, false_implies, implies_true, and_true] at k9
  obtain ⟨n1, n2, n3, n4, n5, n6, n7, n8, n9, n10, n11, n12, n13, n14⟩ := k9
  have e8 : magic.length = 8 := by decide
  have hs : slice h.bytes 0 8 = signature := by rw [magic_eq]; exact slice_fields [] _ _ 0 8 rfl (by rw [e8])
  have f1 : number h.bytes 8 12 = h.compatible := leField [_] 4 _ _ 8 12 (by simp [e8]) rfl (by omega)
  have f2 : number h.bytes 12 16 = h.incompatible := leField [_, _] 4 _ _ 12 16 (by simp [e8]) rfl (by omega)
  have f3 : number h.bytes 16 17 = h.state.toNat := by
    have s : slice h.bytes 16 17 = [h.state] := slice_fields [_, _, _] [h.state] _ 16 17 (by simp [e8]) rfl
    unfold number; rw [s]; simp [leNat]
  have f4 : slice h.bytes 17 24 = h.reserved := slice_fields [_, _, _, _] _ _ 17 24 (by simp [e8]) (by rw [k3])
  have f5 : slice h.bytes 24 40 = h.file := slice_fields [_, _, _, _, _] _ _ 24 40 (by simp [e8, k3]) (by rw [k4])
  have f6 : slice h.bytes 40 56 = h.machine := slice_fields [_, _, _, _, _, _] _ _ 40 56 (by simp [e8, k3, k4]) (by rw [k5])
  have f7 : slice h.bytes 56 72 = h.boot := slice_fields [_, _, _, _, _, _, _] _ _ 56 72 (by simp [e8, k3, k4, k5]) (by rw [k6])
  have f8 : slice h.bytes 72 88 = h.sequence :=
    slice_fields [_, _, _, _, _, _, _, _] _ _ 72 88 (by simp [e8, k3, k4, k5, k6]) (by rw [k7])
  have g1 : number h.bytes 88 96 = h.size :=
    leField [_, _, _, _, _, _, _, _, _] 8 _ _ 88 96 (by simp [e8, k3, k4, k5, k6, k7]) rfl (by omega)
  have g2 : number h.bytes 96 104 = h.arena :=
    leField [_, _, _, _, _, _, _, _, _, _] 8 _ _ 96 104 (by simp [e8, k3, k4, k5, k6, k7]) rfl (by omega)
  have g3 : number h.bytes 104 112 = h.dataTable :=
    leField [_, _, _, _, _, _, _, _, _, _, _] 8 _ _ 104 112 (by simp [e8, k3, k4, k5, k6, k7]) rfl (by omega)
  have g4 : number h.bytes 112 120 = h.dataTableSize :=
    leField [_, _, _, _, _, _, _, _, _, _, _, _] 8 _ _ 112 120 (by simp [e8, k3, k4, k5, k6, k7]) rfl (by omega)
  have g5 : number h.bytes 120 128 = h.fieldTable :=
    leField [_, _, _, _, _, _, _, _, _, _, _, _, _] 8 _ _ 120 128 (by simp [e8, k3, k4, k5, k6, k7]) rfl (by omega)
  have g6 : number h.bytes 128 136 = h.fieldTableSize :=
    leField [_, _, _, _, _, _, _, _, _, _, _, _, _, _] 8 _ _ 128 136 (by simp [e8, k3, k4, k5, k6, k7]) rfl (by omega)
  have g7 : number h.bytes 136 144 = h.tailObject :=
    leField [_, _, _, _, _, _, _, _, _, _, _, _, _, _, _] 8 _ _ 136 144 (by simp [e8, k3, k4, k5, k6, k7]) rfl (by omega)
  have g8 : number h.bytes 144 152 = h.objects :=
    leField [_, _, _, _, _, _, _, _, _, _, _, _, _, _, _, _] 8 _ _ 144 152 (by simp [e8, k3, k4, k5, k6, k7]) rfl (by omega)
  have g9 : number h.bytes 152 160 = h.entries :=
    leField [_, _, _, _, _, _, _, _, _, _, _, _, _, _, _, _, _] 8 _ _ 152 160 (by simp [e8, k3, k4, k5, k6, k7]) rfl (by omega)
  have g10 : number h.bytes 160 168 = h.tailSequence :=
    leField [_, _, _, _, _, _, _, _, _, _, _, _, _, _, _, _, _, _] 8 _ _ 160 168 (by simp [e8, k3, k4, k5, k6, k7]) rfl (by omega)
  have g11 : number h.bytes 168 176 = h.headSequence :=
    leField [_, _, _, _, _, _, _, _, _, _, _, _, _, _, _, _, _, _, _] 8 _ _ 168 176 (by simp [e8, k3, k4, k5, k6, k7]) rfl (by omega)
  have g12 : number h.bytes 176 184 = h.array :=
    leField [_, _, _, _, _, _, _, _, _, _, _, _, _, _, _, _, _, _, _, _] 8 _ _ 176 184 (by simp [e8, k3, k4, k5, k6, k7]) rfl (by omega)
  have g13 : number h.bytes 184 192 = h.headTime :=
    leField [_, _, _, _, _, _, _, _, _, _, _, _, _, _, _, _, _, _, _, _, _] 8 _ _ 184 192 (by simp [e8, k3, k4, k5, k6, k7]) rfl (by omega)
  have g14 : number h.bytes 192 200 = h.tailTime :=
    leField [_, _, _, _, _, _, _, _, _, _, _, _, _, _, _, _, _, _, _, _, _, _] 8 _ _ 192 200 (by simp [e8, k3, k4, k5, k6, k7]) rfl (by omega)
  have g15 : number h.bytes 200 208 = h.tailMonotonic :=
    leField [_, _, _, _, _, _, _, _, _, _, _, _, _, _, _, _, _, _, _, _, _, _, _] 8 _ [] 200 208 (by simp [e8, k3, k4, k5, k6, k7]) rfl (by omega)
  have hl : h.bytes.length = 208 := by simp [Header.bytes, e8, k3, k4, k5, k6, k7]
  have he : Encodes structureMap h.bytes h.bytes := by
    refine encodes_refine _ _ _ h.bytes _ (encodes_fixed 208 id h.bytes (by omega) hl) ?_
    show (if slice h.bytes 0 8 = signature then some h.bytes else none) = _
    rw [if_pos hs]
  obtain ⟨pre, post, rfl, hp⟩ := hat
  obtain rfl := List.length_eq_zero_iff.mp hp
  have he := he [] post
  rw [show ((([] : Bytes).length : Nat) : Int) = 0 from rfl] at he
  unfold showHeader
  rw [he]
  dsimp only
  rw [header_text _ hs, f1, f2, f3, f4, f5, f6, f7, f8, g1, g2, g3, g4, g5, g6, g7, g8, g9, g10, g11, g12, g13, g14, g15]
  dsimp only
  rw [if_pos (by simpa using k8)]
  unfold write Header.shown
  dsimp only
  simp only [List.flatten_cons, List.flatten_nil, List.append_nil]
  rfl

/-! ## C205 -/

/-- In debug mode the same entries are read from a journal as otherwise, and the same files are refused with the same exceptions. -/
theorem C205_same (data : Bytes) (fuel : Nat) : (showFile data fuel).map (·.2) = readFile data fuel := by
  unfold showFile readFile
  rw [← header_same]
  rcases showHeader data with ⟨t, e | off⟩
  · rfl
  · dsimp only
    rw [← SystemdArrays.C203_same]
    rcases showArrays data fuel off [] with _ | ⟨u, e | offsets⟩
    · rfl
    · rfl
    · show some (showEntries data offsets).2 = _
      rw [SystemdEntries.C204_same]
      rfl

/-- The header, all entry arrays and then all entries with their data objects are shown, and all entries are read. -/
theorem C205_shown (data : Bytes) (h : Header) (a : SystemdArrays.Array) (l : List SystemdArrays.Array) (es : List SystemdEntries.Stored)
    (hj : Journal data h a l es) (fuel : Nat) (hf : l.length < fuel) :
    ∃ moment : Nat → Str, (∀ v, Moment v (moment v)) ∧ showFile data fuel =
      some (h.shown moment ++ SystemdArrays.allShown (a :: l) ++ es.flatMap (·.shown moment),
        .ok (es.map fun e => (e.object.value, e.items.map fun i => i.object.content))) := by
  refine ⟨fun v => Dates.formatPosix Dates.micros v, SystemdEntries.moment_of, ?_⟩
  unfold showFile
  rw [header_shown data h hj.header.1 hj.header.2.1]
  dsimp only
  rw [hj.header.2.2, SystemdArrays.C203_shown data a l hj.arrays fuel hf]
  dsimp only
  unfold showEntries
  rw [hj.offsets, SystemdEntries.all_shown _ _ _ _ es fun e he => SystemdEntries.entry_shown data e (hj.entries e he)]
  simp only [write, List.append_assoc]

/-- The script writes all of this and then its title. -/
theorem C205_script (data : Bytes) (h : Header) (a : SystemdArrays.Array) (l : List SystemdArrays.Array) (es : List SystemdEntries.Stored)
    (hj : Journal data h a l es) (fuel : Nat) (hf : l.length < fuel) :
    ∃ moment : Nat → Str, (∀ v, Moment v (moment v)) ∧ script data fuel =
      some (h.shown moment ++ SystemdArrays.allShown (a :: l) ++ es.flatMap (·.shown moment) ++ "Systemd journal information:\n\n".toList,
        none) := by
  obtain ⟨moment, hm, e⟩ := C205_shown data h a l es hj fuel hf
  refine ⟨moment, hm, ?_⟩
  unfold script
  rw [e]
  rfl

/-- The header of a journal with one array after it. -/
def sampleHeader : Header :=
  ⟨0, 0, 1, List.replicate 7 0, List.replicate 16 1, List.replicate 16 2, List.replicate 16 3, List.replicate 16 4, 240, 0, 0, 0, 0, 0, 0, 3, 1, 1,
    1, 208, 1700000000000000, 1700000000000000, 5⟩

def sampleArray : SystemdArrays.Array := ⟨208, List.replicate 6 0, [248, 0]⟩

/-- An entry with an item. -/
def sampleEntry : SystemdEntries.Stored :=
  ⟨248, List.replicate 6 0, 1, 1700000000000000, 5, List.replicate 16 3, 0, [⟨328, 7, SystemdDebug.sample⟩]⟩

/-- A journal with an entry. -/
def sampleFile : Bytes :=
  sampleHeader.bytes ++ arrayBytes (List.replicate 6 0) 0 [248, 0] ++ sampleEntry.object.bytes ++ SystemdDebug.sample.bytes

theorem sample_journal : Journal sampleFile sampleHeader sampleArray [] [sampleEntry] where
  header := by
    refine ⟨⟨by decide, ⟨rfl, rfl, rfl, rfl, rfl⟩, .inr (.inr rfl), by decide⟩, ⟨[],
      arrayBytes (List.replicate 6 0) 0 [248, 0] ++ (sampleEntry.object.bytes ++ SystemdDebug.sample.bytes), ?_, rfl⟩, rfl⟩
    simp only [sampleFile, List.nil_append, List.append_assoc]
  arrays := by
    refine ⟨⟨⟨sampleHeader.bytes, sampleEntry.object.bytes ++ SystemdDebug.sample.bytes, ?_, by decide +kernel⟩, rfl, by decide, by decide,
      by decide⟩, by simp, trivial⟩
    simp only [sampleFile, List.append_assoc]
    rfl
  entries := by
    intro e he
    rw [List.mem_singleton] at he
    subst he
    refine ⟨⟨rfl, by decide, by decide, by decide, by decide, by decide⟩, by decide, rfl, by decide, by decide,
      ⟨sampleHeader.bytes ++ arrayBytes (List.replicate 6 0) 0 [248, 0], SystemdDebug.sample.bytes, rfl, by decide +kernel⟩, ?_⟩
    intro i hi
    obtain rfl := List.mem_singleton.mp hi
    exact ⟨SystemdDebug.sample_ok, _, [], (List.append_nil _).symm, by decide +kernel⟩
  offsets := by decide

example : ∃ moment : Nat → Str, (∀ v, Moment v (moment v)) ∧ showFile sampleFile 1 =
    some (sampleHeader.shown moment ++ SystemdArrays.allShown [sampleArray] ++ [sampleEntry].flatMap (·.shown moment),
      .ok [(sampleEntry.object.value, [[65, 61, 66]])]) := C205_shown _ _ _ _ _ sample_journal 1 (by decide)

end Dtf.SystemdFile
