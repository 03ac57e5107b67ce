import Verif.ChangeLog
import Verif.Job
import Verif.RpLogDebug
import Verif.Utf
import Verif.Utf.Texts
import Verif.Scripts.Journals

/-!
# What is shown of restore point change logs in debug mode (C195)

Texts are decoded as in the model of C189.
-/

namespace Dtf.ChangeLogDebug
open Py DataFormat Formats ChangeLog
open Job (number)

abbrev Str := List Char

/-! ## Model -/

/-- What is written, and what is returned or raised after that. -/
abbrev Out (α : Type) := Str × Res α

def write (t : Str) (r : Out α) : Out α := (t ++ r.1, r.2)

def raise (e : Err) : Out α := ([], .error e)

def Out.bind (a : Out α) (f : α → Out β) : Out β :=
  match a with
  | (t, .error e) => (t, .error e)
  | (t, .ok x) => write t (f x)

/-- `rp_change_log_record_type` (rp_change_log.yaml 47-69). -/
def recordTypes : List (Nat × Str) :=
  [(0, "RecordTypeLogHeader".toList), (1, "RecordTypeLogEntry".toList), (2, "RecordTypeVolumePath".toList),
    (3, "RecordTypeFirstPath".toList), (4, "RecordTypeSecondPath".toList), (5, "RecordTypeTempPath".toList),
    (6, "RecordTypeAclInline".toList), (7, "RecordTypeAclFile".toList), (8, "RecordTypeDebugInfo".toList),
    (9, "RecordTypeShortName".toList)]

/-- `GetName(record_type) or "UNKNOWN"` (rp_change_log.py 155-157). -/
def typeName (v : Nat) : Str := (recordTypes.lookup v).getD "UNKNOWN".toList

def hex8 (v : Nat) : Str := "0x".toList ++ hexw 8 v

/-- `_DebugPrintRecordHeader` (rp_change_log.py 145-163). -/
def recordHeader (size type : Nat) : Str :=
  formatValue "Record size".toList (dec size) ++
    formatValue "Record type".toList (dec type ++ " (".toList ++ typeName type ++ ")".toList)

/-- The lines with the names of flags (rp_change_log.py 101-105 and 112-116). -/
def flagLines (table : List (Nat × Str)) (v : Nat) : Str :=
  (Journals.flagNames table v).flatMap (fun name => '\t' :: name ++ ['\n']) ++ ['\n']

/-- `_DebugPrintChangeLogEntryRecord` (rp_change_log.py 86-131). -/
def entryText (b : Bytes) : Str :=
  recordHeader (number b 0 4) (number b 4 8) ++ formatValue "Signature".toList (hex8 (number b 8 12)) ++
    formatValue "Entry type".toList (hex8 (number b 12 16)) ++ flagLines Journals.entryTypes (number b 12 16) ++
    formatValue "Entry flags".toList (hex8 (number b 16 20)) ++ flagLines Journals.entryFlags (number b 16 20) ++
    formatValue "File attribute flags".toList (hex8 (number b 20 24)) ++
    formatValue "Sequence number".toList (dec (number b 24 32)) ++ formatValue "Process name size".toList (dec (number b 64 68)) ++
    formatValue "Unknown2".toList (hex8 (number b 68 72))

/-- `_DebugPrintFileHeader` (rp_change_log.py 133-143). -/
def headerText (b : Bytes) : Str :=
  recordHeader (number b 0 4) (number b 4 8) ++ formatValue "Signature".toList (hex8 (number b 8 12)) ++
    formatValue "Format version".toList (dec (number b 12 16))

/-- `_ReadStructureFromFileObject` (data_format.py 671-745) of a structure of fixed size in debug mode. -/
def fixed (what : Str) (size : Nat) (data : Bytes) (off : Nat) : Out Bytes :=
  write (readingText what off) <|
  match structAt (fixedMap size id) data off with
  | .error e => raise e
  | .ok (b, _) => (structureText what b, .ok b)

/-- `_ReadVolumePath` (rp_change_log.py 448-480). -/
def volumePath (b : Bytes) : Out Unit :=
  if 8 ≤ b.length ∧ 8 ≤ number b 0 4 ∧ number b 0 4 ≤ b.length then
    match Utf.decode16 (slice b 8 (number b 0 4)) with
    | none => raise .parseError
    | some path =>
      write (recordHeader (number b 0 4) (number b 4 8) ++ formatValue "Volume path".toList path.dropLast ++ ['\n']) <|
      if number b 4 8 = 2 then ([], .ok ()) else raise .parseError
  else raise .parseError

/-- The last four bytes as a number (rp_change_log.py 345-355 and 273-284). -/
def copyOfSize (b : Bytes) : Option Nat :=
  if (b.drop (b.length - 4)).length = 4 then some (leNat (b.drop (b.length - 4))) else none

def copyText (n : Nat) : Str := formatValue "Copy of record size".toList (dec n) ++ ['\n']

/-- `_ReadFileHeader` (rp_change_log.py 302-368): the position after it. -/
def showHeader (data : Bytes) : Out Nat :=
  (fixed "file header".toList 16 data 0).bind fun h =>
  write (headerText h) <|
  if number h 8 12 = 0xABCDEF12 ∧ number h 4 8 = 0 ∧ number h 12 16 = 2 then
    match fileRead data 16 ((number h 0 4 : Int) - 16) with
    | .error e => raise e
    | .ok b =>
      write (dataText "Record data".toList b) <|
      (volumePath (b.take (b.length - 4))).bind fun _ =>
      match copyOfSize b with
      | none => raise .parseError
      | some copy =>
        write (copyText copy) <|
        if number h 0 4 = copy then ([], .ok (16 + b.length)) else raise .parseError
  else raise .parseError

/-- The descriptions of strings (rp_change_log.py 433-440). -/
def stringName (type : Nat) : Str :=
  if type = 4 then "Secondary path".toList else if type = 5 then "Backup filename".toList else "Short filename".toList

/-- `_ReadRecord` (rp_change_log.py 370-446): the size of the record and its type. -/
def showRecord (b : Bytes) (off : Nat) : Out (Nat × Nat) :=
  let r := b.drop off
  if r.length < 8 then raise .parseError
  else
    let size := number r 0 4
    let type := number r 4 8
    write (dataText "Record data".toList (slice b off (off + size)) ++ recordHeader size type) <|
    if type = 4 ∨ type = 5 ∨ type = 9 then
      match (utf16z (r.drop 8)).bind Utf.decode16 with
      | none => raise .parseError
      | some t => (formatValue (stringName type) t ++ ['\n'], .ok (size, type))
    else if r.length < 16 then raise .parseError
    else (['\n'], .ok (size, type))

/-- One round of the loop over the records of an entry (rp_change_log.py 267-271). -/
def showStep (b : Bytes) (stop off : Nat) : Out (Nat × Nat) :=
  match showRecord b off with
  | (t, .error e) => (t, .error e)
  | (t, .ok (size, type)) => (t, .ok (type, if size = 0 then stop else off + size))

/-- A loop up to an offset, with what is written. -/
def loop (step : Nat → Out (α × Nat)) (stop : Nat) : Nat → Nat → Option (Out (List α))
  | 0, _ => none
  | fuel + 1, off =>
    if off < stop then
      match step off with
      | (t, .error e) => some (t, .error e)
      | (t, .ok (x, next)) => (loop step stop fuel next).map fun r => (t ++ r.1, r.2.map (x :: ·))
    else some ([], .ok [])

/-- `_ReadChangeLogEntry` (rp_change_log.py 180-300): the entry and the position after it. -/
def showEntry (data : Bytes) (pos : Nat) : Out (Entry × Nat) :=
  (fixed "change log entry record".toList 72 data pos).bind fun h =>
  write (entryText h) <|
  if number h 4 8 = 1 ∧ number h 8 12 = 0xABCDEF12 then
    let size := number h 0 4
    match fileRead data (pos + 72) ((size : Int) - 72) with
    | .error e => raise e
    | .ok b =>
      write (dataText "Record data".toList b) <|
      match utf16z b with
      | none => raise .parseError
      | some name =>
        match Utf.decode16 name with
        | none => raise .parseError
        | some text =>
          let off := name.length + 2
          let stop := ((size : Int) - 72 - 4).toNat
          write (formatValue "Process name".toList text.dropLast ++ ['\n'] ++
            formatValue "Sub record data offset".toList (dec off) ++
            formatValue "Sub record data size".toList (decInt ((size : Int) - 72 - 4 - off)) ++ if off < stop then ['\n'] else []) <|
          match loop (showStep b stop) stop (stop + 1) off with
          | none => raise .runtimeError -- never the case
          | some r => r.bind fun types =>
            match copyOfSize b with
            | none => raise .parseError
            | some copy =>
              if size = copy then
                (copyText copy, .ok (⟨number h 12 16, number h 16 20, number h 20 24, number h 24 32, name, types⟩, pos + 72 + b.length))
              else raise .parseError
  else raise .parseError

/-- `ReadFileObject` (rp_change_log.py 482-492) and `_ReadChangeLogEntries` (165-178) in debug mode; `none` is out of fuel. -/
def showLog (data : Bytes) (fuel : Nat) : Option (Out (List Entry)) :=
  match showHeader data with
  | (t, .error e) => some (t, .error e)
  | (t, .ok pos) => (loop (showEntry data) data.length fuel pos).map fun r => write t r

/-- `Main` (scripts/rp_change_log.py 12-98) for a source in debug mode: the file is read, and shown, before the title.  The
volume path of the file is `None`, which cannot be formatted. -/
def script (data : Bytes) (fuel : Nat) : Option (Str × Err) :=
  (showLog data fuel).map fun
    | (t, .error e) => (t, e)
    | (t, .ok _) => (t ++ Journals.logTitle, .typeError)

/-! ## Specification -/

/-- A record of an entry: a text for the types 4, 5 and 9 and other data. -/
structure Part where
  type : Nat
  text : Str
  rest : Bytes

def Part.named (r : Part) : Prop := r.type = 4 ∨ r.type = 5 ∨ r.type = 9

instance (r : Part) : Decidable r.named := inferInstanceAs (Decidable (_ ∨ _ ∨ _))

def Part.stored (r : Part) : StoredRecord :=
  ⟨r.type, if r.named then Utf.encode16 r.text ++ [0, 0] ++ r.rest else r.rest⟩

def Part.Ok (r : Part) : Prop := r.stored.Ok ∧ Char.ofNat 0 ∉ r.text

structure Change where
  entryType : Nat
  entryFlags : Nat
  attributes : Nat
  sequence : Nat
  name : Str
  unknown1 : Bytes
  nameSize : Nat
  unknown2 : Nat
  parts : List Part

def Change.stored (c : Change) : StoredEntry :=
  ⟨⟨c.entryType, c.entryFlags, c.attributes, c.sequence, Utf.encode16 c.name, c.parts.map (·.type)⟩, c.unknown1, c.nameSize,
    c.unknown2, c.parts.map Part.stored⟩

def Change.Ok (c : Change) : Prop :=
  c.stored.Ok ∧ c.nameSize < 2 ^ 32 ∧ c.unknown2 < 2 ^ 32 ∧ Char.ofNat 0 ∉ c.name ∧ ∀ r ∈ c.parts, r.Ok

/-- A log with its volume path, which has a terminator. -/
def stored (path : Str) (l : List Change) : Bytes := logBytes (Utf.encode16 (path ++ [Char.ofNat 0])) (l.map Change.stored)

open RpLog.DebugMode (announcedAt dumpOf hexadecimalOf named)
open Utmp.DebugMode (shownAs)

def kinds : List (Nat × String) :=
  [(0, "RecordTypeLogHeader"), (1, "RecordTypeLogEntry"), (2, "RecordTypeVolumePath"), (3, "RecordTypeFirstPath"),
    (4, "RecordTypeSecondPath"), (5, "RecordTypeTempPath"), (6, "RecordTypeAclInline"), (7, "RecordTypeAclFile"),
    (8, "RecordTypeDebugInfo"), (9, "RecordTypeShortName")]

def heading (size type : Nat) : Str :=
  shownAs "Record size" (Text.digits 10 size) ++
    shownAs "Record type" (Text.digits 10 type ++ " (".toList ++ named kinds type ++ ")".toList)

/-- The text of a record that has one. -/
def Part.value (r : Part) : Str :=
  if r.type = 4 then shownAs "Secondary path" r.text
  else if r.type = 5 then shownAs "Backup filename" r.text
  else if r.type = 9 then shownAs "Short filename" r.text
  else []

def Part.shown (r : Part) : Str :=
  [dumpOf "Record data" r.stored.bytes, heading r.stored.bytes.length r.type, r.value, ['\n']].flatten

/-- A line for each name. -/
def namesShown (names : List Str) : Str := (names.map fun name => "\t".toList ++ name ++ "\n".toList).flatten

/-- What is shown of an entry; `name` is what is shown of the name of the process. -/
def Change.shown (name : Str → Str) (c : Change) (off : Nat) : Str :=
  [announcedAt "change log entry record" off, dumpOf "Change log entry record data" c.stored.head,
    heading c.stored.size 1, shownAs "Signature" "0xabcdef12".toList,
    shownAs "Entry type" (hexadecimalOf c.entryType),
    namesShown (Journals.bitNames "CHANGE_LOG_ENTRYTYPES_" Journals.typeBits c.entryType), ['\n'],
    shownAs "Entry flags" (hexadecimalOf c.entryFlags),
    namesShown (Journals.bitNames "CHANGE_LOG_ENTRYFLAGS_" Journals.flagBits c.entryFlags), ['\n'],
    shownAs "File attribute flags" (hexadecimalOf c.attributes), shownAs "Sequence number" (Text.digits 10 c.sequence),
    shownAs "Process name size" (Text.digits 10 c.nameSize), shownAs "Unknown2" (hexadecimalOf c.unknown2),
    dumpOf "Record data" c.stored.tail, shownAs "Process name" (name c.name), ['\n'],
    shownAs "Sub record data offset" (Text.digits 10 ((Utf.encode16 c.name).length + 2)),
    shownAs "Sub record data size" (Text.digits 10 (c.parts.map fun r => r.stored.bytes.length).sum),
    if c.parts = [] then [] else ['\n'], (c.parts.map Part.shown).flatten,
    shownAs "Copy of record size" (Text.digits 10 c.stored.size), ['\n']].flatten

def changesShown (name : Str → Str) : Nat → List Change → Str
  | _, [] => []
  | off, c :: l => c.shown name off ++ changesShown name (off + c.stored.bytes.length) l

/-- The size of the part with the volume path. -/
def headerSize (path : Str) : Nat := 28 + (Utf.encode16 (path ++ [Char.ofNat 0])).length

def report (name : Str → Str) (path : Str) (l : List Change) : Str :=
  [announcedAt "file header" 0,
    dumpOf "File header data" [leBytes 4 (headerSize path), leBytes 4 0, leBytes 4 0xABCDEF12, leBytes 4 2].flatten,
    heading (headerSize path) 0, shownAs "Signature" "0xabcdef12".toList, shownAs "Format version" "2".toList,
    dumpOf "Record data" [leBytes 4 (headerSize path - 20), leBytes 4 2, Utf.encode16 (path ++ [Char.ofNat 0]),
      leBytes 4 (headerSize path)].flatten,
    heading (headerSize path - 20) 2, shownAs "Volume path" path, ['\n'],
    shownAs "Copy of record size" (Text.digits 10 (headerSize path)), ['\n'],
    changesShown name (headerSize path) l].flatten

/-! ## Proofs -/

theorem kinds_eq : recordTypes = kinds.map fun p => (p.1, p.2.toList) := by decide +kernel

theorem typeName_eq (v : Nat) : typeName v = named kinds v := by
  rw [← RpLog.DebugMode.lookup_find, ← kinds_eq]
  unfold typeName RpLog.DebugMode.nameOf
  cases recordTypes.lookup v <;> rfl

theorem recordHeader_eq (size type : Nat) : recordHeader size type = heading size type := by
  unfold recordHeader heading
  rw [typeName_eq]
  rfl

theorem flagLines_types (v : Nat) : flagLines Journals.entryTypes v =
    namesShown (Journals.bitNames "CHANGE_LOG_ENTRYTYPES_" Journals.typeBits v) ++ ['\n'] := by
  unfold flagLines namesShown
  rw [(Journals.C182_names v).1, ← List.flatMap_def]
  rfl

theorem flagLines_flags (v : Nat) : flagLines Journals.entryFlags v =
    namesShown (Journals.bitNames "CHANGE_LOG_ENTRYFLAGS_" Journals.flagBits v) ++ ['\n'] := by
  unfold flagLines namesShown
  rw [(Journals.C182_names v).2, ← List.flatMap_def]
  rfl

theorem value_eq (d : String) (t : Str) : formatValue d.toList t = shownAs d t := rfl

theorem hex8_eq (v : Nat) : hex8 v = hexadecimalOf v := rfl

theorem dump_eq (d : String) (b : Bytes) : dataText d.toList b = dumpOf d b := rfl

theorem reading_eq (d : String) (off : Nat) : readingText d.toList off = announcedAt d off := rfl

theorem decInt_nat (n : Nat) : decInt (n : Int) = Text.digits 10 n := by
  unfold decInt
  rw [if_neg (by omega)]
  simp [dec]

theorem fixed_stored (what : Str) (size : Nat) (pre s post : Bytes) (h0 : 0 < size) (h : s.length = size) :
    fixed what size (pre ++ s ++ post) pre.length = (readingText what pre.length ++ structureText what s, .ok s) := by
  unfold fixed
  rw [structAt_fixed_append size id pre s post h0 h]
  rfl

theorem copyOfSize_append (size : Nat) (s : Bytes) (h : size < 2 ^ 32) : copyOfSize (s ++ leBytes 4 size) = some size := by
  unfold copyOfSize
  rw [List.length_append, leBytes_length, Nat.add_sub_cancel, List.drop_left, if_pos (by simp),
    leNat_leBytes_of_lt _ _ (by simpa using h)]

theorem stringValue (r : Part) (h : r.named) : formatValue (stringName r.type) r.text = r.value := by
  unfold stringName Part.value
  rcases h with h | h | h <;> rw [h] <;> rfl

theorem noValue (r : Part) (h : ¬ r.named) : r.value = [] := by
  unfold Part.named at h
  unfold Part.value
  rw [if_neg (by omega), if_neg (by omega), if_neg (by omega)]

theorem showRecord_bytes (r : Part) (h : r.Ok) (pre post : Bytes) (hp : 4 ≤ post.length) :
    showRecord (pre ++ r.stored.bytes ++ post) pre.length = (r.shown, .ok (r.stored.bytes.length, r.type)) := by
  obtain ⟨⟨h1, h2, h3⟩, hz⟩ := h
  have hl := r.stored.length
  have e : r.stored.bytes ++ post = [leBytes 4 (8 + r.stored.content.length), leBytes 4 r.stored.type, r.stored.content, post].flatten := by
    simp [StoredRecord.bytes]
  have f0 : number (r.stored.bytes ++ post) 0 4 = r.stored.bytes.length := by
    rw [hl, e]; exact leField [] 4 _ _ 0 4 rfl rfl (by omega)
  have f1 : number (r.stored.bytes ++ post) 4 8 = r.type := by
    rw [e]; exact leField [leBytes 4 _] 4 _ _ 4 8 (by simp) rfl (by omega)
  have f2 : (r.stored.bytes ++ post).drop 8 = r.stored.content ++ post := by
    have : r.stored.bytes ++ post =
        [leBytes 4 (8 + r.stored.content.length), leBytes 4 r.stored.type].flatten ++ (r.stored.content ++ post) := by
      simp [StoredRecord.bytes]
    rw [this]
    exact List.drop_left' (by simp)
  have f3 : slice (pre ++ r.stored.bytes ++ post) pre.length (pre.length + r.stored.bytes.length) = r.stored.bytes := by
    rw [slice_at _ _ _ _ (Nat.le_refl _), List.take_length]
  have hlen : (r.stored.bytes ++ post).length = 8 + r.stored.content.length + post.length := by
    rw [List.length_append, hl]
  unfold showRecord
  rw [show (pre ++ r.stored.bytes ++ post).drop pre.length = r.stored.bytes ++ post by
    rw [List.append_assoc, List.drop_left]]
  dsimp only
  rw [if_neg (by omega), f0, f1, f2, f3, recordHeader_eq]
  unfold Part.shown
  by_cases hn : r.named
  · rw [if_pos (show r.type = 4 ∨ r.type = 5 ∨ r.type = 9 from hn)]
    have hc : r.stored.content = Utf.encode16 r.text ++ [0, 0] ++ r.rest := if_pos hn
    rw [hc, List.append_assoc, utf16z_append _ _ (Utf.encode16_utf16 r.text hz), Option.bind_some, Utf.C189_utf16]
    dsimp only
    rw [stringValue r hn, dump_eq]
    simp [write]
  · rw [if_neg (show ¬ (r.type = 4 ∨ r.type = 5 ∨ r.type = 9) from hn)]
    rw [if_neg (show ¬ (r.stored.type = 4 ∨ r.stored.type = 5 ∨ r.stored.type = 9) from hn)] at h3
    rw [if_neg (by omega), noValue r hn, dump_eq]
    simp [write]

theorem loop_parts (rs : List Part) (h : ∀ r ∈ rs, r.Ok) (stop : Nat) : ∀ (pre post : Bytes) (fuel : Nat),
    4 ≤ post.length → stop = pre.length + ((rs.map Part.stored).flatMap (·.bytes)).length →
    loop (showStep (pre ++ (rs.map Part.stored).flatMap (·.bytes) ++ post) stop) stop (rs.length + fuel + 1) pre.length =
      some ((rs.map Part.shown).flatten, .ok (rs.map (·.type))) := by
  induction rs with
  | nil =>
    intro pre post fuel _ hs
    rw [loop, if_neg (by simp at hs; omega)]
    rfl
  | cons r rs ih =>
    intro pre post fuel hp hs
    have hr := h r (by simp)
    have hl := r.stored.length
    rw [List.map_cons, List.flatMap_cons, List.length_append] at hs
    rw [show (r :: rs).length + fuel + 1 = (rs.length + fuel + 1) + 1 by simp; omega, loop, if_pos (by omega)]
    have hstep : showStep (pre ++ ((r :: rs).map Part.stored).flatMap (·.bytes) ++ post) stop pre.length =
        (r.shown, .ok (r.type, pre.length + r.stored.bytes.length)) := by
      unfold showStep
      rw [List.map_cons, List.flatMap_cons,
        show pre ++ (r.stored.bytes ++ (rs.map Part.stored).flatMap (·.bytes)) ++ post =
          pre ++ r.stored.bytes ++ ((rs.map Part.stored).flatMap (·.bytes) ++ post) by simp,
        showRecord_bytes r hr _ _ (by rw [List.length_append]; omega)]
      dsimp only
      rw [if_neg (by omega)]
    rw [hstep]
    dsimp only
    have := ih (fun t ht => h t (by simp [ht])) (pre ++ r.stored.bytes) post fuel hp
      (by rw [List.length_append]; omega)
    rw [show pre ++ ((r :: rs).map Part.stored).flatMap (·.bytes) ++ post =
      pre ++ r.stored.bytes ++ (rs.map Part.stored).flatMap (·.bytes) ++ post by simp, ← List.length_append, this]
    rfl

theorem parts_size (rs : List Part) : ((rs.map Part.stored).flatMap (·.bytes)).length = (rs.map fun r => r.stored.bytes.length).sum := by
  induction rs with
  | nil => rfl
  | cons r rs ih => simp [← ih]

theorem parts_count (rs : List Part) : 8 * rs.length ≤ ((rs.map Part.stored).flatMap (·.bytes)).length := by
  induction rs with
  | nil => simp
  | cons r rs ih =>
    have := r.stored.length
    rw [List.map_cons, List.flatMap_cons, List.length_append, List.length_cons]
    omega

theorem entryText_stored (c : Change) (h : c.Ok) : entryText c.stored.head =
    [heading c.stored.size 1, shownAs "Signature" "0xabcdef12".toList,
    shownAs "Entry type" (hexadecimalOf c.entryType),
    namesShown (Journals.bitNames "CHANGE_LOG_ENTRYTYPES_" Journals.typeBits c.entryType), ['\n'],
    shownAs "Entry flags" (hexadecimalOf c.entryFlags),
    namesShown (Journals.bitNames "CHANGE_LOG_ENTRYFLAGS_" Journals.flagBits c.entryFlags), ['\n'],
    shownAs "File attribute flags" (hexadecimalOf c.attributes), shownAs "Sequence number" (Text.digits 10 c.sequence),
    shownAs "Process name size" (Text.digits 10 c.nameSize), shownAs "Unknown2" (hexadecimalOf c.unknown2)].flatten ∧
    number c.stored.head 0 4 = c.stored.size ∧ number c.stored.head 4 8 = 1 ∧ number c.stored.head 8 12 = 0xABCDEF12 ∧
    number c.stored.head 12 16 = c.entryType ∧ number c.stored.head 16 20 = c.entryFlags ∧
    number c.stored.head 20 24 = c.attributes ∧ number c.stored.head 24 32 = c.sequence := by
  obtain ⟨⟨h1, h2, h3, h4, h5, h6, h7, h8, h9⟩, hn, hu, _, _⟩ := h
  dsimp only [Change.stored] at h2 h3 h4 h5 h6
  have f0 : number c.stored.head 0 4 = c.stored.size := leField [] 4 _ _ 0 4 rfl rfl (by omega)
  have f1 : number c.stored.head 4 8 = 1 := leField [leBytes 4 _] 4 _ _ 4 8 (by simp) rfl (by omega)
  have f2 : number c.stored.head 8 12 = 0xABCDEF12 :=
    leField [leBytes 4 _, leBytes 4 _] 4 _ _ 8 12 (by simp) rfl (by omega)
  have f3 : number c.stored.head 12 16 = c.entryType :=
    leField [leBytes 4 _, leBytes 4 _, leBytes 4 _] 4 _ _ 12 16 (by simp) rfl h2
  have f4 : number c.stored.head 16 20 = c.entryFlags :=
    leField [leBytes 4 _, leBytes 4 _, leBytes 4 _, leBytes 4 _] 4 _ _ 16 20 (by simp) rfl h3
  have f5 : number c.stored.head 20 24 = c.attributes :=
    leField [leBytes 4 _, leBytes 4 _, leBytes 4 _, leBytes 4 _, leBytes 4 _] 4 _ _ 20 24 (by simp) rfl h4
  have f6 : number c.stored.head 24 32 = c.sequence :=
    leField [leBytes 4 _, leBytes 4 _, leBytes 4 _, leBytes 4 _, leBytes 4 _, leBytes 4 _] 8 _ _ 24 32 (by simp) rfl h5
  have f7 : number c.stored.head 64 68 = c.nameSize :=
    leField [leBytes 4 _, leBytes 4 _, leBytes 4 _, leBytes 4 _, leBytes 4 _, leBytes 4 _, leBytes 8 _, c.unknown1] 4 _ _ 64 68
      (by simp [h6]) rfl hn
  have f8 : number c.stored.head 68 72 = c.unknown2 :=
    leField [leBytes 4 _, leBytes 4 _, leBytes 4 _, leBytes 4 _, leBytes 4 _, leBytes 4 _, leBytes 8 _, c.unknown1, leBytes 4 _] 4 _ [] 68 72
      (by simp [h6]) rfl hu
  refine ⟨?_, f0, f1, f2, f3, f4, f5, f6⟩
  unfold entryText
  rw [f0, f1, f2, f3, f4, f5, f6, f7, f8, recordHeader_eq, flagLines_types, flagLines_flags]
  simp only [value_eq, hex8_eq, List.flatten_cons, List.flatten_nil, List.append_nil, List.append_assoc]
  rfl

/-- What the code shows of the name of a process. -/
theorem showEntry_bytes (c : Change) (h : c.Ok) (pre post : Bytes) :
    showEntry (pre ++ c.stored.bytes ++ post) pre.length =
      (c.shown List.dropLast pre.length, .ok (c.stored.value, pre.length + c.stored.bytes.length)) := by
  obtain ⟨ht, f0, f1, f2, f3, f4, f5, f6⟩ := entryText_stored c h
  have hh := head_length c.stored h.1
  have htl := tail_length c.stored
  obtain ⟨hk, hn, hu, hz, hparts⟩ := h
  have hsize : c.stored.size = 72 + ((Utf.encode16 c.name).length + 2) + ((c.parts.map Part.stored).flatMap (·.bytes)).length + 4 := rfl
  have hpos := parts_count c.parts
  generalize hP : ((c.parts.map Part.stored).flatMap (·.bytes)) = P at hsize hpos
  have e1 : pre ++ c.stored.bytes ++ post = pre ++ c.stored.head ++ (c.stored.tail ++ post) := by simp [StoredEntry.bytes]
  have e2 : pre ++ c.stored.bytes ++ post = (pre ++ c.stored.head) ++ c.stored.tail ++ post := by simp [StoredEntry.bytes]
  have hr := fileRead_ok (pre ++ c.stored.head) c.stored.tail post
  rw [← e2, List.length_append, hh, htl, show ((c.stored.size - 72 : Nat) : Int) = (c.stored.size : Int) - 72 by omega] at hr
  have htail : c.stored.tail = Utf.encode16 c.name ++ [0, 0] ++ P ++ leBytes 4 c.stored.size := by rw [← hP]; rfl
  have hut : utf16z c.stored.tail = some (Utf.encode16 c.name) := by
    rw [htail, List.append_assoc]
    exact utf16z_append _ _ (Utf.encode16_utf16 c.name hz)
  have hcopy : copyOfSize c.stored.tail = some c.stored.size := by
    rw [htail]; exact copyOfSize_append _ _ hk.1
  have hl := loop_parts c.parts hparts (c.stored.size - 76) (Utf.encode16 c.name ++ [0, 0]) (leBytes 4 c.stored.size)
    (c.stored.size - 76 - c.parts.length) (by simp) (by rw [hP, List.length_append]; simp; omega)
  rw [hP, ← htail, show c.parts.length + (c.stored.size - 76 - c.parts.length) + 1 = c.stored.size - 76 + 1 by omega,
    List.length_append, show ([0, 0] : Bytes).length = 2 from rfl] at hl
  have hempty : (if (Utf.encode16 c.name).length + 2 < c.stored.size - 76 then ['\n'] else ([] : Str)) =
      if c.parts = [] then [] else ['\n'] := by
    by_cases hp : c.parts = []
    · have : P = [] := by rw [← hP, hp]; rfl
      rw [if_pos hp, if_neg (by rw [this] at hsize; simp at hsize; omega)]
    · rw [if_neg hp, if_pos (by have := List.length_pos_iff.2 hp; omega)]
  unfold showEntry
  rw [e1, fixed_stored _ 72 _ _ _ (by omega) hh, ← e1]
  unfold Out.bind
  dsimp only
  rw [ht, f0, f1, f2, f3, f4, f5, f6, if_pos ⟨rfl, rfl⟩, hr]
  dsimp only
  rw [hut]
  dsimp only
  rw [Utf.C189_utf16]
  dsimp only
  rw [show ((c.stored.size : Int) - 72 - 4).toNat = c.stored.size - 76 by omega, hl]
  dsimp only
  rw [hcopy]
  dsimp only
  rw [if_pos rfl, hempty, show (c.stored.size : Int) - 72 - 4 - ((Utf.encode16 c.name).length + 2 : Nat) =
    (((c.parts.map fun r => r.stored.bytes.length).sum : Nat) : Int) by rw [← parts_size, hP]; omega, decInt_nat]
  have hb : pre.length + 72 + c.stored.tail.length = pre.length + c.stored.bytes.length := by
    rw [StoredEntry.bytes, List.length_append, hh]; omega
  rw [hb]
  unfold write Change.shown
  refine Prod.ext ?_ rfl
  dsimp only
  simp only [value_eq, dump_eq, copyText, reading_eq, List.flatten_cons, List.flatten_nil, List.append_nil, List.append_assoc]
  rfl

theorem loop_changes (l : List Change) (h : ∀ c ∈ l, c.Ok) (stop : Nat) : ∀ (pre : Bytes) (fuel : Nat), l.length < fuel →
    stop = pre.length + ((l.map Change.stored).flatMap (·.bytes)).length →
    loop (showEntry (pre ++ (l.map Change.stored).flatMap (·.bytes))) stop fuel pre.length =
      some (changesShown List.dropLast pre.length l, .ok (l.map (·.stored.value))) := by
  induction l with
  | nil =>
    intro pre fuel hf hs
    obtain ⟨fuel, rfl⟩ : ∃ n, fuel = n + 1 := ⟨fuel - 1, by simp at hf; omega⟩
    rw [loop, if_neg (by simp at hs; omega)]
    rfl
  | cons c l ih =>
    intro pre fuel hf hs
    obtain ⟨fuel, rfl⟩ : ∃ n, fuel = n + 1 := ⟨fuel - 1, by simp at hf; omega⟩
    have hc := h c (by simp)
    have hh := head_length c.stored hc.1
    have hb : c.stored.bytes.length = c.stored.head.length + c.stored.tail.length := by simp [StoredEntry.bytes]
    rw [List.map_cons, List.flatMap_cons, List.length_append] at hs
    rw [loop, if_pos (by omega)]
    have := ih (fun t ht => h t (by simp [ht])) (pre ++ c.stored.bytes) fuel (by simp at hf; omega)
      (by rw [List.length_append]; omega)
    rw [show pre ++ ((c :: l).map Change.stored).flatMap (·.bytes) =
      pre ++ c.stored.bytes ++ (l.map Change.stored).flatMap (·.bytes) by simp, showEntry_bytes c hc]
    dsimp only
    rw [← List.length_append, this]
    simp [changesShown, Except.map]

theorem volumePath_stored (path : Str) (h : headerSize path < 2 ^ 32) :
    volumePath [leBytes 4 (headerSize path - 20), leBytes 4 2, Utf.encode16 (path ++ [Char.ofNat 0])].flatten =
      (heading (headerSize path - 20) 2 ++ shownAs "Volume path" path ++ ['\n'], .ok ()) := by
  have hs : headerSize path = 28 + (Utf.encode16 (path ++ [Char.ofNat 0])).length := rfl
  have hd := Utf.C189_utf16 (path ++ [Char.ofNat 0])
  generalize Utf.encode16 (path ++ [Char.ofNat 0]) = p at hs hd
  have f0 := leField [] 4 (headerSize path - 20) [leBytes 4 2, p] 0 4 rfl rfl (by omega)
  have f1 := leField [leBytes 4 (headerSize path - 20)] 4 2 [p] 4 8 (by simp) rfl (by omega)
  have f2 : slice [leBytes 4 (headerSize path - 20), leBytes 4 2, p].flatten 8 (headerSize path - 20) = p := by
    exact slice_fields [leBytes 4 (headerSize path - 20), leBytes 4 2] p [] 8 _ (by simp) (by omega)
  have hl : [leBytes 4 (headerSize path - 20), leBytes 4 2, p].flatten.length = headerSize path - 20 := by simp; omega
  simp only [List.nil_append, List.cons_append] at f0 f1
  unfold volumePath
  rw [show number [leBytes 4 (headerSize path - 20), leBytes 4 2, p].flatten 0 4 = _ from f0,
    show number [leBytes 4 (headerSize path - 20), leBytes 4 2, p].flatten 4 8 = _ from f1, f2, hl,
    if_pos ⟨by omega, by omega, by omega⟩, hd]
  dsimp only
  rw [if_pos rfl, recordHeader_eq, List.dropLast_concat]
  simp [write, value_eq]
  rfl

theorem showHeader_bytes (path : Str) (post : Bytes) (h : headerSize path < 2 ^ 32) :
    showHeader (headerBytes (Utf.encode16 (path ++ [Char.ofNat 0])) ++ post) =
      ([announcedAt "file header" 0,
    dumpOf "File header data" [leBytes 4 (headerSize path), leBytes 4 0, leBytes 4 0xABCDEF12, leBytes 4 2].flatten,
    heading (headerSize path) 0, shownAs "Signature" "0xabcdef12".toList, shownAs "Format version" "2".toList,
    dumpOf "Record data" [leBytes 4 (headerSize path - 20), leBytes 4 2, Utf.encode16 (path ++ [Char.ofNat 0]),
      leBytes 4 (headerSize path)].flatten,
    heading (headerSize path - 20) 2, shownAs "Volume path" path, ['\n'],
    shownAs "Copy of record size" (Text.digits 10 (headerSize path)), ['\n']].flatten, .ok (headerSize path)) := by
  have hv := volumePath_stored path h
  have hs : headerSize path = 28 + (Utf.encode16 (path ++ [Char.ofNat 0])).length := rfl
  generalize Utf.encode16 (path ++ [Char.ofNat 0]) = p at hs hv
  have e : headerBytes p ++ post = [] ++ [leBytes 4 (headerSize path), leBytes 4 0, leBytes 4 0xABCDEF12, leBytes 4 2].flatten ++
      ([leBytes 4 (headerSize path - 20), leBytes 4 2, p].flatten ++ leBytes 4 (headerSize path) ++ post) := by
    rw [hs, show 28 + p.length - 20 = 8 + p.length by omega]
    simp only [headerBytes, List.nil_append, List.append_assoc]
  have f0 := leField [] 4 (headerSize path) [leBytes 4 0, leBytes 4 0xABCDEF12, leBytes 4 2] 0 4 rfl rfl (by omega)
  have f1 := leField [leBytes 4 (headerSize path)] 4 0 [leBytes 4 0xABCDEF12, leBytes 4 2] 4 8 (by simp) rfl (by omega)
  have f2 := leField [leBytes 4 (headerSize path), leBytes 4 0] 4 0xABCDEF12 [leBytes 4 2] 8 12 (by simp) rfl (by omega)
  have f3 := leField [leBytes 4 (headerSize path), leBytes 4 0, leBytes 4 0xABCDEF12] 4 2 [] 12 16 (by simp) rfl (by omega)
  simp only [List.nil_append, List.cons_append] at f0 f1 f2 f3
  have l1 : [leBytes 4 (headerSize path), leBytes 4 0, leBytes 4 0xABCDEF12, leBytes 4 2].flatten.length = 16 := by simp
  have l2 : ([leBytes 4 (headerSize path - 20), leBytes 4 2, p].flatten).length = headerSize path - 20 := by simp; omega
  have eb : [leBytes 4 (headerSize path - 20), leBytes 4 2, p, leBytes 4 (headerSize path)].flatten =
      [leBytes 4 (headerSize path - 20), leBytes 4 2, p].flatten ++ leBytes 4 (headerSize path) := by simp
  rw [eb]
  generalize hH : [leBytes 4 (headerSize path), leBytes 4 0, leBytes 4 0xABCDEF12, leBytes 4 2].flatten = H at *
  generalize hV : [leBytes 4 (headerSize path - 20), leBytes 4 2, p].flatten = V at *
  have hr := fileRead_ok H (V ++ leBytes 4 (headerSize path)) post
  rw [l1, List.length_append, l2, leBytes_length,
    show ((headerSize path - 20 + 4 : Nat) : Int) = (headerSize path : Int) - 16 by omega] at hr
  have hf := fixed_stored "file header".toList 16 [] H (V ++ leBytes 4 (headerSize path) ++ post) (by omega) l1
  unfold showHeader headerText
  rw [e]
  rw [List.nil_append, List.length_nil, List.append_assoc] at hf
  rw [List.nil_append, List.append_assoc, hf]
  unfold Out.bind
  dsimp only
  rw [show number H 0 4 = _ from f0, show number H 4 8 = _ from f1, show number H 8 12 = _ from f2,
    show number H 12 16 = _ from f3, if_pos ⟨rfl, rfl, rfl⟩]
  simp only [List.append_assoc] at hr ⊢
  rw [hr]
  dsimp only
  rw [show (V ++ leBytes 4 (headerSize path)).take ((V ++ leBytes 4 (headerSize path)).length - 4) = V by
    rw [List.length_append, leBytes_length, Nat.add_sub_cancel, List.take_left], hv]
  dsimp only
  rw [copyOfSize_append _ _ h]
  dsimp only
  rw [if_pos rfl, recordHeader_eq]
  unfold write
  refine Prod.ext ?_ ?_
  · dsimp only
    simp only [value_eq, dump_eq, copyText, reading_eq, List.flatten_cons, List.flatten_nil, List.append_nil, List.append_assoc]
    rfl
  · dsimp only
    rw [List.length_append, l2, leBytes_length]
    congr 1
    omega

/-! ## C195 -/

/-- Everything that is stored in a log is shown in debug mode, in order and with its names, except for the last character of
the name of a process. -/
theorem C195_shown_partial (path : Str) (l : List Change) (hp : headerSize path < 2 ^ 32) (h : ∀ c ∈ l, c.Ok) (fuel : Nat)
    (hf : l.length < fuel) :
    showLog (stored path l) fuel = some (report List.dropLast path l, .ok (l.map (·.stored.value))) := by
  have hl : (headerBytes (Utf.encode16 (path ++ [Char.ofNat 0]))).length = headerSize path := by
    simp [headerBytes, headerSize]; omega
  unfold showLog stored logBytes
  rw [showHeader_bytes path _ hp]
  dsimp only
  have := loop_changes l h (headerBytes (Utf.encode16 (path ++ [Char.ofNat 0])) ++ (l.map Change.stored).flatMap (·.bytes)).length
    (headerBytes (Utf.encode16 (path ++ [Char.ofNat 0]))) fuel hf (by rw [List.length_append])
  rw [hl] at this
  rw [this]
  simp [write, report]

/-- The name of a process is shown as it was stored. -/
def C195_name_claim : Prop :=
  ∀ (path : Str) (l : List Change), headerSize path < 2 ^ 32 → (∀ c ∈ l, c.Ok) → ∀ fuel, l.length < fuel →
    ∃ r, showLog (stored path l) fuel = some (report id path l, r)

/-- The script shows all of the log, before its title, and fails. -/
theorem C195_script (data : Bytes) (fuel : Nat) (t : Str) (es : List Entry) (h : showLog data fuel = some (t, .ok es)) :
    script data fuel = some (t ++ "Windows Restore Point change.log information:\n".toList, .typeError) := by
  unfold script
  rw [h]
  rfl

theorem loop_walk (show' : Nat → Out (α × Nat)) (step : Nat → Res (α × Nat)) (stop : Nat)
    (hs : ∀ off x, (show' off).2 = .ok x → step off = .ok x) : ∀ (fuel off : Nat) (acc : List α) (t : Str) (xs : List α),
    loop show' stop fuel off = some (t, .ok xs) → walk step stop fuel off acc = some (.ok (acc ++ xs)) := by
  intro fuel
  induction fuel with
  | zero => intro off acc t xs h; cases h
  | succ fuel ih =>
    intro off acc t xs h
    rw [loop] at h
    rw [walk]
    split at h
    · rename_i hc
      rw [if_pos hc]
      rcases hx : show' off with ⟨t', e | ⟨x, next⟩⟩
      · rw [hx] at h; cases h
      · rw [hx] at h
        rw [hs off (x, next) (by rw [hx])]
        dsimp only at h ⊢
        rcases hl : loop show' stop fuel next with _ | ⟨t2, e | ys⟩
        · rw [hl] at h; cases h
        · rw [hl] at h; simp [Except.map] at h
        · rw [hl] at h
          simp only [Option.map_some, Except.map, Option.some.injEq, Prod.mk.injEq, Except.ok.injEq] at h
          rw [ih next (acc ++ [x]) t2 ys hl, ← h.2]
          simp
    · rename_i hc
      rw [if_neg hc]
      simp only [Option.some.injEq, Prod.mk.injEq, Except.ok.injEq] at h
      rw [← h.2, List.append_nil]

theorem record_same (b : Bytes) (off : Nat) (x : Nat × Nat) (h : (showRecord b off).2 = .ok x) :
    readRecord (b.drop off) = .ok x := by
  unfold showRecord at h
  unfold readRecord
  dsimp only at h ⊢
  split
  · rename_i hc; rw [if_pos hc] at h; cases h
  · rename_i hc
    rw [if_neg hc] at h
    dsimp only [write] at h
    split
    · rename_i ht
      rw [if_pos (show number (b.drop off) 4 8 = 4 ∨ number (b.drop off) 4 8 = 5 ∨ number (b.drop off) 4 8 = 9 from ht)] at h
      cases hu : utf16z ((b.drop off).drop 8) with
      | none => rw [hu] at h; cases h
      | some s =>
        rw [hu, Option.bind_some] at h
        cases hd : Utf.decode16 s with
        | none => rw [hd] at h; cases h
        | some t => rw [hd] at h; exact h
    · rename_i ht
      rw [if_neg (show ¬ (number (b.drop off) 4 8 = 4 ∨ number (b.drop off) 4 8 = 5 ∨ number (b.drop off) 4 8 = 9) from ht)] at h
      split
      · rename_i hl; rw [if_pos hl] at h; cases h
      · rename_i hl; rw [if_neg hl] at h; exact h

theorem step_same (b : Bytes) (stop off : Nat) (x : Nat × Nat) (h : (showStep b stop off).2 = .ok x) :
    recordStep b stop off = .ok x := by
  unfold showStep at h
  unfold recordStep
  rcases hr : showRecord b off with ⟨t, e | p⟩
  · rw [hr] at h; cases h
  · rw [hr] at h
    rw [record_same b off p (by rw [hr])]
    exact h

theorem bind_ok (a : Out α) (f : α → Out β) (y : β) (h : (a.bind f).2 = .ok y) : ∃ x, a.2 = .ok x ∧ (f x).2 = .ok y := by
  rcases a with ⟨t, e | x⟩
  · cases h
  · exact ⟨x, rfl, h⟩

theorem fixed_ok (what : Str) (size : Nat) (data : Bytes) (off : Nat) (b : Bytes) (h : (fixed what size data off).2 = .ok b) :
    ∃ n, structAt (fixedMap size id) data off = .ok (b, n) := by
  unfold fixed at h
  dsimp only [write] at h
  rcases hs : structAt (fixedMap size id) data off with e | ⟨x, n⟩
  · rw [hs] at h; cases h
  · rw [hs] at h
    cases h
    exact ⟨n, rfl⟩

theorem copy_same (b : Bytes) (size copy : Nat) (h : copyOfSize b = some copy) (he : size = copy) : checkCopy size b = true := by
  unfold copyOfSize at h
  unfold checkCopy
  split at h
  · rename_i hl
    cases h
    simp [hl, he]
  · cases h

theorem entry_same (data : Bytes) (pos : Nat) (x : Entry × Nat) (h : (showEntry data pos).2 = .ok x) :
    readEntry data pos = .ok x := by
  unfold showEntry at h
  obtain ⟨b, hb, h⟩ := bind_ok _ _ _ h
  obtain ⟨n, hs⟩ := fixed_ok _ _ _ _ _ hb
  dsimp only [write] at h
  unfold readEntry entryMap
  rw [structAt_refine, hs]
  dsimp only
  unfold parseEntry
  split at h
  · rename_i hc
    rw [if_pos (show leNat (slice b 4 8) = 1 ∧ leNat (slice b 8 12) = 0xABCDEF12 from hc)]
    dsimp only
    rcases hr : fileRead data (pos + 72) ((number b 0 4 : Int) - 72) with e | d
    · rw [hr] at h; cases h
    · rw [hr] at h
      rw [show fileRead data (pos + 72) ((leNat (slice b 0 4) : Int) - 72) = .ok d from hr]
      dsimp only at h ⊢
      cases hu : utf16z d with
      | none => rw [hu] at h; cases h
      | some name =>
        rw [hu] at h
        dsimp only at h ⊢
        cases hd : Utf.decode16 name with
        | none => rw [hd] at h; cases h
        | some text =>
          rw [hd] at h
          dsimp only at h
          cases hl : loop (showStep d ((number b 0 4 : Int) - 72 - 4).toNat) ((number b 0 4 : Int) - 72 - 4).toNat
              (((number b 0 4 : Int) - 72 - 4).toNat + 1) (name.length + 2) with
          | none => rw [hl] at h; cases h
          | some r =>
            rw [hl] at h
            dsimp only at h
            obtain ⟨types, ht, h⟩ := bind_ok _ _ _ h
            have hw := loop_walk _ (recordStep d ((number b 0 4 : Int) - 72 - 4).toNat) ((number b 0 4 : Int) - 72 - 4).toNat
              (fun off x hx => step_same _ _ _ _ hx) _ _ [] r.1 types (by rw [hl, ← ht])
            rw [show walk (recordStep d ((leNat (slice b 0 4) : Int) - 72 - 4).toNat) ((leNat (slice b 0 4) : Int) - 72 - 4).toNat
              (((leNat (slice b 0 4) : Int) - 72 - 4).toNat + 1) (name.length + 2) [] = _ from hw]
            dsimp only
            cases hk : copyOfSize d with
            | none => rw [hk] at h; cases h
            | some copy =>
              rw [hk] at h
              dsimp only at h
              split at h
              · rename_i he
                rw [show checkCopy (leNat (slice b 0 4)) d = true from copy_same d _ copy hk he]
                exact h
              · cases h
  · cases h

theorem volume_same (b : Bytes) (h : (volumePath b).2 = .ok ()) : checkVolumePath b = true := by
  unfold volumePath at h
  unfold checkVolumePath
  split at h
  · rename_i hc
    cases hd : Utf.decode16 (slice b 8 (number b 0 4)) with
    | none => rw [hd] at h; cases h
    | some path =>
      rw [hd] at h
      dsimp only [write] at h
      split at h
      · rename_i ht
        unfold number at hc ht
        simp [hc.1, hc.2.1, hc.2.2, ht]
      · cases h
  · cases h

theorem header_same (data : Bytes) (pos : Nat) (h : (showHeader data).2 = .ok pos) : readHeader data = .ok pos := by
  unfold showHeader at h
  obtain ⟨b, hb, h⟩ := bind_ok _ _ _ h
  obtain ⟨n, hs⟩ := fixed_ok _ _ _ _ _ hb
  dsimp only [write] at h
  unfold readHeader headerMap
  rw [structAt_refine, show ((0 : Int)) = ((0 : Nat) : Int) from rfl, hs]
  dsimp only
  unfold parseHeader
  split at h
  · rename_i hc
    rw [if_pos (show leNat (slice b 8 12) = 0xABCDEF12 ∧ leNat (slice b 4 8) = 0 ∧ leNat (slice b 12 16) = 2 from hc)]
    dsimp only
    rcases hr : fileRead data 16 ((number b 0 4 : Int) - 16) with e | d
    · rw [hr] at h; cases h
    · rw [hr] at h
      rw [show fileRead data 16 ((leNat (slice b 0 4) : Int) - 16) = .ok d from hr]
      dsimp only at h ⊢
      obtain ⟨_, hv, h⟩ := bind_ok _ _ _ h
      cases hk : copyOfSize d with
      | none => rw [hk] at h; cases h
      | some copy =>
        rw [hk] at h
        dsimp only at h
        split at h
        · rename_i he
          rw [if_pos ⟨volume_same _ hv, copy_same d _ copy hk he⟩]
          exact h
        · cases h
  · cases h

/-- What can be read in debug mode can be read without it, with the same entries. -/
theorem C195_same (data : Bytes) (fuel : Nat) (t : Str) (es : List Entry) (h : showLog data fuel = some (t, .ok es)) :
    readLog data fuel = some (.ok es) := by
  unfold showLog at h
  unfold readLog
  rcases hh : showHeader data with ⟨t', e | pos⟩
  · rw [hh] at h; cases h
  · rw [hh] at h
    rw [header_same data pos (by rw [hh])]
    dsimp only at h ⊢
    cases hl : loop (showEntry data) data.length fuel pos with
    | none => rw [hl] at h; cases h
    | some r =>
      rw [hl] at h
      simp only [Option.map_some, Option.some.injEq, Prod.mk.injEq, write] at h
      have := loop_walk _ (readEntry data) data.length (fun off x hx => entry_same data off x hx) fuel pos [] r.1 es
        (by rw [hl, ← h.2])
      rw [this, List.nil_append]

/-! ## Witnesses -/

def sample : Change :=
  ⟨0x401, 2, 32, 7, "ab".toList, List.replicate 32 1, 6, 0, [⟨9, "A".toList, []⟩, ⟨3, [], [66, 0, 0, 0]⟩]⟩

theorem sample_ok : sample.Ok := by
  refine ⟨⟨by decide +kernel, by decide, by decide, by decide, by decide, by decide,
    Utf.encode16_utf16 _ (by decide +kernel), ?_, rfl⟩, by decide, by decide, by decide +kernel, ?_⟩
  · intro r hr
    simp only [sample, Change.stored, List.map_cons, List.map_nil, List.mem_cons, List.not_mem_nil, or_false] at hr
    rcases hr with rfl | rfl
    · exact ⟨by decide, by decide +kernel, Utf.encode16 "A".toList, [], Utf.encode16_utf16 _ (by decide +kernel), rfl⟩
    · exact ⟨by decide, by decide, by simp [Part.stored, Part.named]⟩
  · intro r hr
    simp only [sample, List.mem_cons, List.not_mem_nil, or_false] at hr
    rcases hr with rfl | rfl
    · exact ⟨⟨by decide, by decide +kernel, Utf.encode16 "A".toList, [], Utf.encode16_utf16 _ (by decide +kernel), rfl⟩,
        by decide +kernel⟩
    · exact ⟨⟨by decide, by decide, by simp [Part.stored, Part.named]⟩, by decide +kernel⟩

theorem C195_name_claim_false : ¬ C195_name_claim := by
  intro h
  have ho : ∀ c ∈ [sample], c.Ok := by
    intro c hc
    rw [List.mem_singleton] at hc
    exact hc ▸ sample_ok
  obtain ⟨r, hr⟩ := h "C:".toList [sample] (by decide +kernel) ho 2 (by decide)
  rw [C195_shown_partial "C:".toList [sample] (by decide +kernel) ho 2 (by decide)] at hr
  simp only [Option.some.injEq, Prod.mk.injEq] at hr
  exact absurd (congrArg List.length hr.1) (by decide +kernel)

example : (showLog (stored "C:".toList [sample]) 2).map (·.2) =
    some (.ok [⟨0x401, 2, 32, 7, [97, 0, 98, 0], [9, 3]⟩]) := by
  rw [C195_shown_partial _ _ (by decide +kernel) (by intro c hc; rw [List.mem_singleton] at hc; exact hc ▸ sample_ok) 2 (by decide)]
  rfl

example : sample.parts.map Part.value = ["Short filename\t\t\t\t\t\t\t\t: A\n".toList, []] := by decide +kernel

example : ∃ t, script (stored "C:".toList [sample]) 2 = some (t, .typeError) :=
  ⟨_, C195_script _ _ _ _ (C195_shown_partial "C:".toList [sample] (by decide +kernel)
    (by intro c hc; rw [List.mem_singleton] at hc; exact hc ▸ sample_ok) 2 (by decide))⟩

end Dtf.ChangeLogDebug
