import Verif.Usn
import Verif.Job
import Verif.RpLogDebug
import Verif.Utf
import Verif.Dates
import Verif.Scripts.Journals

/-!
# What is shown of USN journals in debug mode (C194)

The names are decoded and the times are shown as in the models of C189 and C190.
-/

namespace Dtf.UsnDebug
open Py DataFormat Formats Usn
open Job (number decimal hexadecimal custom)

abbrev Str := List Char

/-! ## Model -/

/-- `_FormatString` (data_format.py 478-487): `string.rstrip("\x00")`. -/
def withoutNul (s : Str) : Str := (s.reverse.dropWhile (· = Char.ofNat 0)).reverse

/-- The debug information of a record (usn_journal.debug.yaml 3-43).  There is none of its sequence number. -/
def attributes (b : Bytes) (name : Str) : List (Option Attribute) :=
  [decimal "Size" (number b 0 4), decimal "Major format version" (number b 4 6), decimal "Minor format version" (number b 6 8),
    hexadecimal 8 "File reference" (number b 8 16), hexadecimal 8 "Parent file reference" (number b 16 24),
    some ⟨some "Timestamp".toList, Dates.formatFiletime (number b 32 40), false⟩,
    hexadecimal 8 "Update reason flags" (number b 40 44), hexadecimal 8 "Update source flags" (number b 44 48),
    decimal "Security descriptor entry" (number b 48 52), hexadecimal 8 "File attribute flags" (number b 52 56),
    decimal "Name size" (number b 56 58), decimal "Name offset" (number b 58 60), custom "Name" (withoutNul name)]

def description : Str := "USN record (version 2)".toList

/-- What is found at a position of the file, and what is written. -/
inductive Step where
  | empty
  | failed (t : Str) (e : Err)
  | record (t : Str) (r : Record) (pos size : Nat)

/-- One round of the inner loop (usn_journal.py 74-80) with `_ReadRecordV2` (usn_journal.py 22-45) and
`_ReadStructureFromFileObject` (data_format.py 677-745) in debug mode.  The data is shown after it was mapped; a name that cannot be
decoded is a MappingError. -/
def step (data : Bytes) (pos : Nat) : Step :=
  let header := slice data pos (pos + 60)
  if header = emptyHeader then .empty
  else if pos + header.length < 60 then .failed [] .osError
  else
    let off := pos + header.length - 60
    match structAt recordMap data off with
    | .error e => .failed (readingText description off) e
    | .ok (r, n) =>
      match Utf.decode16 r.name with
      | none => .failed (readingText description off) .parseError
      | some name =>
        let b := slice data off (off + n.toNat)
        match formatStructure (attributes b name) with
        | .error e => .failed (readingText description off ++ structureText description b) e
        | .ok t => .record (readingText description off ++ structureText description b ++ t) r (off + n.toNat) n.toNat

/-- `ReadRecords` (usn_journal.py 58-85) in debug mode: the records with what is written before each is yielded, what is written
after the last, and how it ends. -/
def walk (data : Bytes) : Nat → Nat → Int → Option Int → List (Record × Str) → Option (List (Record × Str) × Str × Res Unit)
  | 0, _, _, _, _ => none
  | fuel + 1, pos, offset, none, acc =>
    if offset < data.length then walk data fuel pos offset (some (min 4096 data.length)) acc
    else some (acc, [], .ok ())
  | fuel + 1, pos, offset, some block, acc =>
    if block > 60 then
      match step data pos with
      | .empty => walk data fuel (pos + 60) (offset + block) none acc
      | .failed t e => some (acc, t, .error e)
      | .record t r pos' n => walk data fuel pos' (offset + n) (some (block - n)) (acc ++ [(r, t)])
    else walk data fuel pos (offset + block) none acc

def shown (data : Bytes) (fuel : Nat) : Option (List (Record × Str) × Str × Res Unit) := walk data fuel 0 0 none []

/-- `Main` (scripts/usn_journal.py 12-91) for a source in debug mode.  `ReadRecords` reads a record when it is asked for and the
first one has no method `_FormatIntegerAsFiletime`. -/
def script (data : Bytes) (fuel : Nat) : Option (Str × Option Err) :=
  (shown data fuel).map fun
    | ((_, t) :: _, _) => (Journals.journalHead ++ t, some .attributeError)
    | ([], t, .error e) => (Journals.journalHead ++ t, some e)
    | ([], t, .ok ()) => (Journals.journalHead ++ t, none)

/-! ## Specification -/

/-- A record with the values it has for those who write it. -/
structure Entry where
  reference : Nat
  parent : Nat
  sequence : Nat
  time : Nat
  reason : Nat
  source : Nat
  security : Nat
  attributes : Nat
  nameOffset : Nat
  name : Str
  padding : Bytes

def Entry.stored (e : Entry) : Stored :=
  ⟨⟨e.reference, e.parent, e.sequence, e.time, e.reason, Utf.encode16 e.name⟩,
    leBytes 4 e.source ++ leBytes 4 e.security ++ leBytes 4 e.attributes, e.nameOffset, e.padding⟩

/-- The values fit in their fields, and the name is not empty and has neither an end of line nor a zero character. -/
def Entry.Ok (e : Entry) : Prop :=
  e.stored.Ok ∧ e.source < 2 ^ 32 ∧ e.security < 2 ^ 32 ∧ e.attributes < 2 ^ 32 ∧ e.name ≠ [] ∧ '\n' ∉ e.name ∧ Char.ofNat 0 ∉ e.name

/-- The text of a time that is stored as a FILETIME. -/
def TimeText (v : Nat) (t : Str) : Prop :=
  (v = 0 ∧ t = "Not set (0)".toList) ∨ (v = 2 ^ 63 - 1 ∧ t = "Never (0x7fffffffffffffff)".toList) ∨
    (v ≠ 0 ∧ v ≠ 2 ^ 63 - 1 ∧ ∃ c, Dates.IsTimeSince ⟨1601, 1, 1⟩ 7 c v ∧ t = c ++ " UTC".toList)

open RpLog.DebugMode (hexadecimalOf announcedAt dumpOf) in
/-- What is meant to be shown of a record at an offset. -/
def Entry.text (time : Nat → Str) (off : Nat) (e : Entry) : Str :=
  [announcedAt "USN record (version 2)" off,
    dumpOf "USN record (version 2) data" e.stored.bytes,
    Utmp.DebugMode.shownAs "Size" (Text.digits 10 e.stored.bytes.length),
    Utmp.DebugMode.shownAs "Major format version" "2".toList,
    Utmp.DebugMode.shownAs "Minor format version" "0".toList,
    Utmp.DebugMode.shownAs "File reference" (hexadecimalOf e.reference),
    Utmp.DebugMode.shownAs "Parent file reference" (hexadecimalOf e.parent),
    Utmp.DebugMode.shownAs "Timestamp" (time e.time),
    Utmp.DebugMode.shownAs "Update reason flags" (hexadecimalOf e.reason),
    Utmp.DebugMode.shownAs "Update source flags" (hexadecimalOf e.source),
    Utmp.DebugMode.shownAs "Security descriptor entry" (Text.digits 10 e.security),
    Utmp.DebugMode.shownAs "File attribute flags" (hexadecimalOf e.attributes),
    Utmp.DebugMode.shownAs "Name size" (Text.digits 10 (Utf.encode16 e.name).length),
    Utmp.DebugMode.shownAs "Name offset" (Text.digits 10 e.nameOffset),
    Utmp.DebugMode.shownAs "Name" e.name, ['\n']].flatten

/-- The records with their texts, one after the other. -/
def texts (time : Nat → Str) : Nat → List Entry → List (Record × Str)
  | _, [] => []
  | off, e :: l => (e.stored.value, e.text time off) :: texts time (off + e.stored.bytes.length) l

/-! ## Proofs -/
open Job (field_at)

def Entry.pieces (e : Entry) : List Bytes :=
  [leBytes 4 (60 + (Utf.encode16 e.name).length + e.padding.length), leBytes 2 2, leBytes 2 0, leBytes 8 e.reference,
    leBytes 8 e.parent, leBytes 8 e.sequence, leBytes 8 e.time,
    leBytes 4 e.reason, leBytes 4 e.source, leBytes 4 e.security, leBytes 4 e.attributes,
    leBytes 2 (Utf.encode16 e.name).length, leBytes 2 e.nameOffset, Utf.encode16 e.name, e.padding]

theorem bytes_pieces (e : Entry) : e.stored.bytes = e.pieces.flatten := by
  simp [Entry.stored, Stored.bytes, Entry.pieces]

theorem withoutNul_eq (s : Str) (h : Char.ofNat 0 ∉ s) : withoutNul s = s := by
  unfold withoutNul
  have : s.reverse.dropWhile (· = Char.ofNat 0) = s.reverse := by
    cases hs : s.reverse with
    | nil => rfl
    | cons c r =>
      have hc : c ∈ s := by rw [← List.mem_reverse, hs]; exact List.mem_cons_self
      have : c ≠ Char.ofNat 0 := fun e => h (e ▸ hc)
      simp [this]
  rw [this, List.reverse_reverse]

theorem writtenAs_line (w : Nat) (d : Calendar.Date) (h m s f : Nat) : '\n' ∉ Dates.writtenAs w d h m s f := by
  have key : ∀ w n, '\n' ∉ Calendar.padded w n := fun w n => Job.padded_line w n
  unfold Dates.writtenAs
  simp only [List.mem_append, key, or_false, false_or]
  split
  · decide
  · rename_i hw
    simp only [List.mem_append, key, or_false]
    decide

theorem timeText (v : Nat) : TimeText v (Dates.formatFiletime v) := by
  by_cases h0 : v = 0
  · subst h0; exact .inl ⟨rfl, rfl⟩
  by_cases h1 : v = 2 ^ 63 - 1
  · subst h1; exact .inr (.inl ⟨rfl, rfl⟩)
  · exact .inr (.inr ⟨h0, h1, Dates.C190_filetime v h0 h1⟩)

theorem timeText_line (v : Nat) (t : Str) (h : TimeText v t) : '\n' ∉ t := by
  rcases h with ⟨_, rfl⟩ | ⟨_, rfl⟩ | ⟨_, _, c, ⟨_, n, hh, m, s, f, _, _, _, _, _, _, rfl⟩, rfl⟩
  · decide
  · decide
  · rw [List.mem_append]
    rintro (h | h)
    · exact writtenAs_line _ _ _ _ _ _ h
    · revert h; decide

theorem blockOf_line (d : String) (t : Str) (b : Bool) (h : '\n' ∉ t) :
    Job.blockOf (some ⟨some d.toList, t, b⟩) = some (Job.line d t) := by
  simp only [Job.blockOf, Job.block, if_neg h, Job.line, String.ofList_toList]

theorem blockOf_decimal (d : String) (n : Nat) : Job.blockOf (decimal d n) = some (Job.line d (dec n)) :=
  blockOf_line d _ _ (Job.dec_line n)

theorem hex_line (n : Nat) : '\n' ∉ "0x".toList ++ hexw 8 n := Job.append_line (by decide) (Job.hexw_line _ _)

theorem blockOf_hexadecimal (d : String) (n : Nat) :
    Job.blockOf (hexadecimal 8 d n) = some (Job.line d ("0x".toList ++ hexw 8 n)) := blockOf_line d _ _ (hex_line n)

theorem line_shownAs (d : String) (t : Str) : Job.line d t = Utmp.DebugMode.shownAs d t := rfl

theorem attributes_shown (e : Entry) (h : e.Ok) :
    formatStructure (attributes e.stored.bytes e.name) = .ok
      ([Utmp.DebugMode.shownAs "Size" (Text.digits 10 e.stored.bytes.length),
    Utmp.DebugMode.shownAs "Major format version" "2".toList,
    Utmp.DebugMode.shownAs "Minor format version" "0".toList,
    Utmp.DebugMode.shownAs "File reference" (RpLog.DebugMode.hexadecimalOf e.reference),
    Utmp.DebugMode.shownAs "Parent file reference" (RpLog.DebugMode.hexadecimalOf e.parent),
    Utmp.DebugMode.shownAs "Timestamp" (Dates.formatFiletime e.time),
    Utmp.DebugMode.shownAs "Update reason flags" (RpLog.DebugMode.hexadecimalOf e.reason),
    Utmp.DebugMode.shownAs "Update source flags" (RpLog.DebugMode.hexadecimalOf e.source),
    Utmp.DebugMode.shownAs "Security descriptor entry" (Text.digits 10 e.security),
    Utmp.DebugMode.shownAs "File attribute flags" (RpLog.DebugMode.hexadecimalOf e.attributes),
    Utmp.DebugMode.shownAs "Name size" (Text.digits 10 (Utf.encode16 e.name).length),
    Utmp.DebugMode.shownAs "Name offset" (Text.digits 10 e.nameOffset),
    Utmp.DebugMode.shownAs "Name" e.name, ['\n']].flatten) := by
  obtain ⟨hk, hs1, hs2, hs3, _, hn, hz⟩ := h
  have hl := e.stored.length hk
  obtain ⟨h1, h2, h3, h4, h5, h6, h7, h8, h9⟩ := hk
  have ht := timeText_line _ _ (timeText e.time)
  dsimp only [Entry.stored] at h1 h2 h3 h4 h5 h6 h7 h8 h9 hl
  have f0 : number e.stored.bytes 0 4 = e.stored.bytes.length := by
    rw [show e.stored.bytes.length = 60 + (Utf.encode16 e.name).length + e.padding.length from hl, bytes_pieces]
    exact field_at e.pieces 0 4 _ 0 4 rfl rfl rfl (by omega)
  have f1 : number e.stored.bytes 4 6 = 2 := by
    rw [bytes_pieces]; exact field_at e.pieces 1 2 _ 4 6 rfl (by simp [Entry.pieces]) rfl (by omega)
  have f2 : number e.stored.bytes 6 8 = 0 := by
    rw [bytes_pieces]; exact field_at e.pieces 2 2 _ 6 8 rfl (by simp [Entry.pieces]) rfl (by omega)
  have f3 : number e.stored.bytes 8 16 = e.reference := by
    rw [bytes_pieces]; exact field_at e.pieces 3 8 _ 8 16 rfl (by simp [Entry.pieces]) rfl (by omega)
  have f4 : number e.stored.bytes 16 24 = e.parent := by
    rw [bytes_pieces]; exact field_at e.pieces 4 8 _ 16 24 rfl (by simp [Entry.pieces]) rfl (by omega)
  have f6 : number e.stored.bytes 32 40 = e.time := by
    rw [bytes_pieces]; exact field_at e.pieces 6 8 _ 32 40 rfl (by simp [Entry.pieces]) rfl (by omega)
  have f7 : number e.stored.bytes 40 44 = e.reason := by
    rw [bytes_pieces]; exact field_at e.pieces 7 4 _ 40 44 rfl (by simp [Entry.pieces]) rfl (by omega)
  have f8 : number e.stored.bytes 44 48 = e.source := by
    rw [bytes_pieces]; exact field_at e.pieces 8 4 _ 44 48 rfl (by simp [Entry.pieces]) rfl (by omega)
  have f9 : number e.stored.bytes 48 52 = e.security := by
    rw [bytes_pieces]; exact field_at e.pieces 9 4 _ 48 52 rfl (by simp [Entry.pieces]) rfl (by omega)
  have f10 : number e.stored.bytes 52 56 = e.attributes := by
    rw [bytes_pieces]; exact field_at e.pieces 10 4 _ 52 56 rfl (by simp [Entry.pieces]) rfl (by omega)
  have f11 : number e.stored.bytes 56 58 = (Utf.encode16 e.name).length := by
    rw [bytes_pieces]; exact field_at e.pieces 11 2 _ 56 58 rfl (by simp [Entry.pieces]) rfl (by omega)
  have f12 : number e.stored.bytes 58 60 = e.nameOffset := by
    rw [bytes_pieces]; exact field_at e.pieces 12 2 _ 58 60 rfl (by simp [Entry.pieces]) rfl (by omega)
  unfold attributes
  rw [f0, f1, f2, f3, f4, f6, f7, f8, f9, f10, f11, f12, withoutNul_eq _ hz]
  generalize Dates.formatFiletime (e.time : Int) = time at ht
  generalize e.stored.bytes.length = size
  generalize (Utf.encode16 e.name).length = nameSize
  rw [Job.structure_fine]
  · simp only [List.filterMap_cons, List.filterMap_nil, blockOf_decimal, blockOf_hexadecimal, blockOf_line "Timestamp" _ _ ht,
      Job.blockOf_custom _ _ hn]
    have := Job.closed_line [Job.line "Size" (dec size), Job.line "Major format version" (dec 2), Job.line "Minor format version" (dec 0),
      Job.line "File reference" ("0x".toList ++ hexw 8 e.reference), Job.line "Parent file reference" ("0x".toList ++ hexw 8 e.parent),
      Job.line "Timestamp" time, Job.line "Update reason flags" ("0x".toList ++ hexw 8 e.reason),
      Job.line "Update source flags" ("0x".toList ++ hexw 8 e.source), Job.line "Security descriptor entry" (dec e.security),
      Job.line "File attribute flags" ("0x".toList ++ hexw 8 e.attributes), Job.line "Name size" (dec nameSize),
      Job.line "Name offset" (dec e.nameOffset)] "Name" e.name hn
    simp only [List.cons_append, List.nil_append] at this
    rw [this]
    simp only [line_shownAs, List.flatten_cons, List.flatten_nil, List.append_assoc, List.append_nil]
    rfl
  · simp only [List.mem_cons, List.not_mem_nil, or_false]
    rintro a (rfl | rfl | rfl | rfl | rfl | rfl | rfl | rfl | rfl | rfl | rfl | rfl | rfl)
    all_goals first
      | exact Job.fine_decimal _ _
      | exact Job.fine_hexadecimal _ _ _
      | exact Job.fine_custom _ _
      | exact ⟨⟨_, rfl⟩, .inr ht⟩

theorem step_stored (pre post : Bytes) (e : Entry) (h : e.Ok) :
    step (pre ++ e.stored.bytes ++ post) pre.length =
      .record (e.text (fun v => Dates.formatFiletime v) pre.length) e.stored.value (pre ++ e.stored.bytes).length
        e.stored.bytes.length := by
  have hl := e.stored.length h.1
  unfold step
  dsimp only
  rw [slice_at _ _ _ _ (by omega), if_neg (header_ne e.stored), List.length_take, Nat.min_eq_left (by omega),
    if_neg (by omega), Nat.add_sub_cancel, encodes e.stored h.1 pre post]
  dsimp only
  rw [show Utf.decode16 e.stored.value.name = some e.name from Utf.C189_utf16 e.name]
  dsimp only
  rw [Int.toNat_natCast, slice_at _ _ _ _ (Nat.le_refl _), List.take_length, attributes_shown e h]
  dsimp only
  rw [List.length_append]
  congr 1
  unfold Entry.text
  simp only [List.flatten_cons, List.append_assoc]
  rfl

theorem walk_none (data : Bytes) (fuel pos : Nat) (offset : Int) (acc : List (Record × Str)) :
    walk data (fuel + 1) pos offset none acc =
      if offset < data.length then walk data fuel pos offset (some (min 4096 data.length)) acc
      else some (acc, [], .ok ()) := rfl

theorem walk_some (data : Bytes) (fuel pos : Nat) (offset block : Int) (acc : List (Record × Str)) :
    walk data (fuel + 1) pos offset (some block) acc =
      if block > 60 then
        match step data pos with
        | .empty => walk data fuel (pos + 60) (offset + block) none acc
        | .failed t e => some (acc, t, .error e)
        | .record t r pos' n => walk data fuel pos' (offset + n) (some (block - n)) (acc ++ [(r, t)])
      else walk data fuel pos (offset + block) none acc := rfl

/-- The name can be decoded. -/
def Named (r : Record) : Bool := (Utf.decode16 r.name).isSome

theorem attributes_fine (b : Bytes) (name : Str) : ∃ t, formatStructure (attributes b name) = .ok t := by
  have ht := timeText_line _ _ (timeText (number b 32 40))
  unfold attributes
  rw [Job.structure_fine]
  · exact ⟨_, rfl⟩
  · simp only [List.mem_cons, List.not_mem_nil, or_false]
    rintro a (rfl | rfl | rfl | rfl | rfl | rfl | rfl | rfl | rfl | rfl | rfl | rfl | rfl)
    all_goals first
      | exact Job.fine_decimal _ _
      | exact Job.fine_hexadecimal _ _ _
      | exact Job.fine_custom _ _
      | exact ⟨⟨_, rfl⟩, .inr ht⟩

/-- What a step in debug mode does, by what it does otherwise. -/
theorem step_find (data : Bytes) (pos : Nat) :
    match findRecord data pos with
    | .empty => step data pos = .empty
    | .failed e => ∃ t, step data pos = .failed t e
    | .record r pos' n =>
      if Named r then ∃ t, step data pos = .record t r pos' n else ∃ t, step data pos = .failed t .parseError := by
  unfold findRecord step
  dsimp only
  by_cases h1 : slice data pos (pos + 60) = emptyHeader
  · rw [if_pos h1, if_pos h1]
  rw [if_neg h1, if_neg h1]
  by_cases h2 : pos + (slice data pos (pos + 60)).length < 60
  · rw [if_pos h2, if_pos h2]
    exact ⟨_, rfl⟩
  rw [if_neg h2, if_neg h2]
  cases hs : structAt recordMap data (pos + (slice data pos (pos + 60)).length - 60 : Nat) with
  | error e => exact ⟨_, rfl⟩
  | ok q =>
    obtain ⟨r, n⟩ := q
    dsimp only
    unfold Named
    cases hd : Utf.decode16 r.name with
    | none => exact ⟨_, rfl⟩
    | some name =>
      dsimp only
      rw [if_pos (by rfl)]
      obtain ⟨t, ht⟩ := attributes_fine (slice data (pos + (slice data pos (pos + 60)).length - 60)
        (pos + (slice data pos (pos + 60)).length - 60 + n.toNat)) name
      rw [ht]
      exact ⟨_, rfl⟩

theorem readRecords_prefix (data : Bytes) (fuel : Nat) : ∀ (pos : Nat) (offset : Int) (block : Option Int) (acc : List Record)
    (rs : List Record) (fin : Res Unit), readRecords data fuel pos offset block acc = some (rs, fin) → acc <+: rs := by
  induction fuel with
  | zero => intro pos offset block acc rs fin h; simp [readRecords] at h
  | succ fuel ih =>
    intro pos offset block acc rs fin h
    cases block with
    | none =>
      rw [readRecords_none] at h
      split at h
      · exact ih _ _ _ _ _ _ h
      · cases h; exact List.prefix_rfl
    | some block =>
      rw [readRecords_some] at h
      split at h
      · cases hf : findRecord data pos with
        | empty => rw [hf] at h; exact ih _ _ _ _ _ _ h
        | failed e => rw [hf] at h; cases h; exact List.prefix_rfl
        | record r pos' n =>
          rw [hf] at h
          exact (List.prefix_append _ _).trans (ih _ _ _ _ _ _ h)
      · exact ih _ _ _ _ _ _ h

theorem walk_read (data : Bytes) (fuel : Nat) : ∀ (pos : Nat) (offset : Int) (block : Option Int) (acc : List (Record × Str))
    (rs : List Record) (fin : Res Unit), (∀ p ∈ acc, Named p.1 = true) →
    readRecords data fuel pos offset block (acc.map (·.1)) = some (rs, fin) →
    ∃ l t, walk data fuel pos offset block acc = some (l, t, if rs.all Named then fin else .error .parseError) ∧
      l.map (·.1) = rs.takeWhile Named := by
  induction fuel with
  | zero => intro pos offset block acc rs fin _ h; simp [readRecords] at h
  | succ fuel ih =>
    intro pos offset block acc rs fin ha h
    have hall : (acc.map (·.1)).all Named = true := by
      rw [List.all_eq_true]
      intro r hr
      obtain ⟨p, hp, rfl⟩ := List.mem_map.1 hr
      exact ha p hp
    have htw : acc.map (·.1) = (acc.map (·.1)).takeWhile Named := by
      have := List.takeWhile_append_of_pos (l₂ := []) (fun r hr => List.all_eq_true.1 hall r hr)
      simpa using this.symm
    cases block with
    | none =>
      rw [readRecords_none] at h
      rw [walk_none]
      split at h
      · rename_i hc
        rw [if_pos hc]
        exact ih _ _ _ _ _ _ ha h
      · rename_i hc
        rw [if_neg hc]
        cases h
        exact ⟨_, _, by rw [if_pos hall], htw⟩
    | some block =>
      rw [readRecords_some] at h
      rw [walk_some]
      split at h
      · rename_i hc
        rw [if_pos hc]
        have hsf := step_find data pos
        cases hf : findRecord data pos with
        | empty =>
          rw [hf] at h hsf
          dsimp only at h hsf
          rw [hsf]
          exact ih _ _ _ _ _ _ ha h
        | failed e =>
          rw [hf] at h hsf
          dsimp only at h hsf
          obtain ⟨t, ht⟩ := hsf
          rw [ht]
          cases h
          exact ⟨_, _, by rw [if_pos hall], htw⟩
        | record r pos' n =>
          rw [hf] at h hsf
          dsimp only at h hsf
          by_cases hn : Named r = true
          · rw [if_pos hn] at hsf
            obtain ⟨t, ht⟩ := hsf
            rw [ht]
            refine ih _ _ _ _ _ _ ?_ (by rw [List.map_append]; exact h)
            intro p hp
            rcases List.mem_append.1 hp with hp | hp
            · exact ha p hp
            · rw [List.mem_singleton.1 hp]; exact hn
          · rw [if_neg hn] at hsf
            obtain ⟨t, ht⟩ := hsf
            rw [ht]
            obtain ⟨more, rfl⟩ := readRecords_prefix _ _ _ _ _ _ _ _ h
            refine ⟨acc, t, ?_, ?_⟩
            · rw [if_neg]
              simp only [List.all_append, List.all_cons, hn]
              simp
            · rw [List.append_assoc, List.takeWhile_append_of_pos (fun r hr => List.all_eq_true.1 hall r hr)]
              simp [hn]
      · rename_i hc
        rw [if_neg hc]
        exact ih _ _ _ _ _ _ ha h

theorem name_pos (e : Entry) (h : e.Ok) : 0 < (Utf.encode16 e.name).length := by
  rw [List.length_pos_iff]
  intro hz
  have := Utf.C189_utf16 e.name
  rw [hz] at this
  exact h.2.2.2.2.1 (Option.some.inj this).symm

theorem texts_append (time : Nat → Str) (l m : List Entry) : ∀ off, texts time off (l ++ m) =
    texts time off l ++ texts time (off + (recordBytes (l.map Entry.stored)).length) m := by
  induction l with
  | nil => intro off; simp [texts, recordBytes]
  | cons e l ih =>
    intro off
    rw [List.cons_append, texts, ih, texts]
    simp [recordBytes, Nat.add_assoc]

/-- The text of a time in the model. -/
def timeOf (v : Nat) : Str := Dates.formatFiletime v

theorem walk_records (l : List Entry) : ∀ (pre post : Bytes) (offset block : Int) (acc : List (Record × Str)),
    (∀ e ∈ l, e.Ok) → ((recordBytes (l.map Entry.stored)).length : Int) ≤ block → ∀ fuel,
    walk (pre ++ recordBytes (l.map Entry.stored) ++ post) (fuel + l.length) pre.length offset (some block) acc =
      walk (pre ++ recordBytes (l.map Entry.stored) ++ post) fuel (pre ++ recordBytes (l.map Entry.stored)).length
        (offset + (recordBytes (l.map Entry.stored)).length) (some (block - (recordBytes (l.map Entry.stored)).length))
        (acc ++ texts timeOf pre.length l) := by
  induction l with
  | nil => intro pre post offset block acc _ _ fuel; simp [recordBytes, texts]
  | cons e l ih =>
    intro pre post offset block acc h hb fuel
    have hs := h e (by simp)
    have hlen := e.stored.length hs.1
    have hpos : 60 < e.stored.bytes.length := by
      have : 0 < (Utf.encode16 e.name).length := name_pos e hs
      have e2 : e.stored.value.name.length = (Utf.encode16 e.name).length := rfl
      omega
    have e0 : recordBytes ((e :: l).map Entry.stored) = e.stored.bytes ++ recordBytes (l.map Entry.stored) := by simp [recordBytes]
    rw [e0] at hb ⊢
    rw [List.length_append] at hb
    have e1 : pre ++ (e.stored.bytes ++ recordBytes (l.map Entry.stored)) ++ post =
        pre ++ e.stored.bytes ++ (recordBytes (l.map Entry.stored) ++ post) := by simp
    have e2 : pre ++ e.stored.bytes ++ (recordBytes (l.map Entry.stored) ++ post) =
        (pre ++ e.stored.bytes) ++ recordBytes (l.map Entry.stored) ++ post := by simp
    rw [e1, List.length_cons, ← Nat.add_assoc, walk_some, if_pos (by omega), step_stored _ _ _ hs]
    dsimp only
    rw [e2, ih _ _ _ _ _ (fun t ht => h t (by simp [ht])) (by omega)]
    congr 1
    · simp
    · simp; omega
    · simp; omega
    · rw [List.append_assoc, List.length_append, texts]
      rfl

theorem walk_full (l : List Entry) (pre post : Bytes) (acc : List (Record × Str)) (h : ∀ e ∈ l, e.Ok)
    (hb : (recordBytes (l.map Entry.stored)).length = 4096) (fuel : Nat) :
    walk (pre ++ recordBytes (l.map Entry.stored) ++ post) (fuel + l.length + 2) pre.length pre.length none acc =
      walk (pre ++ recordBytes (l.map Entry.stored) ++ post) fuel (pre ++ recordBytes (l.map Entry.stored)).length
        (pre ++ recordBytes (l.map Entry.stored)).length none (acc ++ texts timeOf pre.length l) := by
  have hm : min 4096 ((pre ++ recordBytes (l.map Entry.stored) ++ post).length : Int) = 4096 := by
    simp [hb]; omega
  rw [show fuel + l.length + 2 = (fuel + 1) + l.length + 1 by omega, walk_none,
    if_pos (by simp [hb]; omega), hm, walk_records l _ _ _ _ _ h (by omega), hb, walk_some, if_neg (by omega)]
  congr 1
  simp [hb]

theorem walk_last (l : List Entry) (pre : Bytes) (z : Nat) (acc : List (Record × Str)) (h : ∀ e ∈ l, e.Ok)
    (hb : (min 4096 (pre ++ recordBytes (l.map Entry.stored) ++ List.replicate z 0).length : Nat) =
      (recordBytes (l.map Entry.stored)).length + z)
    (hp : 0 < (recordBytes (l.map Entry.stored)).length + z) (fuel : Nat) :
    walk (pre ++ recordBytes (l.map Entry.stored) ++ List.replicate z 0) (fuel + l.length + 3) pre.length pre.length none acc =
      some (acc ++ texts timeOf pre.length l, [], .ok ()) := by
  have hm : min 4096 ((pre ++ recordBytes (l.map Entry.stored) ++ List.replicate z 0).length : Int) =
      (recordBytes (l.map Entry.stored)).length + z := by
    omega
  rw [show fuel + l.length + 3 = (fuel + 2) + l.length + 1 by omega, walk_none,
    if_pos (by simp only [List.length_append, List.length_replicate]; omega), hm, walk_records l _ _ _ _ _ h (by omega), walk_some]
  have hend : ¬ ((pre.length : Int) + (recordBytes (l.map Entry.stored)).length +
      (((recordBytes (l.map Entry.stored)).length : Int) + z - (recordBytes (l.map Entry.stored)).length) <
        (pre ++ recordBytes (l.map Entry.stored) ++ List.replicate z 0).length) := by
    simp only [List.length_append, List.length_replicate]
    push_cast
    omega
  split
  · rename_i hz
    have := slice_at (pre ++ recordBytes (l.map Entry.stored)) (List.replicate z (0 : UInt8)) [] 60 (by simp; omega)
    rw [List.append_nil, List.take_replicate, Nat.min_eq_left (by omega)] at this
    have hf : step (pre ++ recordBytes (l.map Entry.stored) ++ List.replicate z 0)
        (pre ++ recordBytes (l.map Entry.stored)).length = .empty := by
      unfold step
      dsimp only
      rw [this]
      exact if_pos rfl
    rw [hf]
    dsimp only
    rw [walk_none, if_neg hend]
  · rw [walk_none, if_neg hend]

theorem walk_mono (data : Bytes) (fuel k : Nat) : ∀ (pos : Nat) (offset : Int) (block : Option Int) (acc : List (Record × Str))
    (r : List (Record × Str) × Str × Res Unit), walk data fuel pos offset block acc = some r →
    walk data (fuel + k) pos offset block acc = some r := by
  induction fuel with
  | zero => intro pos offset block acc r h; simp [walk] at h
  | succ fuel ih =>
    intro pos offset block acc r h
    rw [show fuel + 1 + k = fuel + k + 1 by omega]
    cases block with
    | none =>
      rw [walk_none] at h ⊢
      split
      · rename_i hc
        rw [if_pos hc] at h
        exact ih _ _ _ _ _ h
      · rename_i hc
        rw [if_neg hc] at h
        exact h
    | some block =>
      rw [walk_some] at h ⊢
      split
      · rename_i hc
        rw [if_pos hc] at h
        cases hf : step data pos with
        | empty => rw [hf] at h; exact ih _ _ _ _ _ h
        | failed t e => rw [hf] at h; exact h
        | record t r pos' n => rw [hf] at h; exact ih _ _ _ _ _ h
      · rename_i hc
        rw [if_neg hc] at h
        exact ih _ _ _ _ _ h

/-! ## C194 -/

/-- In debug mode the same records are read and the end is the same, if the names can be decoded: formatting never fails.  The
first name that cannot be decoded is a ParseError. -/
theorem C194_same (data : Bytes) (fuel : Nat) (rs : List Record) (fin : Res Unit) (h : records data fuel = some (rs, fin)) :
    ∃ l t, shown data fuel = some (l, t, if rs.all (fun r => (Utf.decode16 r.name).isSome) then fin else .error .parseError) ∧
      l.map (·.1) = rs.takeWhile (fun r => (Utf.decode16 r.name).isSome) :=
  walk_read data fuel 0 0 none [] rs fin (by simp) h

/-- All records of a journal whose blocks but the last are filled with records are shown, in order, each with its offset, data
and values, the time of the calendar and the characters of the name. -/
theorem C194_full_blocks_partial (blocks : List (List Entry)) (last : List Entry)
    (hf : ∀ b ∈ blocks, (∀ e ∈ b, e.Ok) ∧ (recordBytes (b.map Entry.stored)).length = 4096)
    (hl : (∀ e ∈ last, e.Ok) ∧ (recordBytes (last.map Entry.stored)).length ≤ 4096) :
    ∃ time : Nat → Str, (∀ v, TimeText v (time v)) ∧
      ∃ n, ∀ fuel, shown (journal ((blocks ++ [last]).map (·.map Entry.stored))) (n + fuel) =
        some (texts time 0 (blocks ++ [last]).flatten, [], .ok ()) := by
  refine ⟨timeOf, timeText, ?_⟩
  have key : ∀ (blocks : List (List Entry)) (pre : Bytes) (acc : List (Record × Str)),
      (∀ b ∈ blocks, (∀ e ∈ b, e.Ok) ∧ (recordBytes (b.map Entry.stored)).length = 4096) →
      ∃ n, ∀ fuel, walk (pre ++ journal ((blocks ++ [last]).map (·.map Entry.stored))) (n + fuel) pre.length pre.length none acc =
        some (acc ++ texts timeOf pre.length (blocks ++ [last]).flatten, [], .ok ()) := by
    intro blocks
    induction blocks with
    | nil =>
      intro pre acc _
      refine ⟨last.length + 3, fun fuel => ?_⟩
      have e : pre ++ journal (([] ++ [last]).map (fun b : List Entry => b.map Entry.stored)) = pre ++ recordBytes (last.map Entry.stored) ++
          List.replicate (4096 - (recordBytes (last.map Entry.stored)).length) 0 := by simp [journal]
      rw [e, show last.length + 3 + fuel = fuel + last.length + 3 by omega,
        walk_last _ _ _ _ hl.1 (by simp only [List.length_append, List.length_replicate]; omega) (by omega)]
      simp
    | cons b blocks ih =>
      intro pre acc h
      have hb := h b (by simp)
      obtain ⟨n, hn⟩ := ih (pre ++ recordBytes (b.map Entry.stored)) (acc ++ texts timeOf pre.length b) (fun c hc => h c (by simp [hc]))
      refine ⟨n + b.length + 2, fun fuel => ?_⟩
      have e : pre ++ journal ((b :: blocks ++ [last]).map (·.map Entry.stored)) =
          pre ++ recordBytes (b.map Entry.stored) ++ journal ((blocks ++ [last]).map (·.map Entry.stored)) := by
        simp [journal, hb.2]
      rw [e, show n + b.length + 2 + fuel = (n + fuel) + b.length + 2 by omega, walk_full _ _ _ _ hb.1 hb.2, hn]
      rw [List.cons_append, List.flatten_cons, texts_append, List.append_assoc, List.length_append]
  have := key blocks [] [] hf
  rw [List.nil_append] at this
  exact this

/-- The same for a file of at most one block, whatever the padding. -/
theorem C194_one_block_partial (l : List Entry) (z : Nat) (h : ∀ e ∈ l, e.Ok) (hl : l ≠ [])
    (hs : (recordBytes (l.map Entry.stored)).length + z ≤ 4096) :
    ∃ time : Nat → Str, (∀ v, TimeText v (time v)) ∧
      ∃ n, ∀ fuel, shown (recordBytes (l.map Entry.stored) ++ List.replicate z 0) (n + fuel) = some (texts time 0 l, [], .ok ()) := by
  refine ⟨timeOf, timeText, l.length + 3, fun fuel => ?_⟩
  have hp : 0 < (recordBytes (l.map Entry.stored)).length := by
    cases l with
    | nil => exact absurd rfl hl
    | cons e l =>
      have := e.stored.length (h e (by simp)).1
      simp [recordBytes]
      omega
  have := walk_last l [] z [] h (by simp only [List.nil_append, List.length_append, List.length_replicate]; omega) (by omega) fuel
  rw [show l.length + 3 + fuel = fuel + l.length + 3 by omega]
  exact this

/-- The claim: the script shows all records in debug mode. -/
def C194_script_claim : Prop :=
  ∀ (l : List Entry), (∀ e ∈ l, e.Ok) → (recordBytes (l.map Entry.stored)).length ≤ 4096 →
    ∃ (time : Nat → Str) (fuel : Nat) (err : Option Err), (∀ v, TimeText v (time v)) ∧ script (recordBytes (l.map Entry.stored)) fuel =
      some ("USN journal records information:Date and time,Name,File reference,Parent file reference".toList ++
        ((texts time 0 l).map (·.2)).flatten, err)

/-- The script in debug mode shows the first record and ends with an AttributeError. -/
theorem C194_script (data : Bytes) (fuel : Nat) (p : Record × Str) (l : List (Record × Str)) (t : Str) (fin : Res Unit)
    (h : shown data fuel = some (p :: l, t, fin)) :
    script data fuel =
      some ("USN journal records information:Date and time,Name,File reference,Parent file reference".toList ++ p.2,
        some .attributeError) := by
  rw [script, h, ← Journals.head_eq]
  rfl

def witness : Entry := ⟨0x0001000000000026, 5, 7, 0, 0x100, 0, 0, 32, 60, "a.txt".toList, [0, 0]⟩

theorem witness_ok : witness.Ok := by
  unfold Entry.Ok Stored.Ok
  decide +kernel

theorem C194_script_claim_false : ¬ C194_script_claim := by
  intro h
  have hok : ∀ e ∈ [witness, witness], e.Ok := by
    intro e he
    simp only [List.mem_cons, List.not_mem_nil, or_false, or_self] at he
    rw [he]
    exact witness_ok
  have hlen : (recordBytes ([witness, witness].map Entry.stored)).length ≤ 4096 := by decide +kernel
  obtain ⟨time, fuel, err, ht, hs⟩ := h _ hok hlen
  have hw := walk_last [witness, witness] [] 0 [] hok (by decide +kernel) (by decide +kernel) fuel
  rw [List.nil_append, List.replicate_zero, List.append_nil] at hw
  have hz : ∀ off, witness.text time off = witness.text timeOf off := by
    intro off
    have h0 : time witness.time = timeOf witness.time := by
      rcases ht witness.time with ⟨_, e⟩ | ⟨e, _⟩ | ⟨e, _⟩
      · rw [e]; rfl
      · exact absurd e (by decide)
      · exact absurd rfl e
    unfold Entry.text
    rw [h0]
  cases hq : shown (recordBytes ([witness, witness].map Entry.stored)) fuel with
  | none => rw [script, hq] at hs; simp at hs
  | some q =>
    have := walk_mono _ _ 5 _ _ _ _ _ hq
    have hw' : some q = some ([] ++ texts timeOf 0 [witness, witness], [], .ok ()) := this.symm.trans hw
    rw [Option.some.inj hw'] at hq
    rw [C194_script _ _ _ _ _ _ hq] at hs
    have h1 := congrArg Prod.fst (Option.some.inj hs)
    dsimp only at h1
    have h2 := List.append_cancel_left h1
    simp only [texts, List.map_cons, List.map_nil, List.flatten_cons, List.flatten_nil, hz, List.append_nil] at h2
    have h3 := congrArg List.length h2
    rw [List.length_append] at h3
    have h4 : 0 < (witness.text timeOf (0 + witness.stored.bytes.length)).length := by
      unfold Entry.text
      rw [List.flatten_cons, List.length_append]
      unfold RpLog.DebugMode.announcedAt
      simp only [List.length_append]
      rw [show "Reading ".toList.length = 8 from rfl]
      omega
    omega

/-- The hypotheses hold of a journal with two records. -/
example : (∀ e ∈ [witness, witness], e.Ok) ∧ (recordBytes ([witness, witness].map Entry.stored)).length = 144 := by
  refine ⟨?_, by decide +kernel⟩
  intro e he
  simp only [List.mem_cons, List.not_mem_nil, or_false, or_self] at he
  rw [he]
  exact witness_ok

/-- A block that is filled with two records. -/
example : (∀ e ∈ [witness, { witness with padding := List.replicate 3954 0 }], e.Ok) ∧
    (recordBytes ([witness, { witness with padding := List.replicate 3954 0 }].map Entry.stored)).length = 4096 := by
  refine ⟨?_, by decide +kernel⟩
  intro e he
  simp only [List.mem_cons, List.not_mem_nil, or_false] at he
  rcases he with rfl | rfl
  · exact witness_ok
  · unfold Entry.Ok Stored.Ok
    decide +kernel

/-- A name that ends within a character is not shown, although the record can be read. -/
example : records ({ witness.stored with value := { witness.stored.value with name := [0x61] } } : Stored).bytes 5 ≠ none ∧
    ((shown ({ witness.stored with value := { witness.stored.value with name := [0x61] } } : Stored).bytes 5).map
      fun q => (q.1.length, q.2.2.isOk)) = some (0, false) := by
  decide +kernel

end Dtf.UsnDebug
