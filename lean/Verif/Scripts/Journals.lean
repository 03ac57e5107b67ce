import Verif.ChangeLog
import Verif.Usn
import Verif.Formats.Props

/-!
# The scripts that show change logs and USN journals (C182, C183)

The text that `decode` makes of the bytes of UTF-16 strings and the text of a FILETIME are parameters.
-/

namespace Dtf.Journals
open Py DataFormat Formats

/-! ## Model -/

/-- What is written, and what is raised after that. -/
abbrev Run := List Char × Option Err

/-- `f"{value:s}"` of a string or `None`: `None` has no format `s`. -/
def formatS : Option (List Char) → Res (List Char)
  | none => .error .typeError
  | some s => .ok s

/-- The attributes of a `RestorePointChangeLogFile` that the script uses. -/
structure LogFile where
  entries : List ChangeLog.Entry
  volumePath : Option (List Char)

/-- `RestorePointChangeLogFile.__init__` (rp_change_log.py 75-84). -/
def newFile : LogFile := ⟨[], none⟩

/-- `Open` (data_format.py 881-901) with `ReadFileObject` (rp_change_log.py 482-492).  Nothing that is called there
assigns `volume_path`: `_ReadVolumePath` (448-480) only checks the record. -/
def openLog (data : Bytes) (fuel : Nat) : Option (Res LogFile) :=
  (ChangeLog.readLog data fuel).map fun r => r.map fun es => { newFile with entries := es }

/-- `LOG_ENTRY_FLAGS` (rp_change_log.py 43-49). -/
def entryFlags : List (Nat × List Char) :=
  [(0x00000001, "CHANGE_LOG_ENTRYFLAGS_TEMPPATH".toList), (0x00000002, "CHANGE_LOG_ENTRYFLAGS_SECONDPATH".toList),
    (0x00000004, "CHANGE_LOG_ENTRYFLAGS_ACLINFO".toList), (0x00000008, "CHANGE_LOG_ENTRYFLAGS_DEBUGINFO".toList),
    (0x00000010, "CHANGE_LOG_ENTRYFLAGS_SHORTNAME".toList)]

/-- `LOG_ENTRY_TYPES` (rp_change_log.py 52-73). -/
def entryTypes : List (Nat × List Char) :=
  [(0x00000001, "CHANGE_LOG_ENTRYTYPES_STREAMCHANGE".toList), (0x00000002, "CHANGE_LOG_ENTRYTYPES_ACLCHANGE".toList),
    (0x00000004, "CHANGE_LOG_ENTRYTYPES_ATTRCHANGE".toList), (0x00000008, "CHANGE_LOG_ENTRYTYPES_STREAMOVERWRITE".toList),
    (0x00000010, "CHANGE_LOG_ENTRYTYPES_FILEDELETE".toList), (0x00000020, "CHANGE_LOG_ENTRYTYPES_FILECREATE".toList),
    (0x00000040, "CHANGE_LOG_ENTRYTYPES_FILERENAME".toList), (0x00000080, "CHANGE_LOG_ENTRYTYPES_DIRCREATE".toList),
    (0x00000100, "CHANGE_LOG_ENTRYTYPES_DIRRENAME".toList), (0x00000200, "CHANGE_LOG_ENTRYTYPES_DIRDELETE".toList),
    (0x00000400, "CHANGE_LOG_ENTRYTYPES_MOUNTCREATE".toList), (0x00000800, "CHANGE_LOG_ENTRYTYPES_MOUNTDELETE".toList),
    (0x00001000, "CHANGE_LOG_ENTRYTYPES_VOLUMEERROR".toList), (0x00002000, "CHANGE_LOG_ENTRYTYPES_STREAMCREATE".toList),
    (0x00010000, "CHANGE_LOG_ENTRYTYPES_NOOPTIMIZE".toList), (0x00020000, "CHANGE_LOG_ENTRYTYPES_ISDIR".toList),
    (0x00040000, "CHANGE_LOG_ENTRYTYPES_ISNOTDIR".toList), (0x00080000, "CHANGE_LOG_ENTRYTYPES_SIMULATEDELETE".toList),
    (0x00100000, "CHANGE_LOG_ENTRYTYPES_INPRECREATE".toList), (0x00200000, "CHANGE_LOG_ENTRYTYPES_OPENBYID".toList)]

/-- The loops over the items of these tables (scripts/rp_change_log.py 73-76 and 81-84). -/
def flagNames : List (Nat × List Char) → Nat → List (List Char)
  | [], _ => []
  | (flag, name) :: table, v => if v &&& flag ≠ 0 then name :: flagNames table v else flagNames table v

/-- `process_name[:-1]` (rp_change_log.py 252) of the string, whose terminator dtfabric has removed already. -/
def processName (utf16 : Bytes → List Char) (e : ChangeLog.Entry) : List Char := (utf16 e.name).dropLast

/-- What is printed of an entry (scripts/rp_change_log.py 73-92). -/
def entryText (utf16 : Bytes → List Char) (e : ChangeLog.Entry) : List Char :=
  "Entry type:\t\t".toList ++ Text.join ", ".toList (flagNames entryTypes e.entryType) ++ ['\n'] ++
    ("Entry flags:\t\t".toList ++ Text.join ", ".toList (flagNames entryFlags e.entryFlags) ++ ['\n']) ++
    ("Sequence number:\t".toList ++ dec e.sequence ++ ['\n']) ++
    ("Process name:\t\t".toList ++ processName utf16 e ++ ['\n']) ++ ['\n']

def logTitle : List Char := "Windows Restore Point change.log information:\n".toList

/-- What is printed of a file that is open (scripts/rp_change_log.py 68-92). -/
def showLog (utf16 : Bytes → List Char) (f : LogFile) : Run :=
  match formatS f.volumePath with
  | .error e => (logTitle, some e)
  | .ok s => (logTitle ++ ("Volume path:\t".toList ++ s ++ ['\n']) ++ ['\n'] ++ f.entries.flatMap (entryText utf16), none)

/-- `Main` (scripts/rp_change_log.py 12-98) for a source and without debug mode.  Nothing is caught. -/
def logMain (utf16 : Bytes → List Char) (data : Bytes) (fuel : Nat) : Option Run :=
  (openLog data fuel).map fun r =>
    match r with
    | .error e => ([], some e)
    | .ok f => showLog utf16 f

/-- The text of a file reference (scripts/usn_journal.py 73-75 and 77-79). -/
def reference (n : Nat) : List Char := dec (n &&& ((1 <<< 48) - 1)) ++ ['-'] ++ dec (n >>> 48)

/-- The loop over the records (scripts/usn_journal.py 69-85): `method` is what the attribute
`_FormatIntegerAsFiletime` of a record is.  `WriteText` adds no end of line. -/
def showRecords (method : Option (Nat → List Char)) (utf16 : Bytes → List Char) : List Usn.Record → Run
  | [] => ([], none)
  | r :: l =>
    match method with
    | none => ([], some .attributeError)
    | some f =>
      let rest := showRecords method utf16 l
      (Text.join ",".toList [f r.timestamp, utf16 r.name, reference r.fileReference, reference r.parentReference] ++ rest.1,
        rest.2)

/-- The two texts before the records (scripts/usn_journal.py 65-68). -/
def journalHead : List Char :=
  "USN journal records information:".toList ++
    Text.join ",".toList ["Date and time".toList, "Name".toList, "File reference".toList, "Parent file reference".toList]

/-- `Main` (scripts/usn_journal.py 12-91) for a source and without debug mode.  A record is an object with the members
of `usn_record_v2` (usn_journal.yaml 49-91): it has no method `_FormatIntegerAsFiletime`.  `ReadRecords` reads a
record when it is asked for; the ones after the first are never asked for. -/
def journalMain (method : Option (Nat → List Char)) (utf16 : Bytes → List Char) (data : Bytes) (fuel : Nat) : Option Run :=
  (Usn.records data fuel).map fun (records, finish) =>
    match showRecords method utf16 records with
    | (t, some e) => (journalHead ++ t, some e)
    | (t, none) =>
      match finish with
      | .error e => (journalHead ++ t, some e)
      | .ok () => (journalHead ++ t, none)

/-! ## The specification -/

/-- The bits that have a name, by number. -/
def typeBits : List (Nat × String) :=
  [(0, "STREAMCHANGE"), (1, "ACLCHANGE"), (2, "ATTRCHANGE"), (3, "STREAMOVERWRITE"), (4, "FILEDELETE"), (5, "FILECREATE"),
    (6, "FILERENAME"), (7, "DIRCREATE"), (8, "DIRRENAME"), (9, "DIRDELETE"), (10, "MOUNTCREATE"), (11, "MOUNTDELETE"),
    (12, "VOLUMEERROR"), (13, "STREAMCREATE"), (16, "NOOPTIMIZE"), (17, "ISDIR"), (18, "ISNOTDIR"),
    (19, "SIMULATEDELETE"), (20, "INPRECREATE"), (21, "OPENBYID")]

def flagBits : List (Nat × String) :=
  [(0, "TEMPPATH"), (1, "SECONDPATH"), (2, "ACLINFO"), (3, "DEBUGINFO"), (4, "SHORTNAME")]

/-- The names of the bits that are set. -/
def bitNames (pre : String) (bits : List (Nat × String)) (v : Nat) : List (List Char) :=
  (bits.filter (fun p => v.testBit p.1)).map (fun p => pre.toList ++ p.2.toList)

/-- A line with a description and a value. -/
def lineOf (description : String) (value : List Char) : List Char := description.toList ++ value ++ ['\n']

/-- What the script is meant to show of a change log. -/
def report (path : List Char) (name : ChangeLog.Entry → List Char) (entries : List ChangeLog.Entry) : List Char :=
  (lineOf "Windows Restore Point change.log information:" [] ++ lineOf "Volume path:\t" path ++ ['\n']) ++
    (entries.map fun e =>
      lineOf "Entry type:\t\t" (Text.join ", ".toList (bitNames "CHANGE_LOG_ENTRYTYPES_" typeBits e.entryType)) ++
        lineOf "Entry flags:\t\t" (Text.join ", ".toList (bitNames "CHANGE_LOG_ENTRYFLAGS_" flagBits e.entryFlags)) ++
        lineOf "Sequence number:\t" (Text.digits 10 e.sequence) ++
        lineOf "Process name:\t\t" (name e) ++ ['\n']).flatten

/-- The claim: a change log is shown, with its volume path and all its entries. -/
def C182_shown_claim (utf16 : Bytes → List Char) : Prop :=
  ∀ (path : Bytes) (entries : List ChangeLog.StoredEntry), 28 + path.length < 2 ^ 32 → (∀ e ∈ entries, e.Ok) →
    ∃ fuel, logMain utf16 (ChangeLog.logBytes path entries) fuel =
      some (report (utf16 path) (fun e => utf16 e.name) (entries.map (·.value)), none)

/-- The claim: the process name of an entry is shown. -/
def C182_name_claim (utf16 : Bytes → List Char) : Prop := ∀ e, processName utf16 e = utf16 e.name

/-- The claim: the names of the types tell which bits are set. -/
def C182_types_claim : Prop :=
  ∀ v w, v < 2 ^ 32 → w < 2 ^ 32 → flagNames entryTypes v = flagNames entryTypes w → v = w

/-- The claim: a journal is shown, with all its records. -/
def C183_shown_claim (utf16 : Bytes → List Char) : Prop :=
  ∀ (l : List Usn.Stored) (z : Nat), (∀ s ∈ l, s.Ok ∧ 60 < s.bytes.length) → (Usn.recordBytes l).length + z ≤ 4096 →
    ∃ fuel t, journalMain none utf16 (Usn.recordBytes l ++ List.replicate z 0) fuel = some (t, none)

/-- The claim: the names of the columns are on a line of their own. -/
def C183_columns_claim (utf16 : Bytes → List Char) : Prop :=
  ∀ data fuel t, journalMain none utf16 data fuel = some (t, none) →
    "Date and time,Name,File reference,Parent file reference".toList ∈ Text.splitOn '\n' t

/-! ## Proofs -/

theorem names_eq (table : List (Nat × List Char)) (pre : String) (bits : List (Nat × String)) (v : Nat)
    (h : table = bits.map (fun p => (2 ^ p.1, pre.toList ++ p.2.toList))) : flagNames table v = bitNames pre bits v := by
  subst h
  unfold bitNames
  induction bits with
  | nil => rfl
  | cons p bits ih =>
    rw [List.map_cons, flagNames, List.filter_cons, ih]
    have hb : (v &&& 2 ^ p.1 ≠ 0) ↔ v.testBit p.1 = true := by
      constructor
      · intro h
        obtain ⟨i, hi⟩ := Nat.exists_testBit_of_ne_zero h
        rw [Nat.testBit_and, Nat.testBit_two_pow, Bool.and_eq_true, decide_eq_true_eq] at hi
        rw [hi.2]
        exact hi.1
      · intro hb h
        have := congrArg (fun x => Nat.testBit x p.1) h
        simp [hb] at this
    by_cases hc : v.testBit p.1 = true
    · rw [if_pos (hb.2 hc), if_pos hc, List.map_cons]
    · rw [if_neg (fun h => hc (hb.1 h)), if_neg hc]

theorem types_eq : entryTypes = typeBits.map (fun p => (2 ^ p.1, "CHANGE_LOG_ENTRYTYPES_".toList ++ p.2.toList)) := by
  decide +kernel

theorem flags_eq : entryFlags = flagBits.map (fun p => (2 ^ p.1, "CHANGE_LOG_ENTRYFLAGS_".toList ++ p.2.toList)) := by
  decide +kernel

/-- The names that are shown of the type and of the flags of an entry are those of the bits that are set, from the
lowest one. -/
theorem C182_names (v : Nat) : flagNames entryTypes v = bitNames "CHANGE_LOG_ENTRYTYPES_" typeBits v ∧
    flagNames entryFlags v = bitNames "CHANGE_LOG_ENTRYFLAGS_" flagBits v :=
  ⟨names_eq _ _ _ _ types_eq, names_eq _ _ _ _ flags_eq⟩

example : flagNames entryTypes 0x20020 =
    ["CHANGE_LOG_ENTRYTYPES_FILECREATE".toList, "CHANGE_LOG_ENTRYTYPES_ISDIR".toList] := by
  rw [(C182_names _).1]; decide +kernel

/-- The script fails for every change log that can be read, after its title, as the volume path of a file is never
set. -/
theorem C182_never (utf16 : Bytes → List Char) (data : Bytes) (fuel : Nat) (es : List ChangeLog.Entry)
    (h : ChangeLog.readLog data fuel = some (.ok es)) :
    logMain utf16 data fuel = some ("Windows Restore Point change.log information:\n".toList, some .typeError) := by
  unfold logMain openLog
  rw [h]
  rfl

/-- A file that cannot be read is not shown at all and raises what reading it raises. -/
theorem C182_refused (utf16 : Bytes → List Char) (data : Bytes) (fuel : Nat) (e : Err)
    (h : ChangeLog.readLog data fuel = some (.error e)) : logMain utf16 data fuel = some ([], some e) := by
  unfold logMain openLog
  rw [h]
  rfl

/-- So there is no file for which the script succeeds. -/
theorem C182_fails (utf16 : Bytes → List Char) (data : Bytes) (fuel : Nat) (r : Run) (h : logMain utf16 data fuel = some r) :
    ∃ e, r.2 = some e := by
  cases hr : ChangeLog.readLog data fuel with
  | none => simp [logMain, openLog, hr] at h
  | some q =>
    cases q with
    | error e =>
      rw [C182_refused _ _ _ _ hr] at h
      cases h
      exact ⟨_, rfl⟩
    | ok es =>
      rw [C182_never _ _ _ _ hr] at h
      cases h
      exact ⟨_, rfl⟩

/-- The script always ends. -/
theorem C182_ends (utf16 : Bytes → List Char) (data : Bytes) : logMain utf16 data (data.length + 1) ≠ none := by
  have h := ChangeLog.C44_terminates data
  unfold logMain openLog
  simpa using h

theorem C182_shown_claim_false (utf16 : Bytes → List Char) : ¬ C182_shown_claim utf16 := by
  intro h
  obtain ⟨fuel, hf⟩ := h [] [] (by decide) (by simp)
  obtain ⟨e, he⟩ := C182_fails _ _ _ _ hf
  cases he

theorem entryText_eq (utf16 : Bytes → List Char) (e : ChangeLog.Entry) : entryText utf16 e =
    lineOf "Entry type:\t\t" (Text.join ", ".toList (bitNames "CHANGE_LOG_ENTRYTYPES_" typeBits e.entryType)) ++
        lineOf "Entry flags:\t\t" (Text.join ", ".toList (bitNames "CHANGE_LOG_ENTRYFLAGS_" flagBits e.entryFlags)) ++
        lineOf "Sequence number:\t" (Text.digits 10 e.sequence) ++
        lineOf "Process name:\t\t" (utf16 e.name).dropLast ++ ['\n'] := by
  unfold entryText lineOf processName
  rw [(C182_names _).1, (C182_names _).2]
  rfl

theorem title_eq : logTitle = lineOf "Windows Restore Point change.log information:" [] := by
  decide +kernel

/-- What would be shown if the volume path were set: the claim but for the last character of the process names.  No
file that is opened has its volume path set. -/
theorem C182_shown_partial (utf16 : Bytes → List Char) (path : Bytes) (entries : List ChangeLog.StoredEntry)
    (hp : 28 + path.length < 2 ^ 32) (h : ∀ e ∈ entries, e.Ok) :
    ∃ f, openLog (ChangeLog.logBytes path entries) (entries.length + 1) = some (.ok f) ∧ f.volumePath = none ∧
      showLog utf16 { f with volumePath := some (utf16 path) } =
        (report (utf16 path) (fun e => (utf16 e.name).dropLast) (entries.map (·.value)), none) := by
  refine ⟨⟨entries.map (·.value), none⟩, ?_, rfl, ?_⟩
  · unfold openLog
    rw [ChangeLog.C94_entries path entries hp h _ (Nat.lt_succ_self _)]
    rfl
  · unfold showLog report formatS
    dsimp only
    rw [title_eq, List.flatMap_def]
    congr 1
    rw [show (fun e => _) = entryText utf16 from (funext fun e => (entryText_eq utf16 e).symm)]
    rfl

example : ∃ f, openLog (ChangeLog.logBytes [67, 0, 58, 0] []) 1 = some (.ok f) ∧ f.volumePath = none ∧
    showLog (fun b => b.map fun x => Char.ofNat x.toNat) { f with volumePath := some ("C:".toList) } =
      ("Windows Restore Point change.log information:\nVolume path:\tC:\n\n".toList, none) := by
  refine ⟨⟨[], none⟩, ?_, rfl, by decide +kernel⟩
  unfold openLog
  rw [show ChangeLog.readLog _ _ = _ from ChangeLog.C94_entries [67, 0, 58, 0] [] (by decide) (by simp) 1 (by decide)]
  rfl

/-- The process name of an entry loses its last character. -/
theorem C182_name_claim_false (utf16 : Bytes → List Char) (h : ∃ b, utf16 b ≠ []) : ¬ C182_name_claim utf16 := by
  intro hc
  obtain ⟨b, hb⟩ := h
  have := congrArg List.length (hc ⟨0, 0, 0, 0, b, []⟩)
  simp only [processName, List.length_dropLast] at this
  have := List.length_pos_iff.2 hb
  omega

/-- Process names that differ in the last character are shown as the same. -/
theorem C182_name_partial (utf16 : Bytes → List Char) (e : ChangeLog.Entry) (b : Bytes) (s : List Char) (c d : Char)
    (h1 : utf16 e.name = s ++ [c]) (h2 : utf16 b = s ++ [d]) :
    processName utf16 e = s ∧ entryText utf16 { e with name := b } = entryText utf16 e := by
  have h3 : processName utf16 e = s := by simp [processName, h1]
  have h4 : processName utf16 { e with name := b } = s := by simp [processName, h2]
  refine ⟨h3, ?_⟩
  unfold entryText
  rw [h3, h4]

example : processName (fun b => b.map fun x => Char.ofNat x.toNat) ⟨0, 0, 0, 0, [65, 66], []⟩ = ['A'] :=
  (C182_name_partial _ _ [65, 67] ['A'] 'B' 'C' rfl rfl).1

theorem C182_types_claim_false : ¬ C182_types_claim := by
  intro h
  have := h 0x4000 0x8000 (by decide) (by decide) (by rw [(C182_names _).1, (C182_names _).1]; decide +kernel)
  exact absurd this (by decide)

theorem mem_names (pre : String) (bits : List (Nat × String)) (hn : (bits.map (·.2)).Nodup) (p : Nat × String)
    (hp : p ∈ bits) (v : Nat) : pre.toList ++ p.2.toList ∈ bitNames pre bits v ↔ v.testBit p.1 = true := by
  unfold bitNames
  simp only [List.mem_map, List.mem_filter, List.append_cancel_left_eq, String.toList_inj]
  constructor
  · rintro ⟨q, ⟨hq, hb⟩, he⟩
    have : q = p := by
      induction bits with
      | nil => cases hp
      | cons r bits ih =>
        simp only [List.map_cons, List.nodup_cons, List.mem_map, not_exists, not_and] at hn
        rcases List.mem_cons.1 hp with rfl | hp' <;> rcases List.mem_cons.1 hq with rfl | hq'
        · rfl
        · exact absurd he (hn.1 q hq')
        · exact absurd he.symm (hn.1 p hp')
        · exact ih hn.2 hp' hq'
    rw [← this]
    exact hb
  · intro hb
    exact ⟨p, ⟨hp, hb⟩, rfl⟩

/-- Of types that have only bits with names, the names tell which bits are set; the same of the flags. -/
theorem C182_types_partial (v w : Nat) (hv : ∀ k, v.testBit k = true → k ∈ typeBits.map (·.1))
    (hw : ∀ k, w.testBit k = true → k ∈ typeBits.map (·.1)) (h : flagNames entryTypes v = flagNames entryTypes w) :
    v = w := by
  rw [(C182_names _).1, (C182_names _).1] at h
  apply Nat.eq_of_testBit_eq
  intro k
  have key : ∀ p ∈ typeBits, v.testBit p.1 = true ↔ w.testBit p.1 = true := by
    intro p hp
    have hn : (typeBits.map (·.2)).Nodup := by decide +kernel
    rw [← mem_names "CHANGE_LOG_ENTRYTYPES_" typeBits hn p hp v, h, mem_names _ typeBits hn p hp w]
  rw [Bool.eq_iff_iff]
  constructor
  · intro hb
    obtain ⟨p, hp, rfl⟩ := List.mem_map.1 (hv k hb)
    exact (key p hp).1 hb
  · intro hb
    obtain ⟨p, hp, rfl⟩ := List.mem_map.1 (hw k hb)
    exact (key p hp).2 hb

theorem C182_flags_partial (v w : Nat) (hv : ∀ k, v.testBit k = true → k ∈ flagBits.map (·.1))
    (hw : ∀ k, w.testBit k = true → k ∈ flagBits.map (·.1)) (h : flagNames entryFlags v = flagNames entryFlags w) :
    v = w := by
  rw [(C182_names _).2, (C182_names _).2] at h
  apply Nat.eq_of_testBit_eq
  intro k
  have key : ∀ p ∈ flagBits, v.testBit p.1 = true ↔ w.testBit p.1 = true := by
    intro p hp
    have hn : (flagBits.map (·.2)).Nodup := by decide +kernel
    rw [← mem_names "CHANGE_LOG_ENTRYFLAGS_" flagBits hn p hp v, h, mem_names _ flagBits hn p hp w]
  rw [Bool.eq_iff_iff]
  constructor
  · intro hb
    obtain ⟨p, hp, rfl⟩ := List.mem_map.1 (hv k hb)
    exact (key p hp).1 hb
  · intro hb
    obtain ⟨p, hp, rfl⟩ := List.mem_map.1 (hw k hb)
    exact (key p hp).2 hb

example : (∀ k, (0x10 : Nat).testBit k = true → k ∈ flagBits.map (·.1)) := by
  intro k hk
  have : k = 4 := by
    rw [show (0x10 : Nat) = 2 ^ 4 from rfl, Nat.testBit_two_pow] at hk
    exact (of_decide_eq_true hk).symm
  subst this
  decide

/-! ### The USN journal -/

/-- The text before the records. -/
theorem head_eq : journalHead =
    "USN journal records information:Date and time,Name,File reference,Parent file reference".toList := by
  decide +kernel

/-- The script fails at the first record of a journal: no record is ever shown. -/
theorem C183_never (utf16 : Bytes → List Char) (data : Bytes) (fuel : Nat) (r : Usn.Record) (l : List Usn.Record)
    (finish : Res Unit) (h : Usn.records data fuel = some (r :: l, finish)) :
    journalMain none utf16 data fuel =
      some ("USN journal records information:Date and time,Name,File reference,Parent file reference".toList,
        some .attributeError) := by
  unfold journalMain
  rw [h, ← head_eq]
  simp [showRecords]

/-- The script shows only the names of the columns of a journal without records. -/
theorem C183_empty (utf16 : Bytes → List Char) (data : Bytes) (fuel : Nat) (h : Usn.records data fuel = some ([], .ok ())) :
    journalMain none utf16 data fuel =
      some ("USN journal records information:Date and time,Name,File reference,Parent file reference".toList, none) := by
  unfold journalMain
  rw [h, ← head_eq]
  simp [showRecords]

/-- It raises what is raised by reading the first record. -/
theorem C183_refused (utf16 : Bytes → List Char) (data : Bytes) (fuel : Nat) (e : Err)
    (h : Usn.records data fuel = some ([], .error e)) :
    journalMain none utf16 data fuel =
      some ("USN journal records information:Date and time,Name,File reference,Parent file reference".toList, some e) := by
  unfold journalMain
  rw [h, ← head_eq]
  simp [showRecords]

/-- The script succeeds only when there is no record to show. -/
theorem C183_succeeds (utf16 : Bytes → List Char) (data : Bytes) (fuel : Nat) :
    (∃ t, journalMain none utf16 data fuel = some (t, none)) ↔ Usn.records data fuel = some ([], .ok ()) := by
  constructor
  · rintro ⟨t, ht⟩
    cases hr : Usn.records data fuel with
    | none => simp [journalMain, hr] at ht
    | some q =>
      obtain ⟨rs, finish⟩ := q
      cases rs with
      | cons r l =>
        rw [C183_never _ _ _ _ _ _ hr] at ht
        simp only [Option.some.injEq, Prod.mk.injEq, reduceCtorEq, and_false] at ht
      | nil =>
        cases finish with
        | error e =>
          rw [C183_refused _ _ _ _ hr] at ht
          simp only [Option.some.injEq, Prod.mk.injEq, reduceCtorEq, and_false] at ht
        | ok u => rfl
  · intro h
    exact ⟨_, C183_empty _ _ _ h⟩

/-- The script ends for every file. -/
theorem C183_ends (utf16 : Bytes → List Char) (data : Bytes) : ∃ fuel, journalMain none utf16 data fuel ≠ none := by
  obtain ⟨n, hn⟩ := Usn.C43_terminates data
  refine ⟨n, ?_⟩
  have := (hn 0).2
  unfold journalMain
  simpa using this

theorem C183_shown_claim_false (utf16 : Bytes → List Char) : ¬ C183_shown_claim utf16 := by
  intro h
  have w := Usn.witness_ok 1 80 (by decide) (by decide) (by decide)
  have hok : ∀ s ∈ [Usn.witness 1 80], s.Ok ∧ 60 < s.bytes.length := by
    intro s hs
    rw [List.mem_singleton.1 hs]
    exact ⟨w.1, by omega⟩
  have hl : (Usn.recordBytes [Usn.witness 1 80]).length + 0 ≤ 4096 := by simp [Usn.recordBytes, w.2]
  obtain ⟨fuel, t, ht⟩ := h [Usn.witness 1 80] 0 hok hl
  have hr := (C183_succeeds _ _ _).1 ⟨t, ht⟩
  obtain ⟨n, hn⟩ := Usn.C43_one_block_partial _ _ hok hl
  have h1 := hn fuel
  have h2 := Usn.readRecords_mono _ _ n _ _ _ _ _ hr
  unfold Usn.records at h1
  rw [Nat.add_comm] at h1
  rw [h1] at h2
  cases h2

theorem C183_columns_claim_false (utf16 : Bytes → List Char) : ¬ C183_columns_claim utf16 := by
  intro h
  have := h [] 1 _ (C183_empty utf16 [] 1 rfl)
  rw [← head_eq] at this
  exact absurd this (by decide +kernel)

theorem reference_eq (n : Nat) : reference n = Text.digits 10 (n % 2 ^ 48) ++ '-' :: Text.digits 10 (n / 2 ^ 48) := by
  unfold reference
  rw [show (1 <<< 48) - 1 = 2 ^ 48 - 1 from rfl, Nat.and_two_pow_sub_one_eq_mod, Nat.shiftRight_eq_div_pow]
  simp [dec]

/-- What would be shown if a record had that method: the claim, with nothing between the records. -/
theorem C183_shown_partial (time : Nat → List Char) (utf16 : Bytes → List Char) (data : Bytes) (fuel : Nat)
    (rs : List Usn.Record) (h : Usn.records data fuel = some (rs, .ok ())) :
    journalMain (some time) utf16 data fuel =
      some ("USN journal records information:Date and time,Name,File reference,Parent file reference".toList ++
        (rs.map fun r => time r.timestamp ++ [','] ++ utf16 r.name ++ [','] ++ reference r.fileReference ++ [','] ++
          reference r.parentReference).flatten, none) := by
  have key : ∀ rs, showRecords (some time) utf16 rs = ((rs.map fun r => time r.timestamp ++ [','] ++ utf16 r.name ++ [','] ++
      reference r.fileReference ++ [','] ++ reference r.parentReference).flatten, none) := by
    intro rs
    induction rs with
    | nil => rfl
    | cons r rs ih =>
      rw [showRecords, ih]
      simp [Text.join]
  unfold journalMain
  rw [h, ← head_eq]
  dsimp only [Option.map_some]
  rw [key]

/-- The text of a file reference tells the entry and its sequence number. -/
theorem C183_reference (m n : Nat) : (reference n = Text.digits 10 (n % 2 ^ 48) ++ '-' :: Text.digits 10 (n / 2 ^ 48)) ∧
    (reference m = reference n → m = n) := by
  refine ⟨reference_eq n, fun h => ?_⟩
  rw [reference_eq, reference_eq] at h
  have hd : ∀ k, '-' ∉ Text.digits 10 k := fun k => dec_notMem k '-' (by decide)
  have h2 := congrArg (Text.splitOn '-') h
  rw [Text.splitOn_append_sep _ _ _ (hd _), Text.splitOn_append_sep _ _ _ (hd _)] at h2
  have h3 := List.cons.inj h2
  have h4 := dec_injective _ _ h3.1
  have h5 : Text.digits 10 (m / 2 ^ 48) = Text.digits 10 (n / 2 ^ 48) := by
    rw [h3.1] at h
    exact List.cons.inj (List.append_cancel_left h) |>.2
  have h6 := dec_injective _ _ h5
  rw [← Nat.mod_add_div m (2 ^ 48), ← Nat.mod_add_div n (2 ^ 48), h4, h6]

example : reference 0x000500000000002A = "42-5".toList := by decide +kernel

end Dtf.Journals
