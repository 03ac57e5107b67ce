import Verif.UtmpDebug
import Verif.ChangeLog

/-!
# What is shown of restore point logs (C184)

The decoder of UTF-16 and the text of a FILETIME (dfdatetime) are parameters.
-/

namespace Dtf.RpLog.DebugMode
open Py DataFormat Formats ChangeLog Utmp.DebugMode

/-! ## Model -/

/-- `_EVENT_TYPES` (rp_log.py 14-19). -/
def eventTypes : List (Nat × List Char) :=
  [(0x00000064, "BEGIN_SYSTEM_CHANGE".toList), (0x00000065, "END_SYSTEM_CHANGE".toList),
    (0x00000066, "BEGIN_NESTED_SYSTEM_CHANGE".toList), (0x00000067, "END_NESTED_SYSTEM_CHANGE".toList)]

/-- `_RESTORE_POINT_TYPES` (rp_log.py 22-28). -/
def restoreTypes : List (Nat × List Char) :=
  [(0x00000000, "APPLICATION_INSTALL".toList), (0x00000001, "APPLICATION_UNINSTALL".toList),
    (0x0000000A, "DEVICE_DRIVER_INSTALL".toList), (0x0000000C, "MODIFY_SETTINGS".toList),
    (0x0000000D, "CANCELLED_OPERATION".toList)]

/-- `get(value, "UNKNOWN")` of these (rp_log.py 55 and 60-62). -/
def nameOf (table : List (Nat × List Char)) (v : Nat) : List Char :=
  match table.lookup v with
  | some name => name
  | none => "UNKNOWN".toList

/-- `_DebugPrintFiletimeValue` (data_format.py 89-108). -/
def filetimeRun (filetime : Nat → Option (List Char)) (description : List Char) (v : Nat) : Run :=
  if v = 0 then line description "Not set (0)".toList
  else if v = 0x7FFFFFFFFFFFFFFF then line description "Never (0x7fffffffffffffff)".toList
  else
    match filetime v with
    | some s => line description (s ++ " UTC".toList)
    | none => line description ("0x".toList ++ hexw 8 v)

/-- `_DebugPrintFileHeader` (rp_log.py 49-72). -/
def headerRun (event restore sequence : Nat) (description : List Char) : Run :=
  (line "Event type".toList ("0x".toList ++ hexw 8 event ++ " (".toList ++ nameOf eventTypes event ++ ")".toList)).next <|
  (line "Restore point type".toList
    ("0x".toList ++ hexw 8 restore ++ " (".toList ++ nameOf restoreTypes restore ++ ")".toList)).next <|
  (line "Sequence number".toList ("0x".toList ++ hexw 8 sequence)).next <|
  (line "Description".toList description).next (['\n'], none)

/-- What `_ReadStructureFromFileObject` writes before it reads (data_format.py 695-699). -/
def readingAt (what : List Char) (off : Nat) : Run :=
  ("Reading ".toList ++ what ++ " at offset: ".toList ++ dec off ++ " (0x".toList ++ hexw 8 off ++ ")\n".toList, none)

/-- Text that is only written in debug mode. -/
def onlyIf (debug : Bool) (r : Run) : Run := if debug then r else ([], none)

/-- `_ReadFileFooter` (rp_log.py 74-91) with `_DebugPrintFileFooter` (39-47). -/
def footerRun (debug : Bool) (filetime : Nat → Option (List Char)) (data : Bytes) : Run :=
  (onlyIf debug (readingAt "file footer".toList (data.length - 8))).next <|
  match structAt footerMap data (data.length - 8 : Nat) with
  | .error e => ([], some e)
  | .ok (creation, _) =>
    (onlyIf debug (dataRun "File footer data".toList (slice data (data.length - 8) data.length))).next <|
    onlyIf debug ((filetimeRun filetime "Creation time".toList creation).next (['\n'], none))

/-- `ReadFileObject` (rp_log.py 111-126) with an output writer.  The data between header and footer is written in
every mode (124): `_DebugPrintData` (data_format.py 69-78) asks only for an output writer.  A description that is not
UTF-16 is a parse error (data_format.py 732-736). -/
def showFile (debug : Bool) (utf16 : Bytes → Option (List Char)) (filetime : Nat → Option (List Char)) (data : Bytes) : Run :=
  (onlyIf debug (readingAt "file header".toList 0)).next <|
  if data.length < 16 then ([], some .parseError)
  else
    match utf16z (data.drop 16) with
    | none => ([], some .parseError)
    | some s =>
      match utf16 s with
      | none => ([], some .parseError)
      | some text =>
        (onlyIf debug (dataRun "File header data".toList (slice data 0 (18 + s.length)))).next <|
        (onlyIf debug (headerRun (leNat (slice data 0 4)) (leNat (slice data 4 8)) (leNat (slice data 8 16)) text)).next <|
        match fileRead data (18 + s.length) ((data.length : Int) - 8 - (18 + s.length : Nat)) with
        | .error e => ([], some e)
        | .ok b => (dataRun "Unknown1".toList b).next (footerRun debug filetime data)

/-! ## The specification -/

/-- The name of a value, if it has one. -/
def named (names : List (Nat × String)) (v : Nat) : List Char :=
  match names.find? (fun p => p.1 == v) with
  | some p => p.2.toList
  | none => "UNKNOWN".toList

def events : List (Nat × String) :=
  [(100, "BEGIN_SYSTEM_CHANGE"), (101, "END_SYSTEM_CHANGE"), (102, "BEGIN_NESTED_SYSTEM_CHANGE"),
    (103, "END_NESTED_SYSTEM_CHANGE")]

def restorePoints : List (Nat × String) :=
  [(0, "APPLICATION_INSTALL"), (1, "APPLICATION_UNINSTALL"), (10, "DEVICE_DRIVER_INSTALL"), (12, "MODIFY_SETTINGS"),
    (13, "CANCELLED_OPERATION")]

/-- The text of a number of 4 bytes in hexadecimal digits. -/
def hexadecimalOf (v : Nat) : List Char := "0x".toList ++ Text.zpad 8 (Text.digits 16 v)

def creationText (filetime : Nat → Option (List Char)) (v : Nat) : List Char :=
  if v = 0 then "Not set (0)".toList
  else if v = 2 ^ 63 - 1 then "Never (0x7fffffffffffffff)".toList
  else ((filetime v).map (· ++ " UTC".toList)).getD (hexadecimalOf v)

def announcedAt (what : String) (off : Nat) : List Char :=
  "Reading ".toList ++ what.toList ++ " at offset: ".toList ++ Text.digits 10 off ++ " (0x".toList ++
    Text.zpad 8 (Text.digits 16 off) ++ ")\n".toList

def dumpOf (what : String) (b : Bytes) : List Char := what.toList ++ ":\n".toList ++ HexDump.dump b

/-- All values of a log. -/
def report (filetime : Nat → Option (List Char)) (l : Log) (text : List Char) : List Char :=
  [announcedAt "file header" 0,
    dumpOf "File header data" (leBytes 4 l.eventType ++ leBytes 4 l.restoreType ++ leBytes 8 l.sequence ++
      (l.description ++ [0, 0])),
    shownAs "Event type" (hexadecimalOf l.eventType ++ " (".toList ++ named events l.eventType ++ ")".toList),
    shownAs "Restore point type" (hexadecimalOf l.restoreType ++ " (".toList ++ named restorePoints l.restoreType ++ ")".toList),
    shownAs "Sequence number" (hexadecimalOf l.sequence),
    shownAs "Description" text, ['\n'],
    dumpOf "Unknown1" l.unknown,
    announcedAt "file footer" (18 + l.description.length + l.unknown.length),
    dumpOf "File footer data" (leBytes 8 l.creation),
    shownAs "Creation time" (creationText filetime l.creation), ['\n']].flatten

def Log.Ok (l : Log) : Prop :=
  l.eventType < 2 ^ 32 ∧ l.restoreType < 2 ^ 32 ∧ l.sequence < 2 ^ 64 ∧ Utf16 l.description ∧ l.creation < 2 ^ 64

/-- The claim: nothing is written without debug mode. -/
def C184_quiet_claim (utf16 : Bytes → Option (List Char)) (filetime : Nat → Option (List Char)) : Prop :=
  ∀ data, (showFile false utf16 filetime data).1 = []

/-! ## Proofs -/

theorem lookup_find (names : List (Nat × String)) (v : Nat) :
    nameOf (names.map fun p => (p.1, p.2.toList)) v = named names v := by
  unfold nameOf named
  induction names with
  | nil => rfl
  | cons p names ih =>
    rw [List.map_cons, List.lookup_cons, List.find?_cons]
    by_cases h : v = p.1
    · subst h
      simp
    · rw [show (v == p.1) = false by simpa using h, show (p.1 == v) = false by simpa using fun he => h he.symm]
      exact ih

theorem events_eq : eventTypes = events.map fun p => (p.1, p.2.toList) := by decide +kernel

theorem restores_eq : restoreTypes = restorePoints.map fun p => (p.1, p.2.toList) := by decide +kernel

/-- The name of an event or of a restore point is shown for every value that has one. -/
theorem C184_names (v : Nat) : nameOf eventTypes v = named events v ∧ nameOf restoreTypes v = named restorePoints v := by
  rw [events_eq, restores_eq]
  exact ⟨lookup_find _ _, lookup_find _ _⟩

theorem filetime_eq (filetime : Nat → Option (List Char)) (d : String) (v : Nat) :
    filetimeRun filetime d.toList v = (shownAs d (creationText filetime v), none) := by
  unfold filetimeRun creationText line
  by_cases h0 : v = 0
  · rw [if_pos h0, if_pos h0]; rfl
  rw [if_neg h0, if_neg h0, show (2 : Nat) ^ 63 - 1 = 0x7FFFFFFFFFFFFFFF from rfl]
  by_cases h1 : v = 0x7FFFFFFFFFFFFFFF
  · rw [if_pos h1, if_pos h1]; rfl
  rw [if_neg h1, if_neg h1]
  cases filetime v <;> rfl

theorem readingAt_eq (what : String) (off : Nat) : readingAt what.toList off = (announcedAt what off, none) := rfl

theorem dump_eq (what : String) (b : Bytes) : dataRun what.toList b = (dumpOf what b, none) := rfl

theorem line_eq (d : String) (t : List Char) : line d.toList t = (shownAs d t, none) := rfl

theorem header_eq (event restore sequence : Nat) (text : List Char) :
    headerRun event restore sequence text =
      (shownAs "Event type" (hexadecimalOf event ++ " (".toList ++ named events event ++ ")".toList) ++
        (shownAs "Restore point type" (hexadecimalOf restore ++ " (".toList ++ named restorePoints restore ++ ")".toList) ++
        (shownAs "Sequence number" (hexadecimalOf sequence) ++ (shownAs "Description" text ++ ['\n']))), none) := by
  unfold headerRun
  rw [(C184_names _).1, (C184_names _).2]
  simp only [line_eq, next_ok]
  rfl

theorem footer_struct (data : Bytes) (h : 8 ≤ data.length) :
    structAt footerMap data (data.length - 8 : Nat) = .ok (leNat (slice data (data.length - 8) data.length), 8) := by
  unfold footerMap
  rw [structAt_refine, structAt_fixed _ _ _ _ (by decide), if_neg (by omega)]
  have : data.length - 8 + 8 = data.length := by omega
  simp [take_eq_slice, this]

/-- All values of a log are shown in debug mode. -/
theorem C184_shown (utf16 : Bytes → Option (List Char)) (filetime : Nat → Option (List Char)) (l : Log) (h : Log.Ok l)
    (text : List Char) (ht : utf16 l.description = some text) :
    showFile true utf16 filetime l.bytes = (report filetime l text, none) := by
  obtain ⟨h1, h2, h3, h4, h5⟩ := h
  have hl : l.bytes.length = 26 + l.description.length + l.unknown.length := by simp [Log.bytes]; omega
  have e : l.bytes = [leBytes 4 l.eventType, leBytes 4 l.restoreType, leBytes 8 l.sequence].flatten ++
      (l.description ++ [0, 0] ++ (l.unknown ++ leBytes 8 l.creation)) := by simp [Log.bytes]
  have hd : l.bytes.drop 16 = l.description ++ [0, 0] ++ (l.unknown ++ leBytes 8 l.creation) := by
    rw [e, List.drop_left' (by simp)]
  have e2 : l.bytes = [leBytes 4 l.eventType, leBytes 4 l.restoreType, leBytes 8 l.sequence,
      l.description ++ [0, 0]].flatten ++ (l.unknown ++ leBytes 8 l.creation) := by simp [Log.bytes]
  have e3 : [leBytes 4 l.eventType, leBytes 4 l.restoreType, leBytes 8 l.sequence,
      l.description ++ [0, 0]].flatten.length = 18 + l.description.length := by simp; omega
  have hr : fileRead l.bytes (18 + l.description.length) ((l.bytes.length : Int) - 8 - (18 + l.description.length : Nat)) =
      .ok l.unknown := by
    unfold fileRead
    rw [show (l.bytes.length : Int) - 8 - (18 + l.description.length : Nat) = (l.unknown.length : Nat) by omega,
      if_neg (by omega), File.read, if_neg (by omega), Int.toNat_natCast]
    dsimp only
    rw [e2, List.drop_left' e3, List.take_left' rfl]
  have hh : slice l.bytes 0 (18 + l.description.length) = leBytes 4 l.eventType ++ leBytes 4 l.restoreType ++
      leBytes 8 l.sequence ++ (l.description ++ [0, 0]) := by
    unfold slice
    rw [e2, List.take_left' e3]
    simp
  have hf : slice l.bytes (l.bytes.length - 8) l.bytes.length = leBytes 8 l.creation := by
    unfold slice
    rw [List.take_length]
    have e4 : l.bytes = [leBytes 4 l.eventType, leBytes 4 l.restoreType, leBytes 8 l.sequence,
      l.description ++ [0, 0], l.unknown].flatten ++ leBytes 8 l.creation := by simp [Log.bytes]
    have e5 : l.bytes.length - 8 = [leBytes 4 l.eventType, leBytes 4 l.restoreType, leBytes 8 l.sequence,
      l.description ++ [0, 0], l.unknown].flatten.length := by rw [hl]; simp; omega
    rw [e5]
    conv => lhs; rw [e4]
    exact List.drop_left' rfl
  have f0 : leNat (slice l.bytes 0 4) = l.eventType := leField [] 4 _ _ 0 4 rfl rfl (by omega)
  have f1 : leNat (slice l.bytes 4 8) = l.restoreType := leField [_] 4 _ _ 4 8 (by simp) rfl (by omega)
  have f2 : leNat (slice l.bytes 8 16) = l.sequence := leField [_, _] 8 _ _ 8 16 (by simp) rfl (by omega)
  unfold showFile
  rw [if_neg (by omega), hd, utf16z_append _ _ h4]
  dsimp only
  rw [ht]
  dsimp only
  rw [hr, hh, f0, f1, f2, header_eq]
  dsimp only
  unfold footerRun
  rw [footer_struct _ (by omega), hf, leNat_leBytes_of_lt 8 _ (by omega)]
  dsimp only
  rw [filetime_eq, show l.bytes.length - 8 = 18 + l.description.length + l.unknown.length by omega]
  simp only [onlyIf, if_true, readingAt_eq, dump_eq, next_ok]
  unfold report
  simp only [List.flatten_cons, List.flatten_nil, List.append_nil, List.append_assoc]

/-- A description with a terminator and the data after it. -/
theorem outcome (debug : Bool) (utf16 : Bytes → Option (List Char)) (filetime : Nat → Option (List Char)) (data : Bytes) :
    (showFile debug utf16 filetime data).2 =
      if data.length < 16 then some .parseError
      else
        match (utf16z (data.drop 16)).bind fun s => (utf16 s).map fun _ => s with
        | none => some .parseError
        | some s =>
          match fileRead data (18 + s.length) ((data.length : Int) - 8 - (18 + s.length : Nat)) with
          | .error e => some e
          | .ok _ => none := by
  have ho : ∀ (r : Run) (s : Run), r.2 = none → ((onlyIf debug r).next s).2 = s.2 := by
    intro r s hr
    unfold onlyIf Run.next
    cases debug <;> simp [hr]
  have hn : ∀ (r s : Run), r.2 = none → (r.next s).2 = s.2 := by
    intro r s hr
    unfold Run.next
    rw [hr]
  unfold showFile
  rw [ho _ _ rfl]
  by_cases hl : data.length < 16
  · rw [if_pos hl, if_pos hl]
  rw [if_neg hl, if_neg hl]
  cases hz : utf16z (data.drop 16) with
  | none => rfl
  | some s =>
    dsimp only [Option.bind_some]
    cases hu : utf16 s with
    | none => rfl
    | some text =>
      dsimp only [Option.map_some]
      rw [ho _ _ rfl, ho _ _ (by rw [header_eq])]
      cases fileRead data (18 + s.length) ((data.length : Int) - 8 - (18 + s.length : Nat)) with
      | error e => rfl
      | ok b =>
        dsimp only
        rw [hn _ _ rfl]
        unfold footerRun
        rw [ho _ _ rfl, footer_struct _ (by omega)]
        dsimp only
        rw [ho _ _ rfl, filetime_eq]
        unfold onlyIf
        cases debug <;> rfl

/-- Debug mode does not change what is raised. -/
theorem C184_same (utf16 : Bytes → Option (List Char)) (filetime : Nat → Option (List Char)) (data : Bytes) :
    (showFile true utf16 filetime data).2 = (showFile false utf16 filetime data).2 := by
  rw [outcome, outcome]

/-- The same errors as those of reading a log whose description can be decoded. -/
theorem C184_errors (debug : Bool) (utf16 : Bytes → Option (List Char)) (filetime : Nat → Option (List Char)) (data : Bytes)
    (h : ∀ s, utf16z (data.drop 16) = some s → (utf16 s).isSome) :
    (showFile debug utf16 filetime data).2 = match readFile data with | .error e => some e | .ok _ => none := by
  rw [outcome]
  unfold readFile
  by_cases hl : data.length < 16
  · rw [if_pos hl, if_pos hl]
  rw [if_neg hl, if_neg hl]
  cases hz : utf16z (data.drop 16) with
  | none => rfl
  | some s =>
    obtain ⟨t, ht⟩ := Option.isSome_iff_exists.1 (h s hz)
    simp only [Option.bind_some, ht, Option.map_some]
    cases fileRead data (18 + s.length) ((data.length : Int) - 8 - (18 + s.length : Nat)) with
    | error e => rfl
    | ok b =>
      dsimp only
      rw [footer_struct _ (by omega)]

/-- The data between the header and the footer is written without debug mode. -/
theorem C184_quiet_claim_false (utf16 : Bytes → Option (List Char)) (filetime : Nat → Option (List Char))
    (h : (utf16 []).isSome) : ¬ C184_quiet_claim utf16 filetime := by
  intro hc
  obtain ⟨t, ht⟩ := Option.isSome_iff_exists.1 h
  have := hc (List.replicate 26 0)
  revert this
  have hz : utf16z ((List.replicate 26 (0 : UInt8)).drop 16) = some [] := by decide
  have hr : fileRead (List.replicate 26 0) 18 0 = .ok [] := by decide
  unfold showFile
  rw [hz]
  simp only [ht, onlyIf, next_ok, Bool.false_eq_true, if_false, List.length_nil, Nat.add_zero, List.length_replicate]
  rw [if_neg (by decide), show ((26 : Nat) : Int) - 8 - (18 : Nat) = 0 from rfl, hr]
  dsimp only
  rw [show dataRun _ [] = (dumpOf "Unknown1" [], none) from rfl, next_ok]
  unfold dumpOf
  intro hc
  exact absurd (congrArg List.length hc) (by simp)

/-- And nothing but that is written then: nothing when the file is refused. -/
theorem C184_quiet_partial (utf16 : Bytes → Option (List Char)) (filetime : Nat → Option (List Char)) (data : Bytes) :
    (∀ e, (showFile false utf16 filetime data).2 = some e → (showFile false utf16 filetime data).1 = []) ∧
      ((showFile false utf16 filetime data).2 = none → ∃ l, readFile data = .ok l ∧
        (showFile false utf16 filetime data).1 = "Unknown1:\n".toList ++ HexDump.dump l.unknown) := by
  have hq : ∀ s : Run, Run.next ([], none) s = s := fun s => rfl
  unfold showFile
  simp only [onlyIf, Bool.false_eq_true, if_false, hq]
  by_cases hl : data.length < 16
  · rw [if_pos hl]
    exact ⟨fun _ _ => rfl, fun h => by cases h⟩
  rw [if_neg hl]
  cases hz : utf16z (data.drop 16) with
  | none => exact ⟨fun _ _ => rfl, fun h => by cases h⟩
  | some s =>
    dsimp only
    cases utf16 s with
    | none => exact ⟨fun _ _ => rfl, fun h => by cases h⟩
    | some text =>
      dsimp only
      cases hf : fileRead data (18 + s.length) ((data.length : Int) - 8 - (18 + s.length : Nat)) with
      | error e => exact ⟨fun _ _ => rfl, fun h => by cases h⟩
      | ok b =>
        dsimp only
        unfold footerRun
        rw [footer_struct _ (by omega)]
        simp only [onlyIf, Bool.false_eq_true, if_false, hq]
        rw [show dataRun _ b = (dumpOf "Unknown1" b, none) from rfl, next_ok]
        refine ⟨fun e h => (by cases h), fun _ => ?_⟩
        unfold readFile
        rw [if_neg hl, hz]
        dsimp only
        rw [hf]
        dsimp only
        rw [footer_struct _ (by omega)]
        refine ⟨_, rfl, ?_⟩
        unfold dumpOf
        rw [List.append_nil, show "Unknown1:\n".toList = "Unknown1".toList ++ ":\n".toList by decide +kernel]

example : Log.Ok ⟨100, 12, 5, [72, 0, 105, 0], [1, 2, 3], 99⟩ :=
  ⟨by decide, by decide, by decide, .cons _ _ _ (by decide) (.cons _ _ _ (by decide) .nil), by decide⟩

example : nameOf eventTypes 100 = "BEGIN_SYSTEM_CHANGE".toList ∧ nameOf restoreTypes 11 = "UNKNOWN".toList := by
  rw [(C184_names _).1, (C184_names _).2]
  decide +kernel

end Dtf.RpLog.DebugMode
