import Verif.DataFormat.Progressive
import Verif.Formats.Reading
import Verif.Formats.Props
import Verif.Uuid

/-!
# Windows Task Scheduler job files

The model follows dtformats/job.py, job.yaml, job.debug.yaml and scripts/job.py.  The decoding of the strings (UTF-16, up to the
terminator) is a parameter.  The fixed-length section is read at offset 0 and the variable-length section at the position of
the file after that, which is 68.
-/

namespace Dtf.Job
open Py DataFormat Text Formats Progressive

abbrev Str := List Char

/-- What is not part of the library: the text of the data of a string, if it can be decoded. -/
structure Env where
  text : Bytes → Option Str

/-- An integer at its offset. -/
def number (b : Bytes) (i j : Nat) : Nat := leNat (slice b i j)

/-- The configuration (job.py 6-32). -/
structure Configuration where
  applicationName : Option Str := none
  author : Option Str := none
  comment : Option Str := none
  retryCount : Option Nat := none
  retryInterval : Option Nat := none
  identifier : Option Str := none
  parameters : Option Str := none
  priority : Option Nat := none
  workingDirectory : Option Str := none
  deriving DecidableEq

/-- The variable-length data section (job.yaml `job_variable_length_data_section`): the strings with their numbers of
characters, the data of the streams and that of the triggers. -/
structure Section where
  count : Nat
  applicationName : Nat × Str
  parameters : Nat × Str
  workingDirectory : Nat × Str
  author : Nat × Str
  comment : Nat × Str
  userData : Bytes
  reservedData : Bytes
  triggers : List Bytes

/-- job.yaml `job_string`. -/
def string (env : Env) : Parser (Nat × Str) :=
  bind (uint 2) fun n => bind (bytes (2 * n)) fun b => bind (ofOption (env.text b)) fun t => pure (n, t)

/-- job.yaml `job_user_data` and `job_reserved_data`. -/
def stream : Parser Bytes := bind (uint 2) fun n => bytes n

/-- job.yaml `job_triggers`; a trigger has 48 bytes. -/
def triggers : Parser (List Bytes) := bind (uint 2) fun n => many (bytes 48) n

/-- job.yaml `job_variable_length_data_section`. -/
def «section» (env : Env) : Parser Section :=
  bind (uint 2) fun count => bind (string env) fun applicationName => bind (string env) fun parameters =>
    bind (string env) fun workingDirectory => bind (string env) fun author => bind (string env) fun comment =>
      bind stream fun userData => bind stream fun reservedData => bind triggers fun l =>
        pure ⟨count, applicationName, parameters, workingDirectory, author, comment, userData, reservedData, l⟩

/-! ## Debug output -/

/-- `f"{value:0wd}"`. -/
def padded (w n : Nat) : Str := zpad w (dec n)

/-- An attribute formatted as decimal (data_format.py 307-317). -/
def decimal (d : String) (n : Nat) : Option Attribute := some ⟨some d.toList, dec n, false⟩

/-- An attribute formatted as hexadecimal (data_format.py 354-376). -/
def hexadecimal (w : Nat) (d : String) (n : Nat) : Option Attribute := some ⟨some d.toList, "0x".toList ++ hexw w n, false⟩

/-- An attribute whose callback gives a text only. -/
def custom (d : String) (t : Str) : Option Attribute := some ⟨some d.toList, t, true⟩

/-- `_FormatDate` (job.py 81-90), of the date at an offset. -/
def date (b : Bytes) (i : Nat) : Str :=
  padded 4 (number b i (i + 2)) ++ '-' :: padded 2 (number b (i + 2) (i + 4)) ++ '-' :: padded 2 (number b (i + 4) (i + 6))

/-- `_FormatIntegerAsIntervalInMilliseconds` (job.py 92-101). -/
def milliseconds (n : Nat) : Str := dec n ++ " milliseconds".toList

/-- `_FormatIntegerAsIntervalInMinutes` (job.py 103-112). -/
def minutes (n : Nat) : Str := dec n ++ " minutes".toList

/-- `_FormatString` (job.py 127-138). -/
def stringText (s : Nat × Str) : Str := '(' :: dec (s.1 * 2) ++ " bytes) ".toList ++ s.2

/-- `_FormatSystemTime` (job.py 140-154); the second member is the month, the third the day of the week, which is not shown. -/
def systemTime (b : Bytes) : Str :=
  padded 4 (number b 52 54) ++ '-' :: padded 2 (number b 54 56) ++ '-' :: padded 2 (number b 58 60) ++ ' ' ::
    padded 2 (number b 60 62) ++ ':' :: padded 2 (number b 62 64) ++ ':' :: padded 2 (number b 64 66) ++ '.' :: padded 3 (number b 66 68)

/-- `_FormatTime` (job.py 156-165), of the time at an offset. -/
def time (b : Bytes) (i : Nat) : Str := padded 2 (number b i (i + 2)) ++ ':' :: padded 2 (number b (i + 2) (i + 4))

/-- `str(uuid)`. -/
def identifier (b : Bytes) : Str := Analyzer.uuidString (Analyzer.ordered (slice b 4 20))

/-- The debug information of the fixed-length section (job.debug.yaml 3-49). -/
def fixedAttributes (b : Bytes) : List (Option Attribute) :=
  [custom "Product version" (productVersion (number b 0 2)), decimal "Format version" (number b 2 4),
    custom "Job identifier" (identifier b), hexadecimal 4 "Application name offset" (number b 20 22),
    hexadecimal 4 "Triggers offset" (number b 22 24), decimal "Error retry count" (number b 24 26),
    custom "Error retry interval" (minutes (number b 26 28)), custom "Idle deadline" (minutes (number b 28 30)),
    custom "Idle wait" (minutes (number b 30 32)), hexadecimal 8 "Priority" (number b 32 36),
    custom "Maximum run time" (milliseconds (number b 36 40)), hexadecimal 8 "Exit code" (number b 40 44),
    hexadecimal 8 "Status" (number b 44 48), hexadecimal 8 "Flags" (number b 48 52), custom "Last run time" (systemTime b)]

/-- The debug information of the variable-length section (job.debug.yaml 51-79).  The section has no member with the name
`number_of_triggers`: the value is `None` and is skipped. -/
def sectionAttributes (s : Section) : List (Option Attribute) :=
  [decimal "Running instance count" s.count, custom "Application name" (stringText s.applicationName),
    custom "Parameters" (stringText s.parameters), custom "Working directory" (stringText s.workingDirectory),
    custom "Author" (stringText s.author), custom "Comment" (stringText s.comment), custom "User data" (HexDump.dump s.userData),
    custom "Reserved data" (HexDump.dump s.reservedData), none]

/-- The debug information of a trigger (job.debug.yaml 81-127). -/
def triggerAttributes (b : Bytes) : List (Option Attribute) :=
  [decimal "Size" (number b 0 2), hexadecimal 4 "Reserved1" (number b 2 4), custom "Start date" (date b 4),
    custom "End date" (date b 10), custom "Start time" (time b 16), custom "Duration" (minutes (number b 20 24)),
    custom "Interval" (minutes (number b 24 28)), hexadecimal 8 "Trigger flags" (number b 28 32),
    hexadecimal 8 "Trigger type" (number b 32 36), hexadecimal 4 "Trigger arg0" (number b 36 38),
    hexadecimal 4 "Trigger arg1" (number b 38 40), hexadecimal 4 "Trigger arg2" (number b 40 42),
    hexadecimal 4 "Trigger padding" (number b 42 44), hexadecimal 4 "Trigger reserved2" (number b 44 46),
    hexadecimal 4 "Trigger reserved3" (number b 46 48)]

/-- What is shown of several structures, up to an error. -/
def formatAll : List (List (Option Attribute)) → Option Err × Str
  | [] => (none, [])
  | as :: l =>
    match formatStructure as with
    | .error e => (some e, [])
    | .ok t => let r := formatAll l; (r.1, t ++ r.2)

/-- The values taken from the fixed-length section (job.py 188-193). -/
def withFixed (b : Bytes) (c : Configuration) : Configuration :=
  { c with
    retryCount := some (number b 24 26)
    retryInterval := some (number b 26 28)
    identifier := some (identifier b)
    priority := some (number b 32 36) }

/-- The values taken from the variable-length section (job.py 210-216). -/
def withSection (s : Section) (c : Configuration) : Configuration :=
  { c with
    applicationName := some s.applicationName.2
    parameters := some s.parameters.2
    workingDirectory := some s.workingDirectory.2
    author := some s.author.2
    comment := some s.comment.2 }

/-- `ReadFileObject` (job.py 175-216): the error, the configuration after the call and what is written. -/
def read (env : Env) (debug : Bool) (data : Bytes) : Option Err × Configuration × Str :=
  let before := if debug then readingText "fixed-length data section".toList 0 else []
  match structAt (fixedMap 68 id) data 0 with
  | .error e => (some e, {}, before)
  | .ok (b, _) =>
    let before := before ++ (if debug then structureText "fixed-length data section".toList b else [])
    match formatAll (if debug then [fixedAttributes b] else []) with
    | (some e, t) => (some e, {}, before ++ t)
    | (none, t) =>
      let c := withFixed b {}
      let before := before ++ t ++ (if debug then readingText "variable-length data section".toList 68 else [])
      match structAt (progMap («section» env)) data 68 with
      | .error e => (some e, c, before)
      | .ok (s, size) =>
        let before := before ++ (if debug then structureText "variable-length data section".toList (slice data 68 (68 + size.toNat)) else [])
        match formatAll (if debug then sectionAttributes s :: s.triggers.map triggerAttributes else []) with
        | (some e, t) => (some e, c, before ++ t)
        | (none, t) => (none, withSection s c, before ++ t)

/-- A line of the script (scripts/job.py 64-73); the format of `None` raises. -/
def scriptLine (label : String) : Option Str → Res Str
  | some v => .ok (label.toList ++ v ++ ['\n'])
  | none => .error .typeError

/-- The text of the lines, up to an error. -/
def scriptLines : List (Res Str) → Option Err × Str
  | [] => (none, [])
  | .error e :: _ => (some e, [])
  | .ok t :: l => let r := scriptLines l; (r.1, t ++ r.2)

/-- What the script shows of a configuration (scripts/job.py 62-77). -/
def show' (c : Configuration) : Option Err × Str :=
  scriptLines [.ok "Windows Task Scheduler job information:\n".toList, scriptLine "\tIdentifier\t\t: " c.identifier,
    scriptLine "\tApplication name\t: " c.applicationName, scriptLine "\tParameters\t\t: " c.parameters,
    scriptLine "\tAuthor\t\t\t: " c.author, scriptLine "\tComment\t\t\t: " c.comment, .ok ['\n']]

/-- The script from `Open` on (scripts/job.py 56-81), of a file that can be opened. -/
def script (env : Env) (debug : Bool) (data : Bytes) : Option Err × Str :=
  match read env debug data with
  | (some e, _, t) => (some e, t)
  | (none, c, t) => let r := show' c; (r.1, t ++ r.2)

/-! ## Specification -/

/-- The fixed-length data section of a job. -/
structure Fixed where
  product : UInt16
  format : UInt16
  identifierA : UInt32
  identifierB : UInt16
  identifierC : UInt16
  identifierD : Bytes
  nameOffset : UInt16
  triggersOffset : UInt16
  retryCount : UInt16
  retryInterval : UInt16
  idleDeadline : UInt16
  idleWait : UInt16
  priority : UInt32
  maximumRunTime : UInt32
  exitCode : UInt32
  status : UInt32
  flags : UInt32
  year : UInt16
  month : UInt16
  weekday : UInt16
  day : UInt16
  hours : UInt16
  minutes : UInt16
  seconds : UInt16
  milliseconds : UInt16

/-- The members of the section in their order (MS-TSCH 2.4.1). -/
def Fixed.pieces (x : Fixed) : List Bytes :=
  [leBytes 2 x.product.toNat, leBytes 2 x.format.toNat, leBytes 4 x.identifierA.toNat, leBytes 2 x.identifierB.toNat,
    leBytes 2 x.identifierC.toNat, x.identifierD, leBytes 2 x.nameOffset.toNat, leBytes 2 x.triggersOffset.toNat,
    leBytes 2 x.retryCount.toNat, leBytes 2 x.retryInterval.toNat, leBytes 2 x.idleDeadline.toNat,
    leBytes 2 x.idleWait.toNat, leBytes 4 x.priority.toNat, leBytes 4 x.maximumRunTime.toNat,
    leBytes 4 x.exitCode.toNat, leBytes 4 x.status.toNat, leBytes 4 x.flags.toNat, leBytes 2 x.year.toNat,
    leBytes 2 x.month.toNat, leBytes 2 x.weekday.toNat, leBytes 2 x.day.toNat, leBytes 2 x.hours.toNat,
    leBytes 2 x.minutes.toNat, leBytes 2 x.seconds.toNat, leBytes 2 x.milliseconds.toNat]

/-- The fixed-length data section of a job, as it is stored. -/
def Fixed.stored (x : Fixed) : Bytes := x.pieces.flatten

/-- A trigger of a job. -/
structure Trigger where
  size : UInt16
  reserved1 : UInt16
  startYear : UInt16
  startMonth : UInt16
  startDay : UInt16
  endYear : UInt16
  endMonth : UInt16
  endDay : UInt16
  hours : UInt16
  minutes : UInt16
  duration : UInt32
  interval : UInt32
  flags : UInt32
  kind : UInt32
  arg0 : UInt16
  arg1 : UInt16
  arg2 : UInt16
  padding : UInt16
  reserved2 : UInt16
  reserved3 : UInt16

/-- The members of a trigger in their order (MS-TSCH 2.4.2.11). -/
def Trigger.pieces (x : Trigger) : List Bytes :=
  [leBytes 2 x.size.toNat, leBytes 2 x.reserved1.toNat, leBytes 2 x.startYear.toNat, leBytes 2 x.startMonth.toNat,
    leBytes 2 x.startDay.toNat, leBytes 2 x.endYear.toNat, leBytes 2 x.endMonth.toNat, leBytes 2 x.endDay.toNat,
    leBytes 2 x.hours.toNat, leBytes 2 x.minutes.toNat, leBytes 4 x.duration.toNat, leBytes 4 x.interval.toNat,
    leBytes 4 x.flags.toNat, leBytes 4 x.kind.toNat, leBytes 2 x.arg0.toNat, leBytes 2 x.arg1.toNat,
    leBytes 2 x.arg2.toNat, leBytes 2 x.padding.toNat, leBytes 2 x.reserved2.toNat, leBytes 2 x.reserved3.toNat]

/-- A trigger of a job, as it is stored. -/
def Trigger.stored (x : Trigger) : Bytes := x.pieces.flatten

/-- A string of a job: the number of its characters, its data and its text. -/
structure Text where
  characters : UInt16
  data : Bytes
  text : Str

def Text.stored (x : Text) : Bytes := leBytes 2 x.characters.toNat ++ x.data

/-- The data has as many characters as stored and decodes to the text. -/
def Text.Valid (env : Env) (x : Text) : Prop := x.data.length = 2 * x.characters.toNat ∧ env.text x.data = some x.text

/-- A job file. -/
structure File where
  fixed : Fixed
  count : UInt16
  applicationName : Text
  parameters : Text
  workingDirectory : Text
  author : Text
  comment : Text
  userData : Bytes
  reservedData : Bytes
  triggers : List Trigger

def storedStream (b : Bytes) : Bytes := leBytes 2 b.length ++ b

/-- The variable-length section as it is stored (MS-TSCH 2.4.2). -/
def File.storedSection (f : File) : Bytes :=
  leBytes 2 f.count.toNat ++ f.applicationName.stored ++ f.parameters.stored ++ f.workingDirectory.stored ++ f.author.stored ++
    f.comment.stored ++ storedStream f.userData ++ storedStream f.reservedData ++ leBytes 2 f.triggers.length ++
    f.triggers.flatMap Trigger.stored

def File.stored (f : File) : Bytes := f.fixed.stored ++ f.storedSection

def File.Valid (env : Env) (f : File) : Prop :=
  f.fixed.identifierD.length = 8 ∧ f.applicationName.Valid env ∧ f.parameters.Valid env ∧ f.workingDirectory.Valid env ∧
    f.author.Valid env ∧ f.comment.Valid env ∧ f.userData.length < 2 ^ 16 ∧ f.reservedData.length < 2 ^ 16 ∧ f.triggers.length < 2 ^ 16

/-- The text of the identifier. -/
def File.identifier (f : File) : Str :=
  Uuid.text f.fixed.identifierA.toNat f.fixed.identifierB.toNat f.fixed.identifierC.toNat f.fixed.identifierD

/-- The configuration of a job. -/
def File.configuration (f : File) : Configuration where
  applicationName := some f.applicationName.text
  author := some f.author.text
  comment := some f.comment.text
  retryCount := some f.fixed.retryCount.toNat
  retryInterval := some f.fixed.retryInterval.toNat
  identifier := some f.identifier
  parameters := some f.parameters.text
  priority := some f.fixed.priority.toNat
  workingDirectory := some f.workingDirectory.text

/-! ## Values of the stored sections -/

theorem u16 (v : UInt16) : v.toNat < 256 ^ 2 := v.toNat_lt

theorem u32 (v : UInt32) : v.toNat < 256 ^ 4 := v.toNat_lt

theorem piece_at (l : List Bytes) (k : Nat) (x : Bytes) (i j : Nat) (h : l[k]? = some x) (hi : ((l.take k).map List.length).sum = i)
    (hj : i + x.length = j) : slice l.flatten i j = x := by
  have e : l = l.take k ++ x :: l.drop (k + 1) := by
    obtain ⟨hk, hx⟩ := List.getElem?_eq_some_iff.1 h
    rw [← hx, List.getElem_cons_drop, List.take_append_drop]
  rw [e]
  exact slice_fields _ x _ i j hi hj

theorem field_at (l : List Bytes) (k w v i j : Nat) (h : l[k]? = some (leBytes w v)) (hi : ((l.take k).map List.length).sum = i)
    (hj : i + w = j) (hv : v < 256 ^ w) : number l.flatten i j = v := by
  unfold number
  rw [piece_at l k _ i j h hi (by rw [leBytes_length]; exact hj), leNat_leBytes_of_lt w v hv]

theorem Fixed.product_at (x : Fixed) : number x.stored 0 2 = x.product.toNat :=
  field_at x.pieces 0 2 _ 0 2 rfl (by simp [Fixed.pieces]) rfl (u16 _)

theorem Fixed.format_at (x : Fixed) : number x.stored 2 4 = x.format.toNat :=
  field_at x.pieces 1 2 _ 2 4 rfl (by simp [Fixed.pieces]) rfl (u16 _)

theorem Fixed.identifierA_at (x : Fixed) : number x.stored 4 8 = x.identifierA.toNat :=
  field_at x.pieces 2 4 _ 4 8 rfl (by simp [Fixed.pieces]) rfl (u32 _)

theorem Fixed.identifierB_at (x : Fixed) : number x.stored 8 10 = x.identifierB.toNat :=
  field_at x.pieces 3 2 _ 8 10 rfl (by simp [Fixed.pieces]) rfl (u16 _)

theorem Fixed.identifierC_at (x : Fixed) : number x.stored 10 12 = x.identifierC.toNat :=
  field_at x.pieces 4 2 _ 10 12 rfl (by simp [Fixed.pieces]) rfl (u16 _)

theorem Fixed.nameOffset_at (x : Fixed) (hd : x.identifierD.length = 8) : number x.stored 20 22 = x.nameOffset.toNat :=
  field_at x.pieces 6 2 _ 20 22 rfl (by simp [Fixed.pieces, hd]) rfl (u16 _)

theorem Fixed.triggersOffset_at (x : Fixed) (hd : x.identifierD.length = 8) : number x.stored 22 24 = x.triggersOffset.toNat :=
  field_at x.pieces 7 2 _ 22 24 rfl (by simp [Fixed.pieces, hd]) rfl (u16 _)

theorem Fixed.retryCount_at (x : Fixed) (hd : x.identifierD.length = 8) : number x.stored 24 26 = x.retryCount.toNat :=
  field_at x.pieces 8 2 _ 24 26 rfl (by simp [Fixed.pieces, hd]) rfl (u16 _)

theorem Fixed.retryInterval_at (x : Fixed) (hd : x.identifierD.length = 8) : number x.stored 26 28 = x.retryInterval.toNat :=
  field_at x.pieces 9 2 _ 26 28 rfl (by simp [Fixed.pieces, hd]) rfl (u16 _)

theorem Fixed.idleDeadline_at (x : Fixed) (hd : x.identifierD.length = 8) : number x.stored 28 30 = x.idleDeadline.toNat :=
  field_at x.pieces 10 2 _ 28 30 rfl (by simp [Fixed.pieces, hd]) rfl (u16 _)

theorem Fixed.idleWait_at (x : Fixed) (hd : x.identifierD.length = 8) : number x.stored 30 32 = x.idleWait.toNat :=
  field_at x.pieces 11 2 _ 30 32 rfl (by simp [Fixed.pieces, hd]) rfl (u16 _)

theorem Fixed.priority_at (x : Fixed) (hd : x.identifierD.length = 8) : number x.stored 32 36 = x.priority.toNat :=
  field_at x.pieces 12 4 _ 32 36 rfl (by simp [Fixed.pieces, hd]) rfl (u32 _)

theorem Fixed.maximumRunTime_at (x : Fixed) (hd : x.identifierD.length = 8) : number x.stored 36 40 = x.maximumRunTime.toNat :=
  field_at x.pieces 13 4 _ 36 40 rfl (by simp [Fixed.pieces, hd]) rfl (u32 _)

theorem Fixed.exitCode_at (x : Fixed) (hd : x.identifierD.length = 8) : number x.stored 40 44 = x.exitCode.toNat :=
  field_at x.pieces 14 4 _ 40 44 rfl (by simp [Fixed.pieces, hd]) rfl (u32 _)

theorem Fixed.status_at (x : Fixed) (hd : x.identifierD.length = 8) : number x.stored 44 48 = x.status.toNat :=
  field_at x.pieces 15 4 _ 44 48 rfl (by simp [Fixed.pieces, hd]) rfl (u32 _)

theorem Fixed.flags_at (x : Fixed) (hd : x.identifierD.length = 8) : number x.stored 48 52 = x.flags.toNat :=
  field_at x.pieces 16 4 _ 48 52 rfl (by simp [Fixed.pieces, hd]) rfl (u32 _)

theorem Fixed.year_at (x : Fixed) (hd : x.identifierD.length = 8) : number x.stored 52 54 = x.year.toNat :=
  field_at x.pieces 17 2 _ 52 54 rfl (by simp [Fixed.pieces, hd]) rfl (u16 _)

theorem Fixed.month_at (x : Fixed) (hd : x.identifierD.length = 8) : number x.stored 54 56 = x.month.toNat :=
  field_at x.pieces 18 2 _ 54 56 rfl (by simp [Fixed.pieces, hd]) rfl (u16 _)

theorem Fixed.weekday_at (x : Fixed) (hd : x.identifierD.length = 8) : number x.stored 56 58 = x.weekday.toNat :=
  field_at x.pieces 19 2 _ 56 58 rfl (by simp [Fixed.pieces, hd]) rfl (u16 _)

theorem Fixed.day_at (x : Fixed) (hd : x.identifierD.length = 8) : number x.stored 58 60 = x.day.toNat :=
  field_at x.pieces 20 2 _ 58 60 rfl (by simp [Fixed.pieces, hd]) rfl (u16 _)

theorem Fixed.hours_at (x : Fixed) (hd : x.identifierD.length = 8) : number x.stored 60 62 = x.hours.toNat :=
  field_at x.pieces 21 2 _ 60 62 rfl (by simp [Fixed.pieces, hd]) rfl (u16 _)

theorem Fixed.minutes_at (x : Fixed) (hd : x.identifierD.length = 8) : number x.stored 62 64 = x.minutes.toNat :=
  field_at x.pieces 22 2 _ 62 64 rfl (by simp [Fixed.pieces, hd]) rfl (u16 _)

theorem Fixed.seconds_at (x : Fixed) (hd : x.identifierD.length = 8) : number x.stored 64 66 = x.seconds.toNat :=
  field_at x.pieces 23 2 _ 64 66 rfl (by simp [Fixed.pieces, hd]) rfl (u16 _)

theorem Fixed.milliseconds_at (x : Fixed) (hd : x.identifierD.length = 8) : number x.stored 66 68 = x.milliseconds.toNat :=
  field_at x.pieces 24 2 _ 66 68 rfl (by simp [Fixed.pieces, hd]) rfl (u16 _)

theorem Trigger.size_at (x : Trigger) : number x.stored 0 2 = x.size.toNat :=
  field_at x.pieces 0 2 _ 0 2 rfl (by simp [Trigger.pieces]) rfl (u16 _)

theorem Trigger.reserved1_at (x : Trigger) : number x.stored 2 4 = x.reserved1.toNat :=
  field_at x.pieces 1 2 _ 2 4 rfl (by simp [Trigger.pieces]) rfl (u16 _)

theorem Trigger.startYear_at (x : Trigger) : number x.stored 4 6 = x.startYear.toNat :=
  field_at x.pieces 2 2 _ 4 6 rfl (by simp [Trigger.pieces]) rfl (u16 _)

theorem Trigger.startMonth_at (x : Trigger) : number x.stored 6 8 = x.startMonth.toNat :=
  field_at x.pieces 3 2 _ 6 8 rfl (by simp [Trigger.pieces]) rfl (u16 _)

theorem Trigger.startDay_at (x : Trigger) : number x.stored 8 10 = x.startDay.toNat :=
  field_at x.pieces 4 2 _ 8 10 rfl (by simp [Trigger.pieces]) rfl (u16 _)

theorem Trigger.endYear_at (x : Trigger) : number x.stored 10 12 = x.endYear.toNat :=
  field_at x.pieces 5 2 _ 10 12 rfl (by simp [Trigger.pieces]) rfl (u16 _)

theorem Trigger.endMonth_at (x : Trigger) : number x.stored 12 14 = x.endMonth.toNat :=
  field_at x.pieces 6 2 _ 12 14 rfl (by simp [Trigger.pieces]) rfl (u16 _)

theorem Trigger.endDay_at (x : Trigger) : number x.stored 14 16 = x.endDay.toNat :=
  field_at x.pieces 7 2 _ 14 16 rfl (by simp [Trigger.pieces]) rfl (u16 _)

theorem Trigger.hours_at (x : Trigger) : number x.stored 16 18 = x.hours.toNat :=
  field_at x.pieces 8 2 _ 16 18 rfl (by simp [Trigger.pieces]) rfl (u16 _)

theorem Trigger.minutes_at (x : Trigger) : number x.stored 18 20 = x.minutes.toNat :=
  field_at x.pieces 9 2 _ 18 20 rfl (by simp [Trigger.pieces]) rfl (u16 _)

theorem Trigger.duration_at (x : Trigger) : number x.stored 20 24 = x.duration.toNat :=
  field_at x.pieces 10 4 _ 20 24 rfl (by simp [Trigger.pieces]) rfl (u32 _)

theorem Trigger.interval_at (x : Trigger) : number x.stored 24 28 = x.interval.toNat :=
  field_at x.pieces 11 4 _ 24 28 rfl (by simp [Trigger.pieces]) rfl (u32 _)

theorem Trigger.flags_at (x : Trigger) : number x.stored 28 32 = x.flags.toNat :=
  field_at x.pieces 12 4 _ 28 32 rfl (by simp [Trigger.pieces]) rfl (u32 _)

theorem Trigger.kind_at (x : Trigger) : number x.stored 32 36 = x.kind.toNat :=
  field_at x.pieces 13 4 _ 32 36 rfl (by simp [Trigger.pieces]) rfl (u32 _)

theorem Trigger.arg0_at (x : Trigger) : number x.stored 36 38 = x.arg0.toNat :=
  field_at x.pieces 14 2 _ 36 38 rfl (by simp [Trigger.pieces]) rfl (u16 _)

theorem Trigger.arg1_at (x : Trigger) : number x.stored 38 40 = x.arg1.toNat :=
  field_at x.pieces 15 2 _ 38 40 rfl (by simp [Trigger.pieces]) rfl (u16 _)

theorem Trigger.arg2_at (x : Trigger) : number x.stored 40 42 = x.arg2.toNat :=
  field_at x.pieces 16 2 _ 40 42 rfl (by simp [Trigger.pieces]) rfl (u16 _)

theorem Trigger.padding_at (x : Trigger) : number x.stored 42 44 = x.padding.toNat :=
  field_at x.pieces 17 2 _ 42 44 rfl (by simp [Trigger.pieces]) rfl (u16 _)

theorem Trigger.reserved2_at (x : Trigger) : number x.stored 44 46 = x.reserved2.toNat :=
  field_at x.pieces 18 2 _ 44 46 rfl (by simp [Trigger.pieces]) rfl (u16 _)

theorem Trigger.reserved3_at (x : Trigger) : number x.stored 46 48 = x.reserved3.toNat :=
  field_at x.pieces 19 2 _ 46 48 rfl (by simp [Trigger.pieces]) rfl (u16 _)

theorem Fixed.length (x : Fixed) (hd : x.identifierD.length = 8) : x.stored.length = 68 := by
  simp [Fixed.stored, Fixed.pieces, hd]

theorem Trigger.length (x : Trigger) : x.stored.length = 48 := by
  simp [Trigger.stored, Trigger.pieces]

theorem identifier_stored (x : Fixed) (hd : x.identifierD.length = 8) :
    identifier x.stored = Uuid.text x.identifierA.toNat x.identifierB.toNat x.identifierC.toNat x.identifierD := by
  unfold identifier
  have e : x.stored = ([leBytes 2 x.product.toNat, leBytes 2 x.format.toNat] ++
      (leBytes 4 x.identifierA.toNat ++ leBytes 2 x.identifierB.toNat ++ leBytes 2 x.identifierC.toNat ++ x.identifierD) ::
      x.pieces.drop 6).flatten := by
    simp [Fixed.stored, Fixed.pieces]
  rw [e, slice_fields _ _ _ 4 20 (by simp) (by simp [hd]), Uuid.C171_identifier _ _ _ _ (u32 _) (u16 _) (u16 _) hd]

/-! ## The variable-length section -/

theorem lawful_string (env : Env) : Lawful (string env) :=
  lawful_bind (lawful_uint 2) fun _ => lawful_bind (lawful_bytes _) fun _ => lawful_bind (lawful_ofOption _) fun _ => lawful_pure _

theorem lawful_stream : Lawful stream := lawful_bind (lawful_uint 2) fun _ => lawful_bytes _

theorem lawful_triggers : Lawful triggers := lawful_bind (lawful_uint 2) fun _ => lawful_many (lawful_bytes 48) _

theorem lawful_section (env : Env) : Lawful («section» env) :=
  lawful_bind (lawful_uint 2) fun _ => lawful_bind (lawful_string env) fun _ => lawful_bind (lawful_string env) fun _ =>
    lawful_bind (lawful_string env) fun _ => lawful_bind (lawful_string env) fun _ => lawful_bind (lawful_string env) fun _ =>
      lawful_bind lawful_stream fun _ => lawful_bind lawful_stream fun _ => lawful_bind lawful_triggers fun _ => lawful_pure _

theorem section_nil (env : Env) : «section» env [] 0 = .need 2 := rfl

/-- Reading the variable-length section of any file. -/
theorem section_at (env : Env) (data : Bytes) : structAt (progMap («section» env)) data 68 = outcome («section» env (data.drop 68) 0) :=
  structAt_progressive _ (lawful_section env) 2 (section_nil env) data 68

theorem stores_string (env : Env) (x : Text) (h : x.Valid env) : Stores (string env) x.stored (x.characters.toNat, x.text) := by
  have h1 := stores_bytes x.data
  rw [h.1] at h1
  have h2 : Stores (bind (ofOption (env.text x.data)) fun t => pure (x.characters.toNat, t)) ([] ++ []) (x.characters.toNat, x.text) :=
    stores_bind (stores_ofOption h.2) (stores_pure _)
  have h3 := stores_bind (f := fun b => bind (ofOption (env.text b)) fun t => pure (x.characters.toNat, t)) h1 h2
  have h4 := stores_bind (f := fun n => bind (bytes (2 * n)) fun b => bind (ofOption (env.text b)) fun t => pure (n, t))
    (stores_uint 2 _ (u16 x.characters)) h3
  simpa [Text.stored, string] using h4

theorem stores_stream (b : Bytes) (h : b.length < 2 ^ 16) : Stores stream (storedStream b) b :=
  stores_bind (stores_uint 2 b.length h) (stores_bytes b)

theorem stores_triggers (l : List Trigger) (h : l.length < 2 ^ 16) :
    Stores triggers (leBytes 2 l.length ++ l.flatMap Trigger.stored) (l.map Trigger.stored) := by
  refine stores_bind (stores_uint 2 l.length h) (stores_many _ _ l fun x _ => ?_)
  have := stores_bytes x.stored
  rwa [x.length] at this

/-- The values of a stored section. -/
def File.section (f : File) : Section where
  count := f.count.toNat
  applicationName := (f.applicationName.characters.toNat, f.applicationName.text)
  parameters := (f.parameters.characters.toNat, f.parameters.text)
  workingDirectory := (f.workingDirectory.characters.toNat, f.workingDirectory.text)
  author := (f.author.characters.toNat, f.author.text)
  comment := (f.comment.characters.toNat, f.comment.text)
  userData := f.userData
  reservedData := f.reservedData
  triggers := f.triggers.map Trigger.stored

theorem stores_section (env : Env) (f : File) (h : f.Valid env) : Stores («section» env) f.storedSection f.section := by
  obtain ⟨_, h1, h2, h3, h4, h5, h6, h7, h8⟩ := h
  have e : f.storedSection = leBytes 2 f.count.toNat ++ (f.applicationName.stored ++ (f.parameters.stored ++ (f.workingDirectory.stored ++
      (f.author.stored ++ (f.comment.stored ++ (storedStream f.userData ++ (storedStream f.reservedData ++
      ((leBytes 2 f.triggers.length ++ f.triggers.flatMap Trigger.stored) ++ [])))))))) := by
    simp [File.storedSection]
  rw [e]
  exact stores_bind (stores_uint 2 _ (u16 f.count)) <| stores_bind (stores_string env _ h1) <| stores_bind (stores_string env _ h2) <|
    stores_bind (stores_string env _ h3) <| stores_bind (stores_string env _ h4) <| stores_bind (stores_string env _ h5) <|
    stores_bind (stores_stream _ h6) <| stores_bind (stores_stream _ h7) <| stores_bind (stores_triggers _ h8) (stores_pure _)

/-! ## Text of structures -/

/-- A block of the debug output: a line, or the description on a line of its own when the text has several lines. -/
def block (d : String) (t : Str) : Str :=
  if '\n' ∈ t then d.toList ++ ":\n".toList ++ t else formatValue d.toList t

theorem attribute_block (d : String) (t : Str) (b : Bool) (h : b = true ∨ '\n' ∉ t) :
    formatAttribute ⟨some d.toList, t, b⟩ = .ok (block d t) := by
  unfold block
  by_cases hn : '\n' ∈ t
  · have hb : b = true := h.resolve_right fun h => h hn
    subst hb
    rw [if_pos hn, Analyzer.attribute_lines _ _ hn]
    rfl
  · rw [if_neg hn, Analyzer.attribute_line _ _ _ hn]

theorem digit_newline (d : Nat) (h : d < 16) : digitChar d ≠ '\n' := by
  revert d
  decide

theorem dec_line (n : Nat) : '\n' ∉ dec n := dec_notMem n _ fun d h => digit_newline d (by omega)

theorem hexw_line (w n : Nat) : '\n' ∉ hexw w n := hexw_notMem w n _ fun d h => digit_newline d h

theorem padded_line (w n : Nat) : '\n' ∉ padded w n := by
  unfold padded zpad
  rw [List.mem_append, List.mem_replicate]
  rintro (⟨_, h⟩ | h)
  · revert h; decide
  · exact dec_line n h

/-- The attributes that can be shown: a description and a text, of several lines only if the description has its own. -/
def Fine : Option Attribute → Prop
  | none => True
  | some a => (∃ d : String, a.description = some d.toList) ∧ (a.newLine = true ∨ '\n' ∉ a.text)

theorem fine_decimal (d : String) (n : Nat) : Fine (decimal d n) := ⟨⟨d, rfl⟩, .inr (dec_line n)⟩

theorem fine_hexadecimal (w : Nat) (d : String) (n : Nat) : Fine (hexadecimal w d n) := by
  refine ⟨⟨d, rfl⟩, .inr ?_⟩
  dsimp only
  rw [List.mem_append]
  rintro (h | h)
  · revert h; decide
  · exact hexw_line w n h

theorem fine_custom (d : String) (t : Str) : Fine (custom d t) := ⟨⟨d, rfl⟩, .inl rfl⟩

/-- The block of an attribute. -/
def blockOf : Option Attribute → Option Str
  | some ⟨some d, t, _⟩ => some (block (String.ofList d) t)
  | _ => none

theorem attributes_fine (l : List (Option Attribute)) (h : ∀ a ∈ l, Fine a) : formatAttributes l = .ok (l.filterMap blockOf) := by
  induction l with
  | nil => rfl
  | cons a l ih =>
    have ih := ih fun x hx => h x (List.mem_cons_of_mem _ hx)
    cases a with
    | none =>
      rw [formatAttributes, ih]
      rfl
    | some a =>
      obtain ⟨⟨d, hd⟩, ht⟩ := h _ List.mem_cons_self
      obtain ⟨description, t, b⟩ := a
      dsimp only at hd ht
      subst hd
      rw [formatAttributes, attribute_block d t b ht, ih]
      simp [blockOf]

/-- Blocks with an empty line after them. -/
def closed (l : List Str) : Str := l.flatten ++ (if ['\n', '\n'] <:+ l.getLastD [] then [] else ['\n'])

theorem structure_fine (l : List (Option Attribute)) (h : ∀ a ∈ l, Fine a) : formatStructure l = .ok (closed (l.filterMap blockOf)) := by
  unfold formatStructure
  rw [attributes_fine l h]
  dsimp only
  generalize l.filterMap blockOf = bs
  unfold closed
  by_cases hs : ['\n', '\n'] <:+ bs.getLastD []
  · rw [if_pos hs, if_neg]
    · simp
    · rintro (h | h | h)
      · subst h
        have := List.IsSuffix.length_le hs
        simp at this
      · rw [h] at hs
        have := List.IsSuffix.length_le hs
        simp at this
      · exact h ((Analyzer.lastTwo_iff _).2 hs)
  · rw [if_neg hs, if_pos (.inr (.inr fun h => hs ((Analyzer.lastTwo_iff _).1 h)))]

theorem formatAll_fine (l : List (List (Option Attribute))) (h : ∀ as ∈ l, ∀ a ∈ as, Fine a) :
    formatAll l = (none, l.flatMap fun as => closed (as.filterMap blockOf)) := by
  induction l with
  | nil => rfl
  | cons as l ih =>
    rw [formatAll, structure_fine as (h as List.mem_cons_self), ih fun x hx => h x (List.mem_cons_of_mem _ hx)]
    simp

theorem fixed_fine (b : Bytes) : ∀ a ∈ fixedAttributes b, Fine a := by
  unfold fixedAttributes
  simp only [List.forall_mem_cons, fine_decimal, fine_hexadecimal, fine_custom, true_and]
  simp

theorem section_fine (s : Section) : ∀ a ∈ sectionAttributes s, Fine a := by
  unfold sectionAttributes
  simp only [List.forall_mem_cons, fine_decimal, fine_custom, true_and]
  simp [Fine]

theorem trigger_fine (b : Bytes) : ∀ a ∈ triggerAttributes b, Fine a := by
  unfold triggerAttributes
  simp only [List.forall_mem_cons, fine_decimal, fine_hexadecimal, fine_custom, true_and]
  simp

theorem fixed_shown (b : Bytes) : formatAll [fixedAttributes b] = (none, closed ((fixedAttributes b).filterMap blockOf)) := by
  rw [formatAll_fine _ (by intro as h; rw [List.mem_singleton] at h; subst h; exact fixed_fine b)]
  simp

theorem section_shown (s : Section) : formatAll (sectionAttributes s :: s.triggers.map triggerAttributes) =
    (none, closed ((sectionAttributes s).filterMap blockOf) ++ s.triggers.flatMap fun t => closed ((triggerAttributes t).filterMap blockOf)) := by
  rw [formatAll_fine]
  · rw [List.flatMap_cons, List.flatMap_map]
  · intro as h
    rw [List.mem_cons, List.mem_map] at h
    rcases h with rfl | ⟨t, _, rfl⟩
    · exact section_fine s
    · exact trigger_fine t

/-! ## What is read -/

/-- The fixed-length section of any file. -/
theorem fixed_at (data : Bytes) : structAt (fixedMap 68 id) data 0 =
    if data.length < 68 then .error .parseError else .ok (data.take 68, 68) := by
  have := structAt_fixed 68 id data 0 (by decide)
  simpa using this

/-- Reading any file, with and without debug output. -/
theorem read_eq (env : Env) (debug : Bool) (data : Bytes) : ∃ t, read env debug data =
    (if data.length < 68 then (some .parseError, {}, t)
    else match «section» env (data.drop 68) 0 with
      | .ok s _ => (none, withSection s (withFixed (data.take 68) {}), t)
      | _ => (some .parseError, withFixed (data.take 68) {}, t)) := by
  unfold read
  rw [fixed_at]
  by_cases hl : data.length < 68
  · rw [if_pos hl]
    dsimp only
    exact ⟨_, by rw [if_pos hl]⟩
  · rw [if_neg hl]
    dsimp only
    rw [section_at]
    have h1 : (formatAll (if debug then [fixedAttributes (data.take 68)] else [])).1 = none := by
      cases debug
      · rfl
      · simp only [if_true]; rw [fixed_shown]
    generalize formatAll (if debug then [fixedAttributes (data.take 68)] else []) = r1 at *
    obtain ⟨a1, b1⟩ := r1
    dsimp only at h1
    subst h1
    dsimp only
    cases «section» env (data.drop 68) 0 with
    | ok s n =>
      dsimp only [outcome]
      have h2 : (formatAll (if debug then sectionAttributes s :: s.triggers.map triggerAttributes else [])).1 = none := by
        cases debug
        · rfl
        · simp only [if_true]; rw [section_shown]
      generalize formatAll (if debug then sectionAttributes s :: s.triggers.map triggerAttributes else []) = r2 at *
      obtain ⟨a2, b2⟩ := r2
      dsimp only at h2
      subst h2
      exact ⟨_, by rw [if_neg hl]⟩
    | need n => exact ⟨_, by rw [if_neg hl]; rfl⟩
    | error => exact ⟨_, by rw [if_neg hl]; rfl⟩

theorem stored_take (f : File) (h : f.fixed.identifierD.length = 8) (rest : Bytes) : (f.stored ++ rest).take 68 = f.fixed.stored := by
  unfold File.stored
  rw [List.append_assoc]
  exact List.take_left' (f.fixed.length h)

theorem stored_section (env : Env) (f : File) (h : f.Valid env) (rest : Bytes) :
    «section» env ((f.stored ++ rest).drop 68) 0 = .ok f.section f.storedSection.length := by
  unfold File.stored
  rw [List.append_assoc, List.drop_left' (f.fixed.length h.1)]
  have := stores_section env f h [] rest
  simpa using this

theorem stored_length (f : File) (h : f.fixed.identifierD.length = 8) (rest : Bytes) : ¬ (f.stored ++ rest).length < 68 := by
  unfold File.stored
  rw [List.length_append, List.length_append, f.fixed.length h]
  omega

theorem stored_configuration (f : File) (h : f.fixed.identifierD.length = 8) :
    withSection f.section (withFixed f.fixed.stored {}) = f.configuration := by
  unfold withSection withFixed File.configuration
  rw [Fixed.retryCount_at _ h, Fixed.retryInterval_at _ h, Fixed.priority_at _ h, identifier_stored _ h]
  rfl

/-- C173.  The configuration of a job file is that stored, whatever follows the triggers and with and without debug output. -/
theorem C173_configuration (env : Env) (debug : Bool) (f : File) (h : f.Valid env) (rest : Bytes) :
    ∃ t, read env debug (f.stored ++ rest) = (none, f.configuration, t) := by
  obtain ⟨t, ht⟩ := read_eq env debug (f.stored ++ rest)
  rw [if_neg (stored_length f h.1 rest), stored_section env f h rest] at ht
  dsimp only at ht
  rw [stored_take f h.1, stored_configuration f h.1] at ht
  exact ⟨t, ht⟩

/-- C173.  Reading any file either succeeds or raises a parse error. -/
theorem C173_errors (env : Env) (debug : Bool) (data : Bytes) (e : Err) (h : (read env debug data).1 = some e) : e = .parseError := by
  obtain ⟨t, ht⟩ := read_eq env debug data
  rw [ht] at h
  split at h
  · cases h; rfl
  · split at h
    · cases h
    · cases h; rfl

/-- C173.  Debug output changes neither the result nor the configuration. -/
theorem C173_debug_same (env : Env) (data : Bytes) :
    (read env true data).1 = (read env false data).1 ∧ (read env true data).2.1 = (read env false data).2.1 := by
  obtain ⟨t, ht⟩ := read_eq env true data
  obtain ⟨t', ht'⟩ := read_eq env false data
  rw [ht, ht']
  split
  · exact ⟨rfl, rfl⟩
  · split <;> exact ⟨rfl, rfl⟩

/-- C173.  Nothing is written without debug output. -/
theorem C173_quiet (env : Env) (data : Bytes) : (read env false data).2.2 = [] := by
  unfold read
  simp only [Bool.false_eq_true, if_false, formatAll, List.append_nil]
  split
  · rfl
  · split <;> rfl

/-- C173.  After an error the configuration has none of the strings. -/
theorem C173_failed (env : Env) (debug : Bool) (data : Bytes) (h : (read env debug data).1 ≠ none) :
    (read env debug data).2.1.applicationName = none ∧ (read env debug data).2.1.parameters = none ∧
      (read env debug data).2.1.workingDirectory = none ∧ (read env debug data).2.1.author = none ∧
      (read env debug data).2.1.comment = none := by
  obtain ⟨t, ht⟩ := read_eq env debug data
  rw [ht] at h ⊢
  split
  · exact ⟨rfl, rfl, rfl, rfl, rfl⟩
  · rename_i hl
    rw [if_neg hl] at h
    split
    · rename_i hs
      rw [hs] at h
      exact absurd rfl h
    · exact ⟨rfl, rfl, rfl, rfl, rfl⟩

/-- C173 as one may expect it: a configuration is only there after the file was read. -/
def C173_failed_claim : Prop := ∀ env debug data, (read env debug data).1 ≠ none → (read env debug data).2.1 = {}

theorem zeros_section (env : Env) : «section» env ((List.replicate 68 0).drop 68) 0 = .need 2 := rfl

/-- C173.  Of a file that ends after the fixed-length section the numbers and the identifier are there though reading it failed. -/
theorem C173_failed_claim_false : ¬ C173_failed_claim := by
  intro h
  obtain ⟨t, ht⟩ := read_eq ⟨fun _ => none⟩ false (List.replicate 68 0)
  rw [if_neg (by decide), zeros_section] at ht
  dsimp only at ht
  have := h ⟨fun _ => none⟩ false (List.replicate 68 0) (by rw [ht]; simp)
  rw [ht] at this
  have := congrArg Configuration.retryCount this
  simp [withFixed] at this

/-! ## Debug output of a stored job -/

/-- A line with a description and a value. -/
def line (d : String) (t : Str) : Str := formatValue d.toList t

theorem blockOf_none : blockOf none = none := rfl

theorem blockOf_custom (d : String) (t : Str) (h : '\n' ∉ t) : blockOf (custom d t) = some (line d t) := by
  simp only [blockOf, custom, block, if_neg h, line, String.ofList_toList]

theorem blockOf_lines (d : String) (t : Str) (h : '\n' ∈ t) : blockOf (custom d t) = some (d.toList ++ ":\n".toList ++ t) := by
  simp only [blockOf, custom, block, if_pos h, String.ofList_toList]

theorem blockOf_string (d : String) (t : Str) : blockOf (custom d t) = some (block d t) := by
  simp only [blockOf, custom, String.ofList_toList]

theorem blockOf_decimal (d : String) (n : Nat) : blockOf (decimal d n) = some (line d (dec n)) := by
  simp only [blockOf, decimal, block, if_neg (dec_line n), line, String.ofList_toList]

theorem blockOf_hexadecimal (w : Nat) (d : String) (n : Nat) : blockOf (hexadecimal w d n) = some (line d ("0x".toList ++ hexw w n)) := by
  have h : '\n' ∉ "0x".toList ++ hexw w n := by
    rw [List.mem_append]
    rintro (h | h)
    · revert h; decide
    · exact hexw_line w n h
  simp only [blockOf, hexadecimal, block, if_neg h, line, String.ofList_toList]

theorem line_end (d : String) (t : Str) (h : '\n' ∉ t) : ¬ ['\n', '\n'] <:+ line d t := by
  rintro ⟨q, hq⟩
  unfold line formatValue at hq
  have e : q ++ ['\n', '\n'] = (q ++ ['\n']) ++ ['\n'] := by simp
  rw [e] at hq
  have hq := List.append_cancel_right hq
  have e2 : d.toList ++ tabs d.toList ++ [':', ' '] ++ t = (d.toList ++ tabs d.toList ++ [':']) ++ (' ' :: t) := by simp
  rw [e2] at hq
  have h1 := congrArg List.getLast? hq
  rw [List.getLast?_append, List.getLast?_append] at h1
  have h2 : (' ' :: t).getLast? = some '\n' := by
    cases hl : (' ' :: t).getLast? with
    | none => simp at hl
    | some c => rw [hl] at h1; simpa using h1.symm
  have h3 := List.mem_of_getLast? h2
  rw [List.mem_cons] at h3
  rcases h3 with h3 | h3
  · revert h3; decide
  · exact h h3

theorem dump_end (b : Bytes) (p : Str) (hp : ['\n'] <:+ p) : ['\n', '\n'] <:+ p ++ HexDump.dump b := by
  unfold HexDump.dump
  generalize HexDump.dumpLoop b.length 0 b false none = l
  obtain ⟨q, rfl⟩ := hp
  induction l generalizing q with
  | nil => exact ⟨q, by simp [join]⟩
  | cons x l ih =>
    cases l with
    | nil => exact ⟨q ++ ['\n'] ++ x, by simp [join]⟩
    | cons y l =>
      have := ih (q ++ ['\n'] ++ x)
      simpa [join] using this

/-- The date and the time of a trigger and the time of the last run. -/
def dateText (y m d : UInt16) : Str := padded 4 y.toNat ++ "-".toList ++ padded 2 m.toNat ++ "-".toList ++ padded 2 d.toNat

def timeText (h m : UInt16) : Str := padded 2 h.toNat ++ ":".toList ++ padded 2 m.toNat

/-- The text of the fixed-length section.  The two parts of the product version are both the upper byte (C69). -/
def Fixed.text (x : Fixed) : Str :=
  line "Product version" ("0x".toList ++ hexw 4 x.product.toNat ++ " (".toList ++ dec (x.product.toNat / 256) ++ ".".toList ++
    dec (x.product.toNat / 256) ++ ")".toList) ++
  line "Format version" (dec x.format.toNat) ++
  line "Job identifier" (Uuid.text x.identifierA.toNat x.identifierB.toNat x.identifierC.toNat x.identifierD) ++
  line "Application name offset" ("0x".toList ++ hexw 4 x.nameOffset.toNat) ++
  line "Triggers offset" ("0x".toList ++ hexw 4 x.triggersOffset.toNat) ++
  line "Error retry count" (dec x.retryCount.toNat) ++
  line "Error retry interval" (dec x.retryInterval.toNat ++ " minutes".toList) ++
  line "Idle deadline" (dec x.idleDeadline.toNat ++ " minutes".toList) ++
  line "Idle wait" (dec x.idleWait.toNat ++ " minutes".toList) ++
  line "Priority" ("0x".toList ++ hexw 8 x.priority.toNat) ++
  line "Maximum run time" (dec x.maximumRunTime.toNat ++ " milliseconds".toList) ++
  line "Exit code" ("0x".toList ++ hexw 8 x.exitCode.toNat) ++
  line "Status" ("0x".toList ++ hexw 8 x.status.toNat) ++
  line "Flags" ("0x".toList ++ hexw 8 x.flags.toNat) ++
  line "Last run time" (dateText x.year x.month x.day ++ " ".toList ++ timeText x.hours x.minutes ++ ":".toList ++
    padded 2 x.seconds.toNat ++ ".".toList ++ padded 3 x.milliseconds.toNat) ++ ['\n']

/-- The text of a trigger. -/
def Trigger.text (x : Trigger) : Str :=
  line "Size" (dec x.size.toNat) ++
  line "Reserved1" ("0x".toList ++ hexw 4 x.reserved1.toNat) ++
  line "Start date" (dateText x.startYear x.startMonth x.startDay) ++
  line "End date" (dateText x.endYear x.endMonth x.endDay) ++
  line "Start time" (timeText x.hours x.minutes) ++
  line "Duration" (dec x.duration.toNat ++ " minutes".toList) ++
  line "Interval" (dec x.interval.toNat ++ " minutes".toList) ++
  line "Trigger flags" ("0x".toList ++ hexw 8 x.flags.toNat) ++
  line "Trigger type" ("0x".toList ++ hexw 8 x.kind.toNat) ++
  line "Trigger arg0" ("0x".toList ++ hexw 4 x.arg0.toNat) ++
  line "Trigger arg1" ("0x".toList ++ hexw 4 x.arg1.toNat) ++
  line "Trigger arg2" ("0x".toList ++ hexw 4 x.arg2.toNat) ++
  line "Trigger padding" ("0x".toList ++ hexw 4 x.padding.toNat) ++
  line "Trigger reserved2" ("0x".toList ++ hexw 4 x.reserved2.toNat) ++
  line "Trigger reserved3" ("0x".toList ++ hexw 4 x.reserved3.toNat) ++ ['\n']

/-- The text of a string: the number of its bytes and its characters, below the description if there is a line feed. -/
def Text.shown (d : String) (x : Text) : Str :=
  let t := "(".toList ++ dec x.data.length ++ " bytes) ".toList ++ x.text
  if '\n' ∈ x.text then d.toList ++ ":\n".toList ++ t else line d t

/-- The text of the variable-length section.  The number of triggers is not shown. -/
def File.sectionText (f : File) : Str :=
  line "Running instance count" (dec f.count.toNat) ++ f.applicationName.shown "Application name" ++
    f.parameters.shown "Parameters" ++ f.workingDirectory.shown "Working directory" ++ f.author.shown "Author" ++
    f.comment.shown "Comment" ++ "User data:\n".toList ++ HexDump.dump f.userData ++ "Reserved data:\n".toList ++
    HexDump.dump f.reservedData

theorem append_line {a b : Str} (ha : '\n' ∉ a) (hb : '\n' ∉ b) : '\n' ∉ a ++ b := by
  rw [List.mem_append]; rintro (h | h) <;> contradiction

theorem dateText_line (y m d : UInt16) : '\n' ∉ dateText y m d :=
  append_line (append_line (append_line (append_line (padded_line _ _) (by decide)) (padded_line _ _)) (by decide)) (padded_line _ _)

theorem timeText_line (h m : UInt16) : '\n' ∉ timeText h m :=
  append_line (append_line (padded_line _ _) (by decide)) (padded_line _ _)

theorem uuid_line (a b c : Nat) (d : Bytes) : '\n' ∉ Uuid.text a b c d := by
  have h : ∀ l : Bytes, '\n' ∉ l.flatMap (fun x => hexw 2 x.toNat) := by
    intro l hl
    rw [List.mem_flatMap] at hl
    obtain ⟨x, _, hx⟩ := hl
    exact hexw_line _ _ hx
  unfold Uuid.text
  simp only [List.mem_append, List.mem_cons, hexw_line, h, or_false, false_or]
  decide

theorem minutes_line (n : Nat) : '\n' ∉ dec n ++ " minutes".toList := append_line (dec_line n) (by decide)

theorem milliseconds_line (n : Nat) : '\n' ∉ dec n ++ " milliseconds".toList := append_line (dec_line n) (by decide)

theorem closed_line (l : List Str) (d : String) (t : Str) (h : '\n' ∉ t) : closed (l ++ [line d t]) = l.flatten ++ line d t ++ ['\n'] := by
  unfold closed
  rw [if_neg]
  · simp
  · rw [List.getLastD_eq_getLast?, List.getLast?_concat]
    exact line_end d t h

theorem version_text (v : UInt16) : productVersion v.toNat = "0x".toList ++ hexw 4 v.toNat ++ " (".toList ++ dec (v.toNat / 256) ++
    ".".toList ++ dec (v.toNat / 256) ++ ")".toList := by
  have h : (v.toNat >>> 8) &&& 0xFF = v.toNat / 256 := by
    have := v.toNat_lt
    rw [show (0xFF : Nat) = 2 ^ 8 - 1 from rfl, Nat.and_two_pow_sub_one_eq_mod, Nat.shiftRight_eq_div_pow]
    omega
  unfold productVersion
  rw [h]

theorem version_line (v : UInt16) : '\n' ∉ productVersion v.toNat := by
  rw [version_text]
  exact append_line (append_line (append_line (append_line (append_line (append_line (by decide) (hexw_line _ _)) (by decide)) (dec_line _)) (by decide))
    (dec_line _)) (by decide)

theorem systemTime_stored (x : Fixed) (hd : x.identifierD.length = 8) : systemTime x.stored = dateText x.year x.month x.day ++ " ".toList ++
    timeText x.hours x.minutes ++ ":".toList ++ padded 2 x.seconds.toNat ++ ".".toList ++ padded 3 x.milliseconds.toNat := by
  unfold systemTime dateText timeText
  rw [x.year_at hd, x.month_at hd, x.day_at hd, x.hours_at hd, x.minutes_at hd, x.seconds_at hd, x.milliseconds_at hd]
  simp

theorem fixed_text (x : Fixed) (hd : x.identifierD.length = 8) : closed ((fixedAttributes x.stored).filterMap blockOf) = x.text := by
  unfold fixedAttributes
  rw [x.product_at, x.format_at, x.nameOffset_at hd, x.triggersOffset_at hd, x.retryCount_at hd, x.retryInterval_at hd,
    x.idleDeadline_at hd, x.idleWait_at hd, x.priority_at hd, x.maximumRunTime_at hd, x.exitCode_at hd, x.status_at hd, x.flags_at hd,
    identifier_stored x hd, systemTime_stored x hd]
  have hs : '\n' ∉ dateText x.year x.month x.day ++ " ".toList ++
      timeText x.hours x.minutes ++ ":".toList ++ padded 2 x.seconds.toNat ++ ".".toList ++ padded 3 x.milliseconds.toNat :=
    append_line (append_line (append_line (append_line (append_line (append_line (dateText_line _ _ _) (by decide)) (timeText_line _ _)) (by decide))
      (padded_line _ _)) (by decide)) (padded_line _ _)
  simp only [List.filterMap_cons, blockOf_custom _ _ (version_line _), blockOf_decimal, blockOf_custom _ _ (uuid_line _ _ _ _), blockOf_hexadecimal,
    minutes, milliseconds, blockOf_custom _ _ (minutes_line _), blockOf_custom _ _ (milliseconds_line _), blockOf_custom _ _ hs, List.filterMap_nil]
  have := fun l => closed_line l "Last run time" _ hs
  have e : ∀ (a b c d e f g h i j k l m n o : Str), [a, b, c, d, e, f, g, h, i, j, k, l, m, n, o] = [a, b, c, d, e, f, g, h, i, j, k, l, m, n] ++ [o] :=
    fun _ _ _ _ _ _ _ _ _ _ _ _ _ _ _ => rfl
  rw [e, this, version_text]
  unfold Fixed.text
  simp only [List.flatten_cons, List.flatten_nil, List.append_nil, List.append_assoc]

theorem trigger_text (x : Trigger) : closed ((triggerAttributes x.stored).filterMap blockOf) = x.text := by
  unfold triggerAttributes
  have d1 : date x.stored 4 = dateText x.startYear x.startMonth x.startDay := by
    unfold date dateText
    rw [x.startYear_at, x.startMonth_at, x.startDay_at]
    simp
  have d2 : date x.stored 10 = dateText x.endYear x.endMonth x.endDay := by
    unfold date dateText
    rw [x.endYear_at, x.endMonth_at, x.endDay_at]
    simp
  have d3 : time x.stored 16 = timeText x.hours x.minutes := by
    unfold time timeText
    rw [x.hours_at, x.minutes_at]
    simp
  rw [x.size_at, x.reserved1_at, d1, d2, d3, x.duration_at, x.interval_at, x.flags_at, x.kind_at, x.arg0_at, x.arg1_at, x.arg2_at,
    x.padding_at, x.reserved2_at, x.reserved3_at]
  simp only [List.filterMap_cons, blockOf_decimal, blockOf_hexadecimal, blockOf_custom _ _ (dateText_line _ _ _),
    blockOf_custom _ _ (timeText_line _ _), minutes, blockOf_custom _ _ (minutes_line _), List.filterMap_nil]
  have hs : '\n' ∉ "0x".toList ++ hexw 4 x.reserved3.toNat := append_line (by decide) (hexw_line _ _)
  have := fun l => closed_line l "Trigger reserved3" _ hs
  have e : ∀ (a b c d e f g h i j k l m n o : Str), [a, b, c, d, e, f, g, h, i, j, k, l, m, n, o] = [a, b, c, d, e, f, g, h, i, j, k, l, m, n] ++ [o] :=
    fun _ _ _ _ _ _ _ _ _ _ _ _ _ _ _ => rfl
  rw [e, this]
  unfold Trigger.text
  simp only [List.flatten_cons, List.flatten_nil, List.append_nil, List.append_assoc]

theorem string_text (env : Env) (d : String) (x : Text) (h : x.Valid env) : block d (stringText (x.characters.toNat, x.text)) = x.shown d := by
  have e : stringText (x.characters.toNat, x.text) = "(".toList ++ dec x.data.length ++ " bytes) ".toList ++ x.text := by
    unfold stringText
    rw [h.1, Nat.mul_comm]
    rfl
  have hp : '\n' ∉ "(".toList ++ dec x.data.length ++ " bytes) ".toList := append_line (append_line (by decide) (dec_line _)) (by decide)
  unfold block Text.shown
  dsimp only
  rw [e]
  by_cases hn : '\n' ∈ x.text
  · rw [if_pos hn, if_pos (List.mem_append_right _ hn)]
  · rw [if_neg hn, if_neg (append_line hp hn)]
    rfl

theorem section_text (env : Env) (f : File) (h : f.Valid env) : closed ((sectionAttributes f.section).filterMap blockOf) = f.sectionText := by
  obtain ⟨_, h1, h2, h3, h4, h5, _⟩ := h
  unfold sectionAttributes File.section
  simp only [List.filterMap_cons, blockOf_none, blockOf_decimal, blockOf_string, string_text env _ _ h1, string_text env _ _ h2, string_text env _ _ h3,
    string_text env _ _ h4, string_text env _ _ h5, List.filterMap_nil]
  have hb : ∀ d b, block d (HexDump.dump b) = d.toList ++ ":\n".toList ++ HexDump.dump b := by
    intro d b
    unfold block
    rw [if_pos (Analyzer.dump_lines b)]
  rw [hb, hb]
  unfold closed
  have hl : ['\n', '\n'] <:+ "Reserved data".toList ++ ":\n".toList ++ HexDump.dump f.reservedData :=
    dump_end _ _ ⟨"Reserved data:".toList, by decide⟩
  rw [if_pos (by simpa only [List.getLastD_cons, List.getLastD_nil] using hl)]
  unfold File.sectionText
  have e1 : "User data".toList ++ ":\n".toList = "User data:\n".toList := by decide
  have e2 : "Reserved data".toList ++ ":\n".toList = "Reserved data:\n".toList := by decide
  rw [e1, e2]
  simp only [List.flatten_cons, List.flatten_nil, List.append_nil, List.append_assoc]

/-- C173.  The debug output of a job shows its sections, with all of their members but the number of triggers, and all of its
triggers. -/
theorem C173_debug (env : Env) (f : File) (h : f.Valid env) (rest : Bytes) : (read env true (f.stored ++ rest)).2.2 =
    readingText "fixed-length data section".toList 0 ++ structureText "fixed-length data section".toList f.fixed.stored ++
    f.fixed.text ++ readingText "variable-length data section".toList 68 ++
    structureText "variable-length data section".toList f.storedSection ++ f.sectionText ++ f.triggers.flatMap Trigger.text := by
  unfold read
  rw [fixed_at, if_neg (stored_length f h.1 rest)]
  dsimp only
  rw [section_at, stored_section env f h rest, stored_take f h.1]
  simp only [if_true, outcome]
  rw [fixed_shown, section_shown, fixed_text _ h.1, section_text env f h]
  dsimp only
  have e1 : slice (f.stored ++ rest) 68 (68 + (f.storedSection.length : Int).toNat) = f.storedSection := by
    unfold File.stored
    rw [slice_eq_take_drop, List.append_assoc, List.drop_left' (f.fixed.length h.1)]
    exact List.take_left' (by simp)
  have e2 : (f.section.triggers.flatMap fun t => closed ((triggerAttributes t).filterMap blockOf)) = f.triggers.flatMap Trigger.text := by
    unfold File.section
    dsimp only
    rw [List.flatMap_map]
    congr 1
    funext x
    exact trigger_text x
  rw [e1, e2]
  simp only [List.append_assoc]

/-- The members of the variable-length section (job.yaml). -/
def sectionMembers : List String :=
  ["running_instance_count", "application_name", "parameters", "working_directory", "author", "comment", "user_data",
    "reserved_data", "triggers"]

/-- The names in the debug information of the variable-length section (job.debug.yaml 51-79). -/
def sectionNames : List String :=
  ["running_instance_count", "application_name", "parameters", "working_directory", "author", "comment", "user_data",
    "reserved_data", "number_of_triggers"]

/-- C173 as one may expect it: the debug information shows what is in the section. -/
def C173_members_claim : Prop := ∀ name ∈ sectionNames, name ∈ sectionMembers

/-- C173.  The number of triggers is not a member of the section but of its triggers: it is never shown. -/
theorem C173_members_claim_false : ¬ C173_members_claim := by
  unfold C173_members_claim
  decide

/-- C173.  The other names are those of members. -/
theorem C173_members_partial (name : String) (h : name ∈ sectionNames) : name ∈ sectionMembers ↔ name ≠ "number_of_triggers" := by
  revert name
  decide

/-! ## Offsets -/

/-- C173 as one may expect it: the application name is that at its offset. -/
def C173_offset_claim : Prop := ∀ (env : Env) (data : Bytes) (x : Text), x.Valid env → (read env false data).1 = none →
  slice data (number data 20 22) (number data 20 22 + x.stored.length) = x.stored →
  (read env false data).2.1.applicationName = some x.text

/-- A job of which the texts are empty, but for the application name. -/
def sample (offset : UInt16) (name : Text) : File where
  fixed := ⟨0x0601, 1, 0, 0, 0, List.replicate 8 0, offset, 0, 0, 0, 0, 0, 0, 0, 0, 0, 0, 0, 0, 0, 0, 0, 0, 0, 0⟩
  count := 0
  applicationName := name
  parameters := ⟨0, [], []⟩
  workingDirectory := ⟨0, [], []⟩
  author := ⟨0, [], []⟩
  comment := ⟨0, [], []⟩
  userData := []
  reservedData := []
  triggers := []

/-- Texts of characters below 256, up to the terminator. -/
def sampleEnv : Env := ⟨fun b => some ((b.filter (· ≠ 0)).map fun x => Char.ofNat x.toNat)⟩

theorem sample_valid (offset : UInt16) (name : Text) (h : name.Valid sampleEnv) : (sample offset name).Valid sampleEnv :=
  ⟨rfl, h, ⟨rfl, rfl⟩, ⟨rfl, rfl⟩, ⟨rfl, rfl⟩, ⟨rfl, rfl⟩, show 0 < 65536 by decide, show 0 < 65536 by decide, show 0 < 65536 by decide⟩

/-- C173.  The offset of the application name is not used: with the offset of the number of instances, which is 0, the name
there is empty, but the one after it is taken. -/
theorem C173_offset_claim_false : ¬ C173_offset_claim := by
  intro h
  have hv := sample_valid 68 ⟨1, [65, 0], ['A']⟩ ⟨rfl, by decide⟩
  obtain ⟨t, ht⟩ := C173_configuration sampleEnv false _ hv []
  have := h sampleEnv _ ⟨0, [], []⟩ ⟨rfl, rfl⟩ (by rw [ht]) (by decide +kernel)
  rw [ht] at this
  exact absurd (Option.some.inj this) (by decide)

/-- C173.  The application name is that at offset 70, whatever the offset stored. -/
theorem C173_offset_partial (env : Env) (debug : Bool) (data : Bytes) (x : Text) (hx : x.Valid env)
    (hr : (read env debug data).1 = none) (hs : slice data 70 (70 + x.stored.length) = x.stored) :
    (read env debug data).2.1.applicationName = some x.text := by
  obtain ⟨t, ht⟩ := read_eq env debug data
  rw [ht] at hr ⊢
  by_cases hl : data.length < 68
  · rw [if_pos hl] at hr
    cases hr
  rw [if_neg hl] at hr ⊢
  have hp : 2 ≤ x.stored.length := by simp [Text.stored]
  have hlen : 70 + x.stored.length ≤ data.length := by
    have := congrArg List.length hs
    rw [slice_eq_take_drop, List.length_take, List.length_drop] at this
    omega
  have e : data.drop 68 = slice data 68 70 ++ x.stored ++ data.drop (70 + x.stored.length) := by
    have e1 : data.drop 68 = slice data 68 70 ++ data.drop 70 := by
      have := List.take_append_drop 2 (data.drop 68)
      rw [List.drop_drop] at this
      rw [slice_eq_take_drop]
      exact this.symm
    have e2 : data.drop 70 = x.stored ++ data.drop (70 + x.stored.length) := by
      conv_rhs => rw [← hs, slice_eq_take_drop, ← List.drop_drop]
      simp only [Nat.add_sub_cancel_left, List.length_take, List.length_drop]
      rw [Nat.min_eq_left (by omega), List.take_append_drop]
    rw [e1, List.append_assoc, ← e2]
  have hc : (slice data 68 70).length = 2 := by rw [slice_eq_take_drop]; simp; omega
  have h0 : uint 2 (data.drop 68) 0 = .ok (leNat (slice data 68 70)) 2 := by
    have h1 := stores_bytes (slice data 68 70) [] (x.stored ++ data.drop (70 + x.stored.length))
    rw [hc] at h1
    simp only [List.nil_append, List.length_nil, Nat.zero_add] at h1
    rw [← List.append_assoc, ← e] at h1
    unfold uint Progressive.bind
    rw [h1]
    rfl
  have h1 := stores_string env x hx (slice data 68 70) (data.drop (70 + x.stored.length))
  rw [← e, hc] at h1
  have key : ∀ s n, «section» env (data.drop 68) 0 = .ok s n → s.applicationName.2 = x.text := by
    intro s n h
    unfold «section» at h
    rw [Progressive.bind, h0] at h
    dsimp only at h
    rw [Progressive.bind, h1] at h
    dsimp only at h
    revert h
    simp only [Progressive.bind, Progressive.pure]
    repeat' split
    all_goals
      intro h
      cases h
    rfl
  cases hsec : «section» env (data.drop 68) 0 with
  | ok s n =>
    dsimp only
    rw [← key s n hsec]
    rfl
  | need n => rw [hsec] at hr; cases hr
  | error => rw [hsec] at hr; cases hr

example : (⟨1, [65, 0], ['A']⟩ : Text).Valid sampleEnv ∧
    (read sampleEnv false ((sample 70 ⟨1, [65, 0], ['A']⟩).stored ++ [1, 2, 3])).1 = none := by
  have hv := sample_valid 70 ⟨1, [65, 0], ['A']⟩ ⟨rfl, by decide⟩
  obtain ⟨t, ht⟩ := C173_configuration sampleEnv false _ hv [1, 2, 3]
  exact ⟨⟨rfl, by decide⟩, by rw [ht]⟩

/-! ## The script -/

/-- What the script shows of a job. -/
def File.shown (f : File) : Str :=
  "Windows Task Scheduler job information:\n".toList ++ "\tIdentifier\t\t: ".toList ++ f.identifier ++ "\n".toList ++
    "\tApplication name\t: ".toList ++ f.applicationName.text ++ "\n".toList ++ "\tParameters\t\t: ".toList ++ f.parameters.text ++
    "\n".toList ++ "\tAuthor\t\t\t: ".toList ++ f.author.text ++ "\n".toList ++ "\tComment\t\t\t: ".toList ++ f.comment.text ++ "\n\n".toList

/-- C173.  The script shows the identifier, the application name, the parameters, the author and the comment. -/
theorem C173_script (env : Env) (f : File) (h : f.Valid env) (rest : Bytes) : script env false (f.stored ++ rest) = (none, f.shown) := by
  obtain ⟨t, ht⟩ := C173_configuration env false f h rest
  have hq := C173_quiet env (f.stored ++ rest)
  rw [ht] at hq
  dsimp only at hq
  subst hq
  unfold script
  rw [ht]
  dsimp only
  unfold show' File.configuration File.shown
  simp only [scriptLines, scriptLine]
  rw [show "\n\n".toList = "\n".toList ++ ['\n'] by decide, show ['\n'] = "\n".toList by decide]
  simp only [List.append_assoc, List.nil_append, List.append_nil]

/-- C173.  With debug output the same follows the debug output of reading. -/
theorem C173_script_debug (env : Env) (f : File) (h : f.Valid env) (rest : Bytes) :
    script env true (f.stored ++ rest) = (none, (read env true (f.stored ++ rest)).2.2 ++ f.shown) := by
  obtain ⟨t, ht⟩ := C173_configuration env true f h rest
  have h1 := C173_script env f h rest
  obtain ⟨t', ht'⟩ := C173_configuration env false f h rest
  have hq := C173_quiet env (f.stored ++ rest)
  rw [ht'] at hq
  dsimp only at hq
  subst hq
  unfold script at h1 ⊢
  rw [ht'] at h1
  rw [ht]
  dsimp only [List.nil_append] at h1 ⊢
  have h2 : show' f.configuration = (none, f.shown) := h1
  rw [h2]

/-- C173.  Of a file that cannot be read the script shows nothing and raises a parse error. -/
theorem C173_script_error (env : Env) (data : Bytes) (h : (read env false data).1 ≠ none) : script env false data = (some .parseError, []) := by
  have hq := C173_quiet env data
  have he := C173_errors env false data
  unfold script
  generalize read env false data = r at *
  obtain ⟨o, c, t⟩ := r
  dsimp only at *
  subst hq
  cases o with
  | none => exact absurd rfl h
  | some e => rw [he e rfl]

/-- C173 as one may expect it: what the script shows tells the parts of a job. -/
def C173_shown_claim : Prop := ∀ (env : Env) (f g : File), f.Valid env → g.Valid env → f.shown = g.shown →
  f.applicationName.text = g.applicationName.text ∧ f.parameters.text = g.parameters.text ∧ f.author.text = g.author.text ∧
    f.comment.text = g.comment.text

/-- A job with the given author and comment. -/
def signed (author comment : Text) : File := { sample 70 ⟨0, [], []⟩ with author := author, comment := comment }

def utf16 (s : String) : Text := ⟨UInt16.ofNat s.toList.length, s.toList.flatMap fun c => [UInt8.ofNat c.toNat, 0], s.toList⟩

/-- C173.  A line feed in the author makes a comment. -/
theorem C173_shown_claim_false : ¬ C173_shown_claim := by
  intro h
  have := h sampleEnv (signed (utf16 "a\n\tComment\t\t\t: b") (utf16 "c")) (signed (utf16 "a") (utf16 "b\n\tComment\t\t\t: c"))
    ⟨rfl, ⟨rfl, rfl⟩, ⟨rfl, rfl⟩, ⟨rfl, rfl⟩, ⟨by decide, by decide +kernel⟩, ⟨by decide, by decide +kernel⟩, by decide, by decide, by decide⟩
    ⟨rfl, ⟨rfl, rfl⟩, ⟨rfl, rfl⟩, ⟨rfl, rfl⟩, ⟨by decide, by decide +kernel⟩, ⟨by decide, by decide +kernel⟩, by decide, by decide, by decide⟩
    (by decide +kernel)
  exact absurd this.2.2.1 (by decide +kernel)

theorem until_newline (a b r s : Str) (ha : '\n' ∉ a) (hb : '\n' ∉ b) (h : a ++ '\n' :: r = b ++ '\n' :: s) : a = b ∧ r = s := by
  induction a generalizing b with
  | nil =>
    cases b with
    | nil => exact ⟨rfl, by simpa using h⟩
    | cons y b =>
      simp only [List.nil_append, List.cons_append, List.cons.injEq] at h
      exact absurd (h.1 ▸ List.mem_cons_self) hb
  | cons x a ih =>
    cases b with
    | nil =>
      simp only [List.nil_append, List.cons_append, List.cons.injEq] at h
      exact absurd (h.1 ▸ List.mem_cons_self) ha
    | cons y b =>
      simp only [List.cons_append, List.cons.injEq] at h
      obtain ⟨e1, e2⟩ := ih b (fun h => ha (List.mem_cons_of_mem _ h)) (fun h => hb (List.mem_cons_of_mem _ h)) h.2
      exact ⟨by rw [h.1, e1], e2⟩

/-- C173.  Without line feeds what the script shows tells the identifier and the texts. -/
theorem C173_shown_partial (f g : File) (h : f.shown = g.shown)
    (hf : '\n' ∉ f.applicationName.text ∧ '\n' ∉ f.parameters.text ∧ '\n' ∉ f.author.text)
    (hg : '\n' ∉ g.applicationName.text ∧ '\n' ∉ g.parameters.text ∧ '\n' ∉ g.author.text) :
    f.identifier = g.identifier ∧ f.applicationName.text = g.applicationName.text ∧ f.parameters.text = g.parameters.text ∧
      f.author.text = g.author.text ∧ f.comment.text = g.comment.text := by
  unfold File.shown at h
  rw [show "\n\n".toList = '\n' :: ['\n'] by decide, show "\n".toList = '\n' :: [] by decide] at h
  simp only [List.append_assoc, List.cons_append, List.nil_append] at h
  have h := List.append_cancel_left (List.append_cancel_left h)
  obtain ⟨e1, h⟩ := until_newline _ _ _ _ (uuid_line _ _ _ _) (uuid_line _ _ _ _) h
  have h := List.append_cancel_left h
  obtain ⟨e2, h⟩ := until_newline _ _ _ _ hf.1 hg.1 h
  have h := List.append_cancel_left h
  obtain ⟨e3, h⟩ := until_newline _ _ _ _ hf.2.1 hg.2.1 h
  have h := List.append_cancel_left h
  obtain ⟨e4, h⟩ := until_newline _ _ _ _ hf.2.2 hg.2.2 h
  have h := List.append_cancel_left h
  exact ⟨e1, e2, e3, e4, List.append_cancel_right h⟩

example : (signed (utf16 "a") (utf16 "b\nc")).Valid sampleEnv ∧ '\n' ∉ (signed (utf16 "a") (utf16 "b\nc")).author.text :=
  ⟨⟨rfl, ⟨rfl, rfl⟩, ⟨rfl, rfl⟩, ⟨rfl, rfl⟩, ⟨by decide, by decide +kernel⟩, ⟨by decide, by decide +kernel⟩, by decide, by decide, by decide⟩,
    by decide +kernel⟩

end Dtf.Job
