import Verif.Records
import Verif.Formats.Props
import Verif.HexDump.Props

/-!
# utmp and utmpx files in debug mode (C181)

The entries of a file are shown only in debug mode.  The decoder of UTF-8 and the text of a POSIX time (dfdatetime) are
parameters.
-/

namespace Dtf.Utmp.DebugMode
open Py DataFormat Formats

/-! ## Model -/

/-- What is written, and what is raised after that. -/
abbrev Run := List Char × Option Err

/-- One after the other. -/
def Run.next (r s : Run) : Run :=
  match r.2 with
  | some e => (r.1, some e)
  | none => (r.1 ++ s.1, s.2)

/-- `_DebugPrintValue` (data_format.py 149-158). -/
def line (description text : List Char) : Run := (formatValue description text, none)

/-- `LinuxLibc6UtmpFile._TYPES_OF_LOGIN` (utmp.py 16-27). -/
def types : List (Int × List Char) :=
  [(0, "EMPTY".toList), (1, "RUN_LVL".toList), (2, "BOOT_TIME".toList), (3, "NEW_TIME".toList), (4, "OLD_TIME".toList),
    (5, "INIT_PROCESS".toList), (6, "LOGIN_PROCESS".toList), (7, "USER_PROCESS".toList), (8, "DEAD_PROCESS".toList),
    (9, "ACCOUNTING".toList)]

/-- `MacOSXUtmpxFile._TYPES_OF_LOGIN` (utmp.py 131-144). -/
def xtypes : List (Int × List Char) :=
  [(0, "EMPTY".toList), (1, "RUN_LVL".toList), (2, "BOOT_TIME".toList), (3, "OLD_TIME".toList), (4, "NEW_TIME".toList),
    (5, "INIT_PROCESS".toList), (6, "LOGIN_PROCESS".toList), (7, "USER_PROCESS".toList), (8, "DEAD_PROCESS".toList),
    (9, "ACCOUNTING".toList), (10, "SIGNATURE".toList), (11, "SHUTDOWN_TIME".toList)]

/-- `_TYPES_OF_LOGIN.get(type, "UNKNOWN")` (utmp.py 35 and 163). -/
def typeName (table : List (Int × List Char)) (type : Int) : List Char :=
  match table.lookup type with
  | some name => name
  | none => "UNKNOWN".toList

/-- A string (utmp.py 42-44, 48-54, 152-154, 158-160 and 175-177): the zero bytes are removed before it is decoded. -/
def stringRun (utf8 : Bytes → Option (List Char)) (description : List Char) (b : Bytes) : Run :=
  match utf8 (shownString b) with
  | none => ([], some .unicodeError)
  | some s => line description s

/-- `_DebugPrintPosixTimeValue` (data_format.py 120-138). -/
def timeRun (posix : Int → Option (List Char)) (description : List Char) (v : Int) : Run :=
  if v = 0 then line description "Not set (0)".toList
  else
    match posix v with
    | some s => line description (s ++ " UTC".toList)
    | none => line description ("0x".toList ++ hexInt 8 v)

/-- `_DebugPrintData` (data_format.py 69-78). -/
def dataRun (description : List Char) (b : Bytes) : Run := (description ++ ":\n".toList ++ HexDump.dump b, none)

/-- `LinuxLibc6UtmpFile._DebugPrintEntry` (utmp.py 29-75). -/
def entryRun (utf8 : Bytes → Option (List Char)) (posix : Int → Option (List Char)) (e : Entry) : Run :=
  (line "Type of login".toList
    ("0x".toList ++ hexInt 8 e.type ++ " (".toList ++ typeName types e.type ++ ")".toList)).next <|
  (line "PID".toList (dec e.pid)).next <|
  (stringRun utf8 "Terminal".toList e.terminal).next <|
  (line "Terminal ID".toList (dec e.terminalId)).next <|
  (stringRun utf8 "Username".toList e.username).next <|
  (stringRun utf8 "Hostname".toList e.hostname).next <|
  (line "Termination status".toList ("0x".toList ++ hexInt 4 e.termination)).next <|
  (line "Exit status".toList ("0x".toList ++ hexInt 4 e.exit)).next <|
  (line "Session".toList (decInt e.session)).next <|
  (timeRun posix "Timestamp".toList e.timestamp).next <|
  (line "Microseconds".toList (decInt e.microseconds)).next <|
  (line "IP address".toList (shownAddress e.address)).next <|
  dataRun "Unknown1".toList e.unknown

/-- `MacOSXUtmpxFile._DebugPrintEntry` (utmp.py 146-179). -/
def xentryRun (utf8 : Bytes → Option (List Char)) (posix : Int → Option (List Char)) (e : XEntry) : Run :=
  (stringRun utf8 "Username".toList e.username).next <|
  (line "Terminal ID".toList (dec e.terminalId)).next <|
  (stringRun utf8 "Terminal".toList e.terminal).next <|
  (line "PID".toList (dec e.pid)).next <|
  (line "Type of login".toList
    ("0x".toList ++ hexInt 4 e.type ++ " (".toList ++ typeName xtypes e.type ++ ")".toList)).next <|
  (line "Unknown1".toList ("0x".toList ++ hexInt 4 e.unknown1)).next <|
  (timeRun posix "Timestamp".toList e.timestamp).next <|
  (line "Microseconds".toList (decInt e.microseconds)).next <|
  (stringRun utf8 "Hostname".toList e.hostname).next <|
  dataRun "Unknown2".toList e.unknown2

/-- What `_ReadStructureFromFileObject` writes before an entry is read (data_format.py 695-699). -/
def reading (off : Nat) : Run :=
  ("Reading entry at offset: ".toList ++ dec off ++ " (0x".toList ++ hexw 8 off ++ ")\n".toList, none)

/-- An entry that was read: the data (data_format.py 721-725) and the values. -/
def shownEntry {α : Type} (show_ : α → Run) (data : Bytes) (off size : Nat) (x : α) : Run :=
  (reading off).next ((dataRun "Entry data".toList (slice data off (off + size))).next (show_ x))

/-- The loop of `_ReadEntries` in debug mode (utmp.py 103-111 and 224-232). -/
def showEntries {α : Type} (m : DataTypeMap α) (show_ : α → Run) (data : Bytes) : Nat → Nat → Option Run
  | 0, _ => none
  | fuel + 1, off =>
    if off < data.length then
      match structAt m data off with
      | .error e => some ((reading off).next ([], some e))
      | .ok (x, size) =>
        match (shownEntry show_ data off size.toNat x).2 with
        | some _ => some (shownEntry show_ data off size.toNat x)
        | none =>
          match showEntries m show_ data fuel (off + size.toNat) with
          | none => none
          | some r => some ((shownEntry show_ data off size.toNat x).next r)
    else some ([], none)

/-- `LinuxLibc6UtmpFile._ReadEntries` in debug mode (utmp.py 94-111). -/
def showFile (utf8 : Bytes → Option (List Char)) (posix : Int → Option (List Char)) (data : Bytes) (fuel : Nat) : Option Run :=
  showEntries entryMap (entryRun utf8 posix) data fuel 0

/-- `MacOSXUtmpxFile._ReadEntries` in debug mode (utmp.py 198-232): the first entry is shown before it is checked. -/
def showXFile (utf8 : Bytes → Option (List Char)) (posix : Int → Option (List Char)) (data : Bytes) (fuel : Nat) : Option Run :=
  match structAt xentryMap data 0 with
  | .error e => some ((reading 0).next ([], some e))
  | .ok (first, size) =>
    let r := shownEntry (xentryRun utf8 posix) data 0 size.toNat first
    match r.2 with
    | some _ => some r
    | none =>
      if ¬ signature.isPrefixOf first.username then some (r.next ([], some .parseError))
      else if first.type ≠ 10 then some (r.next ([], some .parseError))
      else
        match showEntries xentryMap (xentryRun utf8 posix) data fuel size.toNat with
        | none => none
        | some s => some (r.next s)

/-! ## The specification -/

/-- A member of an entry: its size and the text that shows it.  There is none when it cannot be decoded. -/
abbrev Member := Nat × (Bytes → Option (List Char))

/-- The text of consecutive members, up to the first that cannot be decoded. -/
def membersRun : List Member → Bytes → Run
  | [], _ => ([], none)
  | (n, f) :: l, b =>
    match f (b.take n) with
    | none => ([], some .unicodeError)
    | some t => (t ++ (membersRun l (b.drop n)).1, (membersRun l (b.drop n)).2)

/-- The description, tabs up to the column of the values, a colon and the value. -/
def shownAs (description : String) (text : List Char) : List Char :=
  description.toList ++ List.replicate (9 - description.toList.length / 8) '\t' ++ ": ".toList ++ text ++ "\n".toList

def number (description : String) : Member := (4, fun b => some (shownAs description (Text.digits 10 (leNat b))))

def signedNumber (description : String) : Member := (4, fun b => some (shownAs description (decInt (signed 4 (leNat b)))))

/-- The sign comes after the prefix. -/
def hexadecimal (description : String) (size width : Nat) (after : Int → List Char) : Member :=
  (size, fun b => some (shownAs description
    ("0x".toList ++ hexInt width (signed size (leNat b)) ++ after (signed size (leNat b)))))

/-- The characters of the bytes that are not zero. -/
def text (utf8 : Bytes → Option (List Char)) (description : String) (size : Nat) : Member :=
  (size, fun b => (utf8 (b.filter (· ≠ 0))).map (shownAs description))

def time (posix : Int → Option (List Char)) : Member :=
  (4, fun b => some (shownAs "Timestamp" (if leNat b = 0 then "Not set (0)".toList
    else ((posix (signed 4 (leNat b))).map (· ++ " UTC".toList)).getD ("0x".toList ++ hexInt 8 (signed 4 (leNat b))))))

def remaining (description : String) (size : Nat) : Member :=
  (size, fun b => some (description.toList ++ ":\n".toList ++ HexDump.dump b))

/-- The name of a type of login after its number. -/
def named (names : List String) (type : Int) : List Char :=
  " (".toList ++ (if 0 ≤ type then (names.getD type.toNat "UNKNOWN").toList else "UNKNOWN".toList) ++ ")".toList

/-- utmp.h of the GNU C library. -/
def linuxNames : List String :=
  ["EMPTY", "RUN_LVL", "BOOT_TIME", "NEW_TIME", "OLD_TIME", "INIT_PROCESS", "LOGIN_PROCESS", "USER_PROCESS", "DEAD_PROCESS",
    "ACCOUNTING"]

/-- utmpx.h of Mac OS X. -/
def macNames : List String :=
  ["EMPTY", "RUN_LVL", "BOOT_TIME", "OLD_TIME", "NEW_TIME", "INIT_PROCESS", "LOGIN_PROCESS", "USER_PROCESS", "DEAD_PROCESS",
    "ACCOUNTING", "SIGNATURE", "SHUTDOWN_TIME"]

/-- The members of an entry of a utmp file, in the order of the format (utmp.yaml 36-76). -/
def members (utf8 : Bytes → Option (List Char)) (posix : Int → Option (List Char)) : List Member :=
  [hexadecimal "Type of login" 4 8 (named linuxNames), number "PID", text utf8 "Terminal" 32, number "Terminal ID",
    text utf8 "Username" 32, text utf8 "Hostname" 256, hexadecimal "Termination status" 2 4 (fun _ => []),
    hexadecimal "Exit status" 2 4 (fun _ => []), signedNumber "Session", time posix, signedNumber "Microseconds",
    (16, fun b => some (shownAs "IP address" (shownAddress b))), remaining "Unknown1" 20]

/-- The members of an entry of a utmpx file, in the order of the format (utmp.yaml 78-110). -/
def xmembers (utf8 : Bytes → Option (List Char)) (posix : Int → Option (List Char)) : List Member :=
  [text utf8 "Username" 256, number "Terminal ID", text utf8 "Terminal" 32, number "PID",
    hexadecimal "Type of login" 2 4 (named macNames), hexadecimal "Unknown1" 2 4 (fun _ => []), time posix,
    signedNumber "Microseconds", text utf8 "Hostname" 256, remaining "Unknown2" 64]

/-- The line that announces an entry, and its data. -/
def announced (off : Nat) : List Char :=
  "Reading entry at offset: ".toList ++ Text.digits 10 off ++ " (0x".toList ++ hexw 8 off ++ ")\n".toList

/-- What is written of the entries with these data, after which `tail` is left. -/
def entriesRun (ms : List Member) (tail : Bytes) : Nat → List Bytes → Run
  | off, [] => if tail = [] then ([], none) else (announced off, some .parseError)
  | off, c :: cs =>
    let own := announced off ++ "Entry data:\n".toList ++ HexDump.dump c ++ (membersRun ms c).1
    match (membersRun ms c).2 with
    | some e => (own, some e)
    | none => (own ++ (entriesRun ms tail (off + c.length) cs).1, (entriesRun ms tail (off + c.length) cs).2)

/-- All strings of an entry can be decoded. -/
def Decodes (utf8 : Bytes → Option (List Char)) (strings : List Bytes) : Prop := ∀ s ∈ strings, utf8 (s.filter (· ≠ 0)) ≠ none

/-- What is raised in debug mode is what is raised without it. -/
def C181_same_claim (utf8 : Bytes → Option (List Char)) (posix : Int → Option (List Char)) : Prop :=
  ∀ data : Bytes, ∀ fuel : Nat, data.length < fuel →
    (showFile utf8 posix data fuel).map Prod.snd =
      (readFile data fuel).map fun r => match r with | .ok _ => none | .error e => some e

/-- A file of which the first entry is not the header of a utmpx file is refused with a ParseError. -/
def C181_header_claim (utf8 : Bytes → Option (List Char)) (posix : Int → Option (List Char)) : Prop :=
  ∀ (data : Bytes) (fuel : Nat), 628 ≤ data.length → ¬ signature <+: data →
    (showXFile utf8 posix data fuel).map Prod.snd = some (some .parseError)

/-- A type of login is shown as a number of eight hexadecimal digits. -/
def C181_digits_claim : Prop := ∀ type : Int, -(2 ^ 31) ≤ type → type < 2 ^ 31 → ∃ n : Nat, hexInt 8 type = hexw 8 n

/-! ## Proofs -/

theorem lookup_names (names : List String) (type : Int) (k : Nat) :
    (((names.zipIdx k).map fun p => ((p.2 : Int), p.1.toList)).lookup type) =
      if (k : Int) ≤ type then (names[(type - k).toNat]?).map (·.toList) else none := by
  induction names generalizing k with
  | nil => simp
  | cons n l ih =>
    simp only [List.zipIdx_cons, List.map_cons, List.lookup_cons]
    by_cases h : type = (k : Int)
    · rw [show (type == (k : Int)) = true by simpa using h, if_pos (by omega), show (type - (k : Int)).toNat = 0 by omega]
      simp
    · rw [show (type == (k : Int)) = false by simpa using h]
      dsimp only
      rw [ih (k + 1)]
      by_cases h2 : (k : Int) ≤ type
      · rw [if_pos h2, if_pos (by omega), show (type - (k : Int)).toNat = (type - ((k + 1 : Nat) : Int)).toNat + 1 by omega]
        simp
      · rw [if_neg h2, if_neg (by omega)]

theorem types_eq : types = (linuxNames.zipIdx 0).map fun p => ((p.2 : Int), p.1.toList) := by decide +kernel

theorem xtypes_eq : xtypes = (macNames.zipIdx 0).map fun p => ((p.2 : Int), p.1.toList) := by decide +kernel

theorem typeName_named (table : List (Int × List Char)) (names : List String)
    (h : table = (names.zipIdx 0).map fun p => ((p.2 : Int), p.1.toList)) (type : Int) :
    " (".toList ++ typeName table type ++ ")".toList = named names type := by
  unfold typeName named
  rw [h, lookup_names]
  by_cases h2 : 0 ≤ type
  · rw [if_pos h2, if_pos (by simpa using h2), List.getD_eq_getElem?_getD]
    rw [show (type - ((0 : Nat) : Int)).toNat = type.toNat by omega]
    cases names[type.toNat]? <;> rfl
  · rw [if_neg h2, if_neg (by simpa using h2)]

theorem shownAs_eq (description : String) (t : List Char) : shownAs description t = formatValue description.toList t := rfl

theorem next_nil (r : Run) : r.next ([], none) = r := by
  obtain ⟨t, o⟩ := r
  cases o <;> simp [Run.next]

theorem next_ok (t : List Char) (s : Run) : Run.next (t, none) s = (t ++ s.1, s.2) := rfl

theorem next_assoc (r s t : Run) : (r.next s).next t = r.next (s.next t) := by
  obtain ⟨a, ea⟩ := r
  obtain ⟨b, eb⟩ := s
  cases ea <;> cases eb <;> simp [Run.next]

/-- A member followed by others. -/
theorem members_cons (n : Nat) (f : Bytes → Option (List Char)) (l : List Member) (b : Bytes) (r : Run)
    (h : r = match f (b.take n) with | none => ([], some .unicodeError) | some t => (t, none)) :
    membersRun ((n, f) :: l) b = r.next (membersRun l (b.drop n)) := by
  rw [membersRun, h]
  cases f (b.take n) <;> rfl

theorem take_eq_slice (b : Bytes) (i n : Nat) : (b.drop i).take n = slice b i (i + n) := by
  unfold slice
  rw [List.drop_take]
  congr 1
  omega

theorem signed_zero (w n : Nat) (h : n < 256 ^ w) : signed w n = 0 ↔ n = 0 := by
  unfold signed
  split <;> constructor <;> intro _ <;> omega

theorem time_eq (posix : Int → Option (List Char)) (b : Bytes) (i : Nat) :
    timeRun posix "Timestamp".toList (signed 4 (leNat (slice b i (i + 4)))) =
      match (time posix).2 ((b.drop i).take 4) with | none => ([], some .unicodeError) | some t => (t, none) := by
  have hlt : leNat (slice b i (i + 4)) < 256 ^ 4 := by
    refine Nat.lt_of_lt_of_le (leNat_lt _) (Nat.pow_le_pow_right (by decide) ?_)
    rw [← take_eq_slice]
    exact List.length_take_le _ _
  unfold timeRun time
  dsimp only
  rw [take_eq_slice]
  by_cases h : leNat (slice b i (i + 4)) = 0
  · rw [if_pos h, if_pos ((signed_zero _ _ hlt).mpr h)]
    rfl
  · rw [if_neg h, if_neg fun h' => h ((signed_zero _ _ hlt).mp h')]
    cases posix (signed 4 (leNat (slice b i (i + 4)))) <;> rfl

theorem string_eq (utf8 : Bytes → Option (List Char)) (description : String) (n : Nat) (b : Bytes) :
    stringRun utf8 description.toList b =
      match (text utf8 description n).2 b with | none => ([], some .unicodeError) | some t => (t, none) := by
  unfold stringRun text shownString
  dsimp only
  cases utf8 (b.filter (· ≠ 0)) <;> rfl

theorem type_eq (table : List (Int × List Char)) (names : List String)
    (h : table = (names.zipIdx 0).map fun p => ((p.2 : Int), p.1.toList)) (w : Nat) (type : Int) :
    "0x".toList ++ hexInt w type ++ " (".toList ++ typeName table type ++ ")".toList =
      "0x".toList ++ hexInt w type ++ named names type := by
  rw [← typeName_named table names h type]
  simp only [List.append_assoc]

theorem hex_eq (d : String) (w : Nat) (i : Int) :
    line d.toList ("0x".toList ++ hexInt w i) = (shownAs d ("0x".toList ++ hexInt w i ++ []), none) := by
  rw [shownAs_eq, List.append_nil, line]

/-- The next member. -/
local macro "member" t:tactic : tactic =>
  `(tactic| (refine .trans ?_ (members_cons _ _ _ _ _ rfl).symm; refine congrArg₂ Run.next ?_ ?_; ($t:tactic); simp only [List.drop_drop]))

/-- C181.  What is written of an entry of a utmp file: all its members, in their order, up to a string that cannot be
decoded. -/
theorem C181_entry (utf8 : Bytes → Option (List Char)) (posix : Int → Option (List Char)) (b : Bytes) :
    entryRun utf8 posix (parseEntry b) = membersRun (members utf8 posix) b := by
  unfold entryRun members parseEntry
  dsimp only
  rw [type_eq _ _ types_eq, ← next_nil (dataRun _ _)]
  refine .trans ?_ (members_cons _ _ _ _ _ rfl).symm
  refine congrArg₂ Run.next rfl ?_
  member (rw [take_eq_slice]; rfl)
  member (rw [take_eq_slice]; exact string_eq utf8 _ 32 _)
  member (rw [take_eq_slice]; rfl)
  member (rw [take_eq_slice]; exact string_eq utf8 _ 32 _)
  member (rw [take_eq_slice]; exact string_eq utf8 _ 256 _)
  member (rw [take_eq_slice]; exact hex_eq _ _ _)
  member (rw [take_eq_slice]; exact hex_eq _ _ _)
  member (rw [take_eq_slice]; rfl)
  member (exact time_eq posix b 340)
  member (rw [take_eq_slice]; rfl)
  member (rw [take_eq_slice]; rfl)
  member (rw [take_eq_slice]; rfl)
  rfl

/-- C181.  The same for an entry of a utmpx file. -/
theorem C181_xentry (utf8 : Bytes → Option (List Char)) (posix : Int → Option (List Char)) (b : Bytes) :
    xentryRun utf8 posix (parseXEntry b) = membersRun (xmembers utf8 posix) b := by
  unfold xentryRun xmembers parseXEntry
  dsimp only
  rw [type_eq _ _ xtypes_eq, ← next_nil (dataRun _ _)]
  refine .trans ?_ (members_cons _ _ _ _ _ rfl).symm
  refine congrArg₂ Run.next (string_eq utf8 _ 256 _) ?_
  member (rw [take_eq_slice]; rfl)
  member (rw [take_eq_slice]; exact string_eq utf8 _ 32 _)
  member (rw [take_eq_slice]; rfl)
  member (rw [take_eq_slice]; rfl)
  member (rw [take_eq_slice]; exact hex_eq _ _ _)
  member (exact time_eq posix b 300)
  member (rw [take_eq_slice]; rfl)
  member (rw [take_eq_slice]; exact string_eq utf8 _ 256 _)
  member (rw [take_eq_slice]; rfl)
  rfl

/-! ### Files -/

theorem struct_block {α : Type} (n : Nat) (hn : 0 < n) (parse : Bytes → α) (pre c rest : Bytes) (hc : c.length = n) :
    structAt ((fixedMap n id).refine fun b => some (parse b)) (pre ++ (c ++ rest)) pre.length = .ok (parse c, (n : Int)) := by
  rw [structAt_refine, structAt_fixed _ _ _ _ hn, if_neg (by simp only [List.length_append]; omega), List.drop_left,
    ← hc, List.take_left]
  rfl

theorem struct_short {α : Type} (n : Nat) (hn : 0 < n) (parse : Bytes → α) (pre tail : Bytes) (ht : tail.length < n) :
    structAt ((fixedMap n id).refine fun b => some (parse b)) (pre ++ tail) pre.length = .error .parseError := by
  rw [structAt_refine, structAt_fixed _ _ _ _ hn, if_pos (by simp only [List.length_append]; omega)]

theorem reading_eq (off : Nat) : reading off = (announced off, none) := by
  unfold reading announced dec
  rfl

theorem data_eq (c : Bytes) : dataRun "Entry data".toList c = ("Entry data:\n".toList ++ HexDump.dump c, none) := by
  have e : "Entry data".toList ++ ":\n".toList = "Entry data:\n".toList := by decide
  unfold dataRun
  rw [e]

theorem shown_block {α : Type} (show_ : α → Run) (pre c rest : Bytes) (x : α) (ms : List Member) (h : show_ x = membersRun ms c) :
    shownEntry show_ (pre ++ (c ++ rest)) pre.length c.length x =
      (announced pre.length ++ "Entry data:\n".toList ++ HexDump.dump c ++ (membersRun ms c).1, (membersRun ms c).2) := by
  have hs : slice (pre ++ (c ++ rest)) pre.length (pre.length + c.length) = c := by
    rw [← take_eq_slice, List.drop_left, List.take_left]
  unfold shownEntry
  rw [hs, h]
  rw [data_eq, reading_eq]
  generalize announced pre.length = t
  generalize "Entry data:\n".toList = d
  simp only [Run.next, List.append_assoc]

theorem entries_eq {α : Type} (n : Nat) (hn : 0 < n) (parse : Bytes → α) (show_ : α → Run) (ms : List Member)
    (hs : ∀ b, show_ (parse b) = membersRun ms b) (tail : Bytes) (ht : tail.length < n) (cs : List Bytes)
    (hc : ∀ c ∈ cs, c.length = n) (pre : Bytes) (fuel : Nat) (hf : cs.length < fuel) :
    showEntries ((fixedMap n id).refine fun b => some (parse b)) show_ (pre ++ (cs.flatten ++ tail)) fuel pre.length =
      some (entriesRun ms tail pre.length cs) := by
  induction cs generalizing pre fuel with
  | nil =>
    obtain ⟨fuel, rfl⟩ := Nat.exists_eq_add_of_lt hf
    rw [showEntries.eq_def]
    simp only [List.length_nil, Nat.zero_add, List.flatten_nil, List.nil_append]
    rw [entriesRun]
    by_cases h : tail = []
    · rw [if_pos h, if_neg (by simp [h])]
    · rw [if_neg h, if_pos (by have := List.length_pos_iff.mpr h; simp; omega), struct_short n hn parse pre tail ht]
      rw [reading_eq]
      generalize announced pre.length = t
      simp only [Run.next, List.append_nil]
  | cons c cs ih =>
    obtain ⟨fuel, rfl⟩ : ∃ k, fuel = k + 1 := ⟨fuel - 1, by simp at hf; omega⟩
    have hl := hc c (List.mem_cons_self ..)
    rw [showEntries, List.flatten_cons, List.append_assoc, if_pos (by simp only [List.length_append]; omega),
      struct_block n hn parse pre c _ hl]
    dsimp only
    have hb := shown_block show_ pre c (cs.flatten ++ tail) (parse c) ms (hs c)
    rw [Int.toNat_natCast, ← hl, hb]
    rw [entriesRun]
    dsimp only
    cases he : (membersRun ms c).2 with
    | some e => rfl
    | none =>
      dsimp only
      have := ih (fun c hc' => hc c (List.mem_cons_of_mem _ hc')) (pre ++ c) fuel (by simp at hf; omega)
      rw [List.append_assoc, List.length_append, ← hl] at this
      rw [this]
      rfl

/-- C181.  What is written of a utmp file in debug mode, whatever its contents: the entries up to the first with a string that
cannot be decoded, and a ParseError is raised for an entry that is cut off. -/
theorem C181_file (utf8 : Bytes → Option (List Char)) (posix : Int → Option (List Char)) (cs : List Bytes) (tail : Bytes)
    (hc : ∀ c ∈ cs, c.length = 384) (ht : tail.length < 384) (fuel : Nat) (hf : cs.length < fuel) :
    showFile utf8 posix (cs.flatten ++ tail) fuel = some (entriesRun (members utf8 posix) tail 0 cs) :=
  entries_eq 384 (by decide) parseEntry _ _ (C181_entry utf8 posix) tail ht cs hc [] fuel hf

instance (utf8 : Bytes → Option (List Char)) (l : List Bytes) : Decidable (Decodes utf8 l) := by
  unfold Decodes
  infer_instance

/-- All data are entries and an entry that is cut off. -/
theorem blocks (n : Nat) (hn : 0 < n) (data : Bytes) : ∃ (cs : List Bytes) (tail : Bytes),
    data = cs.flatten ++ tail ∧ (∀ c ∈ cs, c.length = n) ∧ tail.length < n := by
  induction hl : data.length using Nat.strongRecOn generalizing data with
  | ind k ih =>
    by_cases h : data.length < n
    · exact ⟨[], data, rfl, nofun, h⟩
    · obtain ⟨cs, tail, h1, h2, h3⟩ := ih (data.drop n).length (by rw [List.length_drop]; omega) (data.drop n) rfl
      refine ⟨data.take n :: cs, tail, ?_, ?_, h3⟩
      · rw [List.flatten_cons, List.append_assoc, ← h1, List.take_append_drop]
      · intro c hc
        rcases List.mem_cons.mp hc with rfl | hc
        · rw [List.length_take]; omega
        · exact h2 c hc

theorem blocks_length (n : Nat) (hn : 0 < n) (cs : List Bytes) (hc : ∀ c ∈ cs, c.length = n) : cs.length ≤ cs.flatten.length := by
  induction cs with
  | nil => simp
  | cons c cs ih =>
    have h1 := hc c (List.mem_cons_self ..)
    have h2 := ih fun c h => hc c (List.mem_cons_of_mem _ h)
    simp only [List.flatten_cons, List.length_append, List.length_cons]
    omega

theorem read_eq (cs : List Bytes) (tail : Bytes) (hc : ∀ c ∈ cs, c.length = 384) (ht : tail.length < 384) (pre : Bytes) (fuel : Nat)
    (hf : cs.length < fuel) (acc : List Entry) :
    readUntil entryMap (pre ++ (cs.flatten ++ tail)) (pre ++ (cs.flatten ++ tail)).length fuel pre.length acc =
      some (if tail = [] then .ok (acc ++ cs.map parseEntry) else .error .parseError) := by
  induction cs generalizing pre fuel acc with
  | nil =>
    obtain ⟨fuel, rfl⟩ : ∃ k, fuel = k + 1 := ⟨fuel - 1, by simp at hf; omega⟩
    simp only [List.flatten_nil, List.nil_append, readUntil]
    by_cases h : tail = []
    · rw [if_pos h, if_neg (by simp [h])]
      simp
    · rw [if_neg h, if_pos (by have := List.length_pos_iff.mpr h; simp; omega)]
      rw [show structAt entryMap (pre ++ tail) pre.length = .error .parseError from struct_short 384 (by decide) parseEntry pre tail ht]
  | cons c cs ih =>
    obtain ⟨fuel, rfl⟩ : ∃ k, fuel = k + 1 := ⟨fuel - 1, by simp at hf; omega⟩
    have hl := hc c (List.mem_cons_self ..)
    rw [readUntil, List.flatten_cons, List.append_assoc, if_pos (by simp only [List.length_append]; omega)]
    rw [show structAt entryMap (pre ++ (c ++ (cs.flatten ++ tail))) pre.length = .ok (parseEntry c, ((384 : Nat) : Int)) from
      struct_block 384 (by decide) parseEntry pre c _ hl]
    dsimp only
    have := ih (fun c hc' => hc c (List.mem_cons_of_mem _ hc')) (pre ++ c) fuel (by simp at hf; omega) (acc ++ [parseEntry c])
    rw [List.append_assoc, List.length_append (as := pre) (bs := c), hl] at this
    rw [Int.toNat_natCast, this]
    simp

/-- Text after which nothing is raised. -/
theorem members_some (n : Nat) (f : Bytes → Option (List Char)) (l : List Member) (b : Bytes) :
    (membersRun ((n, f) :: l) b).2 = none ↔ f (b.take n) ≠ none ∧ (membersRun l (b.drop n)).2 = none := by
  rw [membersRun]
  cases f (b.take n) <;> simp

theorem text_some (utf8 : Bytes → Option (List Char)) (d : String) (n : Nat) (b : Bytes) :
    (text utf8 d n).2 b ≠ none ↔ utf8 (b.filter (· ≠ 0)) ≠ none := by
  unfold text
  dsimp only
  rw [ne_eq, ne_eq, Option.map_eq_none_iff]

theorem hexadecimal_some (d : String) (n w : Nat) (a : Int → List Char) (b : Bytes) : (hexadecimal d n w a).2 b ≠ none := nofun

theorem number_some (d : String) (b : Bytes) : (number d).2 b ≠ none := nofun

theorem signedNumber_some (d : String) (b : Bytes) : (signedNumber d).2 b ≠ none := nofun

theorem time_some (posix : Int → Option (List Char)) (b : Bytes) : (time posix).2 b ≠ none := nofun

theorem remaining_some (d : String) (n : Nat) (b : Bytes) : (remaining d n).2 b ≠ none := nofun

theorem hexadecimal_size (d : String) (n w : Nat) (a : Int → List Char) : (hexadecimal d n w a).1 = n := rfl

theorem number_size (d : String) : (number d).1 = 4 := rfl

theorem signedNumber_size (d : String) : (signedNumber d).1 = 4 := rfl

theorem time_size (posix : Int → Option (List Char)) : (time posix).1 = 4 := rfl

theorem text_size (utf8 : Bytes → Option (List Char)) (d : String) (n : Nat) : (text utf8 d n).1 = n := rfl

theorem decodes_iff (utf8 : Bytes → Option (List Char)) (posix : Int → Option (List Char)) (c : Bytes) :
    (membersRun (members utf8 posix) c).2 = none ↔ Decodes utf8 [slice c 8 40, slice c 44 76, slice c 76 332] := by
  have hm : ∀ (m : Member) (l : List Member) (b : Bytes),
      (membersRun (m :: l) b).2 = none ↔ m.2 (b.take m.1) ≠ none ∧ (membersRun l (b.drop m.1)).2 = none :=
    fun m l b => members_some m.1 m.2 l b
  unfold members
  rw [hm, hm, hm, hm, hm, hm, hm, hm, hm, hm, hm, hm, hm, text_some, text_some, text_some]
  simp only [List.drop_drop, Decodes, List.mem_cons, List.not_mem_nil, or_false, forall_eq_or_imp, forall_eq]
  simp only [hexadecimal_some, number_some, signedNumber_some, time_some, remaining_some, hexadecimal_size, number_size,
    signedNumber_size, time_size, text_size, take_eq_slice, membersRun, Nat.reduceAdd, true_and, and_true, not_false_eq_true,
    ne_eq, reduceCtorEq]

theorem xdecodes_iff (utf8 : Bytes → Option (List Char)) (posix : Int → Option (List Char)) (c : Bytes) :
    (membersRun (xmembers utf8 posix) c).2 = none ↔ Decodes utf8 [slice c 0 256, slice c 260 292, slice c 308 564] := by
  have hm : ∀ (m : Member) (l : List Member) (b : Bytes),
      (membersRun (m :: l) b).2 = none ↔ m.2 (b.take m.1) ≠ none ∧ (membersRun l (b.drop m.1)).2 = none :=
    fun m l b => members_some m.1 m.2 l b
  have h0 : c.take 256 = slice c 0 256 := rfl
  unfold xmembers
  rw [hm, hm, hm, hm, hm, hm, hm, hm, hm, hm, text_some, text_some, text_some]
  simp only [List.drop_drop, Decodes, List.mem_cons, List.not_mem_nil, or_false, forall_eq_or_imp, forall_eq]
  simp only [hexadecimal_some, number_some, signedNumber_some, time_some, remaining_some, hexadecimal_size, number_size,
    signedNumber_size, time_size, text_size, take_eq_slice, h0, membersRun, Nat.reduceAdd, true_and, and_true, not_false_eq_true,
    ne_eq, reduceCtorEq]

theorem members_raise (ms : List Member) (b : Bytes) : (membersRun ms b).2 = none ∨ (membersRun ms b).2 = some .unicodeError := by
  induction ms generalizing b with
  | nil => exact .inl rfl
  | cons m l ih =>
    obtain ⟨n, f⟩ := m
    rw [membersRun]
    cases f (b.take n) with
    | none => exact .inr rfl
    | some t => exact ih _

/-- The entries before one with a string that cannot be decoded. -/
theorem entries_before (ms : List Member) (tail : Bytes) (cs : List Bytes) (c : Bytes) (ds : List Bytes) (off : Nat)
    (h : ∀ c ∈ cs, (membersRun ms c).2 = none) (hc : (membersRun ms c).2 ≠ none) :
    entriesRun ms tail off (cs ++ c :: ds) =
      ((entriesRun ms [] off cs).1 ++ (announced (off + cs.flatten.length) ++ "Entry data:\n".toList ++ HexDump.dump c ++
        (membersRun ms c).1), some .unicodeError) := by
  have he := (members_raise ms c).resolve_left hc
  generalize hd : "Entry data:\n".toList = d
  induction cs generalizing off with
  | nil =>
    rw [List.nil_append, entriesRun, entriesRun, if_pos rfl]
    simp only [hd, he, List.nil_append, List.flatten_nil, List.length_nil, Nat.add_zero]
  | cons x cs ih =>
    have hx := h x (List.mem_cons_self ..)
    rw [List.cons_append, entriesRun, entriesRun, ih (off + x.length) (fun c hc => h c (List.mem_cons_of_mem _ hc))]
    simp only [hd, hx, List.flatten_cons, List.length_append, List.append_assoc, Nat.add_assoc]

/-- What is raised after entries that can be decoded. -/
theorem entries_raise (ms : List Member) (tail : Bytes) (cs : List Bytes) (off : Nat) (h : ∀ c ∈ cs, (membersRun ms c).2 = none) :
    (entriesRun ms tail off cs).2 = if tail = [] then none else some .parseError := by
  induction cs generalizing off with
  | nil =>
    rw [entriesRun]
    split <;> rfl
  | cons x cs ih =>
    rw [entriesRun]
    simp only [h x (List.mem_cons_self ..)]
    exact ih _ fun c hc => h c (List.mem_cons_of_mem _ hc)

/-- C181.  The entries before one with a string that cannot be decoded are shown, and what comes before the string in that
entry.  What comes after it is not. -/
theorem C181_stops (utf8 : Bytes → Option (List Char)) (posix : Int → Option (List Char)) (cs ds : List Bytes) (c tail : Bytes)
    (hl : ∀ x ∈ cs ++ c :: ds, x.length = 384) (ht : tail.length < 384)
    (h : ∀ x ∈ cs, Decodes utf8 [slice x 8 40, slice x 44 76, slice x 76 332])
    (hc : ¬ Decodes utf8 [slice c 8 40, slice c 44 76, slice c 76 332]) (fuel : Nat) (hf : (cs ++ c :: ds).length < fuel) :
    showFile utf8 posix ((cs ++ c :: ds).flatten ++ tail) fuel =
      some ((entriesRun (members utf8 posix) [] 0 cs).1 ++ (announced (384 * cs.length) ++ "Entry data:\n".toList ++
        HexDump.dump c ++ (membersRun (members utf8 posix) c).1), some .unicodeError) := by
  have hs : ∀ cs : List Bytes, (∀ x ∈ cs, x.length = 384) → cs.flatten.length = 384 * cs.length := by
    intro cs hc
    induction cs with
    | nil => rfl
    | cons y cs ih =>
      have h1 := hc y (List.mem_cons_self ..)
      have h2 := ih fun c h => hc c (List.mem_cons_of_mem _ h)
      simp only [List.flatten_cons, List.length_append, List.length_cons]
      omega
  rw [C181_file utf8 posix _ tail hl ht fuel hf, entries_before _ tail cs c ds 0 (fun x hx => (decodes_iff ..).mpr (h x hx))
    (fun h' => hc ((decodes_iff ..).mp h')), Nat.zero_add, hs cs fun x hx => hl x (List.mem_append_left _ hx)]

/-- C181 (partial).  When the strings of all entries can be decoded, debug mode raises what is raised without it. -/
theorem C181_same_partial (utf8 : Bytes → Option (List Char)) (posix : Int → Option (List Char)) (cs : List Bytes) (tail : Bytes)
    (hc : ∀ c ∈ cs, c.length = 384) (ht : tail.length < 384)
    (h : ∀ c ∈ cs, Decodes utf8 [slice c 8 40, slice c 44 76, slice c 76 332]) (fuel : Nat) (hf : cs.length < fuel) :
    (showFile utf8 posix (cs.flatten ++ tail) fuel).map Prod.snd =
      (readFile (cs.flatten ++ tail) fuel).map fun r => match r with | .ok _ => none | .error e => some e := by
  rw [C181_file utf8 posix cs tail hc ht fuel hf]
  unfold readFile
  have := read_eq cs tail hc ht [] fuel hf []
  simp only [List.nil_append, List.length_nil] at this
  rw [this, Option.map_some, entries_raise _ _ _ _ fun c hc' => (decodes_iff ..).mpr (h c hc')]
  by_cases h : tail = []
  · rw [if_pos h, if_pos h]; rfl
  · rw [if_neg h, if_neg h]; rfl

/-- An entry with a byte in a string that is not part of UTF-8. -/
def badEntry : Bytes := List.replicate 44 0 ++ 255 :: List.replicate 339 0

/-- C181.  A string that cannot be decoded is raised as such in debug mode only. -/
theorem C181_same_claim_false (utf8 : Bytes → Option (List Char)) (posix : Int → Option (List Char)) (h : utf8 [255] = none) :
    ¬ C181_same_claim utf8 posix := by
  intro hs
  have hl : badEntry.length = 384 := by decide +kernel
  have h1 := hs badEntry 385 (by rw [hl]; decide)
  have h2 : badEntry = [badEntry].flatten ++ [] := by simp
  have hc : ∀ c ∈ [badEntry], c.length = 384 := by simpa using hl
  have hd : ¬ Decodes utf8 [slice badEntry 8 40, slice badEntry 44 76, slice badEntry 76 332] := by
    intro hd
    refine hd (slice badEntry 44 76) (by simp) ?_
    rw [show (slice badEntry 44 76).filter (· ≠ 0) = [255] by decide +kernel, h]
  have h3 := read_eq [badEntry] [] hc (by decide) [] 385 (by decide) []
  have h4 := C181_stops utf8 posix [] [] badEntry [] hc (by decide) nofun hd 385 (by decide)
  simp only [List.nil_append] at h3 h4
  rw [← h2] at h3
  rw [show ([badEntry].flatten : Bytes) ++ [] = badEntry from h2.symm] at h4
  rw [show readFile badEntry 385 = _ from h3, h4] at h1
  cases h1

/-- C181.  What is written of a utmpx file in debug mode, whatever its contents. -/
theorem C181_xfile (utf8 : Bytes → Option (List Char)) (posix : Int → Option (List Char)) (c : Bytes) (cs : List Bytes) (tail : Bytes)
    (hc : ∀ x ∈ c :: cs, x.length = 628) (ht : tail.length < 628) (fuel : Nat) (hf : cs.length < fuel) :
    showXFile utf8 posix ((c :: cs).flatten ++ tail) fuel =
      some (if Decodes utf8 [slice c 0 256, slice c 260 292, slice c 308 564] ∧
          ¬ (signature <+: c ∧ leNat ((c.drop 296).take 2) = 10) then
        (announced 0 ++ "Entry data:\n".toList ++ HexDump.dump c ++ (membersRun (xmembers utf8 posix) c).1, some .parseError)
      else entriesRun (xmembers utf8 posix) tail 0 (c :: cs)) := by
  have hl := hc c (List.mem_cons_self ..)
  have hst := struct_block 628 (by decide) parseXEntry [] c (cs.flatten ++ tail) hl
  have hb := shown_block (xentryRun utf8 posix) [] c (cs.flatten ++ tail) (parseXEntry c) _ (C181_xentry utf8 posix c)
  have hr := entries_eq 628 (by decide) parseXEntry _ _ (C181_xentry utf8 posix) tail ht cs
    (fun x hx => hc x (List.mem_cons_of_mem _ hx)) c fuel hf
  have hd := xdecodes_iff utf8 posix c
  have hsig : (signature.isPrefixOf (parseXEntry c).username = true) ↔ signature <+: c := by
    rw [List.isPrefixOf_iff_prefix]
    constructor
    · intro h; exact h.trans (List.take_prefix _ _)
    · intro h
      have := List.prefix_take_iff.mpr (show signature <+: c ∧ signature.length ≤ 256 from ⟨h, by decide⟩)
      exact this
  have hty : (parseXEntry c).type = 10 ↔ leNat ((c.drop 296).take 2) = 10 := by
    rw [take_eq_slice c 296 2, show 296 + 2 = 298 from rfl]
    unfold parseXEntry signed
    dsimp only
    have hlt : leNat (slice c 296 298) < 256 ^ 2 := by
      refine Nat.lt_of_lt_of_le (leNat_lt _) (Nat.pow_le_pow_right (by decide) ?_)
      rw [← take_eq_slice c 296 2]
      exact List.length_take_le _ _
    split <;> omega
  generalize hdt : "Entry data:\n".toList = d at *
  rw [List.flatten_cons, List.append_assoc]
  unfold showXFile
  rw [show structAt xentryMap (c ++ (cs.flatten ++ tail)) 0 = .ok (parseXEntry c, ((628 : Nat) : Int)) from hst]
  dsimp only
  rw [Int.toNat_natCast, ← hl, show shownEntry (xentryRun utf8 posix) (c ++ (cs.flatten ++ tail)) 0 c.length (parseXEntry c) = _ from hb,
    show showEntries xentryMap (xentryRun utf8 posix) (c ++ (cs.flatten ++ tail)) fuel c.length = _ from hr]
  rw [entriesRun]
  simp only [hdt, List.length_nil, Nat.zero_add]
  cases he : (membersRun (xmembers utf8 posix) c).2 with
  | some e =>
    have hn : ¬ Decodes utf8 [slice c 0 256, slice c 260 292, slice c 308 564] := fun h => by
      rw [hd.mpr h] at he; cases he
    have hn' : ¬ (Decodes utf8 [slice c 0 256, slice c 260 292, slice c 308 564] ∧
        ¬ (signature <+: c ∧ leNat ((c.drop 296).take 2) = 10)) := fun h => hn h.1
    rw [if_neg hn']
  | none =>
    have hy := hd.mp he
    dsimp only
    by_cases hs : signature <+: c
    · by_cases ht : leNat ((c.drop 296).take 2) = 10
      · rw [if_neg (by rw [hsig]; exact fun h => h hs), if_neg (fun h => h (hty.mpr ht)), if_neg (fun h => h.2 ⟨hs, ht⟩)]
        simp only [Run.next, List.append_assoc]
      · rw [if_neg (by rw [hsig]; exact fun h => h hs), if_pos (fun h => ht (hty.mp h)), if_pos ⟨hy, fun h => ht h.2⟩]
        simp only [Run.next, List.append_assoc, List.append_nil]
    · rw [if_pos (by rw [hsig]; exact hs), if_pos ⟨hy, fun h => hs h.1⟩]
      simp only [Run.next, List.append_assoc, List.append_nil]

/-- C181.  A utmpx file without a complete entry. -/
theorem C181_xshort (utf8 : Bytes → Option (List Char)) (posix : Int → Option (List Char)) (data : Bytes) (h : data.length < 628)
    (fuel : Nat) : showXFile utf8 posix data fuel = some (announced 0, some .parseError) := by
  have := struct_short 628 (by decide) parseXEntry [] data h
  unfold showXFile
  rw [show structAt xentryMap data 0 = _ from this, reading_eq]
  generalize announced 0 = t
  simp only [Run.next, List.append_nil]

/-- C181 (partial).  The header is checked when its strings can be decoded. -/
theorem C181_header_partial (utf8 : Bytes → Option (List Char)) (posix : Int → Option (List Char)) (data : Bytes) (fuel : Nat)
    (hl : 628 ≤ data.length) (hf : data.length < fuel) (hs : ¬ signature <+: data)
    (hd : Decodes utf8 [slice data 0 256, slice data 260 292, slice data 308 564]) :
    (showXFile utf8 posix data fuel).map Prod.snd = some (some .parseError) := by
  obtain ⟨cs, tail, h1, h2, h3⟩ := blocks 628 (by decide) data
  match cs, h1, h2 with
  | [], h1, _ => simp at h1; subst h1; omega
  | c :: cs, h1, h2 =>
    have hcl := h2 c (List.mem_cons_self ..)
    have hsl : ∀ i j, j ≤ 628 → slice data i j = slice c i j := by
      intro i j hj
      unfold slice
      rw [h1, List.flatten_cons, List.append_assoc, List.take_append_of_le_length (by omega)]
    rw [hsl 0 256 (by decide), hsl 260 292 (by decide), hsl 308 564 (by decide)] at hd
    have hb := blocks_length 628 (by decide) (c :: cs) h2
    have hlen := congrArg List.length h1
    rw [List.length_append] at hlen
    have hp : Decodes utf8 [slice c 0 256, slice c 260 292, slice c 308 564] ∧
        ¬ (signature <+: c ∧ leNat ((c.drop 296).take 2) = 10) := by
      refine ⟨hd, ?_⟩
      rintro ⟨h, _⟩
      refine hs (h.trans ?_)
      rw [h1, List.flatten_cons, List.append_assoc]
      exact List.prefix_append _ _
    rw [h1, C181_xfile utf8 posix c cs tail h2 h3 fuel (by simp only [List.length_cons] at hb; omega), if_pos hp]
    rfl

/-- The first entry of a file that is not a utmpx file. -/
def badHeader : Bytes := 255 :: List.replicate 627 0

/-- C181.  The header is shown before it is checked. -/
theorem C181_header_claim_false (utf8 : Bytes → Option (List Char)) (posix : Int → Option (List Char)) (h : utf8 [255] = none) :
    ¬ C181_header_claim utf8 posix := by
  intro hs
  have hl : badHeader.length = 628 := by decide +kernel
  have h1 := hs badHeader 1 (by rw [hl]) (by decide)
  have hc : ∀ c ∈ [badHeader], c.length = 628 := by simpa using hl
  have hd : ¬ Decodes utf8 [slice badHeader 0 256, slice badHeader 260 292, slice badHeader 308 564] := by
    intro hd
    refine hd (slice badHeader 0 256) (by simp) ?_
    rw [show (slice badHeader 0 256).filter (· ≠ 0) = [255] by decide +kernel, h]
  have h2 := C181_xfile utf8 posix badHeader [] [] hc (by decide) 1 (by decide)
  rw [if_neg fun h => hd h.1, show ([badHeader].flatten : Bytes) ++ [] = badHeader by simp,
    show [badHeader] = [] ++ badHeader :: [] from rfl,
    entries_before _ [] [] badHeader [] 0 nofun (fun h' => hd ((xdecodes_iff ..).mp h'))] at h2
  rw [h2] at h1
  cases h1

/-- C181.  The sign of a negative type of login is within its digits. -/
theorem C181_digits_claim_false : ¬ C181_digits_claim := by
  intro h
  obtain ⟨n, hn⟩ := h (-1) (by decide) (by decide)
  have h1 : '-' ∈ hexInt 8 (-1) := by decide
  rw [hn] at h1
  exact hexw_notMem 8 n '-' (by decide) h1

/-- C181 (partial).  The types of login that are defined are shown with eight digits. -/
theorem C181_digits_partial (type : Int) (h : 0 ≤ type) : hexInt 8 type = hexw 8 type.toNat := by
  unfold hexInt
  rw [if_neg (by omega), show type.natAbs = type.toNat by omega]

/-- ASCII, which is a part of UTF-8. -/
def ascii (b : Bytes) : Option (List Char) := if ∀ x ∈ b, x < 128 then some (b.map fun x => Char.ofNat x.toNat) else none

example : ¬ C181_same_claim ascii (fun _ => none) ∧ ¬ C181_header_claim ascii (fun _ => none) :=
  ⟨C181_same_claim_false _ _ (by decide), C181_header_claim_false _ _ (by decide)⟩

/-- A file with an entry that is shown and one that is not. -/
example : (showFile ascii (fun _ => none) ([List.replicate 384 0, badEntry].flatten ++ []) 3).map Prod.snd =
    some (some .unicodeError) :=
  congrArg (Option.map Prod.snd) (C181_stops ascii (fun _ => none) [List.replicate 384 0] [] badEntry [] (by decide +kernel)
    (by decide) (by decide +kernel) (by decide +kernel) 3 (by decide))

/-- The text of an entry. -/
example : (entryRun ascii (fun _ => none) { sample 7 with session := -5 }).1.take 337 =
    "Type of login\t\t\t\t\t\t\t\t: 0x00000007 (USER_PROCESS)\nPID\t\t\t\t\t\t\t\t\t: 1000\nTerminal\t\t\t\t\t\t\t\t: t\n".toList ++
      "Terminal ID\t\t\t\t\t\t\t\t: 7\nUsername\t\t\t\t\t\t\t\t: b\nHostname\t\t\t\t\t\t\t\t: \n".toList ++
      "Termination status\t\t\t\t\t\t\t: 0x0000\nExit status\t\t\t\t\t\t\t\t: 0x-001\nSession\t\t\t\t\t\t\t\t\t: -5\n".toList ++
      "Timestamp\t\t\t\t\t\t\t\t: 0x-0000006\nMicroseconds\t\t\t\t\t\t\t\t: 7\nIP address\t\t\t\t\t\t\t\t: ('10.0.0.0', False)\n".toList ++
      "Unknown1:\n".toList := by
  decide +kernel

end Dtf.Utmp.DebugMode
