import Verif.Amcache
import Verif.Formats.Props

/-!
# Keys and values of the AMCache (C169)

dtformats/amcache.py, from what pyregf reads.
-/

namespace Dtf.Amcache
open Py Text

abbrev Str := List Char

/-! ## Model -/

/-- The data of a value as a Python object. -/
inductive Obj
  | none
  | text (s : Str)
  | int (n : Nat)
  | list (l : List Str)
  | bytes (b : Bytes)
deriving DecidableEq

/-- A value of a key as of pyregf: its name, if it has one, its type and what the methods return or raise.  The overflow
error is taken for an `OSError`, as both are handled alike. -/
structure RegValue where
  name : Option Str
  type : Nat
  string : Res Obj
  integer : Res Obj
  multi : Res (List Str)
  data : Res Obj

/-- A key that has values that are read. -/
structure RegKey where
  name : Str
  values : List RegValue

/-- The keys below `\Root`: those of the files by volume, and the others. -/
structure Root where
  files : Option (List (List RegKey))
  programs : Option (List RegKey)
  applications : Option (List RegKey)
  applicationFiles : Option (List RegKey)

structure Hive where
  rootName : Str
  root : Option Root

/-- The result of the method for the type (amcache.py 72-83). -/
def rawData (v : RegValue) : Res Obj :=
  if v.type ∈ [1, 2, 6] then v.string
  else if v.type ∈ [4, 5, 11] then v.integer
  else if v.type = 7 then v.multi.map .list
  else v.data

/-- `_GetValueDataAsObject` (amcache.py 57-92): the message of the error needs a name. -/
def getData (v : RegValue) : Res Obj :=
  match rawData v with
  | .error .osError => if v.name = none then .error .typeError else .error .parseError
  | r => r

/-- The parts of other libraries: the text of a value that is no text and no integer, that of a POSIX timestamp and of a
FILETIME timestamp. -/
structure Env where
  str : Obj → Str
  posix : Obj → Res Str
  filetime : Obj → Res Str
  lower : Str → Str

/-- `str(…)`. -/
def Env.text (env : Env) : Obj → Str
  | .text s => s
  | .int n => Formats.dec n
  | o => env.str o

/-- What is written and the exception that ends the reading, if any. -/
abbrev Out := List Str × Option Err

def Out.andThen (a b : Out) : Out :=
  match a.2 with
  | some e => (a.1, some e)
  | none => (a.1 ++ b.1, b.2)

/-- The loops. -/
def each {α : Type} (f : α → Out) : List α → Out
  | [] => ([], none)
  | x :: xs => (f x).andThen (each f xs)

/-- `_FILE_REFERENCE_KEY_DESCRIPTIONS` (amcache.py 19-35). -/
def fileDescriptions : List (Str × Str) :=
  [("0".toList, "Product name".toList), ("1".toList, "Company name".toList), ("3".toList, "Language code".toList),
    ("5".toList, "File version".toList), ("6".toList, "File size".toList), ("7".toList, "PE/COFF image size".toList),
    ("9".toList, "PE/COFF checksum".toList), ("c".toList, "File description".toList),
    ("d".toList, "PE/COFF image version".toList), ("f".toList, "PE/COFF compilation time".toList),
    ("11".toList, "File modification time".toList), ("12".toList, "File creation time".toList), ("15".toList, "Path".toList),
    ("100".toList, "Program identifier".toList), ("101".toList, "SHA-1".toList)]

/-- `_PROGRAM_KEY_DESCRIPTIONS` (amcache.py 37-48). -/
def programDescriptions : List (Str × Str) :=
  [("0".toList, "Name".toList), ("1".toList, "Version".toList), ("2".toList, "Publisher".toList),
    ("3".toList, "Language code".toList), ("6".toList, "Installation method".toList),
    ("7".toList, "Uninstallation key paths".toList), ("a".toList, "Installation time".toList),
    ("b".toList, "Uninstallation time".toList), ("d".toList, "Installation directories".toList),
    ("Files".toList, "File reference key identifiers".toList)]

/-- `_APPLICATION_KEY_DESCRIPTIONS` (amcache.py 12-15). -/
def applicationDescriptions : List (Str × Str) :=
  [("ProgramId".toList, "Program identifier".toList), ("ProgramInstanceId".toList, "Program instance identifier".toList)]

/-- `DESCRIPTIONS.get(value.name, value.name)`. -/
def describe (table : List (Str × Str)) (name : Option Str) : Option Str :=
  name.map (fun n => ((table.find? (fun p => p.1 == n)).map (·.2)).getD n)

/-- `_DebugPrintValue` (data_format.py 149-158): a description is needed. -/
def printValue (description : Option Str) (text : Str) : Out :=
  match description with
  | none => ([], some .typeError)
  | some d => ([Formats.formatValue d text], none)

/-- `_DebugPrintPosixTimeValue` (data_format.py 121-138). -/
def printPosix (env : Env) (description : Option Str) (o : Obj) : Out :=
  if o = .int 0 then printValue description "Not set (0)".toList
  else
    match env.posix o with
    | .error e => ([], some e)
    | .ok s => printValue description s

/-- `_DebugPrintFiletimeValue` (data_format.py 90-109). -/
def printFiletime (env : Env) (description : Option Str) (o : Obj) : Out :=
  if o = .int 0 then printValue description "Not set (0)".toList
  else if o = .int 0x7FFFFFFFFFFFFFFF then printValue description "Never (0x7fffffffffffffff)".toList
  else
    match env.filetime o with
    | .error e => ([], some e)
    | .ok s => printValue description s

/-- The printing of a value of a file reference key (amcache.py 158-170). -/
def printFileValue (env : Env) (name : Option Str) (o : Obj) : Out :=
  let description := describe fileDescriptions name
  if name = some "d".toList then
    match o with
    | .int n => printValue description (Formats.dec (n >>> 16) ++ ['.'] ++ Formats.dec (n &&& 0xFFFF))
    | _ => ([], some .typeError)
  else if name = some "f".toList then printPosix env description o
  else if name = some "11".toList ∨ name = some "12".toList ∨ name = some "17".toList then printFiletime env description o
  else printValue description (env.text o)

/-- The items of a loop over an object (amcache.py 212). -/
def items : Obj → Res (List Str)
  | .list l => .ok l
  | .text s => .ok (s.map (fun c => [c]))
  | .bytes b => .ok (b.map (fun x => Formats.dec x.toNat))
  | .none => .error .typeError
  | .int _ => .error .typeError

/-- The loop over the items: the description is for the first one (amcache.py 212-214). -/
def printItems (description : Option Str) : List Str → Out
  | [] => ([], none)
  | s :: l => (printValue description s).andThen (printItems (some []) l)

/-- The printing of a value of a program key (amcache.py 210-219). -/
def printProgramValue (env : Env) (name : Option Str) (o : Obj) : Out :=
  let description := describe programDescriptions name
  if name = some "7".toList ∨ name = some "d".toList ∨ name = some "Files".toList then
    match items o with
    | .error e => ([], some e)
    | .ok l => printItems description l
  else if name = some "a".toList ∨ name = some "b".toList then printPosix env description o
  else printValue description (env.text o)

/-- A value (amcache.py 102-110, 121-127, 152-170, 205-219). -/
def readValue (debug : Bool) (print : Option Str → Obj → Out) (v : RegValue) : Out :=
  match getData v with
  | .error e => ([], some e)
  | .ok o => if debug then print v.name o else ([], none)

/-- A key: its heading, its values and an empty line. -/
def readKey (debug : Bool) (heading : Str → Res Str) (print : Option Str → Obj → Out) (k : RegKey) : Out :=
  Out.andThen
    (if debug then
      match heading k.name with
      | .error e => ([], some e)
      | .ok s => ([s], none)
    else ([], none))
    ((each (readValue debug print) k.values).andThen (if debug then ([['\n']], none) else ([], none)))

/-- The heading of a file reference key (amcache.py 137-150). -/
def fileHeading (name : Str) : Res Str :=
  (shownReference name).map fun r =>
    match r with
    | some (entry, sequence) =>
      "File: ".toList ++ name ++ " (".toList ++ Formats.dec entry ++ ['-'] ++ Formats.dec sequence ++ ")\n".toList
    | none => "File: ".toList ++ name ++ ['\n']

/-- The headings of other keys (amcache.py 100, 119, 203). -/
def heading (label : String) (name : Str) : Res Str := .ok (label.toList ++ name ++ ['\n'])

def readFileReferenceKey (env : Env) (debug : Bool) : RegKey → Out := readKey debug fileHeading (printFileValue env)
def readProgramKey (env : Env) (debug : Bool) : RegKey → Out :=
  readKey debug (heading "Program: ") (printProgramValue env)
def readApplicationKey (env : Env) (debug : Bool) : RegKey → Out :=
  readKey debug (heading "Application: ") (fun n o => printValue (describe applicationDescriptions n) (env.text o))
def readApplicationFileKey (env : Env) (debug : Bool) : RegKey → Out :=
  readKey debug (heading "Application File: ") (fun n o => printValue (describe [] n) (env.text o))

def rootNames : List Str :=
  ["{11517b7c-e79d-4e20-961b-75a811715add}".toList, "{356c48f6-2fee-e7ef-2a64-39f59ec3be22}".toList]

/-- A key that may not be there. -/
def optional {α : Type} (f : α → Out) : Option α → Out
  | none => ([], none)
  | some x => f x

/-- `ReadFileObject` (amcache.py 233-274). -/
def readHive (env : Env) (debug : Bool) (h : Hive) : Out :=
  if env.lower h.rootName ∉ rootNames then ([], none)
  else
    optional (fun r : Root =>
      (optional (each (each (readFileReferenceKey env debug))) r.files).andThen <|
        (optional (each (readProgramKey env debug)) r.programs).andThen <|
          (optional (each (readApplicationKey env debug)) r.applications).andThen
            (optional (each (readApplicationFileKey env debug)) r.applicationFiles)) h.root

/-! ## Specification -/

/-- All keys with values, in the order they are read. -/
def Root.keys (r : Root) : List RegKey :=
  (r.files.getD []).flatten ++ r.programs.getD [] ++ r.applications.getD [] ++ r.applicationFiles.getD []

/-- A value can be read, as `o`. -/
def Reads (v : RegValue) (o : Obj) : Prop :=
  (v.type = 1 ∨ v.type = 2 ∨ v.type = 6) ∧ v.string = .ok o ∨
    (v.type = 4 ∨ v.type = 5 ∨ v.type = 11) ∧ v.integer = .ok o ∨
    v.type = 7 ∧ (∃ l, v.multi = .ok l ∧ o = .list l) ∨
    v.type ∉ [1, 2, 4, 5, 6, 7, 11] ∧ v.data = .ok o

/-! ## Proofs -/

theorem andThen_none (a : Out) (b : Out) (h : a.2 = none) : a.andThen b = (a.1 ++ b.1, b.2) := by
  unfold Out.andThen
  rw [h]

theorem andThen_result (a b : Out) : (a.andThen b).2 = none ↔ a.2 = none ∧ b.2 = none := by
  unfold Out.andThen
  cases h : a.2 with
  | none => simp
  | some e => simp

theorem andThen_silent (a b : Out) (ha : a.1 = []) (hb : b.1 = []) : (a.andThen b).1 = [] := by
  unfold Out.andThen
  cases h : a.2 with
  | none => simp [ha, hb]
  | some e => exact ha

theorem each_result {α : Type} (f : α → Out) (l : List α) : (each f l).2 = none ↔ ∀ x ∈ l, (f x).2 = none := by
  induction l with
  | nil => simp [each]
  | cons x xs ih => rw [each, andThen_result, ih]; simp

theorem each_silent {α : Type} (f : α → Out) (l : List α) (h : ∀ x ∈ l, (f x).1 = []) : (each f l).1 = [] := by
  induction l with
  | nil => rfl
  | cons x xs ih =>
    rw [each]
    exact andThen_silent _ _ (h x (List.mem_cons_self ..)) (ih (fun y hy => h y (List.mem_cons_of_mem _ hy)))

theorem each_text {α : Type} (f : α → Out) (l : List α) (h : ∀ x ∈ l, (f x).2 = none) :
    each f l = (l.flatMap (fun x => (f x).1), none) := by
  induction l with
  | nil => rfl
  | cons x xs ih =>
    rw [each, andThen_none _ _ (h x (List.mem_cons_self ..)), ih (fun y hy => h y (List.mem_cons_of_mem _ hy))]
    rfl

theorem getData_ok (v : RegValue) (o : Obj) : getData v = .ok o ↔ rawData v = .ok o := by
  unfold getData
  cases h : rawData v with
  | ok x => simp
  | error e =>
    cases e <;> simp
    split <;> simp

theorem reads_iff (v : RegValue) (o : Obj) : getData v = .ok o ↔ Reads v o := by
  rw [getData_ok]
  unfold rawData Reads
  by_cases h1 : v.type = 1 ∨ v.type = 2 ∨ v.type = 6
  · rw [if_pos (by simpa using h1)]
    constructor
    · exact fun h => .inl ⟨h1, h⟩
    · rintro (⟨_, h⟩ | ⟨h, _⟩ | ⟨h, _⟩ | ⟨h, _⟩)
      · exact h
      · omega
      · omega
      · simp only [List.mem_cons, List.not_mem_nil, or_false, not_or] at h; omega
  · rw [if_neg (by simpa using h1)]
    by_cases h2 : v.type = 4 ∨ v.type = 5 ∨ v.type = 11
    · rw [if_pos (by simpa using h2)]
      constructor
      · exact fun h => .inr (.inl ⟨h2, h⟩)
      · rintro (⟨h, _⟩ | ⟨_, h⟩ | ⟨h, _⟩ | ⟨h, _⟩)
        · omega
        · exact h
        · omega
        · simp only [List.mem_cons, List.not_mem_nil, or_false, not_or] at h; omega
    · rw [if_neg (by simpa using h2)]
      by_cases h3 : v.type = 7
      · rw [if_pos h3]
        constructor
        · intro h
          cases hm : v.multi with
          | error e => rw [hm] at h; cases h
          | ok l =>
            rw [hm] at h
            exact .inr (.inr (.inl ⟨h3, l, rfl, (Except.ok.inj h).symm⟩))
        · rintro (⟨h, _⟩ | ⟨h, _⟩ | ⟨_, l, h, rfl⟩ | ⟨h, _⟩)
          · omega
          · omega
          · rw [h]; rfl
          · simp only [List.mem_cons, List.not_mem_nil, or_false, not_or] at h; omega
      · rw [if_neg h3]
        constructor
        · intro h
          refine .inr (.inr (.inr ⟨?_, h⟩))
          simp only [List.mem_cons, List.not_mem_nil, or_false, not_or]
          omega
        · rintro (⟨h, _⟩ | ⟨h, _⟩ | ⟨h, _⟩ | ⟨_, h⟩)
          · omega
          · omega
          · omega
          · exact h

theorem readValue_quiet (print : Option Str → Obj → Out) (v : RegValue) :
    (readValue false print v).1 = [] ∧ ((readValue false print v).2 = none ↔ ∃ o, Reads v o) := by
  unfold readValue
  cases h : getData v with
  | error e =>
    refine ⟨rfl, ⟨fun h => (by cases h), ?_⟩⟩
    rintro ⟨o, ho⟩
    rw [← reads_iff, h] at ho
    cases ho
  | ok o => exact ⟨rfl, ⟨fun _ => ⟨o, (reads_iff v o).mp h⟩, fun _ => rfl⟩⟩

theorem readKey_quiet (hd : Str → Res Str) (print : Option Str → Obj → Out) (k : RegKey) :
    (readKey false hd print k).1 = [] ∧
      ((readKey false hd print k).2 = none ↔ ∀ v ∈ k.values, ∃ o, Reads v o) := by
  unfold readKey
  refine ⟨andThen_silent _ _ rfl (andThen_silent _ _ (each_silent _ _ fun v _ => (readValue_quiet print v).1) rfl), ?_⟩
  rw [andThen_result, andThen_result, each_result]
  constructor
  · rintro ⟨_, h, _⟩ v hv
    exact (readValue_quiet print v).2.mp (h v hv)
  · intro h
    exact ⟨rfl, fun v hv => (readValue_quiet print v).2.mpr (h v hv), rfl⟩

theorem readKey_debug_quiet (hd : Str → Res Str) (print : Option Str → Obj → Out) (k : RegKey)
    (h : (readKey true hd print k).2 = none) : (readKey false hd print k).2 = none := by
  rw [(readKey_quiet hd print k).2]
  unfold readKey at h
  rw [andThen_result, andThen_result, each_result] at h
  intro v hv
  have := h.2.1 v hv
  unfold readValue at this
  cases hg : getData v with
  | error e => rw [hg] at this; cases this
  | ok o => exact ⟨o, (reads_iff v o).mp hg⟩

theorem optional_result {α : Type} (f : α → Out) (x : Option α) : (optional f x).2 = none ↔ ∀ y ∈ x, (f y).2 = none := by
  cases x <;> simp [optional]

theorem readRoot_result (env : Env) (debug : Bool) (n : Str) (hn : env.lower n ∈ rootNames) (r : Root) :
    (readHive env debug ⟨n, some r⟩).2 = none ↔
      (∀ k ∈ (r.files.getD []).flatten, (readFileReferenceKey env debug k).2 = none) ∧
      (∀ k ∈ r.programs.getD [], (readProgramKey env debug k).2 = none) ∧
      (∀ k ∈ r.applications.getD [], (readApplicationKey env debug k).2 = none) ∧
      (∀ k ∈ r.applicationFiles.getD [], (readApplicationFileKey env debug k).2 = none) := by
  have hopt : ∀ (f : RegKey → Out) (x : Option (List RegKey)),
      (optional (each f) x).2 = none ↔ ∀ k ∈ x.getD [], (f k).2 = none := by
    intro f x
    cases x with
    | none => simp [optional]
    | some l => exact each_result f l
  unfold readHive
  rw [if_neg (fun h => h hn)]
  show ((optional _ r.files).andThen _).2 = none ↔ _
  rw [andThen_result, andThen_result, andThen_result, hopt, hopt, hopt]
  have hfiles : (optional (each (each (readFileReferenceKey env debug))) r.files).2 = none ↔
      ∀ k ∈ (r.files.getD []).flatten, (readFileReferenceKey env debug k).2 = none := by
    cases r.files with
    | none => simp [optional]
    | some l =>
      show (each _ l).2 = none ↔ _
      rw [each_result]
      constructor
      · intro h k hk
        obtain ⟨v, hv, hk⟩ := List.mem_flatten.mp hk
        exact (each_result _ v).mp (h v hv) k hk
      · intro h v hv
        exact (each_result _ v).mpr fun k hk => h k (List.mem_flatten.mpr ⟨v, hv, hk⟩)
  rw [hfiles]

/-- C169.  Without debug output nothing is written, and the file is read exactly if all values of all keys can be. -/
theorem C169_quiet (env : Env) (n : Str) (hn : env.lower n ∈ rootNames) (r : Root) :
    (readHive env false ⟨n, some r⟩).1 = [] ∧
      ((readHive env false ⟨n, some r⟩).2 = none ↔ ∀ k ∈ r.keys, ∀ v ∈ k.values, ∃ o, Reads v o) := by
  constructor
  · have hopt : ∀ (f : RegKey → Out) (x : Option (List RegKey)), (∀ k, (f k).1 = []) → (optional (each f) x).1 = [] := by
      intro f x h
      cases x with
      | none => rfl
      | some l => exact each_silent f l (fun k _ => h k)
    unfold readHive
    rw [if_neg (fun h => h hn)]
    refine andThen_silent _ _ ?_ (andThen_silent _ _ (hopt _ _ fun k => (readKey_quiet _ _ k).1)
      (andThen_silent _ _ (hopt _ _ fun k => (readKey_quiet _ _ k).1) (hopt _ _ fun k => (readKey_quiet _ _ k).1)))
    cases r.files with
    | none => rfl
    | some l => exact each_silent _ l (fun v _ => each_silent _ v (fun k _ => (readKey_quiet _ _ k).1))
  · rw [readRoot_result env false n hn r]
    unfold Root.keys
    simp only [List.mem_append]
    constructor
    · rintro ⟨h1, h2, h3, h4⟩ k (((hk | hk) | hk) | hk)
      · exact (readKey_quiet _ _ k).2.mp (h1 k hk)
      · exact (readKey_quiet _ _ k).2.mp (h2 k hk)
      · exact (readKey_quiet _ _ k).2.mp (h3 k hk)
      · exact (readKey_quiet _ _ k).2.mp (h4 k hk)
    · intro h
      exact ⟨fun k hk => (readKey_quiet _ _ k).2.mpr (h k (.inl (.inl (.inl hk)))),
        fun k hk => (readKey_quiet _ _ k).2.mpr (h k (.inl (.inl (.inr hk)))),
        fun k hk => (readKey_quiet _ _ k).2.mpr (h k (.inl (.inr hk))),
        fun k hk => (readKey_quiet _ _ k).2.mpr (h k (.inr hk))⟩

/-- C169.  It would be nice if debug output did not matter for the reading. -/
def C169_debug_claim : Prop := ∀ (env : Env) (h : Hive), (readHive env true h).2 = (readHive env false h).2

/-- C169.  What is read with debug output is read without. -/
theorem C169_debug_partial (env : Env) (h : Hive) (hd : (readHive env true h).2 = none) : (readHive env false h).2 = none := by
  obtain ⟨n, root⟩ := h
  by_cases hn : env.lower n ∈ rootNames
  · cases root with
    | none =>
      unfold readHive
      rw [if_neg (fun h => h hn)]
      rfl
    | some r =>
      rw [readRoot_result env _ n hn r] at hd ⊢
      exact ⟨fun k hk => readKey_debug_quiet _ _ k (hd.1 k hk), fun k hk => readKey_debug_quiet _ _ k (hd.2.1 k hk),
        fun k hk => readKey_debug_quiet _ _ k (hd.2.2.1 k hk), fun k hk => readKey_debug_quiet _ _ k (hd.2.2.2 k hk)⟩
  · unfold readHive
    rw [if_pos hn]

/-- C169.  A file with another root key is taken for one without keys. -/
theorem C169_other_root (env : Env) (debug : Bool) (h : Hive) (hn : env.lower h.rootName ∉ rootNames) :
    readHive env debug h = ([], none) := by
  unfold readHive
  rw [if_pos hn]

/-- C169.  With debug output the keys are written in their order, each with its heading, its values in order and an
empty line, if none of them is an error. -/
theorem C169_shown (env : Env) (n : Str) (hn : env.lower n ∈ rootNames) (r : Root)
    (h : (readHive env true ⟨n, some r⟩).2 = none) :
    readHive env true ⟨n, some r⟩ =
      ((r.files.getD []).flatten.flatMap (fun k => (readFileReferenceKey env true k).1) ++
        (r.programs.getD []).flatMap (fun k => (readProgramKey env true k).1) ++
        (r.applications.getD []).flatMap (fun k => (readApplicationKey env true k).1) ++
        (r.applicationFiles.getD []).flatMap (fun k => (readApplicationFileKey env true k).1), none) := by
  rw [readRoot_result env true n hn r] at h
  obtain ⟨h1, h2, h3, h4⟩ := h
  have hopt : ∀ (f : RegKey → Out) (x : Option (List RegKey)), (∀ k ∈ x.getD [], (f k).2 = none) →
      optional (each f) x = ((x.getD []).flatMap (fun k => (f k).1), none) := by
    intro f x h
    cases x with
    | none => rfl
    | some l => exact each_text f l h
  have hfiles : optional (each (each (readFileReferenceKey env true))) r.files =
      ((r.files.getD []).flatten.flatMap (fun k => (readFileReferenceKey env true k).1), none) := by
    cases hf : r.files with
    | none => rfl
    | some l =>
      rw [hf] at h1
      have hv : ∀ v ∈ l, each (readFileReferenceKey env true) v =
          (v.flatMap (fun k => (readFileReferenceKey env true k).1), none) := fun v hv =>
        each_text _ v (fun k hk => h1 k (List.mem_flatten.mpr ⟨v, hv, hk⟩))
      show each _ l = _
      rw [each_text _ l (fun v hl => by rw [hv v hl])]
      congr 1
      clear h1 hf
      induction l with
      | nil => rfl
      | cons v vs ih =>
        rw [List.flatMap_cons, hv v (List.mem_cons_self ..), ih (fun x hx => hv x (List.mem_cons_of_mem _ hx))]
        simp
  unfold readHive
  rw [if_neg (fun h => h hn)]
  show (optional _ r.files).andThen _ = _
  rw [hfiles, hopt _ _ h2, hopt _ _ h3, hopt _ _ h4]
  simp [Out.andThen]

/-- C169.  A key that is written: its heading, what is written for each value, and an empty line. -/
theorem C169_key (hd : Str → Res Str) (print : Option Str → Obj → Out) (k : RegKey)
    (h : (readKey true hd print k).2 = none) :
    ∃ (top : Str) (values : List (RegValue × Obj × List Str)), hd k.name = .ok top ∧ values.map (·.1) = k.values ∧
      (∀ x ∈ values, Reads x.1 x.2.1 ∧ print x.1.name x.2.1 = (x.2.2, none)) ∧
      (readKey true hd print k).1 = top :: values.flatMap (·.2.2) ++ [['\n']] := by
  unfold readKey at h ⊢
  rw [andThen_result, andThen_result, each_result] at h
  obtain ⟨h1, h2, _⟩ := h
  cases htop : hd k.name with
  | error e => rw [htop] at h1; cases h1
  | ok top =>
    have key : ∀ vs : List RegValue, (∀ v ∈ vs, (readValue true print v).2 = none) →
        ∃ values : List (RegValue × Obj × List Str), values.map (·.1) = vs ∧
          (∀ x ∈ values, Reads x.1 x.2.1 ∧ print x.1.name x.2.1 = (x.2.2, none)) ∧
          each (readValue true print) vs = (values.flatMap (·.2.2), none) := by
      intro vs hv
      induction vs with
      | nil => exact ⟨[], rfl, by simp, rfl⟩
      | cons v vs ih =>
        obtain ⟨values, e1, e2, e3⟩ := ih (fun x hx => hv x (List.mem_cons_of_mem _ hx))
        have hv' := hv v (List.mem_cons_self ..)
        cases hg : getData v with
        | error e => unfold readValue at hv'; rw [hg] at hv'; cases hv'
        | ok o =>
          have hr : readValue true print v = print v.name o := by
            unfold readValue
            rw [hg]
            rfl
          rw [hr] at hv'
          refine ⟨(v, o, (print v.name o).1) :: values, by rw [List.map_cons, e1], ?_, ?_⟩
          · intro x hx
            rcases List.mem_cons.mp hx with rfl | hx
            · exact ⟨(reads_iff v o).mp hg, Prod.ext rfl hv'⟩
            · exact e2 x hx
          · rw [each, hr, e3, andThen_none _ _ hv']
            rfl
    obtain ⟨values, e1, e2, e3⟩ := key k.values h2
    refine ⟨top, values, rfl, e1, e2, ?_⟩
    rw [e3]
    simp [Out.andThen]

/-- C169.  A value of a file reference key is written in one line, after the description of its name. -/
theorem C169_file_value (env : Env) (name : Str) (o : Obj) (lines : List Str)
    (h : printFileValue env (some name) o = (lines, none)) :
    ∃ d text, describe fileDescriptions (some name) = some d ∧ lines = [Formats.formatValue d text] ∧
      (name ∉ ["d".toList, "f".toList, "11".toList, "12".toList, "17".toList] → text = env.text o) ∧
      (name = "d".toList → ∃ n, o = .int n ∧ text = digits 10 (n / 65536) ++ ['.'] ++ digits 10 (n % 65536)) ∧
      (name ∈ ["f".toList, "11".toList, "12".toList, "17".toList] → o = .int 0 → text = "Not set (0)".toList) := by
  obtain ⟨d, hd⟩ : ∃ d, describe fileDescriptions (some name) = some d := ⟨_, rfl⟩
  have hpv : ∀ t, printValue (describe fileDescriptions (some name)) t = ([Formats.formatValue d t], none) := by
    intro t
    rw [hd]
    rfl
  have hand : ∀ n : Nat, n &&& 0xFFFF = n % 65536 := fun n => Nat.and_two_pow_sub_one_eq_mod n 16
  have hsh : ∀ n : Nat, n >>> 16 = n / 65536 := fun n => Nat.shiftRight_eq_div_pow n 16
  unfold printFileValue at h
  dsimp only at h
  split at h
  · rename_i hn
    have hn : name = "d".toList := Option.some.inj hn
    cases o with
    | int n =>
      dsimp only at h
      rw [hpv] at h
      refine ⟨d, _, hd, (congrArg Prod.fst h).symm, ?_, fun _ => ⟨n, rfl, ?_⟩, ?_⟩
      · intro hne
        exact absurd (by rw [hn]; simp) hne
      · rw [hand, hsh]; rfl
      · intro hm
        rw [hn] at hm
        exact absurd hm (by decide)
    | none => cases h
    | text s => cases h
    | list l => cases h
    | bytes b => cases h
  · rename_i hn
    have hnd : name ≠ "d".toList := fun e => hn (by rw [e])
    split at h
    · rename_i hf
      have hf : name = "f".toList := Option.some.inj hf
      unfold printPosix at h
      split at h
      · rw [hpv] at h
        refine ⟨d, _, hd, (congrArg Prod.fst h).symm, ?_, fun e => (hnd e).elim, fun _ _ => rfl⟩
        intro hne
        exact absurd (by rw [hf]; simp) hne
      · rename_i h0
        cases hp : env.posix o with
        | error e => rw [hp] at h; cases h
        | ok s =>
          rw [hp] at h
          dsimp only at h
          rw [hpv] at h
          refine ⟨d, _, hd, (congrArg Prod.fst h).symm, ?_, fun e => (hnd e).elim, fun _ e => (h0 e).elim⟩
          intro hne
          exact absurd (by rw [hf]; simp) hne
    · rename_i hf
      have hnf : name ≠ "f".toList := fun e => hf (by rw [e])
      split at h
      · rename_i ht
        have ht : name = "11".toList ∨ name = "12".toList ∨ name = "17".toList := by simpa using ht
        have hmem : ¬ (name ∉ ["d".toList, "f".toList, "11".toList, "12".toList, "17".toList]) := by
          intro hne
          apply hne
          simp only [List.mem_cons, List.not_mem_nil, or_false]
          exact .inr (.inr ht)
        unfold printFiletime at h
        split at h
        · rw [hpv] at h
          exact ⟨d, _, hd, (congrArg Prod.fst h).symm, fun e => (hmem e).elim, fun e => (hnd e).elim, fun _ _ => rfl⟩
        · rename_i h0
          split at h
          · rw [hpv] at h
            exact ⟨d, _, hd, (congrArg Prod.fst h).symm, fun e => (hmem e).elim, fun e => (hnd e).elim, fun _ e => (h0 e).elim⟩
          · cases hp : env.filetime o with
            | error e => rw [hp] at h; cases h
            | ok s =>
              rw [hp] at h
              dsimp only at h
              rw [hpv] at h
              exact ⟨d, _, hd, (congrArg Prod.fst h).symm, fun e => (hmem e).elim, fun e => (hnd e).elim, fun _ e => (h0 e).elim⟩
      · rename_i ht
        rw [hpv] at h
        refine ⟨d, _, hd, (congrArg Prod.fst h).symm, fun _ => rfl, fun e => (hnd e).elim, ?_⟩
        intro hm
        simp only [List.mem_cons, List.not_mem_nil, or_false] at hm
        rcases hm with hm | hm
        · exact (hnf hm).elim
        · exact (ht (by simpa using hm)).elim

theorem printItems_eq (d : Str) (l : List Str) :
    printItems (some d) l =
      ((l.head?.map (Formats.formatValue d)).toList ++ l.tail.map (Formats.formatValue []), none) := by
  induction l generalizing d with
  | nil => rfl
  | cons s l ih =>
    rw [printItems, ih]
    cases l <;> rfl

/-- C169.  The texts of a program that may be many are written in a line each, in order, the first with the
description. -/
theorem C169_items (env : Env) (name : Str) (hn : name ∈ ["7".toList, "d".toList, "Files".toList]) (s : Str) (l : List Str) :
    ∃ d, describe programDescriptions (some name) = some d ∧ printProgramValue env (some name) (.list (s :: l)) =
      (Formats.formatValue d s :: l.map (Formats.formatValue []), none) := by
  refine ⟨_, rfl, ?_⟩
  unfold printProgramValue
  dsimp only
  rw [if_pos (by simpa using hn), items]
  exact printItems_eq _ (s :: l)

/-- C169.  One that is a single text is written by its characters. -/
theorem C169_characters (env : Env) (name : Str) (hn : name ∈ ["7".toList, "d".toList, "Files".toList]) (c : Char) (s : Str) :
    ∃ d, describe programDescriptions (some name) = some d ∧ printProgramValue env (some name) (.text (c :: s)) =
      (Formats.formatValue d [c] :: s.map (fun c => Formats.formatValue [] [c]), none) := by
  refine ⟨_, rfl, ?_⟩
  unfold printProgramValue
  dsimp only
  rw [if_pos (by simpa using hn), items]
  refine (printItems_eq _ _).trans ?_
  simp

/-- C169.  It would be nice if every value of a program were written. -/
def C169_every_value_claim : Prop :=
  ∀ (env : Env) (name : Str) (o : Obj), (printProgramValue env (some name) o).1 ≠ [] ∨
    (printProgramValue env (some name) o).2 ≠ none

/-- One without texts is not, not even its description. -/
theorem C169_every_value_claim_false : ¬ C169_every_value_claim := fun h => by
  have := h ⟨fun _ => [], fun _ => .ok [], fun _ => .ok [], id⟩ "Files".toList (.list [])
  revert this
  decide

/-- C169.  All others are: in one line, after the description. -/
theorem C169_every_value_partial (env : Env) (name : Str) (hn : name ∉ ["7".toList, "d".toList, "Files".toList]) (o : Obj)
    (lines : List Str) (h : printProgramValue env (some name) o = (lines, none)) :
    ∃ d text, describe programDescriptions (some name) = some d ∧ lines = [Formats.formatValue d text] ∧
      (name ∉ ["a".toList, "b".toList] → text = env.text o) := by
  obtain ⟨d, hd⟩ : ∃ d, describe programDescriptions (some name) = some d := ⟨_, rfl⟩
  have hpv : ∀ t, printValue (describe programDescriptions (some name)) t = ([Formats.formatValue d t], none) := by
    intro t
    rw [hd]
    rfl
  unfold printProgramValue at h
  dsimp only at h
  rw [if_neg (by simpa using hn)] at h
  split at h
  · rename_i ha
    have hm : ¬ (name ∉ ["a".toList, "b".toList]) := fun e => e (by simpa using ha)
    unfold printPosix at h
    split at h
    · rw [hpv] at h
      exact ⟨d, _, hd, (congrArg Prod.fst h).symm, fun e => (hm e).elim⟩
    · cases hp : env.posix o with
      | error e => rw [hp] at h; cases h
      | ok s =>
        rw [hp] at h
        dsimp only at h
        rw [hpv] at h
        exact ⟨d, _, hd, (congrArg Prod.fst h).symm, fun e => (hm e).elim⟩
  · rw [hpv] at h
    exact ⟨d, _, hd, (congrArg Prod.fst h).symm, fun _ => rfl⟩

/-- C169.  It would be nice if the descriptions told the values of a file from each other. -/
def C169_descriptions_claim : Prop := ∀ m n : Str, describe fileDescriptions (some m) = describe fileDescriptions (some n) → m = n

theorem C169_descriptions_claim_false : ¬ C169_descriptions_claim := fun h => by
  have := h "15".toList "Path".toList (by decide)
  revert this
  decide

/-- C169.  They do for values whose names are not themselves descriptions. -/
theorem C169_descriptions_partial (m n : Str) (hm : m ∉ fileDescriptions.map (·.2)) (hn : n ∉ fileDescriptions.map (·.2))
    (h : describe fileDescriptions (some m) = describe fileDescriptions (some n)) : m = n := by
  have hinj : ∀ p ∈ fileDescriptions, ∀ q ∈ fileDescriptions, p.2 = q.2 → p.1 = q.1 := by decide
  unfold describe at h
  simp only [Option.map_some, Option.some.injEq] at h
  cases h1 : fileDescriptions.find? (fun p => p.1 == m) with
  | none =>
    cases h2 : fileDescriptions.find? (fun p => p.1 == n) with
    | none => rw [h1, h2] at h; exact h
    | some q =>
      rw [h1, h2] at h
      exact (hm (List.mem_map.mpr ⟨q, List.mem_of_find?_eq_some h2, h.symm⟩)).elim
  | some p =>
    have e1 := List.find?_some h1
    simp only [beq_iff_eq] at e1
    cases h2 : fileDescriptions.find? (fun p => p.1 == n) with
    | none =>
      rw [h1, h2] at h
      exact (hn (List.mem_map.mpr ⟨p, List.mem_of_find?_eq_some h1, h⟩)).elim
    | some q =>
      rw [h1, h2] at h
      have e2 := List.find?_some h2
      simp only [beq_iff_eq] at e2
      rw [← e1, ← e2]
      exact hinj p (List.mem_of_find?_eq_some h1) q (List.mem_of_find?_eq_some h2) h

/-- A value of a file, as an example. -/
def sampleValue (name : Str) (o : Obj) : RegValue := ⟨some name, 1, .ok o, .ok o, .ok [], .ok o⟩

def sampleEnv : Env := ⟨fun _ => [], fun _ => .ok [], fun _ => .ok [], id⟩

/-- A hive with one file. -/
def sampleHive (name : Str) (values : List RegValue) : Hive :=
  ⟨rootNames.headD [], some ⟨some [[⟨name, values⟩]], none, none, none⟩⟩

/-- The name of a key may be one that makes debug output fail (C106). -/
theorem C169_debug_claim_false : ¬ C169_debug_claim := fun h => by
  have := h sampleEnv (sampleHive "1000010000".toList [])
  revert this
  decide +kernel

example : ((readHive sampleEnv true (sampleHive "30000a43f".toList
      [sampleValue "15".toList (.text "x".toList), sampleValue "d".toList (.int 0x60001)])).1.map String.ofList) =
    ["File: 30000a43f (42047-3)\n", "Path\t\t\t\t\t\t\t\t\t: x\n", "PE/COFF image version\t\t\t\t\t\t\t: 6.1\n", "\n"] := by
  decide +kernel

example : Reads (sampleValue "15".toList (.text "x".toList)) (.text "x".toList) := .inl ⟨.inl rfl, rfl⟩


/-! ## Headings, times and descriptions -/

theorem readKey_head (hd : Str → Res Str) (print : Option Str → Obj → Out) (k : RegKey) (s : Str) (h : hd k.name = .ok s) :
    (readKey true hd print k).1.head? = some s := by
  unfold readKey
  rw [h]
  rfl

/-- C169.  The first line of a key has its kind and its name. -/
theorem C169_headings (env : Env) (k : RegKey) :
    (readProgramKey env true k).1.head? = some ("Program: ".toList ++ k.name ++ "\n".toList) ∧
    (readApplicationKey env true k).1.head? = some ("Application: ".toList ++ k.name ++ "\n".toList) ∧
    (readApplicationFileKey env true k).1.head? = some ("Application File: ".toList ++ k.name ++ "\n".toList) ∧
    (¬ "0000".toList <:+: k.name →
      (readFileReferenceKey env true k).1.head? = some ("File: ".toList ++ k.name ++ "\n".toList)) :=
  ⟨readKey_head _ _ k _ rfl, readKey_head _ _ k _ rfl, readKey_head _ _ k _ rfl, fun h => readKey_head _ _ k _ (by
    unfold fileHeading
    rw [C106_other k.name h]
    rfl)⟩

/-- C169.  That of a file has the entry and the sequence number of its name, as far as C106 has them. -/
theorem C169_file_heading (env : Env) (s m : Nat) (values : List RegValue) (hs : s ≠ 0) (h : s < 2 ^ 16) (hm : m ≠ 0)
    (h16 : s % 16 ≠ 0) (hf : ¬ "0000".toList <:+: digits 16 m) :
    (readFileReferenceKey env true ⟨name s m, values⟩).1.head? =
      some ("File: ".toList ++ name s m ++ " (".toList ++ digits 10 m ++ "-".toList ++ digits 10 s ++ ")\n".toList) :=
  readKey_head _ _ _ _ (by
    unfold fileHeading
    dsimp only
    rw [(C106_exact_partial s m hs h hm).mpr ⟨h16, hf⟩]
    rfl)

/-- C169.  What a time is written as: POSIX times for compilation, installation and removal, FILETIME times for files. -/
theorem C169_times (env : Env) (o : Obj) (s : Str) (h0 : o ≠ .int 0) :
    (env.posix o = .ok s →
      printFileValue env (some "f".toList) o = ([Formats.formatValue "PE/COFF compilation time".toList s], none) ∧
      printProgramValue env (some "a".toList) o = ([Formats.formatValue "Installation time".toList s], none) ∧
      printProgramValue env (some "b".toList) o = ([Formats.formatValue "Uninstallation time".toList s], none)) ∧
    (env.filetime o = .ok s → o ≠ .int (2 ^ 63 - 1) →
      printFileValue env (some "11".toList) o = ([Formats.formatValue "File modification time".toList s], none) ∧
      printFileValue env (some "12".toList) o = ([Formats.formatValue "File creation time".toList s], none) ∧
      printFileValue env (some "17".toList) o = ([Formats.formatValue "17".toList s], none)) := by
  have hp : ∀ d, env.posix o = .ok s → printPosix env (some d) o = ([Formats.formatValue d s], none) := by
    intro d h
    unfold printPosix
    rw [if_neg h0, h]
    rfl
  have hf : ∀ d, env.filetime o = .ok s → o ≠ .int (2 ^ 63 - 1) →
      printFiletime env (some d) o = ([Formats.formatValue d s], none) := by
    intro d h h1
    unfold printFiletime
    rw [if_neg h0, if_neg (by simpa using h1), h]
    rfl
  exact ⟨fun h => ⟨hp _ h, hp _ h, hp _ h⟩, fun h h1 => ⟨hf _ h h1, hf _ h h1, hf _ h h1⟩⟩

/-- C169.  The values of applications are written with their names, but for two. -/
theorem C169_applications (env : Env) (v : RegValue) (n : Str) (hv : v.name = some n) (o : Obj) (h : Reads v o) (k : Str) :
    (readApplicationFileKey env true ⟨k, [v]⟩).1.tail = [Formats.formatValue n (env.text o), ['\n']] ∧
    (readApplicationKey env true ⟨k, [v]⟩).1.tail = [Formats.formatValue
      (if n = "ProgramId".toList then "Program identifier".toList
        else if n = "ProgramInstanceId".toList then "Program instance identifier".toList else n) (env.text o), ['\n']] := by
  have key : ∀ t hd, (readKey true (heading hd) (fun n o => printValue (describe t n) (env.text o)) ⟨k, [v]⟩).1.tail =
      [Formats.formatValue (((t.find? (fun p => p.1 == n)).map (·.2)).getD n) (env.text o), ['\n']] := by
    intro t hd
    unfold readKey
    dsimp only
    rw [each, each, readValue, (reads_iff v o).mpr h, hv]
    rfl
  refine ⟨key [] _, ?_⟩
  refine (key applicationDescriptions _).trans ?_
  unfold applicationDescriptions
  rw [List.find?_cons, List.find?_cons]
  by_cases h1 : n = "ProgramId".toList
  · subst h1; rfl
  · rw [if_neg h1]
    have e1 : ("ProgramId".toList == n) = false := beq_eq_false_iff_ne.mpr (Ne.symm h1)
    by_cases h2 : n = "ProgramInstanceId".toList
    · subst h2; rfl
    · rw [if_neg h2]
      have e2 : ("ProgramInstanceId".toList == n) = false := beq_eq_false_iff_ne.mpr (Ne.symm h2)
      dsimp only
      rw [e1, e2]
      rfl

/-- C169.  The two names of the root key of such a file. -/
theorem C169_roots (env : Env) (n : Str) :
    (∃ r, readHive env true ⟨n, some r⟩ ≠ ([], none)) ↔
      env.lower n = "{11517b7c-e79d-4e20-961b-75a811715add}".toList ∨
      env.lower n = "{356c48f6-2fee-e7ef-2a64-39f59ec3be22}".toList := by
  have hm : (env.lower n = "{11517b7c-e79d-4e20-961b-75a811715add}".toList ∨
      env.lower n = "{356c48f6-2fee-e7ef-2a64-39f59ec3be22}".toList) ↔ env.lower n ∈ rootNames := by
    unfold rootNames
    generalize "{11517b7c-e79d-4e20-961b-75a811715add}".toList = a
    generalize "{356c48f6-2fee-e7ef-2a64-39f59ec3be22}".toList = b
    simp
  rw [hm]
  constructor
  · rintro ⟨r, h⟩
    by_cases hn : env.lower n ∈ rootNames
    · exact hn
    · exact (h (C169_other_root env true ⟨n, some r⟩ hn)).elim
  · intro hn
    refine ⟨⟨none, some [⟨[], []⟩], none, none⟩, ?_⟩
    unfold readHive
    rw [if_neg (fun h => h hn)]
    intro h
    exact absurd (congrArg Prod.fst h) (by simp [optional, each, readProgramKey, readKey, heading, Out.andThen])

example : name 3 0xa43f = "30000a43f".toList ∧ ¬ "0000".toList <:+: digits 16 0xa43f := by decide +kernel

end Dtf.Amcache
