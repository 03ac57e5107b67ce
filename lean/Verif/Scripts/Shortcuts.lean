import Verif.Formats.Props
import Mathlib.Data.Nat.Bitwise

/-!
# The output of the script for jump lists (C163, C164)

scripts/jump_list.py and `WriteValue` of dtformats/output_writers.py.
-/

namespace Dtf.Shortcuts
open Py Formats Text

/-! ## Model -/

/-- `description.replace("\t", " " * 8)` (output_writers.py 69). -/
def untab (s : List Char) : List Char := s.flatMap (fun c => if c = '\t' then List.replicate 8 ' ' else [c])

/-- `WriteValue` (output_writers.py 62-72): a string times a negative number is empty. -/
def writeValue (description value : List Char) : List Char :=
  description ++ List.replicate (9 - (untab description).length / 8) '\t' ++ ": ".toList ++ value ++ ['\n']

/-- A call of `WriteText` or `WriteValue`. -/
inductive Write
  | text (s : List Char)
  | value (description value : List Char)
deriving DecidableEq

def Write.render : Write → List Char
  | .text s => s
  | .value d v => writeValue d v

/-- What is written to stdout. -/
def render (l : List Write) : List Char := l.flatMap Write.render

/-- The parts of libraries that are used: dates, which may not have a text, and the names of property keys. -/
structure Env where
  filetime : Nat → Option (List Char)
  fat : Nat → Option (List Char)
  keys : List Char → Option (List Char)

/-- A record of a property set: the type of the value, the values that the library has for it, and its name or type. -/
structure Property where
  valueType : Nat
  integer : Int
  filetime : Nat
  string : List Char
  boolean : Bool
  guid : List Char
  entryName : List Char
  entryType : Nat

structure PropertySet where
  identifier : List Char
  records : List Property

/-- An extension block: of a file entry or other. -/
inductive Extension
  | file (signature creation access : Nat) (longName localizedName : List Char) (reference : Option Nat)
  | other (signature : Nat)

/-- A shell item by its class. -/
inductive Kind
  | category (identifier : Nat)
  | controlPanel (identifier : List Char)
  | file (size modification flags : Nat) (name : List Char)
  | network (location description comments : List Char)
  | root (identifier : List Char)
  | users (store : List PropertySet)
  | volume (name identifier folder : List Char)
  | unknown (classType : Nat)

structure Item where
  kind : Kind
  delegate : List Char
  extensions : List Extension

structure Block where
  signature : Nat
  path : List Char
  string : List Char
  store : List PropertySet

/-- A shortcut, as the library reads it.  Texts that are shown only if the
library has them are empty without; the texts that are always shown are those of `str`, such as `None`.  `items` is that of the identifier of the target, if
it has one. -/
structure Shortcut where
  flags : Nat
  creation : Nat
  modification : Nat
  access : Nat
  size : Nat
  iconIndex : Int
  showWindow : Nat
  hotKey : Nat
  attributes : Nat
  description : List Char
  relativePath : List Char
  workingDirectory : List Char
  arguments : List Char
  iconLocation : List Char
  items : Option (List Item)
  blocks : List Block

/-- `_FormatFATDateTimeValue` (jump_list.py 46-63). -/
def fatDate (env : Env) (v : Nat) : List Char :=
  if v = 0 then "Not set (0)".toList
  else
    match env.fat v with
    | some s => if s = [] then "0x".toList ++ hexw 4 v else s
    | none => "0x".toList ++ hexw 4 v

/-- `_FormatFiletimeValue` (jump_list.py 65-86). -/
def filetimeDate (env : Env) (v : Nat) : List Char :=
  if v = 0 then "Not set (0)".toList
  else if v = 0x7fffffffffffffff then "Never (0x7fffffffffffffff)".toList
  else
    match env.filetime v with
    | some s => if s = [] then "0x".toList ++ hexw 8 v else s ++ " UTC".toList
    | none => "0x".toList ++ hexw 8 v

/-- The value of a record (jump_list.py 96-118). -/
def propertyValue (env : Env) (p : Property) : Res (List Char) :=
  if p.valueType = 0x0001 then .ok "<VT_NULL>".toList
  else if p.valueType ∈ [0x0003, 0x0013, 0x0014, 0x0015] then .ok (decInt p.integer)
  else if p.valueType ∈ [0x0008, 0x001e, 0x001f] then .ok p.string
  else if p.valueType = 0x000b then .ok (if p.boolean then "True".toList else "False".toList)
  else if p.valueType = 0x0040 then .ok (filetimeDate env p.filetime)
  else if p.valueType = 0x0042 then .ok "<VT_STREAM>".toList
  else if p.valueType = 0x0048 then .ok p.guid
  else if p.valueType &&& 0xf000 = 0x1000 then .ok "<VT_VECTOR>".toList
  else .error .runtimeError

/-- The key of a record (jump_list.py 120-125). -/
def propertyKey (identifier : List Char) (p : Property) : List Char :=
  "{".toList ++ identifier ++ "}/".toList ++ (if p.entryName ≠ [] then p.entryName else dec p.entryType)

/-- What is written for a record (jump_list.py 95-135). -/
def writeRecord (env : Env) (identifier : List Char) (p : Property) : Res (List Write) :=
  match propertyValue env p with
  | .error e => .error e
  | .ok v =>
    let key := propertyKey identifier p
    .ok [.text ("\t\tProperty: ".toList ++ key ++ " (".toList ++ (env.keys key).getD "Unknown".toList ++ ")\n".toList),
      .value ("\t\t\tValue (0x".toList ++ hexw 4 p.valueType ++ ")".toList) v]

/-- The concatenation of what is written for the elements of a sequence. -/
def writeAll {α : Type} (f : α → Res (List Write)) : List α → Res (List Write)
  | [] => .ok []
  | a :: r =>
    match f a with
    | .error e => .error e
    | .ok w =>
      match writeAll f r with
      | .error e => .error e
      | .ok w' => .ok (w ++ w')

/-- `_WritePropertyStore` (jump_list.py 88-135). -/
def writeStore (env : Env) (store : List PropertySet) : Res (List Write) :=
  writeAll (fun s => writeAll (writeRecord env s.identifier) s.records) store

/-- A file reference (jump_list.py 214-221). -/
def fileReference (n : Nat) : List Char :=
  if n > 0x1000000000000 then dec (n &&& 0xffffffffffff) ++ "-".toList ++ dec (n >>> 48) else "0x".toList ++ hexw 4 n

/-- A value that is written only if there is one. -/
def optional (description : String) (v : List Char) : List Write := if v ≠ [] then [.value description.toList v] else []

/-- An extension block (jump_list.py 190-225). -/
def writeExtension (env : Env) (index : Nat) (x : Extension) : List Write :=
  .text ("\t\tExtension block: ".toList ++ dec (index + 1) ++ "\n".toList) ::
    match x with
    | .other signature => [.value "\t\t\tSignature".toList ("0x".toList ++ hexw 4 signature)]
    | .file signature creation access longName localizedName reference =>
      [.value "\t\t\tSignature".toList ("0x".toList ++ hexw 4 signature), .value "\t\t\tCreation time".toList (fatDate env creation),
        .value "\t\t\tAccess time".toList (fatDate env access), .value "\t\t\tLong name".toList longName] ++
        optional "\t\t\tLocalized name" localizedName ++
        match reference with
        | none => []
        | some n => [.value "\t\t\tFile reference".toList (fileReference n)]

/-- The blocks of an item or the items of a list, with a counter. -/
def writeExtensions (env : Env) : Nat → List Extension → List Write
  | _, [] => []
  | i, x :: r => writeExtension env i x ++ writeExtensions env (i + 1) r

/-- The name of the class of an item (jump_list.py 143-158). -/
def Kind.name : Kind → List Char
  | .category _ => "Control Panel Category".toList
  | .controlPanel _ => "Control Panel Item".toList
  | .file .. => "File Entry".toList
  | .network .. => "Network Location".toList
  | .root _ => "Root Folder".toList
  | .users _ => "Users Property View".toList
  | .volume .. => "Volume".toList
  | .unknown t => "Unknown (0x".toList ++ hexw 2 t ++ ")".toList

/-- What is written for the class of an item (jump_list.py 167-188 and 229-307). -/
def writeKind (env : Env) : Kind → Res (List Write)
  | .category n => .ok [.value "\t\t\tControl panel category identifier".toList (dec n)]
  | .controlPanel s => .ok [.value "\t\t\tControl panel item identifier".toList s]
  | .file size modification flags name =>
    .ok [.value "\t\t\tFile size".toList (dec size), .value "\t\t\tModification time".toList (fatDate env modification),
      .value "\t\t\tFile attribute flags".toList ("0x08".toList ++ hexw 8 flags), .value "\t\t\tName".toList name]
  | .network location description comments =>
    .ok (.value "\t\t\tNetwork location".toList location :: (optional "\t\t\tDescription" description ++
      optional "\t\t\tComments" comments))
  | .root s => .ok [.value "\t\t\tRoot shell folder identifier".toList s]
  | .users store => writeStore env store
  | .volume name identifier folder =>
    .ok (optional "\t\t\tVolume name" name ++ optional "\t\t\tVolume identifier" identifier ++
      optional "\t\t\tVolume shell folder identifier" folder)
  | .unknown _ => .ok []

/-- `_WriteShellItem` (jump_list.py 137-227). -/
def writeItem (env : Env) (item : Item) : Res (List Write) :=
  match writeKind env item.kind with
  | .error e => .error e
  | .ok w =>
    .ok (.value "\t\t\tItem type".toList item.kind.name :: (optional "\t\t\tDelegate folder" item.delegate ++ w ++
      writeExtensions env 0 item.extensions ++ [.text "\n".toList]))

/-- A loop over `enumerate` with a heading that is counted from 1 (jump_list.py 424-428, 456-460 and 559-563). -/
def writeNumbered {α : Type} (heading : List Char) (f : α → Res (List Write)) : Nat → List α → Res (List Write)
  | _, [] => .ok []
  | i, x :: r =>
    match f x with
    | .error e => .error e
    | .ok w =>
      match writeNumbered heading f (i + 1) r with
      | .error e => .error e
      | .ok w' => .ok (.text (heading ++ dec (i + 1) ++ "\n".toList) :: (w ++ w'))

/-- The items of a target. -/
def writeItems (env : Env) (l : List Item) : Res (List Write) := writeNumbered "\t\tShell item: ".toList (writeItem env) 0 l

/-- `_WriteShortcutLinkTargetIdentifier` (jump_list.py 405-428). -/
def writeTarget (env : Env) (items : Option (List Item)) : Res (List Write) :=
  match items with
  | none => .ok []
  | some l =>
    match writeItems env l with
    | .error e => .error e
    | .ok w =>
      .ok ([.text "\tLink target identifier:\n".toList, .text "\t\tShell item list:\n".toList,
        .value "\t\t\tNumber of items".toList (dec l.length), .text "\n".toList] ++ w)

/-- `_LNK_DATA_BLOCK_DESCRIPTIONS` (jump_list.py 31-43). -/
def blockDescriptions : List (Nat × List Char) :=
  [(0xa0000001, "Environment variables location".toList), (0xa0000002, "Console properties".toList),
    (0xa0000003, "Distributed link tracker properties".toList), (0xa0000004, "Console codepage".toList),
    (0xa0000005, "Special folder location".toList), (0xa0000006, "Darwin properties".toList), (0xa0000007, "Icon location".toList),
    (0xa0000008, "Shim layer properties".toList), (0xa0000009, "Metadata property store".toList),
    (0xa000000b, "Known folder location".toList), (0xa000000c, "Shell item identifiers list".toList)]

/-- `_WriteShortcutDataBlock` (jump_list.py 309-337). -/
def writeBlock (env : Env) (b : Block) : Res (List Write) :=
  let signature := match blockDescriptions.lookup b.signature with
    | some d => "0x".toList ++ hexw 8 b.signature ++ " (".toList ++ d ++ ")".toList
    | none => "0x".toList ++ hexw 8 b.signature
  let first : Write := .value "\t\tSignature".toList signature
  if b.signature = 0xa0000001 ∨ b.signature = 0xa0000007 then
    .ok [first, .value "\t\tString".toList b.path, .text "\n".toList]
  else if b.signature = 0xa0000006 then .ok [first, .value "\t\tString".toList b.string, .text "\n".toList]
  else if b.signature = 0xa0000009 then
    match writeStore env b.store with
    | .error e => .error e
    | .ok w => .ok (first :: (w ++ [.text "\n".toList]))
  else .ok [first, .text "\n".toList]

/-- The data blocks of a shortcut. -/
def writeBlocks (env : Env) (l : List Block) : Res (List Write) := writeNumbered "\tData block: ".toList (writeBlock env) 0 l

/-- `_WriteShortcutDataFlags` (jump_list.py 339-366). -/
def writeFlags (f : Nat) : List Write :=
  (if f &&& 0x00000001 ≠ 0 then [.text "\t\tContains a link target identifier\n".toList] else []) ++
  (if f &&& 0x00000004 ≠ 0 then [.text "\t\tContains a description string\n".toList] else []) ++
  (if f &&& 0x00000008 ≠ 0 then [.text "\t\tContains a relative path string\n".toList] else []) ++
  (if f &&& 0x00000010 ≠ 0 then [.text "\t\tContains a working directory string\n".toList] else []) ++
  (if f &&& 0x00000020 ≠ 0 then [.text "\t\tContains a command line arguments string\n".toList] else []) ++
  (if f &&& 0x00000040 ≠ 0 then [.text "\t\tContains an icon location string\n".toList] else []) ++
  (if f &&& 0x00000200 ≠ 0 then [.text "\t\tContains an environment variables block\n".toList] else []) ++
  (if f &&& 0x00004000 ≠ 0 then [.text "\t\tContains an icon location block\n".toList] else []) ++
  (if f &&& 0x00040000 ≠ 0 then [.text "\t\tContains no distributed link tracking data block\n".toList] else [])

/-- `_WriteShortcutLinkInformation` (jump_list.py 368-403). -/
def writeInformation (env : Env) (s : Shortcut) : List Write :=
  [.text "\tLink information:\n".toList, .value "\t\tCreation time".toList (filetimeDate env s.creation),
    .value "\t\tModification time".toList (filetimeDate env s.modification),
    .value "\t\tAccesss time".toList (filetimeDate env s.access), .value "\t\tFile size".toList (dec s.size),
    .value "\t\tIcon index".toList (decInt s.iconIndex),
    .value "\t\tShow Window value".toList ("0x".toList ++ hexw 8 s.showWindow),
    .value "\t\tHot Key value".toList (dec s.hotKey),
    .value "\t\tFile attribute flags".toList ("0x".toList ++ hexw 8 s.attributes),
    .value "\t\tDescription".toList s.description, .value "\t\tRelative path".toList s.relativePath,
    .value "\t\tWorking directory".toList s.workingDirectory, .value "\t\tIcon location".toList s.iconLocation, .text "\n".toList]

/-- `WriteShortcut` (jump_list.py 439-460).  What is written before an error is not modelled. -/
def writeShortcut (env : Env) (s : Shortcut) : Res (List Write) :=
  match writeTarget env s.items with
  | .error e => .error e
  | .ok target =>
    match writeBlocks env s.blocks with
    | .error e => .error e
    | .ok blocks =>
      .ok (.text "\tWindows Shortcut information:\n".toList :: (writeFlags s.flags ++
        [.value "\tNumber of data blocks".toList (dec s.blocks.length), .text "\n".toList] ++ writeInformation env s ++ target ++
        blocks))

/-- The entries of a jump list. -/
def writeEntries (env : Env) (l : List Shortcut) : Res (List Write) := writeNumbered "Entry: ".toList (writeShortcut env) 0 l

/-- `Main` of a file that could be read (jump_list.py 548-563). -/
def writeFile (env : Env) (l : List Shortcut) : Res (List Write) :=
  match writeEntries env l with
  | .error e => .error e
  | .ok w =>
    .ok ([.text "Windows Jump List information:\n".toList, .value "Number of entries".toList (dec l.length), .text "\n".toList] ++ w)

/-! ## C163: what is written -/

/-- The types of values of the documentation that are shown: null, integers, strings, booleans, dates, streams, identifiers and
vectors. -/
def Supported (t : Nat) : Prop :=
  t ∈ [0x1, 0x3, 0x8, 0xb, 0x13, 0x14, 0x15, 0x1e, 0x1f, 0x40, 0x42, 0x48] ∨ t / 0x1000 % 16 = 1

theorem and_f000 (t : Nat) : t &&& 0xf000 = 0x1000 ↔ t / 0x1000 % 16 = 1 := by
  have h : t &&& 0xf000 = t / 0x1000 % 16 * 0x1000 := by
    have e1 : t &&& 0xf000 = (t / 2 ^ 12 &&& 15) * 2 ^ 12 := by
      apply Nat.eq_of_testBit_eq
      intro i
      rw [Nat.testBit_and, Nat.testBit_mul_two_pow, Nat.testBit_and, Nat.testBit_div_two_pow]
      by_cases hi : 12 ≤ i
      · have : (0xf000 : Nat).testBit i = (15 : Nat).testBit (i - 12) := by
          rw [show (0xf000 : Nat) = 15 * 2 ^ 12 from rfl, Nat.testBit_mul_two_pow]
          simp [hi]
        rw [this]
        simp [hi, Nat.sub_add_cancel hi]
      · have : (0xf000 : Nat).testBit i = false := by
          rw [show (0xf000 : Nat) = 15 * 2 ^ 12 from rfl, Nat.testBit_mul_two_pow]
          simp [hi]
        rw [this]
        simp [hi]
    rw [e1, show (15 : Nat) = 2 ^ 4 - 1 from rfl, Nat.and_two_pow_sub_one_eq_mod]
    rfl
  rw [h]
  omega

/-- C163.  The value of a property is shown exactly if its type is supported; any other is a runtime error. -/
theorem C163_property (env : Env) (p : Property) :
    ((∃ v, propertyValue env p = .ok v) ↔ Supported p.valueType) ∧
      (¬ Supported p.valueType → propertyValue env p = .error .runtimeError) := by
  have key : (∃ v, propertyValue env p = .ok v) ∧ Supported p.valueType ∨
      propertyValue env p = .error .runtimeError ∧ ¬ Supported p.valueType := by
    unfold propertyValue Supported
    rw [← and_f000]
    by_cases h1 : p.valueType = 0x0001
    · rw [if_pos h1, h1]; exact .inl ⟨⟨_, rfl⟩, .inl (by decide)⟩
    rw [if_neg h1]
    by_cases h2 : p.valueType ∈ [0x0003, 0x0013, 0x0014, 0x0015]
    · rw [if_pos h2]
      exact .inl ⟨⟨_, rfl⟩, .inl (by simp only [List.mem_cons, List.not_mem_nil, or_false] at h2 ⊢; omega)⟩
    rw [if_neg h2]
    by_cases h3 : p.valueType ∈ [0x0008, 0x001e, 0x001f]
    · rw [if_pos h3]
      exact .inl ⟨⟨_, rfl⟩, .inl (by simp only [List.mem_cons, List.not_mem_nil, or_false] at h3 ⊢; omega)⟩
    rw [if_neg h3]
    by_cases h4 : p.valueType = 0x000b
    · rw [if_pos h4, h4]; exact .inl ⟨⟨_, rfl⟩, .inl (by decide)⟩
    rw [if_neg h4]
    by_cases h5 : p.valueType = 0x0040
    · rw [if_pos h5, h5]; exact .inl ⟨⟨_, rfl⟩, .inl (by decide)⟩
    rw [if_neg h5]
    by_cases h6 : p.valueType = 0x0042
    · rw [if_pos h6, h6]; exact .inl ⟨⟨_, rfl⟩, .inl (by decide)⟩
    rw [if_neg h6]
    by_cases h7 : p.valueType = 0x0048
    · rw [if_pos h7, h7]; exact .inl ⟨⟨_, rfl⟩, .inl (by decide)⟩
    rw [if_neg h7]
    by_cases h8 : p.valueType &&& 0xf000 = 0x1000
    · rw [if_pos h8]; exact .inl ⟨⟨_, rfl⟩, .inr h8⟩
    rw [if_neg h8]
    refine .inr ⟨rfl, ?_⟩
    simp only [List.mem_cons, List.not_mem_nil, or_false] at h2 h3 ⊢
    rintro (h | h)
    · omega
    · exact h8 h
  rcases key with ⟨h1, h2⟩ | ⟨h1, h2⟩
  · exact ⟨⟨fun _ => h2, fun _ => h1⟩, fun h => absurd h2 h⟩
  · exact ⟨⟨fun ⟨v, hv⟩ => (by rw [h1] at hv; cases hv), fun h => absurd h h2⟩, fun _ => h1⟩

/-- The property stores of a shortcut that are shown. -/
def storesOf (s : Shortcut) : List (List PropertySet) :=
  (s.items.getD []).flatMap (fun i => match i.kind with | .users store => [store] | _ => []) ++
    s.blocks.flatMap (fun b => if b.signature = 0xa0000009 then [b.store] else [])

/-- All the properties of these. -/
def propertiesOf (s : Shortcut) : List Property := (storesOf s).flatten.flatMap (·.records)

/-- A result that is there exactly under a condition, and else is a runtime error. -/
def Exact {α : Type} (r : Res α) (p : Prop) : Prop := (p ∧ ∃ x, r = .ok x) ∨ (¬ p ∧ r = .error .runtimeError)

theorem exact_ok {α : Type} (x : α) (p : Prop) (h : p) : Exact (.ok x : Res α) p := .inl ⟨h, x, rfl⟩

theorem exact_iff {α : Type} (r : Res α) (p q : Prop) (h : p ↔ q) (hr : Exact r p) : Exact r q := by
  rcases hr with ⟨h1, h2⟩ | ⟨h1, h2⟩
  · exact .inl ⟨h.mp h1, h2⟩
  · exact .inr ⟨fun hq => h1 (h.mpr hq), h2⟩

/-- Two steps of which the second is after the first. -/
theorem exact_and {α β γ : Type} (r : Res α) (r' : Res β) (t : Res γ) (p q : Prop) (hr : Exact r p) (hr' : Exact r' q)
    (h1 : ∀ e, r = .error e → t = .error e) (h2 : ∀ x e, r = .ok x → r' = .error e → t = .error e)
    (h3 : ∀ x y, r = .ok x → r' = .ok y → ∃ z, t = .ok z) : Exact t (p ∧ q) := by
  rcases hr with ⟨hp, x, hx⟩ | ⟨hp, hx⟩
  · rcases hr' with ⟨hq, y, hy⟩ | ⟨hq, hy⟩
    · exact .inl ⟨⟨hp, hq⟩, h3 x y hx hy⟩
    · exact .inr ⟨fun h => hq h.2, h2 x _ hx hy⟩
  · exact .inr ⟨fun h => hp h.1, h1 _ hx⟩

theorem exact_map {α β : Type} (r : Res α) (t : Res β) (p : Prop) (hr : Exact r p) (h1 : ∀ e, r = .error e → t = .error e)
    (h2 : ∀ x, r = .ok x → ∃ y, t = .ok y) : Exact t p := by
  rcases hr with ⟨hp, x, hx⟩ | ⟨hp, hx⟩
  · exact .inl ⟨hp, h2 x hx⟩
  · exact .inr ⟨hp, h1 _ hx⟩

theorem writeAll_exact {α : Type} (f : α → Res (List Write)) (p : α → Prop) (l : List α) (h : ∀ a ∈ l, Exact (f a) (p a)) :
    Exact (writeAll f l) (∀ a ∈ l, p a) := by
  induction l with
  | nil => exact exact_ok _ _ (by simp)
  | cons a l ih =>
    rw [writeAll]
    exact exact_iff _ (p a ∧ ∀ b ∈ l, p b) _ (by simp) (exact_and _ _ _ _ _ (h a List.mem_cons_self)
      (ih (fun b hb => h b (List.mem_cons_of_mem _ hb))) (fun e h => by rw [h]) (fun x e h h' => by rw [h]; dsimp only; rw [h'])
      (fun x y h h' => by rw [h]; dsimp only; rw [h']; exact ⟨_, rfl⟩))

theorem writeStore_exact (env : Env) (store : List PropertySet) :
    Exact (writeStore env store) (∀ p ∈ store.flatMap (·.records), Supported p.valueType) := by
  refine exact_iff _ (∀ s ∈ store, ∀ p ∈ s.records, Supported p.valueType) _ (by simp only [List.mem_flatMap]; exact ⟨fun h p ⟨s, hs, hp⟩ => h s hs p hp, fun h s hs p hp => h p ⟨s, hs, hp⟩⟩) ?_
  unfold writeStore
  refine writeAll_exact _ _ _ (fun s _ => writeAll_exact _ _ _ (fun p _ => ?_))
  unfold writeRecord
  refine exact_map (propertyValue env p) _ _ ?_ (fun e h => by rw [h]) (fun x h => by rw [h]; exact ⟨_, rfl⟩)
  obtain ⟨h1, h2⟩ := C163_property env p
  by_cases h : Supported p.valueType
  · exact .inl ⟨h, h1.mpr h⟩
  · exact .inr ⟨h, h2 h⟩

/-- The properties of an item that are shown. -/
def itemProperties (i : Item) : List Property :=
  match i.kind with
  | .users store => store.flatMap (·.records)
  | _ => []

def blockProperties (b : Block) : List Property :=
  if b.signature = 0xa0000009 then b.store.flatMap (·.records) else []

theorem writeItem_exact (env : Env) (i : Item) : Exact (writeItem env i) (∀ p ∈ itemProperties i, Supported p.valueType) := by
  unfold writeItem
  refine exact_map (writeKind env i.kind) _ _ ?_ (fun e h => by rw [h]) (fun x h => by rw [h]; exact ⟨_, rfl⟩)
  unfold itemProperties writeKind
  cases i.kind with
  | users store => exact writeStore_exact env store
  | _ => exact exact_ok _ _ (by simp)

theorem writeNumbered_exact {α : Type} (heading : List Char) (f : α → Res (List Write)) (p : α → Prop) (l : List α)
    (h : ∀ a ∈ l, Exact (f a) (p a)) (n : Nat) : Exact (writeNumbered heading f n l) (∀ a ∈ l, p a) := by
  induction l generalizing n with
  | nil => exact exact_ok _ _ (by simp)
  | cons a l ih =>
    rw [writeNumbered]
    exact exact_iff _ (p a ∧ ∀ b ∈ l, p b) _ (by simp) (exact_and _ _ _ _ _ (h a List.mem_cons_self)
      (ih (fun b hb => h b (List.mem_cons_of_mem _ hb)) (n + 1)) (fun e h => by rw [h])
      (fun x e h h' => by rw [h]; dsimp only; rw [h']) (fun x y h h' => by rw [h]; dsimp only; rw [h']; exact ⟨_, rfl⟩))

theorem writeBlock_exact (env : Env) (b : Block) : Exact (writeBlock env b) (∀ p ∈ blockProperties b, Supported p.valueType) := by
  unfold writeBlock blockProperties
  dsimp only
  by_cases h1 : b.signature = 0xa0000001 ∨ b.signature = 0xa0000007
  · rw [if_pos h1, if_neg (by omega)]
    exact exact_ok _ _ (by simp)
  rw [if_neg h1]
  by_cases h2 : b.signature = 0xa0000006
  · rw [if_pos h2, if_neg (by omega)]
    exact exact_ok _ _ (by simp)
  rw [if_neg h2]
  by_cases h3 : b.signature = 0xa0000009
  · rw [if_pos h3, if_pos h3]
    exact exact_map _ _ _ (writeStore_exact env b.store) (fun e h => by rw [h]) (fun x h => by rw [h]; exact ⟨_, rfl⟩)
  · rw [if_neg h3, if_neg h3]
    exact exact_ok _ _ (by simp)

theorem writeBlocks_exact (env : Env) (l : List Block) :
    Exact (writeBlocks env l) (∀ b ∈ l, ∀ p ∈ blockProperties b, Supported p.valueType) :=
  writeNumbered_exact _ _ _ l (fun b _ => writeBlock_exact env b) 0

theorem writeItems_exact (env : Env) (l : List Item) :
    Exact (writeItems env l) (∀ i ∈ l, ∀ p ∈ itemProperties i, Supported p.valueType) :=
  writeNumbered_exact _ _ _ l (fun i _ => writeItem_exact env i) 0

theorem propertiesOf_mem (s : Shortcut) (p : Property) :
    p ∈ propertiesOf s ↔ (∃ i ∈ s.items.getD [], p ∈ itemProperties i) ∨ (∃ b ∈ s.blocks, p ∈ blockProperties b) := by
  unfold propertiesOf storesOf itemProperties blockProperties
  simp only [List.mem_flatMap, List.mem_flatten, List.mem_append]
  constructor
  · rintro ⟨set, ⟨store, (⟨i, hi, hs⟩ | ⟨b, hb, hs⟩), hset⟩, hp⟩
    · refine .inl ⟨i, hi, ?_⟩
      cases hk : i.kind with
      | users st =>
        rw [hk] at hs
        simp only [List.mem_singleton] at hs
        subst hs
        exact List.mem_flatMap.mpr ⟨set, hset, hp⟩
      | _ => rw [hk] at hs; simp at hs
    · refine .inr ⟨b, hb, ?_⟩
      by_cases h : b.signature = 0xa0000009
      · rw [if_pos h] at hs ⊢
        simp only [List.mem_singleton] at hs
        subst hs
        exact List.mem_flatMap.mpr ⟨set, hset, hp⟩
      · rw [if_neg h] at hs; simp at hs
  · rintro (⟨i, hi, hp⟩ | ⟨b, hb, hp⟩)
    · cases hk : i.kind with
      | users st =>
        rw [hk] at hp
        obtain ⟨set, hset, hp⟩ := List.mem_flatMap.mp hp
        exact ⟨set, ⟨st, .inl ⟨i, hi, by rw [hk]; simp⟩, hset⟩, hp⟩
      | _ => rw [hk] at hp; simp at hp
    · by_cases h : b.signature = 0xa0000009
      · rw [if_pos h] at hp
        obtain ⟨set, hset, hp⟩ := List.mem_flatMap.mp hp
        exact ⟨set, ⟨b.store, .inr ⟨b, hb, by rw [if_pos h]; simp⟩, hset⟩, hp⟩
      · rw [if_neg h] at hp; simp at hp

theorem writeShortcut_exact (env : Env) (s : Shortcut) :
    Exact (writeShortcut env s) (∀ p ∈ propertiesOf s, Supported p.valueType) := by
  have e : (∀ p ∈ propertiesOf s, Supported p.valueType) ↔
      (∀ i ∈ s.items.getD [], ∀ p ∈ itemProperties i, Supported p.valueType) ∧
        (∀ b ∈ s.blocks, ∀ p ∈ blockProperties b, Supported p.valueType) := by
    constructor
    · intro h
      exact ⟨fun i hi p hp => h p ((propertiesOf_mem s p).mpr (.inl ⟨i, hi, hp⟩)),
        fun b hb p hp => h p ((propertiesOf_mem s p).mpr (.inr ⟨b, hb, hp⟩))⟩
    · rintro ⟨h1, h2⟩ p hp
      rcases (propertiesOf_mem s p).mp hp with ⟨i, hi, hp⟩ | ⟨b, hb, hp⟩
      · exact h1 i hi p hp
      · exact h2 b hb p hp
  refine exact_iff _ _ _ e.symm ?_
  unfold writeShortcut
  refine exact_and (writeTarget env s.items) _ _ _ _ ?_ (writeBlocks_exact env s.blocks) (fun e h => by rw [h])
    (fun x e h h' => by rw [h]; dsimp only; rw [h']) (fun x y h h' => by rw [h]; dsimp only; rw [h']; exact ⟨_, rfl⟩)
  unfold writeTarget
  cases s.items with
  | none => exact exact_ok _ _ (by simp)
  | some l =>
    dsimp only
    exact exact_map _ _ _ (writeItems_exact env l) (fun e h => by rw [h]) (fun x h => by rw [h]; exact ⟨_, rfl⟩)

/-- C163.  A jump list is shown exactly if the types of all properties of all of its shortcuts are supported; else there is a runtime
error. -/
theorem C163_shown (env : Env) (l : List Shortcut) :
    ((∃ w, writeFile env l = .ok w) ↔ ∀ s ∈ l, ∀ p ∈ propertiesOf s, Supported p.valueType) ∧
      ∀ e, writeFile env l = .error e → e = .runtimeError := by
  have h : Exact (writeFile env l) (∀ s ∈ l, ∀ p ∈ propertiesOf s, Supported p.valueType) := by
    unfold writeFile
    refine exact_map (writeEntries env l) _ _ ?_ (fun e h => by rw [h]) (fun x h => by rw [h]; exact ⟨_, rfl⟩)
    exact writeNumbered_exact _ _ _ l (fun x _ => writeShortcut_exact env x) 0
  rcases h with ⟨h1, w, h2⟩ | ⟨h1, h2⟩
  · exact ⟨⟨fun _ => h1, fun _ => ⟨w, h2⟩⟩, fun e he => (by rw [h2] at he; cases he)⟩
  · refine ⟨⟨fun ⟨w, hw⟩ => (by rw [h2] at hw; cases hw), fun h => absurd h h1⟩, fun e he => ?_⟩
    rw [h2] at he
    cases he
    rfl

/-- A text that shows all elements of a list in order, each after a heading that is counted from 1. -/
def Numbered {α : Type} (heading : List Char) (f : α → Res (List Write)) (l : List α) (text : List Char) : Prop :=
  ∃ ws : List (List Write), ws.length = l.length ∧ (∀ i (hi : i < l.length), f l[i] = .ok (ws.getD i [])) ∧
    text = (List.range l.length).flatMap (fun i => heading ++ dec (i + 1) ++ "\n".toList ++ render (ws.getD i []))

theorem render_append (a b : List Write) : render (a ++ b) = render a ++ render b := List.flatMap_append

theorem writeNumbered_text {α : Type} (heading : List Char) (f : α → Res (List Write)) (l : List α) (w : List Write)
    (h : writeNumbered heading f 0 l = .ok w) : Numbered heading f l (render w) := by
  have key : ∀ (l : List α) (n : Nat) (w : List Write), writeNumbered heading f n l = .ok w →
      ∃ ws : List (List Write), ws.length = l.length ∧ (∀ i (hi : i < l.length), f l[i] = .ok (ws.getD i [])) ∧
        render w = (List.range l.length).flatMap
          (fun i => heading ++ dec (n + i + 1) ++ "\n".toList ++ render (ws.getD i [])) := by
    intro l
    induction l with
    | nil =>
      intro n w h
      simp only [writeNumbered, Except.ok.injEq] at h
      subst h
      exact ⟨[], rfl, fun i hi => (by simp at hi), rfl⟩
    | cons s l ih =>
      intro n w h
      rw [writeNumbered] at h
      cases hs : f s with
      | error e => rw [hs] at h; cases h
      | ok a =>
        rw [hs] at h
        dsimp only at h
        cases hl : writeNumbered heading f (n + 1) l with
        | error e => rw [hl] at h; cases h
        | ok b =>
          rw [hl] at h
          simp only [Except.ok.injEq] at h
          obtain ⟨ws, h1, h2, h3⟩ := ih (n + 1) b hl
          refine ⟨a :: ws, by simp [h1], ?_, ?_⟩
          · intro i hi
            cases i with
            | zero => simpa using hs
            | succ i => simpa using h2 i (by simpa using hi)
          · rw [← h, List.length_cons, List.range_succ_eq_map, List.flatMap_cons, List.flatMap_map]
            have e : render (Write.text (heading ++ dec (n + 1) ++ "\n".toList) :: (a ++ b)) =
                heading ++ dec (n + 1) ++ "\n".toList ++ render a ++ render b := by
              simp [render, Write.render]
            rw [e, h3]
            simp only [Nat.add_zero, List.getD_cons_zero, List.getD_cons_succ, Nat.succ_eq_add_one]
            congr 1
            apply congrArg (fun f => List.flatMap f (List.range l.length))
            funext i
            rw [show n + 1 + i + 1 = n + (i + 1) + 1 by omega]
  obtain ⟨ws, h1, h2, h3⟩ := key l 0 w h
  refine ⟨ws, h1, h2, ?_⟩
  rw [h3]
  simp only [Nat.zero_add]

/-- C163.  What is shown of a jump list that is shown: the number of its entries, and of all entries in order, counted from 1, what is
shown of the shortcut. -/
theorem C163_entries (env : Env) (l : List Shortcut) (w : List Write) (h : writeFile env l = .ok w) :
    ∃ text, Numbered "Entry: ".toList (writeShortcut env) l text ∧
      render w = "Windows Jump List information:\n".toList ++ writeValue "Number of entries".toList (dec l.length) ++ "\n".toList ++
        text := by
  unfold writeFile at h
  cases hw : writeEntries env l with
  | error e => rw [hw] at h; cases h
  | ok b =>
    rw [hw] at h
    simp only [Except.ok.injEq] at h
    refine ⟨render b, writeNumbered_text _ _ l b hw, ?_⟩
    rw [← h]
    have e : ∀ (x y z : List Char) (v : List Char), render ([Write.text x, .value y v, .text z] ++ b) =
        x ++ writeValue y v ++ z ++ render b := by
      intro x y z v
      simp [render, Write.render]
    exact e _ _ _ _

/-- C163.  What is shown of a shortcut: the flags, the number of data blocks, the link information, the items of its target, if it has
one, and the data blocks. -/
theorem C163_parts (env : Env) (s : Shortcut) (w : List Write) (h : writeShortcut env s = .ok w) :
    ∃ items blocks, Numbered "\t\tShell item: ".toList (writeItem env) (s.items.getD []) items ∧
      Numbered "\tData block: ".toList (writeBlock env) s.blocks blocks ∧
      render w = "\tWindows Shortcut information:\n".toList ++ render (writeFlags s.flags) ++
        writeValue "\tNumber of data blocks".toList (dec s.blocks.length) ++ "\n".toList ++ render (writeInformation env s) ++
        (match s.items with
          | none => []
          | some l => "\tLink target identifier:\n\t\tShell item list:\n".toList ++
              writeValue "\t\t\tNumber of items".toList (dec l.length) ++ "\n".toList ++ items) ++ blocks := by
  unfold writeShortcut at h
  cases ht : writeTarget env s.items with
  | error e => rw [ht] at h; cases h
  | ok target =>
    rw [ht] at h
    dsimp only at h
    cases hb : writeBlocks env s.blocks with
    | error e => rw [hb] at h; cases h
    | ok blocks =>
      rw [hb] at h
      simp only [Except.ok.injEq] at h
      have hblocks := writeNumbered_text _ _ s.blocks blocks hb
      have e : ∀ (x y z v : List Char) (f g t b : List Write),
          render (Write.text x :: (f ++ [Write.value y v, .text z] ++ g ++ t ++ b)) =
            x ++ render f ++ writeValue y v ++ z ++ render g ++ render t ++ render b := by
        intro x y z v f g t b
        simp [render, Write.render]
      unfold writeTarget at ht
      cases hi : s.items with
      | none =>
        rw [hi] at ht
        simp only [Except.ok.injEq] at ht
        subst ht
        refine ⟨[], render blocks, ⟨[], rfl, fun i hi => (by simp at hi), rfl⟩, hblocks, ?_⟩
        rw [← h]
        exact e _ _ _ _ _ _ _ _
      | some l =>
        rw [hi] at ht
        dsimp only at ht
        cases hl : writeItems env l with
        | error e => rw [hl] at ht; cases ht
        | ok items =>
          rw [hl] at ht
          simp only [Except.ok.injEq] at ht
          refine ⟨render items, render blocks, writeNumbered_text _ _ l items hl, hblocks, ?_⟩
          rw [← h, ← ht]
          refine (e _ _ _ _ _ _ _ _).trans ?_
          have e2 : ∀ (x y z d v : List Char) (i : List Write), render ([Write.text x, .text y, .value d v, .text z] ++ i) =
              x ++ y ++ writeValue d v ++ z ++ render i := by
            intro x y z d v i
            simp [render, Write.render]
          rw [e2]
          rfl

/-- The values that are shown with a description, in order. -/
def valuesOf (w : List Write) (d : List Char) : List (List Char) :=
  w.filterMap (fun x => match x with | .text _ => none | .value d' v => if d' = d then some v else none)

/-- C163.  The link information has each of its values once, with its own description. -/
theorem C163_information (env : Env) (s : Shortcut) :
    valuesOf (writeInformation env s) "\t\tCreation time".toList = [filetimeDate env s.creation] ∧
    valuesOf (writeInformation env s) "\t\tModification time".toList = [filetimeDate env s.modification] ∧
    valuesOf (writeInformation env s) "\t\tAccesss time".toList = [filetimeDate env s.access] ∧
    valuesOf (writeInformation env s) "\t\tFile size".toList = [dec s.size] ∧
    valuesOf (writeInformation env s) "\t\tIcon index".toList = [decInt s.iconIndex] ∧
    valuesOf (writeInformation env s) "\t\tShow Window value".toList = ["0x".toList ++ hexw 8 s.showWindow] ∧
    valuesOf (writeInformation env s) "\t\tHot Key value".toList = [dec s.hotKey] ∧
    valuesOf (writeInformation env s) "\t\tFile attribute flags".toList = ["0x".toList ++ hexw 8 s.attributes] ∧
    valuesOf (writeInformation env s) "\t\tDescription".toList = [s.description] ∧
    valuesOf (writeInformation env s) "\t\tRelative path".toList = [s.relativePath] ∧
    valuesOf (writeInformation env s) "\t\tWorking directory".toList = [s.workingDirectory] ∧
    valuesOf (writeInformation env s) "\t\tIcon location".toList = [s.iconLocation] := by
  refine ⟨rfl, rfl, rfl, rfl, rfl, rfl, rfl, rfl, rfl, rfl, rfl, rfl⟩

/-- The values of an item, by description. -/
def itemValues (env : Env) : Kind → List (List Char × List Char)
  | .category n => [("Control panel category identifier".toList, dec n)]
  | .controlPanel s => [("Control panel item identifier".toList, s)]
  | .file size modification _ name =>
    [("File size".toList, dec size), ("Modification time".toList, fatDate env modification), ("Name".toList, name)]
  | .network location description comments =>
    ("Network location".toList, location) ::
      ([("Description".toList, description), ("Comments".toList, comments)].filter (fun x => x.2 ≠ []))
  | .root s => [("Root shell folder identifier".toList, s)]
  | .users _ => []
  | .volume name identifier folder =>
    [("Volume name".toList, name), ("Volume identifier".toList, identifier),
      ("Volume shell folder identifier".toList, folder)].filter (fun x => x.2 ≠ [])
  | .unknown _ => []

/-- The values of an extension block, by description. -/
def extensionValues (env : Env) : Extension → List (List Char × List Char)
  | .other signature => [("Signature".toList, "0x".toList ++ hexw 4 signature)]
  | .file signature creation access longName localizedName reference =>
    [("Signature".toList, "0x".toList ++ hexw 4 signature), ("Creation time".toList, fatDate env creation),
      ("Access time".toList, fatDate env access), ("Long name".toList, longName)] ++
      [("Localized name".toList, localizedName)].filter (fun x => x.2 ≠ []) ++
      reference.toList.map (fun n => ("File reference".toList, fileReference n))

def tabbed (l : List (List Char × List Char)) : List Write := l.map (fun x => .value ("\t\t\t".toList ++ x.1) x.2)

theorem optional_filter (d : String) (e : List Char) (v : List Char) (h : d.toList = "\t\t\t".toList ++ e) :
    optional d v = tabbed ([(e, v)].filter (fun x => x.2 ≠ [])) := by
  unfold optional tabbed
  by_cases hv : v = []
  · subst hv
    rfl
  · rw [if_pos hv, h]
    simp [hv]

theorem tabbed_append (a b : List (List Char × List Char)) : tabbed (a ++ b) = tabbed a ++ tabbed b := List.map_append

/-- C163.  The extension blocks of an item are shown in order, counted from 1, each with its values. -/
theorem C163_extensions (env : Env) (l : List Extension) :
    Numbered "\t\tExtension block: ".toList (fun x => .ok (tabbed (extensionValues env x))) l (render (writeExtensions env 0 l)) := by
  have one : ∀ n x, writeExtension env n x =
      .text ("\t\tExtension block: ".toList ++ dec (n + 1) ++ "\n".toList) :: tabbed (extensionValues env x) := by
    intro n x
    unfold writeExtension
    cases x with
    | other signature => rfl
    | file signature creation access longName localizedName reference =>
      dsimp only
      rw [optional_filter _ "Localized name".toList _ (by decide), extensionValues, tabbed_append, tabbed_append]
      congr 1
      congr 1
      cases reference <;> rfl
  refine ⟨l.map (fun x => tabbed (extensionValues env x)), by simp, fun i hi => (by simp [List.getD_eq_getElem?_getD, hi]), ?_⟩
  have key : ∀ (l : List Extension) n, render (writeExtensions env n l) = (List.range l.length).flatMap (fun i =>
      "\t\tExtension block: ".toList ++ dec (n + i + 1) ++ "\n".toList ++
        render ((l.map (fun x => tabbed (extensionValues env x))).getD i [])) := by
    intro l
    induction l with
    | nil => intro n; rfl
    | cons x l ih =>
      intro n
      rw [writeExtensions, render_append, one, ih (n + 1), List.length_cons, List.range_succ_eq_map, List.flatMap_cons,
        List.flatMap_map]
      simp only [Nat.add_zero, List.map_cons, List.getD_cons_zero, List.getD_cons_succ, Nat.succ_eq_add_one]
      congr 1
      apply congrArg (fun f => List.flatMap f (List.range l.length))
      funext i
      rw [show n + 1 + i + 1 = n + (i + 1) + 1 by omega]
  rw [key l 0]
  simp only [Nat.zero_add]

/-- C163.  What is shown of an item: its type, its delegate folder, the values of its type or the properties of its store, and the
extension blocks.  The attribute flags of a file are those of `C163_attributes`. -/
theorem C163_item (env : Env) (item : Item) (w : List Write) (h : writeItem env item = .ok w) :
    ∃ middle, render w = writeValue "\t\t\tItem type".toList item.kind.name ++
      (if item.delegate = [] then [] else writeValue "\t\t\tDelegate folder".toList item.delegate) ++ render middle ++
      render (writeExtensions env 0 item.extensions) ++ "\n".toList ∧
      (match item.kind with
        | .users store => writeStore env store = .ok middle
        | .file .. => (middle.filter (fun x => match x with | .value d _ => d ≠ "\t\t\tFile attribute flags".toList | _ => true)) =
            tabbed (itemValues env item.kind)
        | k => middle = tabbed (itemValues env k)) := by
  unfold writeItem at h
  cases hk : writeKind env item.kind with
  | error e => rw [hk] at h; cases h
  | ok middle =>
    rw [hk] at h
    simp only [Except.ok.injEq] at h
    refine ⟨middle, ?_, ?_⟩
    · rw [← h]
      have e : ∀ (x v z : List Char) (a b c : List Write), render (Write.value x v :: (a ++ b ++ c ++ [Write.text z])) =
          writeValue x v ++ render a ++ render b ++ render c ++ z := by
        intro x v z a b c
        simp [render, Write.render]
      rw [e]
      congr 4
      unfold optional
      by_cases hd : item.delegate = []
      · simp [hd, render]
      · rw [if_pos hd, if_neg hd]
        simp [render, Write.render]
    · cases hi : item.kind with
      | users store => rw [hi] at hk; exact hk
      | network location description comments =>
        rw [hi] at hk
        simp only [writeKind, Except.ok.injEq] at hk
        rw [← hk, optional_filter _ "Description".toList _ (by decide), optional_filter _ "Comments".toList _ (by decide),
          ← tabbed_append, ← List.filter_append]
        rfl
      | volume name identifier folder =>
        rw [hi] at hk
        simp only [writeKind, Except.ok.injEq] at hk
        rw [← hk, optional_filter _ "Volume name".toList _ (by decide), optional_filter _ "Volume identifier".toList _ (by decide),
          optional_filter _ "Volume shell folder identifier".toList _ (by decide),
          ← tabbed_append, ← tabbed_append, ← List.filter_append, ← List.filter_append]
        rfl
      | _ =>
        rw [hi] at hk
        simp only [writeKind, Except.ok.injEq] at hk
        rw [← hk]
        rfl

/-- C163.  The properties of a store are shown in order: with the set and the name or number of the entry, the name that is known for
these, and the type with the value. -/
theorem C163_store (env : Env) (store : List PropertySet) (w : List Write) (h : writeStore env store = .ok w) :
    ∃ values : Property → List Char, (∀ s ∈ store, ∀ p ∈ s.records, propertyValue env p = .ok (values p)) ∧
      render w = store.flatMap (fun s => s.records.flatMap (fun p =>
        let key := "{".toList ++ s.identifier ++ "}/".toList ++ (if p.entryName = [] then dec p.entryType else p.entryName)
        "\t\tProperty: ".toList ++ key ++ " (".toList ++ (match env.keys key with | some n => n | none => "Unknown".toList) ++
          ")\n".toList ++ writeValue ("\t\t\tValue (0x".toList ++ hexw 4 p.valueType ++ ")".toList) (values p))) := by
  have all : ∀ {α : Type} (f : α → Res (List Write)) (l : List α) (w : List Write), writeAll f l = .ok w →
      ∀ g : α → List Char, (∀ a ∈ l, ∀ x, f a = .ok x → render x = g a) → render w = l.flatMap g ∧ ∀ a ∈ l, ∃ x, f a = .ok x := by
    intro α f l
    induction l with
    | nil =>
      intro w h g _
      simp only [writeAll, Except.ok.injEq] at h
      subst h
      exact ⟨rfl, by simp⟩
    | cons a l ih =>
      intro w h g hg
      rw [writeAll] at h
      cases ha : f a with
      | error e => rw [ha] at h; cases h
      | ok x =>
        rw [ha] at h
        dsimp only at h
        cases hl : writeAll f l with
        | error e => rw [hl] at h; cases h
        | ok y =>
          rw [hl] at h
          simp only [Except.ok.injEq] at h
          obtain ⟨i1, i2⟩ := ih y hl g (fun b hb => hg b (List.mem_cons_of_mem _ hb))
          refine ⟨?_, ?_⟩
          · rw [← h, render_append, hg a List.mem_cons_self x ha, i1]
            rfl
          · intro b hb
            rcases List.mem_cons.mp hb with rfl | hb
            · exact ⟨x, ha⟩
            · exact i2 b hb
  refine ⟨fun p => match propertyValue env p with | .ok v => v | .error _ => [], ?_, ?_⟩
  · intro s hs p hp
    have h1 := (all _ _ _ h (fun s => match writeAll (writeRecord env s.identifier) s.records with | .ok x => render x | .error _ => [])
      (fun a _ x hx => by rw [hx])).2 s hs
    obtain ⟨x, hx⟩ := h1
    have h2 := (all _ _ _ hx (fun p => match writeRecord env s.identifier p with | .ok x => render x | .error _ => [])
      (fun a _ x hx => by rw [hx])).2 p hp
    obtain ⟨y, hy⟩ := h2
    unfold writeRecord at hy
    cases hv : propertyValue env p with
    | error e => rw [hv] at hy; cases hy
    | ok v =>
      dsimp only
      rw [hv]
  · refine (all _ _ _ h _ (fun s _ x hx => (all _ _ _ hx _ (fun p _ y hy => ?_)).1)).1
    unfold writeRecord at hy
    cases hv : propertyValue env p with
    | error e => rw [hv] at hy; cases hy
    | ok v =>
      rw [hv] at hy
      simp only [Except.ok.injEq] at hy
      rw [← hy]
      dsimp only
      rw [hv]
      dsimp only
      have ek : propertyKey s.identifier p =
          "{".toList ++ s.identifier ++ "}/".toList ++ (if p.entryName = [] then dec p.entryType else p.entryName) := by
        unfold propertyKey
        by_cases hn : p.entryName = []
        · rw [if_neg (by simp [hn]), if_pos hn]
        · rw [if_pos hn, if_neg hn]
      rw [ek]
      generalize "{".toList ++ s.identifier ++ "}/".toList ++ (if p.entryName = [] then dec p.entryType else p.entryName) = key
      cases env.keys key <;> simp [render, Write.render]

/-- C163.  The value that is shown of a property, by its type. -/
theorem C163_values (env : Env) (p : Property) :
    (p.valueType ∈ [0x3, 0x13, 0x14, 0x15] → propertyValue env p = .ok (decInt p.integer)) ∧
    (p.valueType ∈ [0x8, 0x1e, 0x1f] → propertyValue env p = .ok p.string) ∧
    (p.valueType = 0xb → propertyValue env p = .ok (if p.boolean then "True".toList else "False".toList)) ∧
    (p.valueType = 0x40 → propertyValue env p = .ok (filetimeDate env p.filetime)) ∧
    (p.valueType = 0x48 → propertyValue env p = .ok p.guid) := by
  obtain ⟨t, i, f, s, b, g, n, e⟩ := p
  refine ⟨?_, ?_, ?_, ?_, ?_⟩
  · intro h
    simp only [List.mem_cons, List.not_mem_nil, or_false] at h
    rcases h with rfl | rfl | rfl | rfl <;> rfl
  · intro h
    simp only [List.mem_cons, List.not_mem_nil, or_false] at h
    rcases h with rfl | rfl | rfl <;> rfl
  · rintro rfl; rfl
  · rintro rfl; rfl
  · rintro rfl; rfl

/-- C163.  The data blocks that have a description are those of the documentation, with different ones. -/
theorem C163_descriptions :
    (∀ n, (blockDescriptions.lookup n).isSome ↔ 0xa0000001 ≤ n ∧ n ≤ 0xa000000c ∧ n ≠ 0xa000000a) ∧
      (blockDescriptions.map (·.2)).Nodup := by
  refine ⟨fun n => ?_, by decide +kernel⟩
  constructor
  · intro h
    have : n ∈ blockDescriptions.map (·.1) := by
      cases hl : blockDescriptions.lookup n with
      | none => rw [hl] at h; cases h
      | some d =>
        have key : ∀ (t : List (Nat × List Char)), t.lookup n = some d → n ∈ t.map (·.1) := by
          intro t
          induction t with
          | nil => intro h; cases h
          | cons x t ih =>
            intro h
            rw [List.lookup_cons] at h
            cases hx : n == x.1 with
            | true => rw [List.map_cons, eq_of_beq hx]; exact List.mem_cons_self
            | false => rw [hx] at h; exact List.mem_cons_of_mem _ (ih h)
        exact key _ hl
    have e : blockDescriptions.map (·.1) = [0xa0000001, 0xa0000002, 0xa0000003, 0xa0000004, 0xa0000005, 0xa0000006, 0xa0000007,
        0xa0000008, 0xa0000009, 0xa000000b, 0xa000000c] := rfl
    rw [e] at this
    simp only [List.mem_cons, List.not_mem_nil, or_false] at this
    omega
  · rintro ⟨h1, h2, h3⟩
    obtain ⟨k, rfl⟩ := Nat.exists_eq_add_of_le h1
    have hk : k < 12 := by omega
    have hk' : k ≠ 9 := by omega
    have : ∀ j < 12, j ≠ 9 → (blockDescriptions.lookup (0xa0000001 + j)).isSome := by decide
    exact this k hk hk'

/-- C163.  What is shown of a data block: its signature with the description, and for those with a location, a Darwin identifier or a
property store, that. -/
theorem C163_block (env : Env) (b : Block) (w : List Write) (h : writeBlock env b = .ok w) :
    ∃ middle, render w = writeValue "\t\tSignature".toList ("0x".toList ++ hexw 8 b.signature ++
      (match blockDescriptions.lookup b.signature with | some d => " (".toList ++ d ++ ")".toList | none => [])) ++ render middle ++
        "\n".toList ∧
      (b.signature ∈ [0xa0000001, 0xa0000007] → middle = [.value "\t\tString".toList b.path]) ∧
      (b.signature = 0xa0000006 → middle = [.value "\t\tString".toList b.string]) ∧
      (b.signature = 0xa0000009 → writeStore env b.store = .ok middle) ∧
      (b.signature ∉ [0xa0000001, 0xa0000006, 0xa0000007, 0xa0000009] → middle = []) := by
  have e : ∀ (x v z : List Char) (m : List Write), render (Write.value x v :: (m ++ [Write.text z])) = writeValue x v ++ render m ++ z := by
    intro x v z m
    simp [render, Write.render]
  have es : (match blockDescriptions.lookup b.signature with
      | some d => "0x".toList ++ hexw 8 b.signature ++ " (".toList ++ d ++ ")".toList
      | none => "0x".toList ++ hexw 8 b.signature) = "0x".toList ++ hexw 8 b.signature ++
        (match blockDescriptions.lookup b.signature with | some d => " (".toList ++ d ++ ")".toList | none => []) := by
    cases blockDescriptions.lookup b.signature with
    | none => simp
    | some d => simp
  unfold writeBlock at h
  dsimp only at h
  rw [es] at h
  simp only [List.mem_cons, List.not_mem_nil, or_false]
  by_cases h1 : b.signature = 0xa0000001 ∨ b.signature = 0xa0000007
  · rw [if_pos h1] at h
    simp only [Except.ok.injEq] at h
    exact ⟨[.value "\t\tString".toList b.path], by rw [← h]; exact e _ _ _ [_], fun _ => rfl, fun h => by omega, fun h => by omega,
      fun h => by omega⟩
  rw [if_neg h1] at h
  by_cases h2 : b.signature = 0xa0000006
  · rw [if_pos h2] at h
    simp only [Except.ok.injEq] at h
    exact ⟨[.value "\t\tString".toList b.string], by rw [← h]; exact e _ _ _ [_], fun h => absurd h h1, fun _ => rfl,
      fun h => by omega, fun h => by omega⟩
  rw [if_neg h2] at h
  by_cases h3 : b.signature = 0xa0000009
  · rw [if_pos h3] at h
    cases hs : writeStore env b.store with
    | error e => rw [hs] at h; cases h
    | ok m =>
      rw [hs] at h
      simp only [Except.ok.injEq] at h
      exact ⟨m, by rw [← h]; exact e _ _ _ _, fun h => absurd h h1, fun h => absurd h h2, fun _ => rfl, fun h => by omega⟩
  · rw [if_neg h3] at h
    simp only [Except.ok.injEq] at h
    exact ⟨[], by rw [← h]; exact e _ _ _ [], fun h => absurd h h1, fun h => absurd h h2, fun h => absurd h h3, fun _ => rfl⟩

/-! ## Dates -/

/-- What is asked of the texts of dates: two characters, of which the first is no N and the second no x. -/
def DateTexts (f : Nat → Option (List Char)) : Prop := ∀ v s, f v = some s → ∃ a b r, s = a :: b :: r ∧ a ≠ 'N' ∧ b ≠ 'x'

/-- C163.  A date is shown as not set exactly if it is 0, as never exactly if it is the maximum, and else, where the library has a
text, as that. -/
theorem C163_filetime (env : Env) (h : DateTexts env.filetime) (v : Nat) :
    (filetimeDate env v = "Not set (0)".toList ↔ v = 0) ∧
      (filetimeDate env v = "Never (0x7fffffffffffffff)".toList ↔ v = 0x7fffffffffffffff) ∧
      (v ≠ 0 → v ≠ 0x7fffffffffffffff → ∀ s, env.filetime v = some s → filetimeDate env v = s ++ " UTC".toList) ∧
      (v ≠ 0 → v ≠ 0x7fffffffffffffff → env.filetime v = none → filetimeDate env v = "0x".toList ++ hexw 8 v) := by
  unfold filetimeDate
  by_cases h0 : v = 0
  · rw [if_pos h0]
    exact ⟨by simp [h0], by subst h0; decide, fun k => absurd h0 k, fun k => absurd h0 k⟩
  rw [if_neg h0]
  by_cases h1 : v = 0x7fffffffffffffff
  · rw [if_pos h1]
    exact ⟨by subst h1; decide, by simp [h1], fun _ k => absurd h1 k, fun _ k => absurd h1 k⟩
  rw [if_neg h1]
  cases hs : env.filetime v with
  | none =>
    refine ⟨⟨fun k => ?_, fun k => absurd k h0⟩, ⟨fun k => ?_, fun k => absurd k h1⟩, fun _ _ s k => (by cases k), fun _ _ _ => rfl⟩
    · have := congrArg List.head? k
      simp at this
    · have := congrArg List.head? k
      simp at this
  | some s =>
    obtain ⟨a, b, r, rfl, ha, hb⟩ := h v s hs
    dsimp only
    rw [if_neg (by simp)]
    refine ⟨⟨fun k => ?_, fun k => absurd k h0⟩, ⟨fun k => ?_, fun k => absurd k h1⟩, ?_, fun _ _ k => (by cases k)⟩
    · exact absurd (by simpa using congrArg List.head? k) ha
    · exact absurd (by simpa using congrArg List.head? k) ha
    · intro _ _ s' hs'
      simp only [Option.some.injEq] at hs'
      rw [← hs']

/-- C163.  The same of dates of FAT, for which there is no maximum. -/
theorem C163_fat (env : Env) (h : DateTexts env.fat) (v : Nat) :
    (fatDate env v = "Not set (0)".toList ↔ v = 0) ∧ (v ≠ 0 → ∀ s, env.fat v = some s → fatDate env v = s) ∧
      (v ≠ 0 → env.fat v = none → fatDate env v = "0x".toList ++ hexw 4 v) := by
  unfold fatDate
  by_cases h0 : v = 0
  · rw [if_pos h0]
    exact ⟨by simp [h0], fun k => absurd h0 k, fun k => absurd h0 k⟩
  rw [if_neg h0]
  cases hs : env.fat v with
  | none =>
    refine ⟨⟨fun k => ?_, fun k => absurd k h0⟩, fun _ s k => (by cases k), fun _ _ => rfl⟩
    have := congrArg List.head? k
    simp at this
  | some s =>
    obtain ⟨a, b, r, rfl, ha, hb⟩ := h v s hs
    dsimp only
    rw [if_neg (by simp)]
    refine ⟨⟨fun k => ?_, fun k => absurd k h0⟩, ?_, fun _ k => (by cases k)⟩
    · exact absurd (by simpa using congrArg List.head? k) ha
    · intro _ s' hs'
      simp only [Option.some.injEq] at hs'
      rw [← hs']

/-- C163.  Different dates are shown differently, if the library has different texts for these. -/
theorem C163_filetime_injective (env : Env) (h : DateTexts env.filetime)
    (hi : ∀ v w s, env.filetime v = some s → env.filetime w = some s → v = w) (v w : Nat)
    (he : filetimeDate env v = filetimeDate env w) : v = w := by
  obtain ⟨v1, v2, v3, v4⟩ := C163_filetime env h v
  obtain ⟨w1, w2, w3, w4⟩ := C163_filetime env h w
  by_cases a0 : v = 0
  · rw [a0]; exact (w1.mp (by rw [← he]; exact v1.mpr a0)).symm
  by_cases b0 : w = 0
  · rw [b0]; exact v1.mp (by rw [he]; exact w1.mpr b0)
  by_cases a1 : v = 0x7fffffffffffffff
  · rw [a1]; exact (w2.mp (by rw [← he]; exact v2.mpr a1)).symm
  by_cases b1 : w = 0x7fffffffffffffff
  · rw [b1]; exact v2.mp (by rw [he]; exact w2.mpr b1)
  have hx : ∀ x y s, env.filetime x = some s → s ++ " UTC".toList ≠ "0x".toList ++ hexw 8 y := by
    intro x y s hs k
    obtain ⟨a, b, r, rfl, -, hb⟩ := h x s hs
    have := congrArg (fun l => (l.drop 1).head?) k
    simp at this
    exact hb this
  cases hv : env.filetime v with
  | none =>
    rw [v4 a0 a1 hv] at he
    cases hw : env.filetime w with
    | none => rw [w4 b0 b1 hw] at he; exact hexw_injective 8 v w (List.append_cancel_left he)
    | some s => rw [w3 b0 b1 s hw] at he; exact absurd he.symm (hx w v s hw)
  | some s =>
    rw [v3 a0 a1 s hv] at he
    cases hw : env.filetime w with
    | none => rw [w4 b0 b1 hw] at he; exact absurd he (hx v w s hv)
    | some t =>
      rw [w3 b0 b1 t hw] at he
      have := List.append_cancel_right he
      exact hi v w s hv (this ▸ hw)

example : DateTexts (fun _ => some "2012-03-15 21:16:09".toList) := fun v s h => by
  simp only [Option.some.injEq] at h
  exact ⟨'2', '0', "12-03-15 21:16:09".toList, h.symm, by decide, by decide⟩

/-- C163, as a user reads it: the shortcuts of a jump list are shown, whatever properties they have. -/
def C163_shown_claim : Prop := ∀ (env : Env) (l : List Shortcut), ∃ w, writeFile env l = .ok w

/-- A shortcut with a property of a type. -/
def withProperty (t : Nat) : Shortcut :=
  ⟨0, 0, 0, 0, 0, 0, 1, 0, 0, [], [], [], [], [], none,
    [⟨0xa0000009, [], [], [⟨"x".toList, [⟨t, 0, 0, [], false, [], [], 2⟩]⟩]⟩]⟩

/-- C163.  The claim is false: a property of one shortcut that is a double, for example, ends the script with a runtime error. -/
theorem C163_shown_claim_false : ¬ C163_shown_claim := by
  intro h
  have := (C163_shown ⟨fun _ => none, fun _ => none, fun _ => none⟩ [withProperty 5]).1.mp (h _ _)
    (withProperty 5) (by simp) ⟨5, 0, 0, [], false, [], [], 2⟩ (by simp [propertiesOf, storesOf, withProperty])
  revert this
  unfold Supported
  decide

example : ∀ p ∈ propertiesOf (withProperty 0x1f), Supported p.valueType := by
  intro p hp
  simp [propertiesOf, storesOf, withProperty] at hp
  subst hp
  exact .inl (by decide)

/-- The data flags that are shown, by bit. -/
def flagLines : List (Nat × List Char) :=
  [(0, "\t\tContains a link target identifier\n".toList), (2, "\t\tContains a description string\n".toList),
    (3, "\t\tContains a relative path string\n".toList), (4, "\t\tContains a working directory string\n".toList),
    (5, "\t\tContains a command line arguments string\n".toList), (6, "\t\tContains an icon location string\n".toList),
    (9, "\t\tContains an environment variables block\n".toList), (14, "\t\tContains an icon location block\n".toList),
    (18, "\t\tContains no distributed link tracking data block\n".toList)]

/-- C163.  The lines of the data flags are those of the bits that are set. -/
theorem C163_flags (f : Nat) :
    writeFlags f = (flagLines.filter (fun x => f.testBit x.1)).map (fun x => Write.text x.2) := by
  have key : ∀ k, (f &&& 2 ^ k ≠ 0) = (f.testBit k = true) := by
    intro k
    rw [Nat.and_two_pow]
    cases f.testBit k <;> simp
  unfold writeFlags flagLines
  have step : ∀ k (t : List Char) (l : List (Nat × List Char)),
      (((k, t) :: l).filter (fun x => f.testBit x.1)).map (fun x => Write.text x.2) =
        (if f &&& 2 ^ k ≠ 0 then [Write.text t] else []) ++ (l.filter (fun x => f.testBit x.1)).map (fun x => Write.text x.2) := by
    intro k t l
    rw [List.filter_cons]
    simp only [key]
    cases f.testBit k <;> simp
  rw [step, step, step, step, step, step, step, step, step, List.filter_nil, List.map_nil, List.append_nil]
  simp only [List.append_assoc]
  rfl

/-- C163.  The command line arguments of a shortcut are not shown. -/
theorem C163_arguments (env : Env) (s : Shortcut) (arguments : List Char) :
    writeShortcut env { s with arguments := arguments } = writeShortcut env s := rfl

/-! ## File references and flags -/

/-- C163, as a user reads it: a file reference with a sequence number is shown as its entry and its sequence number. -/
def C163_reference_claim : Prop :=
  ∀ entry sequence, entry < 2 ^ 48 → 0 < sequence → sequence < 2 ^ 16 →
    fileReference (sequence * 2 ^ 48 + entry) = dec entry ++ "-".toList ++ dec sequence

theorem reference_parts (entry sequence : Nat) (h : entry < 2 ^ 48) :
    (sequence * 2 ^ 48 + entry) &&& 0xffffffffffff = entry ∧ (sequence * 2 ^ 48 + entry) >>> 48 = sequence := by
  constructor
  · rw [show (0xffffffffffff : Nat) = 2 ^ 48 - 1 from rfl, Nat.and_two_pow_sub_one_eq_mod]
    omega
  · rw [Nat.shiftRight_eq_div_pow]
    omega

theorem fileReference_small (n : Nat) (h : n ≤ 2 ^ 48) : fileReference n = "0x".toList ++ hexw 4 n := by
  unfold fileReference
  rw [if_neg (by omega)]

/-- C163.  The claim is false of the reference of entry 0 with sequence number 1, that of the master file table itself. -/
theorem C163_reference_claim_false : ¬ C163_reference_claim := by
  intro h
  have h1 := h 0 1 (by omega) (by omega) (by omega)
  rw [fileReference_small _ (by omega)] at h1
  revert h1
  decide +kernel

/-- C163.  It is the only one. -/
theorem C163_reference_partial (entry sequence : Nat) (he : entry < 2 ^ 48) (hs : 0 < sequence) (h : ¬ (entry = 0 ∧ sequence = 1)) :
    fileReference (sequence * 2 ^ 48 + entry) = dec entry ++ "-".toList ++ dec sequence := by
  obtain ⟨h1, h2⟩ := reference_parts entry sequence he
  unfold fileReference
  rw [if_pos (by omega), h1, h2]

/-- C163.  Different file references are shown differently. -/
theorem C163_reference_injective (m n : Nat) (h : fileReference m = fileReference n) : m = n := by
  have hdash : ∀ n w, '-' ∉ "0x".toList ++ hexw w n := by
    intro n w hm
    rcases List.mem_append.mp hm with hm | hm
    · revert hm; decide
    · exact hexw_notMem w n '-' (by decide) hm
  have hdec : ∀ n, '-' ∉ dec n := by
    intro n hm
    obtain ⟨d, hd, he⟩ := mem_digits 10 n (by omega) '-' hm
    exact digitChar_ne d (by omega) '-' (by decide) he.symm
  unfold fileReference at h
  by_cases h1 : m > 0x1000000000000 <;> by_cases h2 : n > 0x1000000000000
  · rw [if_pos h1, if_pos h2] at h
    have hs := congrArg (splitOn '-') h
    rw [show "-".toList = ['-'] from rfl] at hs
    have e : ∀ a b : List Char, '-' ∉ a → '-' ∉ b → splitOn '-' (a ++ ['-'] ++ b) = [a, b] := by
      intro a b ha hb
      rw [List.append_assoc, List.cons_append, List.nil_append, splitOn_append_sep _ _ _ ha, splitOn_of_notMem _ _ hb]
    rw [e _ _ (hdec _) (hdec _), e _ _ (hdec _) (hdec _)] at hs
    simp only [List.cons.injEq, and_true] at hs
    have k1 := dec_injective _ _ hs.1
    have k2 := dec_injective _ _ hs.2
    rw [show (0xffffffffffff : Nat) = 2 ^ 48 - 1 from rfl, Nat.and_two_pow_sub_one_eq_mod, Nat.and_two_pow_sub_one_eq_mod] at k1
    rw [Nat.shiftRight_eq_div_pow, Nat.shiftRight_eq_div_pow] at k2
    have d1 := Nat.div_add_mod m (2 ^ 48)
    have d2 := Nat.div_add_mod n (2 ^ 48)
    rw [k1, k2] at d1
    omega
  · rw [if_pos h1, if_neg h2] at h
    exact absurd (h ▸ (by simp : '-' ∈ dec (m &&& 0xffffffffffff) ++ "-".toList ++ dec (m >>> 48))) (hdash n 4)
  · rw [if_neg h1, if_pos h2] at h
    exact absurd (h.symm ▸ (by simp : '-' ∈ dec (n &&& 0xffffffffffff) ++ "-".toList ++ dec (n >>> 48))) (hdash m 4)
  · rw [if_neg h1, if_neg h2] at h
    exact hexw_injective 4 m n (List.append_cancel_left h)

/-- What a number in hexadecimal with its prefix is read as. -/
def readHex (s : List Char) : Option Nat := if s.take 2 = "0x".toList then parseDigits 16 (s.drop 2) else none

/-- C163, as a user reads it: the attribute flags that are shown are those of the shell item. -/
def C163_attributes_claim : Prop :=
  ∀ (env : Env) size modification flags name w, flags < 2 ^ 32 → writeKind env (.file size modification flags name) = .ok w →
    ∃ v, Write.value "\t\t\tFile attribute flags".toList v ∈ w ∧ readHex v = some flags

/-- C163.  The claim is false of all flags: what is shown is the flags with 0x800000000. -/
theorem C163_attributes (env : Env) (size modification flags : Nat) (name : List Char) (w : List Write) (hf : flags < 2 ^ 32)
    (h : writeKind env (.file size modification flags name) = .ok w) (v : List Char)
    (hv : Write.value "\t\t\tFile attribute flags".toList v ∈ w) : readHex v = some (0x800000000 + flags) := by
  have e : v = "0x08".toList ++ hexw 8 flags := by
    have hw : [Write.value "\t\t\tFile size".toList (dec size), .value "\t\t\tModification time".toList (fatDate env modification),
      .value "\t\t\tFile attribute flags".toList ("0x08".toList ++ hexw 8 flags), .value "\t\t\tName".toList name] = w :=
      Except.ok.inj h
    rw [← hw] at hv
    simp only [List.mem_cons, Write.value.injEq, List.not_mem_nil, or_false] at hv
    rcases hv with hv | hv | hv | hv
    · exact absurd hv.1 (by decide)
    · exact absurd hv.1 (by decide)
    · exact hv.2
    · exact absurd hv.1 (by decide)
  rw [e]
  have e2 : readHex ("0x08".toList ++ hexw 8 flags) = parseDigits 16 ("08".toList ++ hexw 8 flags) := rfl
  rw [e2]
  have hl : (hexw 8 flags).length = 8 := zpad_length 8 _ (digits_length_le 16 flags 7 (by omega) (by omega))
  have hp : parseDigits 16 (hexw 8 flags) = some flags := parse_zpad_digits 16 flags 8 (by omega) (by omega)
  rw [parseDigits_eq _ _ (by simp), List.foldl_append]
  rw [parseDigits_eq _ _ (by intro h; rw [h] at hl; simp at hl)] at hp
  have shift : ∀ (s : List Char) (a b r : Nat), s.foldl (parseStep 16) (some a) = some r →
      s.foldl (parseStep 16) (some (a + b)) = some (r + b * 16 ^ s.length) := by
    intro s
    induction s with
    | nil => intro a b r h; simp at h ⊢; omega
    | cons c s ih =>
      intro a b r h
      rw [List.foldl_cons] at h ⊢
      have hn : ∀ t : List Char, t.foldl (parseStep 16) none = none := by
        intro t
        induction t with
        | nil => rfl
        | cons c t iht => rw [List.foldl_cons]; exact iht
      cases hd : digitVal c with
      | none =>
        have : parseStep 16 (some a) c = none := by simp [parseStep, hd]
        rw [this, hn] at h
        cases h
      | some d =>
        by_cases hlt : d < 16
        · have e1 : ∀ x, parseStep 16 (some x) c = some (x * 16 + d) := by
            intro x
            simp [parseStep, hd, hlt]
          rw [e1] at h ⊢
          have := ih (a * 16 + d) (b * 16) r h
          rw [show a * 16 + d + b * 16 = (a + b) * 16 + d by omega] at this
          rw [this, List.length_cons, Nat.pow_succ]
          congr 2
          rw [Nat.mul_assoc, Nat.mul_comm 16]
        · have : parseStep 16 (some a) c = none := by simp [parseStep, hd, hlt]
          rw [this, hn] at h
          cases h
  have := shift _ 0 8 flags hp
  rw [hl] at this
  have e3 : "08".toList.foldl (parseStep 16) (some 0) = some (0 + 8) := by decide
  rw [e3, this]
  congr 1
  omega

theorem C163_attributes_claim_false : ¬ C163_attributes_claim := by
  intro h
  obtain ⟨v, h1, h2⟩ := h ⟨fun _ => none, fun _ => none, fun _ => none⟩ 0 0 0x20 [] _ (by omega) rfl
  have := C163_attributes ⟨fun _ => none, fun _ => none, fun _ => none⟩ 0 0 0x20 [] _ (by omega) rfl v h1
  rw [h2] at this
  cases this

/-! ## C164: one column for the values, with indentation -/

theorem untab_plain (s : List Char) (h : '\t' ∉ s) : untab s = s := by
  induction s with
  | nil => rfl
  | cons c s ih =>
    simp only [List.mem_cons, not_or] at h
    have : untab (c :: s) = (if c = '\t' then List.replicate 8 ' ' else [c]) ++ untab s := rfl
    rw [this, if_neg (fun e => h.1 e.symm), ih h.2]
    rfl

theorem untab_indented (k : Nat) (s : List Char) (h : '\t' ∉ s) : (untab (List.replicate k '\t' ++ s)).length = 8 * k + s.length := by
  induction k with
  | zero => simp [untab_plain s h]
  | succ k ih =>
    have : untab (List.replicate (k + 1) '\t' ++ s) = List.replicate 8 ' ' ++ untab (List.replicate k '\t' ++ s) := rfl
    rw [this, List.length_append, ih]
    simp
    omega

/-- C164.  With tabs only before the description, the colon is in column 72, or right after descriptions that are longer. -/
theorem C164_column_partial (k : Nat) (s value : List Char) (ht : '\t' ∉ s) :
    ∃ before, writeValue (List.replicate k '\t' ++ s) value = before ++ [':', ' '] ++ value ++ ['\n'] ∧
      List.replicate k '\t' ++ s <+: before ∧ column 0 before = max 72 (8 * k + s.length) := by
  refine ⟨_, rfl, List.prefix_append _ _, ?_⟩
  have hc : column 0 (List.replicate k '\t' ++ s) = 8 * k + s.length := by
    rw [column_append, column_plain _ s ht]
    cases k with
    | zero => rfl
    | succ k =>
      rw [column_tabs _ _ (by omega)]
      omega
  rw [untab_indented k s ht, column_append, hc]
  by_cases h : 9 - (8 * k + s.length) / 8 = 0
  · rw [h]
    simp only [List.replicate_zero, column]
    omega
  · rw [column_tabs _ _ (by omega)]
    omega

/-- C164, as a user reads it: the colon is in one column for all descriptions that are not longer. -/
def C164_column_claim : Prop :=
  ∀ description value : List Char, '\n' ∉ description → column 0 description ≤ 72 →
    ∃ before, writeValue description value = before ++ [':', ' '] ++ value ++ ['\n'] ∧ column 0 before = 72

/-- C164.  The claim is false: tabs in a description are counted as eight columns, wherever they are. -/
theorem C164_column_claim_false : ¬ C164_column_claim := by
  intro h
  obtain ⟨before, h1, h2⟩ := h "abcdefg\tx".toList [] (by decide) (by decide)
  have e : writeValue "abcdefg\tx".toList [] = "abcdefg\tx\t\t\t\t\t\t\t".toList ++ [':', ' '] ++ [] ++ ['\n'] := by decide
  rw [e] at h1
  simp only [List.append_assoc] at h1
  rw [← List.append_cancel_right h1] at h2
  revert h2
  decide

/-- C164.  The lines of two descriptions without a colon that do not end with a tab are different if the descriptions or the values
are. -/
theorem C164_injective (d d' v v' : List Char) (h : ':' ∉ d) (h' : ':' ∉ d') (ht : d.getLast? ≠ some '\t')
    (ht' : d'.getLast? ≠ some '\t') (he : writeValue d v = writeValue d' v') : d = d' ∧ v = v' := by
  unfold writeValue at he
  have nc : ∀ (x : List Char) n, ':' ∉ x → ':' ∉ x ++ List.replicate n '\t' := by
    intro x n hx hm
    rcases List.mem_append.mp hm with hm | hm
    · exact hx hm
    · exact absurd (List.eq_of_mem_replicate hm) (by decide)
  generalize hn : 9 - (untab d).length / 8 = n at he
  generalize hn' : 9 - (untab d').length / 8 = n' at he
  have split : ∀ (a b r r' : List Char), ':' ∉ a → ':' ∉ b → a ++ ':' :: r = b ++ ':' :: r' → a = b ∧ r = r' := by
    intro a
    induction a with
    | nil =>
      intro b r r' _ hb hh
      cases b with
      | nil => simp at hh; exact ⟨rfl, hh⟩
      | cons y b =>
        simp only [List.nil_append, List.cons_append, List.cons.injEq] at hh
        exact absurd (hh.1 ▸ List.mem_cons_self) hb
    | cons x a ih =>
      intro b r r' ha hb hh
      cases b with
      | nil =>
        simp only [List.nil_append, List.cons_append, List.cons.injEq] at hh
        exact absurd (hh.1 ▸ List.mem_cons_self) ha
      | cons y b =>
        simp only [List.cons_append, List.cons.injEq] at hh
        obtain ⟨k1, k2⟩ := ih b r r' (fun hm => ha (List.mem_cons_of_mem _ hm)) (fun hm => hb (List.mem_cons_of_mem _ hm)) hh.2
        exact ⟨by rw [hh.1, k1], k2⟩
  have e : ∀ (x : List Char) n v, x ++ List.replicate n '\t' ++ ": ".toList ++ v ++ ['\n'] =
      (x ++ List.replicate n '\t') ++ ':' :: (' ' :: (v ++ ['\n'])) := by
    intro x n v
    simp
  rw [e, e] at he
  obtain ⟨h1, h2⟩ := split _ _ _ _ (nc d n h) (nc d' n' h') he
  simp only [List.cons.injEq, true_and] at h2
  refine ⟨?_, List.append_cancel_right h2⟩
  have strip : ∀ (x : List Char) n, x.getLast? ≠ some '\t' → (x ++ List.replicate n '\t').reverse.dropWhile (· = '\t') = x.reverse := by
    intro x n hx
    rw [List.reverse_append, List.reverse_replicate]
    have : ∀ n (y : List Char), y.head? ≠ some '\t' → (List.replicate n '\t' ++ y).dropWhile (· = '\t') = y := by
      intro n
      induction n with
      | zero =>
        intro y hy
        cases y with
        | nil => rfl
        | cons c y =>
          rw [List.replicate_zero, List.nil_append, List.dropWhile_cons, if_neg]
          intro hc
          apply hy
          simp at hc
          simp [hc]
      | succ n ih =>
        intro y hy
        rw [List.replicate_succ, List.cons_append, List.dropWhile_cons, if_pos (by simp)]
        exact ih y hy
    apply this
    rw [List.head?_reverse]
    exact hx
  have k := congrArg (fun s => (s.reverse.dropWhile (· = '\t')).reverse) h1
  simp only [strip d n ht, strip d' n' ht', List.reverse_reverse] at k
  exact k

/-- C164.  Not so with a tab at the end: "a" and "a" with a tab give the same line. -/
theorem C164_tab (v : List Char) : writeValue ['a'] v = writeValue ['a', '\t'] v := rfl

example : writeValue "\t\tFile size".toList "10".toList = "\t\tFile size\t\t\t\t\t\t: 10\n".toList := by decide

end Dtf.Shortcuts
