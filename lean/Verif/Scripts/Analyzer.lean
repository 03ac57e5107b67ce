import Verif.Formats.Props
import Verif.HexDump.Props
import Verif.DataFormat.Sized
import Verif.Fields
import Verif.Formats.Reading

/-!
# The analyzer of VHDX images (C171)

scripts/analyzer.py shows structures of a dtFabric definition by their members.  dtFabric is a parameter: what it knows of
the definitions by their names, whether it accepts a signature and whether it can decode a text.
-/

namespace Dtf.Analyzer
open Py Text DataFormat

abbrev Str := List Char

/-! ## Model -/

/-- The type indicators of data type definitions for which there is a format, and the others. -/
inductive Kind
  | float | integer | sequence | stream | string | uuid | other
deriving DecidableEq, Repr

/-- A member of a definition: its name and the kind of its data type. -/
structure Member where
  name : Str
  kind : Kind
deriving DecidableEq, Repr

/-- What dtFabric maps: an integer, the text of a floating-point number, the bytes of a stream, a text, the 16 bytes of an
UUID, a sequence or a structure object with the name of its class. -/
inductive Value
  | bytes (b : Bytes)
  | float (text : Str)
  | int (i : Int)
  | seq (l : List Value)
  | struct (name : Str) (attributes : List (Str × Value))
  | text (s : Str)
  | uuid (b : Bytes)

/-- The functions for formatting values. -/
inductive Callback
  | decimal | dump | float | hexadecimal8 | sequence | string | uuid
deriving DecidableEq, Repr

/-- `_VALUE_FORMAT_CALLBACKS` (scripts/analyzer.py 16-23). -/
def callbackOf : Kind → Option Callback
  | .float => some .float
  | .integer => some .decimal
  | .sequence => some .sequence
  | .stream => some .dump
  | .string => some .string
  | .uuid => some .uuid
  | .other => none

/-- `name.replace("_", " ").capitalize()`, of ASCII names. -/
def describe (name : Str) : Str :=
  match name.map (fun c => if c = '_' then ' ' else c) with
  | [] => []
  | c :: s => c.toUpper :: s.map Char.toLower

/-- `_DetermineDebugInfo` (scripts/analyzer.py 68-96), of the members of a definition. -/
def determine (members : List Member) : List (Str × Str × Callback) :=
  members.filterMap fun m =>
    (if "checksum".toList.isSuffixOf m.name ∨ "offset".toList.isSuffixOf m.name then some Callback.hexadecimal8
      else callbackOf m.kind).map (fun c => (m.name, describe m.name, c))

/-- `getattr(structure_object, attribute_name, None)`. -/
def getAttr (v : Value) (name : Str) : Option Value :=
  match v with
  | .struct _ as => as.lookup name
  | _ => none

/-- `element.__class__.__name__`. -/
def className : Value → Str
  | .bytes _ => "bytes".toList
  | .float _ => "float".toList
  | .int _ => "int".toList
  | .seq _ => "tuple".toList
  | .struct n _ => n
  | .text _ => "str".toList
  | .uuid _ => "UUID".toList

/-- `string.rstrip("\x00")` (data_format.py 478-487). -/
def stripped (s : Str) : Str := (s.reverse.dropWhile (fun c => c = Char.ofNat 0)).reverse

/-- `f"{uuid!s}"` of an UUID with the given bytes. -/
def uuidString (b : Bytes) : Str :=
  let hex := Formats.hexw 32 (beNat b)
  slice hex 0 8 ++ ['-'] ++ slice hex 8 12 ++ ['-'] ++ slice hex 12 16 ++ ['-'] ++ slice hex 16 20 ++ ['-'] ++ slice hex 20 32

/-- The debug information by name, latest first. -/
abbrev Cache := List (Str × List (Str × Str × Callback))

/-- A formatted value with whether there is a new line after the description; sequences are formatted by `f`.  Formats that
do not go with the value are errors; that of the members of a definition goes with their kind, but for those with the names
of checksums and offsets. -/
def formatted (f : Cache → List Value → Res Str × Cache) (c : Callback) (v : Value) (cache : Cache) : Res (Str × Bool) × Cache :=
  match c, v with
  | .hexadecimal8, .int i => (.ok (['0', 'x'] ++ Formats.hexInt 8 i, false), cache)
  | .hexadecimal8, .text _ => (.error .valueError, cache)
  | .hexadecimal8, .float _ => (.error .valueError, cache)
  | .decimal, .int i => (.ok (Formats.decInt i, false), cache)
  | .float, .float s => (.ok (s, false), cache)
  | .dump, .bytes b => (.ok (HexDump.dump b, true), cache)
  | .string, .text s => (.ok (stripped s, true), cache)
  | .uuid, .uuid b => (.ok (uuidString b, true), cache)
  | .sequence, .seq l =>
    match f cache l with
    | (.ok s, cache) => (.ok (s, true), cache)
    | (.error e, cache) => (.error e, cache)
  | _, _ => (.error .typeError, cache)

/-- The values of the attributes, formatted (data_format.py 501-516). -/
def attributes (f : Cache → List Value → Res Str × Cache) (v : Value) :
    List (Str × Str × Callback) → Cache → Res (List (Option Formats.Attribute)) × Cache
  | [], cache => (.ok [], cache)
  | (name, description, c) :: infos, cache =>
    match getAttr v name with
    | none => attributes f v infos cache
    | some x =>
      match formatted f c x cache with
      | (.error e, cache) => (.error e, cache)
      | (.ok (text, newLine), cache) =>
        match attributes f v infos cache with
        | (.error e, cache) => (.error e, cache)
        | (.ok as, cache) => (.ok (some ⟨some description, text, newLine⟩ :: as), cache)

/-- The elements of a sequence, each formatted by `f` (scripts/analyzer.py 107-119). -/
def elements (f : Cache → Value → Res Str × Cache) : Nat → Cache → List Value → Res Str × Cache
  | _, cache, [] => (.ok [], cache)
  | i, cache, v :: vs =>
    match f cache v with
    | (.error e, cache) => (.error e, cache)
    | (.ok text, cache) =>
      match elements f (i + 1) cache vs with
      | (.error e, cache) => (.error e, cache)
      | (.ok rest, cache) => (.ok ("Entry: ".toList ++ Formats.dec i ++ ['\n'] ++ text ++ rest), cache)

/-- The debug information of a definition, kept by its name (scripts/analyzer.py 135-138). -/
def information (members : Str → List Member) (cache : Cache) (name : Str) : List (Str × Str × Callback) × Cache :=
  match cache.lookup name with
  | some (i :: is) => (i :: is, cache)
  | _ => (determine (members name), (name, determine (members name)) :: cache)

/-- `_FormatDataTypeMap` with `_FormatSequence` (scripts/analyzer.py 98-140), on sequences of at most `depth` levels. -/
def formatMap (members : Str → List Member) : Nat → Cache → Str → Value → Res Str × Cache
  | 0, cache, _, _ => (.error .recursionError, cache)
  | depth + 1, cache, name, v =>
    let sequence := fun cache l =>
      match elements (fun cache v => formatMap members depth cache (className v) v) 0 cache l with
      | (.ok s, cache) => (.ok ('\n' :: s), cache)
      | (.error e, cache) => (.error e, cache)
    match information members cache name with
    | (infos, cache) =>
      match attributes sequence v infos cache with
      | (.error e, cache) => (.error e, cache)
      | (.ok as, cache) => (Formats.formatStructure as, cache)

/-- The definitions of vhdx.yaml, by name; others have no members. -/
def vhdxMembers (name : Str) : List Member :=
  if name = "file_information".toList then
    [⟨"signature".toList, .stream⟩, ⟨"creator".toList, .string⟩, ⟨"unknown1".toList, .stream⟩]
  else if name = "header".toList then
    [⟨"signature".toList, .stream⟩, ⟨"checksum".toList, .integer⟩, ⟨"sequence_number".toList, .integer⟩,
      ⟨"file_write_identifier".toList, .uuid⟩, ⟨"data_write_identifier".toList, .uuid⟩, ⟨"log_identifier".toList, .uuid⟩,
      ⟨"log_size".toList, .integer⟩, ⟨"log_offset".toList, .integer⟩, ⟨"unknown1".toList, .stream⟩]
  else if name = "region_table_entry".toList then
    [⟨"region_type_identifier".toList, .uuid⟩, ⟨"region_data_offset".toList, .integer⟩,
      ⟨"region_data_size".toList, .integer⟩, ⟨"is_required_flag".toList, .integer⟩]
  else if name = "region_table".toList then
    [⟨"signature".toList, .stream⟩, ⟨"checksum".toList, .integer⟩, ⟨"number_of_entries".toList, .integer⟩,
      ⟨"unknown1".toList, .integer⟩, ⟨"entries".toList, .sequence⟩]
  else []

/-- The bytes of an UUID in the order of its text: the first three fields are stored in little-endian. -/
def ordered (b : Bytes) : Bytes := (b.take 4).reverse ++ (slice b 4 6).reverse ++ (slice b 6 8).reverse ++ b.drop 8

/-- What dtFabric does with signatures and texts. -/
structure Env where
  accepts : Bytes → Bytes → Bool
  decode : Bytes → Option Str

/-- A little-endian number of the structure. -/
def number (b : Bytes) (start stop : Nat) : Value := .int (leNat (slice b start stop))

/-- `file_information` of vhdx.yaml. -/
def readInformation (env : Env) (data : Bytes) (off : Nat) : Res (Value × Bytes) :=
  match structAt (fixedMap 65536 id) data off with
  | .error e => .error e
  | .ok (b, _) =>
    if env.accepts "vhdxfile".toUTF8.toList (b.take 8) then
      match env.decode (slice b 8 520) with
      | none => .error .parseError
      | some s =>
        .ok (.struct "file_information".toList
          [("signature".toList, .bytes (b.take 8)), ("creator".toList, .text s), ("unknown1".toList, .bytes (b.drop 520))], b)
    else .error .parseError

/-- `header` of vhdx.yaml. -/
def readHeader (env : Env) (data : Bytes) (off : Nat) : Res (Value × Bytes) :=
  match structAt (fixedMap 4092 id) data off with
  | .error e => .error e
  | .ok (b, _) =>
    if env.accepts "head".toUTF8.toList (b.take 4) then
      .ok (.struct "header".toList
        [("signature".toList, .bytes (b.take 4)), ("checksum".toList, number b 4 8),
          ("sequence_number".toList, number b 8 16), ("file_write_identifier".toList, .uuid (ordered (slice b 16 32))),
          ("data_write_identifier".toList, .uuid (ordered (slice b 32 48))),
          ("log_identifier".toList, .uuid (ordered (slice b 48 64))), ("log_size".toList, number b 64 68),
          ("log_offset".toList, number b 68 76), ("unknown1".toList, .bytes (b.drop 76))], b)
    else .error .parseError

/-- `region_table_entry` of vhdx.yaml. -/
def entryOf (b : Bytes) : Value :=
  .struct "region_table_entry".toList
    [("region_type_identifier".toList, .uuid (ordered (b.take 16))), ("region_data_offset".toList, number b 16 24),
      ("region_data_size".toList, number b 24 28), ("is_required_flag".toList, number b 28 32)]

/-- As many entries as there are. -/
def entriesOf : Nat → Bytes → List Value
  | 0, _ => []
  | n + 1, b => entryOf (b.take 32) :: entriesOf n (b.drop 32)

/-- `region_table` of vhdx.yaml. -/
def readRegionTable (env : Env) (data : Bytes) (off : Nat) : Res (Value × Bytes) :=
  match structAt (sizedMap 16 (fun b => 32 * leNat (slice b 8 12)) id) data off with
  | .error e => .error e
  | .ok (b, _) =>
    if env.accepts "regi".toUTF8.toList (b.take 4) then
      .ok (.struct "region_table".toList
        [("signature".toList, .bytes (b.take 4)), ("checksum".toList, number b 4 8),
          ("number_of_entries".toList, number b 8 12), ("unknown1".toList, number b 12 16),
          ("entries".toList, .seq (entriesOf (leNat (slice b 8 12)) (b.drop 16)))], b)
    else .error .parseError

/-- `_AnalyzeDataTypeMap` in debug mode (scripts/analyzer.py 35-55), for a list of structures: what is read by the first
function is written before the next is read.  Before a structure is read its name and offset are written, and after that its
data (data_format.py 700-725).  Three levels suffice for vhdx.yaml. -/
def analyzeAll (data : Bytes) : List (Str × Nat × (Bytes → Nat → Res (Value × Bytes))) → Cache → Str × Option Err
  | [], _ => ([], none)
  | (name, off, read) :: rest, cache =>
    match read data off with
    | .error e => (Formats.readingText name off, some e)
    | .ok (v, b) =>
      let start := Formats.readingText name off ++ Formats.structureText name b
      match formatMap vhdxMembers 3 cache name v with
      | (.error e, _) => (start, some e)
      | (.ok text, cache) => (start ++ text ++ (analyzeAll data rest cache).1, (analyzeAll data rest cache).2)

/-- `ReadFileObject` (scripts/analyzer.py 150-164), in debug mode as the script uses it (scripts/analyzer.py 226). -/
def analyze (env : Env) (data : Bytes) : Str × Option Err :=
  analyzeAll data
    [("file_information".toList, 0, readInformation env), ("header".toList, 64 * 1024, readHeader env),
      ("header".toList, 2 * 64 * 1024, readHeader env), ("region_table".toList, 3 * 64 * 1024, readRegionTable env),
      ("region_table".toList, 4 * 64 * 1024, readRegionTable env)] []

/-! ## Specification -/

/-- The text of a member with a value; a sequence is shown by what its elements are shown as. -/
inductive Shows (element : Value → Str → Prop) (m : Member) : Value → Str → Prop
  | hexadecimal (i : Int) (h : "checksum".toList <:+ m.name ∨ "offset".toList <:+ m.name) :
      Shows element m (.int i) (Formats.formatValue (describe m.name) (['0', 'x'] ++ Formats.hexInt 8 i))
  | decimal (i : Int) (h : ¬ ("checksum".toList <:+ m.name ∨ "offset".toList <:+ m.name)) :
      Shows element m (.int i) (Formats.formatValue (describe m.name) (Formats.decInt i))
  | float (s : Str) (h : '\n' ∉ s) : Shows element m (.float s) (Formats.formatValue (describe m.name) s)
  | bytes (b : Bytes) : Shows element m (.bytes b) (describe m.name ++ [':', '\n'] ++ HexDump.dump b)
  | line (s : Str) (h : '\n' ∉ stripped s) : Shows element m (.text s) (Formats.formatValue (describe m.name) (stripped s))
  | lines (s : Str) (h : '\n' ∈ stripped s) : Shows element m (.text s) (describe m.name ++ [':', '\n'] ++ stripped s)
  | uuid (b : Bytes) : Shows element m (.uuid b) (Formats.formatValue (describe m.name) (uuidString b))
  | sequence (l : List Value) (texts : List Str) (h : List.Forall₂ element l texts) :
      Shows element m (.seq l) (describe m.name ++ [':', '\n', '\n'] ++
        (texts.zipIdx.map (fun x => "Entry: ".toList ++ Formats.dec x.2 ++ ['\n'] ++ x.1)).flatten)

/-- The members are mapped to values of their kinds, and none but integers are called checksums or offsets. -/
def Member.Fits (m : Member) : Value → Prop
  | .int _ => m.kind = .integer
  | v => ¬ ("checksum".toList <:+ m.name ∨ "offset".toList <:+ m.name) ∧
    match v with
    | .bytes _ => m.kind = .stream
    | .float s => m.kind = .float ∧ '\n' ∉ s
    | .seq _ => m.kind = .sequence
    | .text _ => m.kind = .string
    | .uuid _ => m.kind = .uuid
    | _ => False

/-! ## Proofs: any definition -/

/-- What is kept is what would be determined. -/
def Good (members : Str → List Member) (cache : Cache) : Prop :=
  ∀ name infos, cache.lookup name = some infos → infos = determine (members name)

theorem good_nil (members : Str → List Member) : Good members [] := fun _ _ h => by cases h

theorem information_good (members : Str → List Member) (cache : Cache) (h : Good members cache) (name : Str) :
    (information members cache name).1 = determine (members name) ∧ Good members (information members cache name).2 := by
  have hset : Good members ((name, determine (members name)) :: cache) := by
    intro n i hi
    rw [List.lookup_cons] at hi
    split at hi
    · rename_i hn
      rw [beq_iff_eq] at hn
      cases hi
      rw [hn]
    · exact h n i hi
  unfold information
  split
  · rename_i i is hl
    exact ⟨h _ _ hl, h⟩
  · exact ⟨rfl, hset⟩

theorem formatted_good (members : Str → List Member) (f : Cache → List Value → Res Str × Cache)
    (hf : ∀ c l, Good members c → (f c l).1 = (f [] l).1 ∧ Good members (f c l).2) (cb : Callback) (v : Value) (c : Cache)
    (h : Good members c) :
    (formatted f cb v c).1 = (formatted f cb v []).1 ∧ Good members (formatted f cb v c).2 := by
  cases cb <;> cases v <;> try exact ⟨rfl, h⟩
  rename_i l
  obtain ⟨h1, h2⟩ := hf c l h
  unfold formatted
  dsimp only
  generalize f c l = r at h1 h2
  generalize f [] l = r' at h1
  obtain ⟨a, b⟩ := r
  obtain ⟨a', b'⟩ := r'
  dsimp only at h1 h2
  subst h1
  cases a <;> exact ⟨rfl, h2⟩

theorem attributes_good (members : Str → List Member) (f : Cache → List Value → Res Str × Cache)
    (hf : ∀ c l, Good members c → (f c l).1 = (f [] l).1 ∧ Good members (f c l).2) (v : Value)
    (infos : List (Str × Str × Callback)) (c : Cache) (h : Good members c) :
    (attributes f v infos c).1 = (attributes f v infos []).1 ∧ Good members (attributes f v infos c).2 := by
  have key : ∀ c c', Good members c → Good members c' →
      (attributes f v infos c).1 = (attributes f v infos c').1 ∧ Good members (attributes f v infos c).2 := by
    induction infos with
    | nil => intro c c' h _; exact ⟨rfl, h⟩
    | cons i infos ih =>
      intro c c' h h'
      obtain ⟨name, description, cb⟩ := i
      simp only [attributes]
      cases getAttr v name with
      | none => exact ih c c' h h'
      | some x =>
        dsimp only
        obtain ⟨e1, g1⟩ := formatted_good members f hf cb x c h
        obtain ⟨e2, g2⟩ := formatted_good members f hf cb x c' h'
        rw [← e2] at e1
        generalize formatted f cb x c = r at e1 g1
        generalize formatted f cb x c' = r' at e1 g2
        obtain ⟨a, b⟩ := r
        obtain ⟨a', b'⟩ := r'
        dsimp only at e1 g1 g2
        subst e1
        cases a with
        | error e => exact ⟨rfl, g1⟩
        | ok t =>
          obtain ⟨t, nl⟩ := t
          dsimp only
          obtain ⟨e3, g3⟩ := ih b b' g1 g2
          generalize attributes f v infos b = r at e3 g3
          generalize attributes f v infos b' = r' at e3
          obtain ⟨a, b⟩ := r
          obtain ⟨a', b'⟩ := r'
          dsimp only at e3 g3
          subst e3
          cases a <;> exact ⟨rfl, g3⟩
  exact key c [] h (good_nil members)

theorem elements_good (members : Str → List Member) (f : Cache → Value → Res Str × Cache)
    (hf : ∀ c v, Good members c → (f c v).1 = (f [] v).1 ∧ Good members (f c v).2) (l : List Value) (i : Nat) (c : Cache)
    (h : Good members c) :
    (elements f i c l).1 = (elements f i [] l).1 ∧ Good members (elements f i c l).2 := by
  have key : ∀ i c c', Good members c → Good members c' →
      (elements f i c l).1 = (elements f i c' l).1 ∧ Good members (elements f i c l).2 := by
    induction l with
    | nil => intro i c c' h _; exact ⟨rfl, h⟩
    | cons x l ih =>
      intro i c c' h h'
      simp only [elements]
      obtain ⟨e1, g1⟩ := hf c x h
      obtain ⟨e2, g2⟩ := hf c' x h'
      rw [← e2] at e1
      generalize f c x = r at e1 g1
      generalize f c' x = r' at e1 g2
      obtain ⟨a, b⟩ := r
      obtain ⟨a', b'⟩ := r'
      dsimp only at e1 g1 g2
      subst e1
      cases a with
      | error e => exact ⟨rfl, g1⟩
      | ok t =>
        dsimp only
        obtain ⟨e3, g3⟩ := ih (i + 1) b b' g1 g2
        generalize elements f (i + 1) b l = r at e3 g3
        generalize elements f (i + 1) b' l = r' at e3
        obtain ⟨a, b⟩ := r
        obtain ⟨a', b'⟩ := r'
        dsimp only at e3 g3
        subst e3
        cases a <;> exact ⟨rfl, g3⟩
  exact key i c [] h (good_nil members)

/-- The formatting of a sequence at a level. -/
def sequenceAt (members : Str → List Member) (depth : Nat) (cache : Cache) (l : List Value) : Res Str × Cache :=
  match elements (fun cache v => formatMap members depth cache (className v) v) 0 cache l with
  | (.ok s, cache) => (.ok ('\n' :: s), cache)
  | (.error e, cache) => (.error e, cache)

theorem formatMap_succ (members : Str → List Member) (depth : Nat) (cache : Cache) (name : Str) (v : Value) :
    formatMap members (depth + 1) cache name v =
      match attributes (sequenceAt members depth) v (information members cache name).1 (information members cache name).2 with
      | (.error e, cache) => (.error e, cache)
      | (.ok as, cache) => (Formats.formatStructure as, cache) := by
  rw [formatMap.eq_def]
  rfl

theorem sequenceAt_good (members : Str → List Member) (depth : Nat)
    (hm : ∀ c n v, Good members c → (formatMap members depth c n v).1 = (formatMap members depth [] n v).1 ∧
      Good members (formatMap members depth c n v).2) (c : Cache) (l : List Value) (hc : Good members c) :
    (sequenceAt members depth c l).1 = (sequenceAt members depth [] l).1 ∧ Good members (sequenceAt members depth c l).2 := by
  obtain ⟨e1, g1⟩ := elements_good members (fun cache v => formatMap members depth cache (className v) v)
    (fun c v hc => hm c (className v) v hc) l 0 c hc
  unfold sequenceAt
  generalize elements (fun cache v => formatMap members depth cache (className v) v) 0 c l = r at e1 g1
  generalize elements (fun cache v => formatMap members depth cache (className v) v) 0 [] l = r' at e1
  obtain ⟨a, b⟩ := r
  obtain ⟨a', b'⟩ := r'
  dsimp only at e1 g1
  subst e1
  cases a <;> exact ⟨rfl, g1⟩

theorem formatMap_good (members : Str → List Member) (depth : Nat) : ∀ (cache : Cache) (name : Str) (v : Value),
    Good members cache → (formatMap members depth cache name v).1 = (formatMap members depth [] name v).1 ∧
      Good members (formatMap members depth cache name v).2 := by
  induction depth with
  | zero => intro cache _ _ h; exact ⟨rfl, h⟩
  | succ depth ih =>
    intro cache name v h
    have hs := sequenceAt_good members depth ih
    obtain ⟨i1, i2⟩ := information_good members cache h name
    obtain ⟨j1, j2⟩ := information_good members [] (good_nil members) name
    obtain ⟨e1, g1⟩ := attributes_good members (sequenceAt members depth) hs v (determine (members name)) _ i2
    obtain ⟨e2, g2⟩ := attributes_good members (sequenceAt members depth) hs v (determine (members name)) _ j2
    rw [formatMap_succ, formatMap_succ, i1, j1]
    rw [← e2] at e1
    generalize attributes (sequenceAt members depth) v (determine (members name)) (information members cache name).2 = r at e1 g1
    generalize attributes (sequenceAt members depth) v (determine (members name)) (information members [] name).2 = r' at e1
    obtain ⟨a, b⟩ := r
    obtain ⟨a', b'⟩ := r'
    dsimp only at e1 g1
    subst e1
    cases a <;> exact ⟨rfl, g1⟩

/-- What a structure or an element is shown as. -/
def ShownAs (members : Str → List Member) (depth : Nat) (name : Str) (v : Value) (t : Str) : Prop :=
  (formatMap members depth [] name v).1 = .ok t

/-- C171.  What is kept of a definition does not change what is shown: a structure is shown alike after any others. -/
theorem C171_kept (members : Str → List Member) (before : List (Nat × Str × Value)) (depth : Nat) (name : Str) (v : Value) :
    (formatMap members depth (before.foldl (fun c x => (formatMap members x.1 c x.2.1 x.2.2).2) []) name v).1 =
      (formatMap members depth [] name v).1 := by
  have hg : ∀ c, Good members c → Good members (before.foldl (fun c x => (formatMap members x.1 c x.2.1 x.2.2).2) c) := by
    induction before with
    | nil => exact fun c h => h
    | cons x xs ih => exact fun c h => ih _ (formatMap_good members x.1 c x.2.1 x.2.2 h).2
  exact (formatMap_good members depth _ name v (hg [] (good_nil members))).1

theorem elements_shown (members : Str → List Member) (f : Cache → Value → Res Str × Cache) (P : Value → Str → Prop)
    (hf : ∀ c v, Good members c → Good members (f c v).2 ∧ ∀ t, (f c v).1 = .ok t → P v t) (l : List Value) (i : Nat) (c : Cache)
    (hc : Good members c) (s : Str) (h : (elements f i c l).1 = .ok s) :
    ∃ texts, List.Forall₂ P l texts ∧
      s = ((texts.zipIdx i).map (fun x => "Entry: ".toList ++ Formats.dec x.2 ++ ['\n'] ++ x.1)).flatten := by
  induction l generalizing i c s with
  | nil => cases h; exact ⟨[], .nil, rfl⟩
  | cons x l ih =>
    simp only [elements] at h
    obtain ⟨hg, hx⟩ := hf c x hc
    generalize f c x = r at h hx hg
    obtain ⟨a, b⟩ := r
    cases a with
    | error e => cases h
    | ok t =>
      dsimp only at h
      have hi := ih (i + 1) b hg
      generalize elements f (i + 1) b l = r at h hi
      obtain ⟨a, b⟩ := r
      cases a with
      | error e => cases h
      | ok rest =>
        obtain ⟨texts, h1, h2⟩ := hi rest rfl
        cases h
        refine ⟨t :: texts, .cons (hx t rfl) h1, ?_⟩
        rw [List.zipIdx_cons, List.map_cons, List.flatten_cons, ← h2]

theorem sequenceAt_shown (members : Str → List Member) (depth : Nat) (c : Cache) (hc : Good members c) (l : List Value) (s : Str)
    (h : (sequenceAt members depth c l).1 = .ok s) :
    ∃ texts, List.Forall₂ (fun e s => ShownAs members depth (className e) e s) l texts ∧
      s = '\n' :: (texts.zipIdx.map (fun x => "Entry: ".toList ++ Formats.dec x.2 ++ ['\n'] ++ x.1)).flatten := by
  have he := elements_shown members (fun cache v => formatMap members depth cache (className v) v)
    (fun e s => ShownAs members depth (className e) e s) (fun c v hc => by
      obtain ⟨h1, h2⟩ := formatMap_good members depth c (className v) v hc
      exact ⟨h2, fun t ht => by unfold ShownAs; rw [← h1]; exact ht⟩) l 0 c hc
  unfold sequenceAt at h
  generalize elements (fun cache v => formatMap members depth cache (className v) v) 0 c l = r at h he
  obtain ⟨a, b⟩ := r
  cases a with
  | error e => cases h
  | ok x =>
    obtain ⟨texts, h1, h2⟩ := he x rfl
    cases h
    exact ⟨texts, h1, by rw [← h2]⟩

/-- The members that are shown of a structure object. -/
def shownMembers (members : List Member) (v : Value) : List Member :=
  members.filter (fun m => (decide (m.kind ≠ .other ∨ "checksum".toList <:+ m.name ∨ "offset".toList <:+ m.name)) &&
    (getAttr v m.name).isSome)

theorem uuid_line (b : Bytes) : '\n' ∉ uuidString b := by
  have hx : ∀ i j, '\n' ∉ slice (Formats.hexw 32 (beNat b)) i j := fun i j hc => by
    unfold slice at hc
    exact Formats.hexw_notMem 32 _ '\n' (by decide) (List.mem_of_mem_take (List.mem_of_mem_drop hc))
  unfold uuidString
  dsimp only
  simp only [List.mem_append, not_or]
  have hy : '\n' ∉ ['-'] := by decide
  exact ⟨⟨⟨⟨⟨⟨⟨⟨hx _ _, hy⟩, hx _ _⟩, hy⟩, hx _ _⟩, hy⟩, hx _ _⟩, hy⟩, hx _ _⟩

theorem digits_line (b n : Nat) (hb : 2 ≤ b) (hb' : b ≤ 16) : '\n' ∉ digits b n := by
  intro hc
  obtain ⟨d, hd, hh⟩ := mem_digits b n hb '\n' hc
  have : ∀ d < 16, digitChar d ≠ '\n' := by decide
  exact this d (by omega) hh.symm

theorem decInt_line (i : Int) : '\n' ∉ Formats.decInt i := by
  have := digits_line 10 i.natAbs (by decide) (by decide)
  unfold Formats.decInt Formats.dec
  split
  · simp only [List.mem_cons, not_or]
    exact ⟨by decide, this⟩
  · exact this

theorem hexInt_line (i : Int) : '\n' ∉ ['0', 'x'] ++ Formats.hexInt 8 i := by
  have hz : ∀ w, '\n' ∉ zpad w (digits 16 i.natAbs) := fun w => Formats.hexw_notMem w i.natAbs '\n' (by decide)
  simp only [List.mem_append, not_or]
  refine ⟨by decide, ?_⟩
  unfold Formats.hexInt
  split
  · simp only [List.mem_cons, not_or]
    exact ⟨by decide, hz _⟩
  · exact hz _

theorem dump_lines (b : Bytes) : '\n' ∈ HexDump.dump b := by
  unfold HexDump.dump
  generalize HexDump.dumpLoop b.length 0 b false none = l
  induction l with
  | nil => decide
  | cons x l ih =>
    cases l with
    | nil => simp [join]
    | cons y l =>
      simp only [List.cons_append, join, List.mem_append] at ih ⊢
      exact .inr ih

theorem attribute_line (d s : Str) (b : Bool) (hs : '\n' ∉ s) :
    Formats.formatAttribute ⟨some d, s, b⟩ = .ok (Formats.formatValue d s) := by
  unfold Formats.formatAttribute
  dsimp only
  rw [if_neg hs]

theorem attribute_lines (d s : Str) (hs : '\n' ∈ s) : Formats.formatAttribute ⟨some d, s, true⟩ = .ok (d ++ [':', '\n'] ++ s) := by
  unfold Formats.formatAttribute
  dsimp only
  rw [if_pos hs]
  rfl

theorem hexadecimal_ok (f : Cache → List Value → Res Str × Cache) (x : Value) (c : Cache) (r : Str × Bool)
    (h : (formatted f .hexadecimal8 x c).1 = .ok r) : ∃ i, x = .int i ∧ r = (['0', 'x'] ++ Formats.hexInt 8 i, false) := by
  cases x <;> first | cases h; exact ⟨_, rfl, rfl⟩ | cases h

/-- The text of a member. -/
theorem formatted_shows (members : Str → List Member) (depth : Nat) (m : Member) (cb : Callback) (x : Value) (c : Cache)
    (hg : Good members c) (hfl : ∀ s, x = .float s → '\n' ∉ s)
    (hcb : (if "checksum".toList <:+ m.name ∨ "offset".toList <:+ m.name then some Callback.hexadecimal8
      else callbackOf m.kind) = some cb) (text : Str) (nl : Bool)
    (hf : (formatted (sequenceAt members depth) cb x c).1 = .ok (text, nl)) :
    ∃ block, Formats.formatAttribute ⟨some (describe m.name), text, nl⟩ = .ok block ∧
      Shows (fun e s => ShownAs members depth (className e) e s) m x block := by
  by_cases hs : "checksum".toList <:+ m.name ∨ "offset".toList <:+ m.name
  · rw [if_pos hs] at hcb
    cases hcb
    obtain ⟨i, rfl, hr⟩ := hexadecimal_ok _ _ _ _ hf
    cases hr
    exact ⟨_, attribute_line _ _ _ (hexInt_line i), .hexadecimal i hs⟩
  · rw [if_neg hs] at hcb
    unfold callbackOf at hcb
    cases hk : m.kind <;> rw [hk] at hcb
    · cases hcb
      cases x with
      | float y =>
        have hy := hfl y rfl
        cases hf
        exact ⟨_, attribute_line _ _ _ hy, .float _ hy⟩
      | _ => cases hf
    · cases hcb
      cases x with
      | int i => cases hf; exact ⟨_, attribute_line _ _ _ (decInt_line i), .decimal i hs⟩
      | _ => cases hf
    · cases hcb
      cases x with
      | seq l =>
        have hsh := sequenceAt_shown members depth c hg l
        unfold formatted at hf
        dsimp only at hf
        generalize sequenceAt members depth c l = r at hf hsh
        obtain ⟨a, b⟩ := r
        cases a with
        | error e => cases hf
        | ok s =>
          obtain ⟨texts, h1, h2⟩ := hsh s rfl
          cases hf
          refine ⟨_, attribute_lines _ _ (by rw [h2]; exact List.mem_cons_self ..), ?_⟩
          rw [h2]
          have := Shows.sequence (element := fun e s => ShownAs members depth (className e) e s) (m := m) l texts h1
          simpa using this
      | _ => cases hf
    · cases hcb
      cases x with
      | bytes b => cases hf; exact ⟨_, attribute_lines _ _ (dump_lines b), .bytes b⟩
      | _ => cases hf
    · cases hcb
      cases x with
      | text s =>
        cases hf
        by_cases hn : '\n' ∈ stripped s
        · exact ⟨_, attribute_lines _ _ hn, .lines s hn⟩
        · exact ⟨_, attribute_line _ _ _ hn, .line s hn⟩
      | _ => cases hf
    · cases hcb
      cases x with
      | uuid b => cases hf; exact ⟨_, attribute_line _ _ _ (uuid_line b), .uuid b⟩
      | _ => cases hf
    · cases hcb

theorem callback_none (P : Prop) [Decidable P] (k : Kind) (h : (if P then some Callback.hexadecimal8 else callbackOf k) = none) :
    ¬ (k ≠ .other ∨ P) := by
  split at h
  · cases h
  · rename_i hp
    rintro (hk | hk)
    · cases k <;> first | cases h; done | exact hk rfl
    · exact hp hk

theorem callback_some (P : Prop) [Decidable P] (k : Kind) (cb : Callback)
    (h : (if P then some Callback.hexadecimal8 else callbackOf k) = some cb) : k ≠ .other ∨ P := by
  split at h
  · rename_i hp
    exact .inr hp
  · refine .inl fun hk => ?_
    rw [hk] at h
    cases h

theorem lastTwo_iff (s : Str) : Formats.lastTwo s = ['\n', '\n'] ↔ ['\n', '\n'] <:+ s := by
  unfold Formats.lastTwo
  constructor
  · intro h
    exact ⟨s.take (s.length - 2), by rw [← h, List.take_append_drop]⟩
  · rintro ⟨p, rfl⟩
    rw [List.length_append]
    exact List.drop_left' (by simp)

/-- C171.  A structure is shown by its members in their order, each by its own text; if there is no empty line after the
last one is added. -/
theorem C171_shown (members : Str → List Member) (depth : Nat) (name : Str) (v : Value) (t : Str)
    (hfl : ∀ n s, getAttr v n = some (.float s) → '\n' ∉ s) (h : ShownAs members (depth + 1) name v t) :
    ∃ blocks, List.Forall₂ (fun m block => ∃ x, getAttr v m.name = some x ∧
        Shows (fun e s => ShownAs members depth (className e) e s) m x block) (shownMembers (members name) v) blocks ∧
      t = blocks.flatten ++ (if ['\n', '\n'] <:+ blocks.getLastD [] then [] else ['\n']) := by
  unfold ShownAs at h
  rw [formatMap_succ, (information_good members [] (good_nil members) name).1] at h
  generalize hc : (information members [] name).2 = c at h
  have hg : Good members c := hc ▸ (information_good members [] (good_nil members) name).2
  clear hc
  -- The blocks of the attributes.
  have key : ∀ (ms : List Member) (c : Cache), Good members c → ∀ as, (attributes (sequenceAt members depth) v (determine ms) c).1 = .ok as →
      ∃ blocks, Formats.formatAttributes as = .ok blocks ∧ List.Forall₂ (fun m block => ∃ x, getAttr v m.name = some x ∧
        Shows (fun e s => ShownAs members depth (className e) e s) m x block) (shownMembers ms v) blocks := by
    intro ms
    induction ms with
    | nil => intro c _ as h; cases h; exact ⟨[], rfl, .nil⟩
    | cons m ms ih =>
      intro c hg as h
      unfold determine at h
      rw [List.filterMap_cons] at h
      have hsuf : ("checksum".toList.isSuffixOf m.name = true ∨ "offset".toList.isSuffixOf m.name = true) ↔
          ("checksum".toList <:+ m.name ∨ "offset".toList <:+ m.name) := by
        rw [List.isSuffixOf_iff_suffix, List.isSuffixOf_iff_suffix]
      cases hcb : (if "checksum".toList.isSuffixOf m.name = true ∨ "offset".toList.isSuffixOf m.name = true then some Callback.hexadecimal8
          else callbackOf m.kind) with
      | none =>
        rw [hcb] at h
        have hn : ¬ (m.kind ≠ .other ∨ "checksum".toList <:+ m.name ∨ "offset".toList <:+ m.name) := by
          rw [← hsuf]
          exact callback_none _ _ hcb
        obtain ⟨blocks, b1, b2⟩ := ih c hg as h
        refine ⟨blocks, b1, ?_⟩
        unfold shownMembers at b2 ⊢
        rw [List.filter_cons_of_neg (fun hh => by rw [Bool.and_eq_true, decide_eq_false hn] at hh; exact Bool.false_ne_true hh.1)]
        exact b2
      | some cb =>
        rw [hcb] at h
        simp only [Option.map_some, attributes] at h
        have hy : m.kind ≠ .other ∨ "checksum".toList <:+ m.name ∨ "offset".toList <:+ m.name := by
          rw [← hsuf]
          exact callback_some _ _ _ hcb
        cases hx : getAttr v m.name with
        | none =>
          rw [hx] at h
          obtain ⟨blocks, b1, b2⟩ := ih c hg as h
          refine ⟨blocks, b1, ?_⟩
          unfold shownMembers at b2 ⊢
          rw [List.filter_cons_of_neg (fun hh => by rw [Bool.and_eq_true, hx] at hh; exact Bool.false_ne_true hh.2)]
          exact b2
        | some x =>
          rw [hx] at h
          dsimp only at h
          have hfg : Good members (formatted (sequenceAt members depth) cb x c).2 :=
            (formatted_good members (sequenceAt members depth)
              (sequenceAt_good members depth (formatMap_good members depth)) cb x c hg).2
          have hshow := formatted_shows members depth m cb x c hg (fun s hs => hfl m.name s (hs ▸ hx)) (by
            simp only [hsuf] at hcb
            exact hcb)
          generalize formatted (sequenceAt members depth) cb x c = r at h hshow hfg
          obtain ⟨a, b⟩ := r
          cases a with
          | error e => cases h
          | ok p =>
            obtain ⟨text, nl⟩ := p
            dsimp only at h hshow hfg
            obtain ⟨block, k1, k2⟩ := hshow text nl rfl
            have hi := ih b hfg
            unfold determine at hi
            generalize attributes (sequenceAt members depth) v _ b = r at h hi
            obtain ⟨a, b⟩ := r
            cases a with
            | error e => cases h
            | ok as' =>
              obtain ⟨blocks, b1, b2⟩ := hi as' rfl
              cases h
              refine ⟨block :: blocks, by rw [Formats.formatAttributes, k1]; dsimp only; rw [b1], ?_⟩
              unfold shownMembers at b2 ⊢
              rw [List.filter_cons_of_pos (by rw [decide_eq_true hy, hx]; rfl)]
              exact .cons ⟨x, hx, k2⟩ b2
  have hk := key (members name) c hg
  generalize attributes (sequenceAt members depth) v (determine (members name)) c = r at h hk
  obtain ⟨a, b⟩ := r
  cases a with
  | error e => cases h
  | ok as =>
    obtain ⟨blocks, k1, k2⟩ := hk as rfl
    refine ⟨blocks, k2, ?_⟩
    dsimp only at h
    unfold Formats.formatStructure at h
    rw [k1] at h
    dsimp only at h
    by_cases hl : ['\n', '\n'] <:+ blocks.getLastD []
    · have hne : blocks.getLastD [] ≠ [] := fun hn => by
        rw [hn] at hl
        exact absurd hl (by decide)
      have hnb : blocks ≠ [] := fun hn => hne (by rw [hn]; rfl)
      rw [if_neg (fun hh => hh.elim hnb (fun hh => hh.elim hne (fun hh => hh ((lastTwo_iff _).mpr hl))))] at h
      cases h
      rw [if_pos hl, List.append_nil]
    · rw [if_pos (.inr (.inr (fun hh => hl ((lastTwo_iff _).mp hh))))] at h
      cases h
      rw [if_neg hl]

theorem elements_ok (members : Str → List Member) (depth : Nat) (l : List Value)
    (h : ∀ e ∈ l, ∃ t, ShownAs members depth (className e) e t) (i : Nat) (c : Cache) (hc : Good members c) :
    ∃ s, (elements (fun cache v => formatMap members depth cache (className v) v) i c l).1 = .ok s := by
  induction l generalizing i c with
  | nil => exact ⟨[], rfl⟩
  | cons x l ih =>
    obtain ⟨t, ht⟩ := h x (List.mem_cons_self ..)
    obtain ⟨e1, g1⟩ := formatMap_good members depth c (className x) x hc
    unfold ShownAs at ht
    rw [ht] at e1
    simp only [elements]
    generalize formatMap members depth c (className x) x = r at e1 g1
    obtain ⟨a, b⟩ := r
    dsimp only at e1 g1
    subst e1
    dsimp only
    obtain ⟨s, hs⟩ := ih (fun e he => h e (List.mem_cons_of_mem _ he)) (i + 1) b g1
    generalize elements (fun cache v => formatMap members depth cache (className v) v) (i + 1) b l = r at hs
    obtain ⟨a, b⟩ := r
    dsimp only at hs
    subst hs
    exact ⟨_, rfl⟩

theorem formatAttributes_ok (as : List (Option Formats.Attribute)) (h : ∀ a ∈ as, ∀ x, a = some x → x.description ≠ none) :
    ∃ l, Formats.formatAttributes as = .ok l := by
  induction as with
  | nil => exact ⟨[], rfl⟩
  | cons a as ih =>
    obtain ⟨l, hl⟩ := ih (fun b hb => h b (List.mem_cons_of_mem _ hb))
    cases a with
    | none => exact ⟨l, hl⟩
    | some a =>
      obtain ⟨d, hd⟩ := Option.ne_none_iff_exists'.mp (h _ (List.mem_cons_self ..) a rfl)
      have : ∃ t, Formats.formatAttribute a = .ok t := by
        unfold Formats.formatAttribute
        rw [hd]
        dsimp only
        split
        · split <;> exact ⟨_, rfl⟩
        · exact ⟨_, rfl⟩
      obtain ⟨t, ht⟩ := this
      exact ⟨t :: l, by rw [Formats.formatAttributes, ht]; dsimp only; rw [hl]⟩

theorem formatted_fits (members : Str → List Member) (depth : Nat) (m : Member) (x : Value) (hfit : m.Fits x)
    (hseq : ∀ l, x = .seq l → ∀ e ∈ l, ∃ t, ShownAs members depth (className e) e t) (c : Cache) (hc : Good members c)
    (cb : Callback) (hcb : (if "checksum".toList <:+ m.name ∨ "offset".toList <:+ m.name then some Callback.hexadecimal8
      else callbackOf m.kind) = some cb) : ∃ r, (formatted (sequenceAt members depth) cb x c).1 = .ok r := by
  by_cases hs : "checksum".toList <:+ m.name ∨ "offset".toList <:+ m.name
  · rw [if_pos hs] at hcb
    cases hcb
    cases x with
    | int i => exact ⟨_, rfl⟩
    | _ => exact absurd hs hfit.1
  · rw [if_neg hs] at hcb
    cases x with
    | int i =>
      rw [show m.kind = .integer from hfit] at hcb
      cases hcb
      exact ⟨_, rfl⟩
    | bytes b =>
      rw [show m.kind = .stream from hfit.2] at hcb
      cases hcb
      exact ⟨_, rfl⟩
    | float s =>
      rw [show m.kind = .float from hfit.2.1] at hcb
      cases hcb
      exact ⟨_, rfl⟩
    | text s =>
      rw [show m.kind = .string from hfit.2] at hcb
      cases hcb
      exact ⟨_, rfl⟩
    | uuid b =>
      rw [show m.kind = .uuid from hfit.2] at hcb
      cases hcb
      exact ⟨_, rfl⟩
    | struct n as => exact hfit.2.elim
    | seq l =>
      rw [show m.kind = .sequence from hfit.2] at hcb
      cases hcb
      obtain ⟨s, hs⟩ := elements_ok members depth l (hseq l rfl) 0 c hc
      unfold formatted sequenceAt
      dsimp only
      generalize elements (fun cache v => formatMap members depth cache (className v) v) 0 c l = r at hs
      obtain ⟨a, b⟩ := r
      dsimp only at hs
      subst hs
      exact ⟨_, rfl⟩

/-- C171.  A structure whose members have values of their kinds can be shown, if none but integers are called checksums or
offsets and the elements of its sequences can be shown. -/
theorem C171_every_partial (members : Str → List Member) (depth : Nat) (name : Str) (v : Value)
    (h : ∀ m ∈ members name, ∀ x, getAttr v m.name = some x →
      (m.kind = .other ∧ ¬ ("checksum".toList <:+ m.name ∨ "offset".toList <:+ m.name)) ∨
      (m.Fits x ∧ ∀ l, x = .seq l → ∀ e ∈ l, ∃ t, ShownAs members depth (className e) e t)) :
    ∃ t, ShownAs members (depth + 1) name v t := by
  unfold ShownAs
  rw [formatMap_succ, (information_good members [] (good_nil members) name).1]
  generalize hc : (information members [] name).2 = c
  have hg : Good members c := hc ▸ (information_good members [] (good_nil members) name).2
  clear hc
  have key : ∀ (ms : List Member), (∀ m ∈ ms, m ∈ members name) → ∀ c, Good members c →
      ∃ as, (attributes (sequenceAt members depth) v (determine ms) c).1 = .ok as ∧
        ∀ a ∈ as, ∀ x, a = some x → x.description ≠ none := by
    intro ms
    induction ms with
    | nil => intro _ c _; exact ⟨[], rfl, by simp⟩
    | cons m ms ih =>
      intro hms c hg
      have ih := ih (fun x hx => hms x (List.mem_cons_of_mem _ hx))
      unfold determine at ih ⊢
      rw [List.filterMap_cons]
      have hsuf : ("checksum".toList.isSuffixOf m.name = true ∨ "offset".toList.isSuffixOf m.name = true) ↔
          ("checksum".toList <:+ m.name ∨ "offset".toList <:+ m.name) := by
        rw [List.isSuffixOf_iff_suffix, List.isSuffixOf_iff_suffix]
      cases hcb : (if "checksum".toList.isSuffixOf m.name = true ∨ "offset".toList.isSuffixOf m.name = true then some Callback.hexadecimal8
          else callbackOf m.kind) with
      | none => exact ih c hg
      | some cb =>
        simp only [Option.map_some, attributes]
        have hcb' := hcb
        simp only [hsuf] at hcb'
        cases hx : getAttr v m.name with
        | none => exact ih c hg
        | some x =>
          dsimp only
          have hfit := h m (hms m (List.mem_cons_self ..)) x hx
          have hfit : m.Fits x ∧ ∀ l, x = .seq l → ∀ e ∈ l, ∃ t, ShownAs members depth (className e) e t := by
            rcases hfit with ⟨hk, hn⟩ | hfit
            · exact absurd (callback_some _ _ _ hcb') (fun hh => hh.elim (fun a => a hk) hn)
            · exact hfit
          obtain ⟨r, hr⟩ := formatted_fits members depth m x hfit.1 hfit.2 c hg cb hcb'
          have hfg : Good members (formatted (sequenceAt members depth) cb x c).2 :=
            (formatted_good members (sequenceAt members depth)
              (sequenceAt_good members depth (formatMap_good members depth)) cb x c hg).2
          generalize formatted (sequenceAt members depth) cb x c = y at hr hfg
          obtain ⟨a, b⟩ := y
          dsimp only at hr hfg
          subst hr
          obtain ⟨text, nl⟩ := r
          dsimp only
          obtain ⟨as, has, hd⟩ := ih b hfg
          generalize attributes (sequenceAt members depth) v _ b = y at has
          obtain ⟨a, b⟩ := y
          dsimp only at has
          subst has
          refine ⟨_, rfl, ?_⟩
          intro a ha x hx
          rcases List.mem_cons.mp ha with rfl | ha
          · cases hx
            exact Option.some_ne_none _
          · exact hd a ha x hx
  obtain ⟨as, has, hd⟩ := key (members name) (fun _ h => h) c hg
  generalize attributes (sequenceAt members depth) v (determine (members name)) c = y at has
  obtain ⟨a, b⟩ := y
  dsimp only at has
  subst has
  dsimp only
  obtain ⟨l, hl⟩ := formatAttributes_ok as hd
  unfold Formats.formatStructure
  rw [hl]
  dsimp only
  split <;> exact ⟨_, rfl⟩

/-- C171.  It would be nice if all structures with values of the kinds of their members could be shown. -/
def C171_every_claim : Prop := ∀ (name : Str) (b : Bytes),
  ∃ t, ShownAs (fun _ => [⟨name, .stream⟩]) 1 "s".toList (.struct "s".toList [(name, .bytes b)]) t

/-- A stream called checksum cannot. -/
theorem C171_every_claim_false : ¬ C171_every_claim := fun h => by
  obtain ⟨t, ht⟩ := h "checksum".toList []
  have : (formatMap (fun _ => [⟨"checksum".toList, .stream⟩]) 1 [] "s".toList
      (.struct "s".toList [("checksum".toList, .bytes [])])).1.isOk = false := by decide +kernel
  unfold ShownAs at ht
  rw [ht] at this
  cases this

/-- C171.  It would be nice if all members with values were shown. -/
def C171_members_claim : Prop := ∀ (m : Member) (x : Value) (t : Str),
  ShownAs (fun _ => [m]) 2 "s".toList (.struct "s".toList [(m.name, x)]) t → describe m.name <:+: t

/-- Those of other kinds are not, such as structures and enumerations. -/
theorem C171_members_claim_false : ¬ C171_members_claim := fun h => by
  have := h ⟨"a".toList, .other⟩ (.int 1) "\n".toList (by unfold ShownAs; rfl)
  revert this
  decide

/-- C171.  It would be nice if the elements of a sequence were shown. -/
def C171_elements_claim : Prop := ∀ (l l' : List Value) (t : Str),
  ShownAs (fun n => if n = "s".toList then [⟨"a".toList, .sequence⟩] else []) 3 "s".toList (.struct "s".toList [("a".toList, .seq l)]) t →
  ShownAs (fun n => if n = "s".toList then [⟨"a".toList, .sequence⟩] else []) 3 "s".toList (.struct "s".toList [("a".toList, .seq l')]) t →
  l = l'

/-- Integers are not: only their numbers within the sequence. -/
theorem C171_elements_claim_false : ¬ C171_elements_claim := fun h => by
  have := h [.int 1] [.int 2] "A:\n\nEntry: 0\n\n".toList (by unfold ShownAs; rfl) (by unfold ShownAs; rfl)
  cases this

end Dtf.Analyzer
