import Verif.Wmi.Classes
import Verif.Unified.Dumps
import Verif.Holds

/-!
# Class definitions of the WMI repository (C129, C130)
-/

namespace Dtf.Wmi
open Py DataFormat Text Formats Unified

/-! ## Model: strings and names -/

/-- `cim_string` (wmi_repository.yaml 191-202): flags, and a string up to its terminator.  `cp` decodes codepage 1252. -/
def parseCimString (cp : Bytes → Option Str) (b : Bytes) : Option (Str × Bytes) := do
  let (_, b) ← num 1 b
  if 0 ∈ b then
    let s ← cp (b.takeWhile (· ≠ 0))
    return (s, b.drop ((b.takeWhile (· ≠ 0)).length + 1))
  else none

/-- `_ReadCIMString` (wmi_repository.py 2176-2205). -/
def readCimString (cp : Bytes → Option Str) (values : Bytes) (offset : Nat) : Res Str :=
  (fromStream (parseCimString cp) (values.drop offset)).map (·.1)

/-- `_PREDEFINED_NAMES` (wmi_repository.py 2276-2283). -/
def predefinedNames : List (Nat × Str) :=
  [(1, "key".toList), (3, "read".toList), (4, "write".toList), (6, "provider".toList), (7, "dynamic".toList),
    (10, "type".toList)]

/-- `_ReadClassDefinitionPropertyName` (wmi_repository.py 2414-2453) and `_ReadQualifierName` (2512-2551). -/
def readName (cp : Bytes → Option Str) (values : Bytes) (offset : Nat) : Res Str :=
  if offset &&& 0x80000000 ≠ 0 then
    .ok ((predefinedNames.lookup (offset &&& 0x7FFFFFFF)).getD ("UNKNOWN_".toList ++ dec (offset &&& 0x7FFFFFFF)))
  else readCimString cp values offset

/-! ## Model: qualifiers -/

/-- A value; a floating-point number is given by its bytes. -/
inductive Value
  | none
  | boolean (b : Bool)
  | integer (i : Int)
  | real (bytes : Bytes)
  | text (s : Str)
  | texts (l : List Str)
deriving DecidableEq, Repr

/-- A value as it is stored: a value or an offset. -/
inductive Raw
  | value (v : Value)
  | offset (o : Nat)
deriving DecidableEq, Repr

def rawUnsigned (w : Nat) (b : Bytes) : Option (Raw × Bytes) := (num w b).map (fun r => (.value (.integer r.1), r.2))
def rawSigned (w : Nat) (b : Bytes) : Option (Raw × Bytes) := (num w b).map (fun r => (.value (.integer (signed w r.1)), r.2))
def rawReal (w : Nat) (b : Bytes) : Option (Raw × Bytes) := (raw w b).map (fun r => (.value (.real r.1), r.2))

/-- `bool16` (wmi_repository.yaml 8-14): other values than those of true and false cannot be mapped. -/
def boolean16 (b : Bytes) : Option (Bool × Bytes) :=
  match num 2 b with
  | some (n, b) => if n = 0 then some (false, b) else if n = 0xFFFF then some (true, b) else none
  | none => none

/-- The types with an offset (wmi_repository.yaml 402-417). -/
def offsetTypes : List Nat :=
  [0x08, 0x2002, 0x2003, 0x2004, 0x2005, 0x2008, 0x200b, 0x2010, 0x2011, 0x2012, 0x2013, 0x2014, 0x2015]

/-- The last member of the members of the structure group `qualifier_descriptor` (wmi_repository.yaml 228-438). -/
def parseRaw (type : Nat) (b : Bytes) : Option (Raw × Bytes) :=
  match type with
  | 0x02 => rawSigned 2 b
  | 0x03 => rawSigned 4 b
  | 0x04 => rawReal 4 b
  | 0x05 => rawReal 8 b
  | 0x0b => (boolean16 b).map (fun r => (.value (.boolean r.1), r.2))
  | 0x10 => rawSigned 1 b
  | 0x11 => rawUnsigned 1 b
  | 0x12 => rawUnsigned 2 b
  | 0x13 => rawUnsigned 4 b
  | 0x14 => rawSigned 8 b
  | 0x15 => rawUnsigned 8 b
  | t => if t ∈ offsetTypes then (num 4 b).map (fun r => (.offset r.1, r.2)) else none

/-- `qualifier_descriptor`: the offset of the name, the type and the value. -/
def parseQualifier (b : Bytes) : Option ((Nat × Nat × Raw) × Bytes) := do
  let (name, b) ← num 4 b
  let (_, b) ← num 1 b
  let (type, b) ← num 4 b
  let (value, b) ← parseRaw type b
  return ((name, type, value), b)

/-- The types whose integer is used (wmi_repository.py 2612-2621; the 32-bit unsigned one is not among them). -/
def integerTypes : List Nat := [0x02, 0x03, 0x10, 0x11, 0x12, 0x14, 0x15]

/-- The value of a qualifier (wmi_repository.py 2606-2650). -/
def qualifierValue (cp : Bytes → Option Str) (values : Bytes) (type : Nat) (r : Raw) : Res Value :=
  if type = 0x0b ∨ type ∈ integerTypes ∨ type = 0x04 ∨ type = 0x05 then
    match r with
    | .value v => .ok v
    | .offset _ => .error .attributeError
  else if type = 0x08 then
    match r with
    | .offset o => (readCimString cp values o).map .text
    | .value _ => .error .attributeError
  else .ok .none

/-- `_ReadQualifiers` (wmi_repository.py 2553-2659): what the dictionary is set to, in order.  A descriptor has at
least nine bytes, so there are not more of them than bytes.  Names are lowered as in ASCII. -/
def qualifierLoop (cp : Bytes → Option Str) (values : Bytes) : Nat → Bytes → Res (List (Str × Value))
  | _, [] => .ok []
  | 0, _ :: _ => .error .recursionError
  | fuel + 1, b =>
    match fromStream parseQualifier b with
    | .error e => .error e
    | .ok ((name, type, r), rest) =>
      match readName cp values name with
      | .error e => .error e
      | .ok name =>
        match qualifierValue cp values type r with
        | .error e => .error e
        | .ok v => (qualifierLoop cp values fuel rest).map ((name.map Char.toLower, v) :: ·)

def readQualifiers (cp : Bytes → Option Str) (values b : Bytes) : Res (List (Str × Value)) :=
  qualifierLoop cp values b.length b

/-- The value of a key of a dictionary that was set in order: the last one set. -/
def lastOf {V : Type} (sets : List (Str × V)) (k : Str) : Option V := sets.reverse.lookup k

/-! ## Model: properties and classes -/

/-- A stream with a size that includes the size (e.g. wmi_repository.yaml 451-456): a size below 4 cannot be mapped. -/
def sized (b : Bytes) : Option (Bytes × Bytes) := do
  let (size, b) ← num 4 b
  if size < 4 then none else raw (size - 4) b

/-- `property_definition` (wmi_repository.yaml 439-457): data type, index, offset and qualifiers. -/
def parseDefinition (b : Bytes) : Option ((Nat × Nat × Nat × Bytes) × Bytes) := do
  let (type, b) ← num 4 b
  let (index, b) ← num 2 b
  let (offset, b) ← num 4 b
  let (_, b) ← num 4 b
  let (qualifiers, b) ← sized b
  return ((type, index, offset, qualifiers), b)

/-- `ClassDefinitionProperty` (wmi_repository.py 16-34). -/
structure Property where
  name : Str
  index : Nat
  offset : Nat
  type : Nat
  qualifiers : List (Str × Value)
deriving DecidableEq, Repr

/-- The body of the loop of `_ReadClassDefinitionProperties` (wmi_repository.py 2476-2508). -/
def readProperty (cp : Bytes → Option Str) (values : Bytes) (nameOffset definitionOffset : Nat) : Res Property :=
  match readName cp values nameOffset with
  | .error e => .error e
  | .ok name =>
    match fromStream parseDefinition (values.drop definitionOffset) with
    | .error e => .error e
    | .ok ((type, index, offset, qualifiers), _) =>
      match readQualifiers cp values qualifiers with
      | .error e => .error e
      | .ok qs => .ok ⟨name, index, offset, type, qs⟩

def readProperties (cp : Bytes → Option Str) (values : Bytes) : List (Nat × Nat) → Res (List Property)
  | [] => .ok []
  | d :: ds =>
    match readProperty cp values d.1 d.2 with
    | .error e => .error e
    | .ok p => (readProperties cp values ds).map (p :: ·)

/-- `property_descriptor` (wmi_repository.yaml 459-467). -/
def parsePair (b : Bytes) : Option ((Nat × Nat) × Bytes) := do
  let (name, b) ← num 4 b
  let (definition, b) ← num 4 b
  return ((name, definition), b)

structure ClassBlock where
  name : Nat
  super : Bytes
  qualifiers : Bytes
  descriptors : List (Nat × Nat)
  values : Bytes
deriving DecidableEq, Repr

/-- `class_definition_block` (wmi_repository.yaml 525-563). -/
def parseClassBlock (b : Bytes) : Option (ClassBlock × Bytes) := do
  let (_, b) ← num 1 b
  let (name, b) ← num 4 b
  let (defaultSize, b) ← num 4 b
  let (super, b) ← sized b
  let (qualifiers, b) ← sized b
  let (count, b) ← num 4 b
  let (descriptors, b) ← several parsePair count b
  let (_, b) ← raw defaultSize b
  let (size, b) ← num 4 b
  let (values, b) ← raw (size &&& 0x7FFFFFF) b
  return (⟨name, super, qualifiers, descriptors, values⟩, b)

/-- What is known of a class (wmi_repository.py 2778-2781); the properties are those set in order. -/
structure ClassInfo where
  name : Str
  super : Option Str
  qualifiers : List (Str × Value)
  properties : List Property
deriving DecidableEq, Repr

/-- `ReadClassDefinitionBlock` (wmi_repository.py 2705-2781). -/
def readClass (cp : Bytes → Option Str) (b : Bytes) : Res ClassInfo :=
  match fromStream parseClassBlock b with
  | .error e => .error e
  | .ok (c, _) =>
    match readCimString cp c.values c.name with
    | .error e => .error e
    | .ok name =>
      match (if c.super = [] then .ok none else (readCimString cp c.super 0).map some : Res (Option Str)) with
      | .error e => .error e
      | .ok super =>
        match readQualifiers cp c.values c.qualifiers with
        | .error e => .error e
        | .ok qs => (readProperties cp c.values c.descriptors).map (fun ps => ⟨name, super, qs, ps⟩)

/-- `IsAbstract` (wmi_repository.py 2697-2703). -/
def isAbstract (c : ClassInfo) : Value := (lastOf c.qualifiers "abstract".toList).getD (.boolean false)

/-! ## Specification -/

/-- A string is at an offset. -/
def StringAt (cp : Bytes → Option Str) (values : Bytes) (offset : Nat) (s : Str) : Prop :=
  ∃ (flags : UInt8) (text : Bytes), 0 ∉ text ∧ cp text = some s ∧ Holds values offset (flags :: (text ++ [0]))

/-- The documented predefined names. -/
inductive Predefined : Nat → String → Prop
  | key : Predefined 1 "key"
  | read : Predefined 3 "read"
  | write : Predefined 4 "write"
  | provider : Predefined 6 "provider"
  | dynamic : Predefined 7 "dynamic"
  | type : Predefined 10 "type"

/-- What an offset of a name stands for. -/
inductive NameAt (cp : Bytes → Option Str) (values : Bytes) : Nat → Str → Prop
  | string (o : Nat) (s : Str) : o < 2 ^ 31 → StringAt cp values o s → NameAt cp values o s
  | predefined (i : Nat) (s : String) : Predefined i s → NameAt cp values (2 ^ 31 + i) s.toList

/-- The values of the types that are not arrays, as they are stored (documentation, section on the data types). -/
inductive StoredAs (cp : Bytes → Option Str) (values : Bytes) : Nat → Bytes → Value → Prop
  | sint16 (i : Int) : -2 ^ 15 ≤ i → i < 2 ^ 15 → StoredAs cp values 0x02 (leBytes 2 (unsigned 2 i)) (.integer i)
  | sint32 (i : Int) : -2 ^ 31 ≤ i → i < 2 ^ 31 → StoredAs cp values 0x03 (leBytes 4 (unsigned 4 i)) (.integer i)
  | real32 (b : Bytes) : b.length = 4 → StoredAs cp values 0x04 b (.real b)
  | real64 (b : Bytes) : b.length = 8 → StoredAs cp values 0x05 b (.real b)
  | string (o : Nat) (s : Str) : o < 2 ^ 32 → StringAt cp values o s → StoredAs cp values 0x08 (leBytes 4 o) (.text s)
  | false_ : StoredAs cp values 0x0b [0, 0] (.boolean false)
  | true_ : StoredAs cp values 0x0b [0xff, 0xff] (.boolean true)
  | sint8 (i : Int) : -2 ^ 7 ≤ i → i < 2 ^ 7 → StoredAs cp values 0x10 (leBytes 1 (unsigned 1 i)) (.integer i)
  | uint8 (n : Nat) : n < 2 ^ 8 → StoredAs cp values 0x11 (leBytes 1 n) (.integer n)
  | uint16 (n : Nat) : n < 2 ^ 16 → StoredAs cp values 0x12 (leBytes 2 n) (.integer n)
  | uint32 (n : Nat) : n < 2 ^ 32 → StoredAs cp values 0x13 (leBytes 4 n) (.integer n)
  | sint64 (i : Int) : -2 ^ 63 ≤ i → i < 2 ^ 63 → StoredAs cp values 0x14 (leBytes 8 (unsigned 8 i)) (.integer i)
  | uint64 (n : Nat) : n < 2 ^ 64 → StoredAs cp values 0x15 (leBytes 8 n) (.integer n)
  | reference (o : Nat) (s : Str) : o < 2 ^ 32 → StringAt cp values o s →
      StoredAs cp values 0x66 (leBytes 4 o) (.text s)

/-- A qualifier as it is stored. -/
structure StoredQualifier where
  nameOffset : Nat
  unknown : UInt8
  type : Nat
  data : Bytes
  name : Str
  value : Value

def StoredQualifier.bytes (q : StoredQualifier) : Bytes :=
  leBytes 4 q.nameOffset ++ ([q.unknown] ++ (leBytes 4 q.type ++ q.data))

structure StoredQualifier.Ok (cp : Bytes → Option Str) (values : Bytes) (q : StoredQualifier) : Prop where
  name : NameAt cp values q.nameOffset q.name
  value : StoredAs cp values q.type q.data q.value

/-- Names of qualifiers are not case sensitive. -/
def StoredQualifier.shown (q : StoredQualifier) : Str × Value := (q.name.map Char.toLower, q.value)

/-- The claim of C130: qualifiers come out as they were stored. -/
def C130_qualifiers_claim : Prop := ∀ (cp : Bytes → Option Str) (values : Bytes) (qs : List StoredQualifier),
  (∀ q ∈ qs, q.Ok cp values) → readQualifiers cp values (qs.flatMap (·.bytes)) = .ok (qs.map (·.shown))

/-- A property as it is stored: its descriptor, its definition and what it has. -/
structure StoredProperty where
  nameOffset : Nat
  definitionOffset : Nat
  level : Nat
  name : Str
  index : Nat
  offset : Nat
  type : Nat
  qualifiers : List StoredQualifier

def sizedBytes (b : Bytes) : Bytes := leBytes 4 (b.length + 4) ++ b

def StoredProperty.definition (p : StoredProperty) : Bytes :=
  leBytes 4 p.type ++ (leBytes 2 p.index ++ (leBytes 4 p.offset ++ (leBytes 4 p.level ++
    sizedBytes (p.qualifiers.flatMap (·.bytes)))))

structure StoredProperty.Ok (cp : Bytes → Option Str) (values : Bytes) (p : StoredProperty) : Prop where
  name : NameAt cp values p.nameOffset p.name
  definition : Holds values p.definitionOffset p.definition
  definitionOffset : p.definitionOffset < 2 ^ 32
  index : p.index < 2 ^ 16
  offset : p.offset < 2 ^ 32
  type : p.type < 2 ^ 32
  level : p.level < 2 ^ 32
  size : (p.qualifiers.flatMap (·.bytes)).length + 4 < 2 ^ 32
  qualifiers : ∀ q ∈ p.qualifiers, q.Ok cp values

def StoredProperty.shown (p : StoredProperty) : Property :=
  ⟨p.name, p.index, p.offset, p.type, p.qualifiers.map (·.shown)⟩

/-- A class definition as it is stored. -/
structure StoredClass where
  unknown : UInt8
  nameOffset : Nat
  name : Str
  /-- Flags, bytes and text of the name of the super class. -/
  super : Option (UInt8 × Bytes × Str)
  qualifiers : List StoredQualifier
  properties : List StoredProperty
  defaults : Bytes
  values : Bytes
  /-- The most significant bit of the size of the values. -/
  flag : Bool

def StoredClass.superBytes (c : StoredClass) : Bytes :=
  match c.super with
  | none => []
  | some (flags, text, _) => flags :: (text ++ [0])

def StoredClass.bytes (c : StoredClass) : Bytes :=
  [c.unknown] ++ (leBytes 4 c.nameOffset ++ (leBytes 4 c.defaults.length ++ (sizedBytes c.superBytes ++
    (sizedBytes (c.qualifiers.flatMap (·.bytes)) ++ (leBytes 4 c.properties.length ++
      (c.properties.flatMap (fun p => leBytes 4 p.nameOffset ++ leBytes 4 p.definitionOffset) ++
        (c.defaults ++ (leBytes 4 (c.values.length + if c.flag then 2 ^ 31 else 0) ++ c.values))))))))

structure StoredClass.Ok (cp : Bytes → Option Str) (c : StoredClass) : Prop where
  nameOffset : c.nameOffset < 2 ^ 32
  name : StringAt cp c.values c.nameOffset c.name
  super : ∀ flags text s, c.super = some (flags, text, s) → 0 ∉ text ∧ cp text = some s
  superSize : c.superBytes.length + 4 < 2 ^ 32
  qualifiers : ∀ q ∈ c.qualifiers, q.Ok cp c.values
  qualifiersSize : (c.qualifiers.flatMap (·.bytes)).length + 4 < 2 ^ 32
  properties : ∀ p ∈ c.properties, p.Ok cp c.values
  count : c.properties.length < 2 ^ 32
  defaults : c.defaults.length < 2 ^ 32
  values : c.values.length < 2 ^ 31

def StoredClass.shown (c : StoredClass) : ClassInfo :=
  ⟨c.name, c.super.map (·.2.2), c.qualifiers.map (·.shown), c.properties.map (·.shown)⟩

/-- The claim of C129: class definitions come out as they were stored. -/
def C129_class_claim : Prop := ∀ (cp : Bytes → Option Str) (c : StoredClass) (rest : Bytes), c.Ok cp →
  (∀ q ∈ c.qualifiers, q.type ≠ 0x13 ∧ q.type ≠ 0x66) →
  (∀ p ∈ c.properties, ∀ q ∈ p.qualifiers, q.type ≠ 0x13 ∧ q.type ≠ 0x66) →
  readClass cp (c.bytes ++ rest) = .ok c.shown

/-- The claim of C129 about errors. -/
def C129_errors_claim : Prop := ∀ (cp : Bytes → Option Str) (b : Bytes) (e : Err), b ≠ [] →
  readClass cp b = .error e → e = .parseError

/-! ## Proofs: strings and names -/

theorem takeWhile_zero (text rest : Bytes) (h : 0 ∉ text) : (text ++ 0 :: rest).takeWhile (· ≠ 0) = text := by
  induction text with
  | nil => rfl
  | cons c cs ih =>
    simp only [List.mem_cons, not_or] at h
    simp only [List.cons_append, List.takeWhile_cons]
    rw [if_pos (by simpa using Ne.symm h.1), ih h.2]

theorem num1_cons (c : UInt8) (b : Bytes) : num 1 (c :: b) = some (c.toNat, b) := by
  have := num_bytes 1 c.toNat (by simpa using c.toNat_lt) b
  simpa [leBytes] using this

theorem parseCimString_bytes (cp : Bytes → Option Str) (flags : UInt8) (text rest : Bytes) (s : Str) (h : 0 ∉ text)
    (hs : cp text = some s) : parseCimString cp (flags :: (text ++ 0 :: rest)) = some (s, rest) := by
  unfold parseCimString
  simp only [Option.bind_eq_bind]
  rw [num1_cons, Option.bind_some]
  simp only
  rw [if_pos (by simp), takeWhile_zero text rest h, hs, Option.bind_some]
  simp

theorem readCimString_at (cp : Bytes → Option Str) (values : Bytes) (offset : Nat) (s : Str)
    (h : StringAt cp values offset s) : readCimString cp values offset = .ok s := by
  obtain ⟨flags, text, h0, hs, hh⟩ := h
  obtain ⟨post, hp⟩ := holds_drop _ _ _ hh
  unfold readCimString fromStream
  rw [hp]
  have e : flags :: (text ++ [0]) ++ post = flags :: (text ++ 0 :: post) := by simp
  rw [e, if_neg (by simp), parseCimString_bytes cp flags text post s h0 hs]
  rfl

theorem msb_of_lt (o : Nat) (h : o < 2 ^ 31) : o &&& 0x80000000 = 0 := by
  refine Nat.eq_of_testBit_eq (fun i => ?_)
  rw [Nat.testBit_and, Nat.zero_testBit, show (0x80000000 : Nat) = 2 ^ 31 from rfl, Nat.testBit_two_pow]
  by_cases hi : 31 = i
  · subst hi; simp [Nat.testBit_lt_two_pow h]
  · simp [hi]

theorem msb_of_add (o : Nat) (h : o < 2 ^ 31) : (2 ^ 31 + o) &&& 0x80000000 ≠ 0 := by
  intro hz
  have : ((2 ^ 31 + o) &&& 0x80000000).testBit 31 = true := by
    rw [Nat.testBit_and, Nat.testBit_two_pow_add_eq, Nat.testBit_lt_two_pow h]
    decide
  rw [hz] at this
  simp at this

theorem low_of_add (o : Nat) (h : o < 2 ^ 31) : (2 ^ 31 + o) &&& 0x7FFFFFFF = o := by
  rw [show (0x7FFFFFFF : Nat) = 2 ^ 31 - 1 from rfl, Nat.and_two_pow_sub_one_eq_mod]
  omega

theorem predefined_lookup (i : Nat) (s : String) (h : Predefined i s) : i < 2 ^ 31 ∧
    predefinedNames.lookup i = some s.toList := by
  cases h <;> exact ⟨by decide, by decide⟩

theorem readName_at (cp : Bytes → Option Str) (values : Bytes) (o : Nat) (s : Str) (h : NameAt cp values o s) :
    readName cp values o = .ok s := by
  unfold readName
  cases h with
  | string o s ho hs => rw [if_neg (by rw [msb_of_lt o ho]; simp), readCimString_at cp values o s hs]
  | predefined i s hp =>
    obtain ⟨hi, hl⟩ := predefined_lookup i s hp
    rw [if_pos (msb_of_add i hi), low_of_add i hi, hl]
    rfl

theorem nameAt_lt (cp : Bytes → Option Str) (values : Bytes) (o : Nat) (s : Str) (h : NameAt cp values o s) :
    o < 2 ^ 32 := by
  cases h with
  | string o s ho hs => omega
  | predefined i s hp =>
    have := (predefined_lookup i s hp).1
    omega

/-! ## Proofs: qualifiers -/

theorem rawUnsigned_bytes (w n : Nat) (h : n < 256 ^ w) (rest : Bytes) :
    rawUnsigned w (leBytes w n ++ rest) = some (.value (.integer n), rest) := by
  unfold rawUnsigned
  rw [num_bytes w n h]
  rfl

theorem rawSigned_bytes (w : Nat) (i : Int) (h1 : -(256 ^ w : Nat) ≤ 2 * i) (h2 : 2 * i < (256 ^ w : Nat)) (rest : Bytes) :
    rawSigned w (leBytes w (unsigned w i) ++ rest) = some (.value (.integer i), rest) := by
  unfold rawSigned
  rw [num_bytes w _ (unsigned_lt w i), Option.map_some, signed_unsigned w i h1 h2]

theorem rawReal_bytes (w : Nat) (d : Bytes) (h : d.length = w) (rest : Bytes) :
    rawReal w (d ++ rest) = some (.value (.real d), rest) := by
  unfold rawReal
  rw [raw_bytes_of w d rest h]
  rfl

theorem qualifier_stored (cp : Bytes → Option Str) (values : Bytes) (type : Nat) (data : Bytes) (v : Value)
    (h : StoredAs cp values type data v) (ht : type ≠ 0x13 ∧ type ≠ 0x66) (rest : Bytes) :
    ∃ r, parseRaw type (data ++ rest) = some (r, rest) ∧ qualifierValue cp values type r = .ok v := by
  cases h with
  | sint16 i h1 h2 => exact ⟨_, rawSigned_bytes 2 i (by omega) (by omega) rest, rfl⟩
  | sint32 i h1 h2 => exact ⟨_, rawSigned_bytes 4 i (by omega) (by omega) rest, rfl⟩
  | real32 b hb => exact ⟨_, rawReal_bytes 4 data hb rest, rfl⟩
  | real64 b hb => exact ⟨_, rawReal_bytes 8 data hb rest, rfl⟩
  | string o s ho hs =>
    refine ⟨.offset o, ?_, ?_⟩
    · show (if 0x08 ∈ offsetTypes then (num 4 (leBytes 4 o ++ rest)).map (fun r => (Raw.offset r.1, r.2)) else none) = _
      rw [if_pos (by decide), num_bytes 4 o ho]
      rfl
    · show (readCimString cp values o).map Value.text = _
      rw [readCimString_at cp values o s hs]
      rfl
  | false_ => exact ⟨.value (.boolean false), rfl, rfl⟩
  | true_ => exact ⟨.value (.boolean true), rfl, rfl⟩
  | sint8 i h1 h2 => exact ⟨_, rawSigned_bytes 1 i (by omega) (by omega) rest, rfl⟩
  | uint8 n hn => exact ⟨_, rawUnsigned_bytes 1 n hn rest, rfl⟩
  | uint16 n hn => exact ⟨_, rawUnsigned_bytes 2 n hn rest, rfl⟩
  | uint32 n hn => exact absurd rfl ht.1
  | sint64 i h1 h2 => exact ⟨_, rawSigned_bytes 8 i (by omega) (by omega) rest, rfl⟩
  | uint64 n hn => exact ⟨_, rawUnsigned_bytes 8 n hn rest, rfl⟩
  | reference o s ho hs => exact absurd rfl ht.2

theorem stored_lt (cp : Bytes → Option Str) (values : Bytes) (type : Nat) (data : Bytes) (v : Value)
    (h : StoredAs cp values type data v) : type < 2 ^ 32 := by
  cases h <;> decide

theorem parseQualifier_bytes (q : StoredQualifier) (rest : Bytes) (r : Raw) (hn : q.nameOffset < 2 ^ 32)
    (ht : q.type < 2 ^ 32) (hr : parseRaw q.type (q.data ++ rest) = some (r, rest)) :
    parseQualifier (q.bytes ++ rest) = some ((q.nameOffset, q.type, r), rest) := by
  unfold parseQualifier StoredQualifier.bytes
  simp only [List.append_assoc, Option.bind_eq_bind]
  rw [num_bytes 4 q.nameOffset hn, Option.bind_some]
  simp only [List.singleton_append]
  rw [num1_cons, Option.bind_some]
  simp only
  rw [num_bytes 4 q.type ht, Option.bind_some]
  simp only
  rw [hr, Option.bind_some]
  rfl

theorem qualifierLoop_bytes (cp : Bytes → Option Str) (values : Bytes) (qs : List StoredQualifier)
    (h : ∀ q ∈ qs, q.Ok cp values) (ht : ∀ q ∈ qs, q.type ≠ 0x13 ∧ q.type ≠ 0x66) :
    ∀ fuel, qs.length ≤ fuel → qualifierLoop cp values fuel (qs.flatMap (·.bytes)) = .ok (qs.map (·.shown)) := by
  induction qs with
  | nil => intro fuel _; cases fuel <;> rfl
  | cons q qs ih =>
    intro fuel hf
    obtain ⟨fuel, rfl⟩ : ∃ f, fuel = f + 1 := ⟨fuel - 1, by simp at hf; omega⟩
    have hq := h q (by simp)
    obtain ⟨r, hr, hv⟩ := qualifier_stored cp values q.type q.data q.value hq.value (ht q (by simp))
      (qs.flatMap (·.bytes))
    have hp := parseQualifier_bytes q (qs.flatMap (·.bytes)) r (nameAt_lt cp values _ _ hq.name)
      (stored_lt cp values _ _ _ hq.value) hr
    have hne : q.bytes ++ qs.flatMap (·.bytes) ≠ [] := by
      simp [StoredQualifier.bytes]
    rw [List.flatMap_cons]
    have hs : fromStream parseQualifier (q.bytes ++ qs.flatMap (·.bytes)) =
        .ok ((q.nameOffset, q.type, r), qs.flatMap (·.bytes)) := by
      unfold fromStream
      rw [if_neg hne, hp]
    generalize hB : q.bytes ++ qs.flatMap (·.bytes) = B at *
    cases B with
    | nil => exact absurd rfl hne
    | cons c cs =>
      unfold qualifierLoop
      rw [hs]
      simp only
      rw [readName_at cp values _ _ hq.name]
      simp only
      rw [hv]
      simp only
      rw [ih (fun x hx => h x (by simp [hx])) (fun x hx => ht x (by simp [hx])) fuel (by simp at hf; omega)]
      rfl

theorem qualifiers_length (qs : List StoredQualifier) : qs.length ≤ (qs.flatMap (·.bytes)).length := by
  induction qs with
  | nil => simp
  | cons q qs ih =>
    simp only [List.flatMap_cons, List.length_cons, List.length_append, StoredQualifier.bytes] at *
    simp only [List.length_nil] at *
    omega

/-- C130: qualifiers of all the documented types but 32-bit unsigned integers and references come out as stored:
names by their lowered text or predefined name and values with their sign. -/
theorem C130_qualifiers_partial (cp : Bytes → Option Str) (values : Bytes) (qs : List StoredQualifier)
    (h : ∀ q ∈ qs, q.Ok cp values) (ht : ∀ q ∈ qs, q.type ≠ 0x13 ∧ q.type ≠ 0x66) :
    readQualifiers cp values (qs.flatMap (·.bytes)) = .ok (qs.map (·.shown)) :=
  qualifierLoop_bytes cp values qs h ht _ (qualifiers_length qs)

/-- Only the texts of letters are decoded in the examples. -/
def asciiText (b : Bytes) : Option Str := some (b.map (fun c => Char.ofNat c.toNat))

theorem holds_of_eq (pre b post : Bytes) (o : Nat) (h : pre.length = o) : Holds (pre ++ b ++ post) o b :=
  ⟨pre, post, rfl, h⟩

/-- A qualifier `Key` by its text, and the predefined `dynamic` one with a text as its value. -/
def sampleValues : Bytes := [0] ++ "Key".toList.map (fun c => UInt8.ofNat c.toNat) ++ [0] ++ [0, 0x41, 0]
def sampleQualifiers : List StoredQualifier :=
  [⟨0, 7, 0x10, [0xfe], "Key".toList, .integer (-2)⟩, ⟨0x80000007, 0, 0x08, [5, 0, 0, 0], "dynamic".toList, .text ['A']⟩]

theorem sampleQualifiers_ok : (∀ q ∈ sampleQualifiers, q.Ok asciiText sampleValues) ∧
    ∀ q ∈ sampleQualifiers, q.type ≠ 0x13 ∧ q.type ≠ 0x66 := by
  refine ⟨fun q hq => ?_, by decide⟩
  simp only [sampleQualifiers, List.mem_cons, List.not_mem_nil, or_false] at hq
  rcases hq with rfl | rfl
  · refine ⟨.string 0 _ (by decide) ⟨0, [0x4b, 0x65, 0x79], by decide, by decide, [], [0, 0x41, 0], by decide, rfl⟩, ?_⟩
    exact .sint8 (-2) (by decide) (by decide)
  · refine ⟨.predefined 7 "dynamic" .dynamic, ?_⟩
    exact .string 5 ['A'] (by decide) ⟨0, [0x41], by decide, by decide, [0, 0x4b, 0x65, 0x79, 0], [], by decide, rfl⟩

example : readQualifiers asciiText sampleValues (sampleQualifiers.flatMap (·.bytes)) =
    .ok [("key".toList, .integer (-2)), ("dynamic".toList, .text ['A'])] :=
  C130_qualifiers_partial _ _ _ sampleQualifiers_ok.1 sampleQualifiers_ok.2

theorem qualifierLoop_cons (cp : Bytes → Option Str) (values : Bytes) (fuel : Nat) (b : Bytes) (h : b ≠ []) :
    qualifierLoop cp values (fuel + 1) b =
    match fromStream parseQualifier b with
    | .error e => .error e
    | .ok ((name, type, r), rest) =>
      match readName cp values name with
      | .error e => .error e
      | .ok name =>
        match qualifierValue cp values type r with
        | .error e => .error e
        | .ok v => (qualifierLoop cp values fuel rest).map ((name.map Char.toLower, v) :: ·) := by
  cases b with
  | nil => exact absurd rfl h
  | cons c cs => rfl

/-- C130: the value of a qualifier that is a 32-bit unsigned integer is always missing. -/
theorem C130_uint32_missing (cp : Bytes → Option Str) (values : Bytes) (q : StoredQualifier)
    (h : q.Ok cp values) (ht : q.type = 0x13) :
    readQualifiers cp values q.bytes = .ok [(q.name.map Char.toLower, .none)] := by
  obtain ⟨n, hn, hd⟩ : ∃ n, n < 2 ^ 32 ∧ q.data = leBytes 4 n := by
    have := h.value
    rw [ht] at this
    generalize hd : q.data = d at this
    generalize q.value = v at this
    cases this with
    | uint32 n hn => exact ⟨n, hn, rfl⟩
  have hr : parseRaw q.type (q.data ++ []) = some (.value (.integer n), []) := by
    rw [ht, hd]
    exact rawUnsigned_bytes 4 n hn []
  have hp := parseQualifier_bytes q [] _ (nameAt_lt cp values _ _ h.name) (by rw [ht]; decide) hr
  have hne : q.bytes ≠ [] := by simp [StoredQualifier.bytes]
  rw [List.append_nil] at hp
  unfold readQualifiers
  obtain ⟨m, hm⟩ : ∃ m, q.bytes.length = m + 1 := ⟨q.bytes.length - 1, by
    have := List.length_pos_of_ne_nil hne
    omega⟩
  rw [hm, qualifierLoop_cons _ _ _ _ hne]
  have hs : fromStream parseQualifier q.bytes = .ok ((q.nameOffset, q.type, .value (.integer n)), []) := by
    unfold fromStream
    rw [if_neg hne, hp]
  rw [hs]
  simp only
  rw [readName_at cp values _ _ h.name, ht]
  have hv : qualifierValue cp values 0x13 (.value (.integer n)) = .ok .none := rfl
  simp only [hv]
  cases m <;> rfl

/-- C130: a qualifier that is a reference makes all that it belongs to unreadable. -/
theorem C130_reference_error (cp : Bytes → Option Str) (values : Bytes) (q : StoredQualifier) (rest : Bytes)
    (h : q.Ok cp values) (ht : q.type = 0x66) :
    readQualifiers cp values (q.bytes ++ rest) = .error .parseError := by
  have hne : q.bytes ++ rest ≠ [] := by simp [StoredQualifier.bytes]
  have hp : parseQualifier (q.bytes ++ rest) = none := by
    unfold parseQualifier StoredQualifier.bytes
    simp only [List.append_assoc, Option.bind_eq_bind]
    rw [num_bytes 4 q.nameOffset (nameAt_lt cp values _ _ h.name), Option.bind_some]
    simp only [List.singleton_append]
    rw [num1_cons, Option.bind_some]
    simp only
    rw [num_bytes 4 q.type (by rw [ht]; decide), Option.bind_some]
    simp only
    rw [ht]
    rfl
  unfold readQualifiers
  obtain ⟨m, hm⟩ : ∃ m, (q.bytes ++ rest).length = m + 1 := ⟨(q.bytes ++ rest).length - 1, by
    have := List.length_pos_of_ne_nil hne
    omega⟩
  rw [hm, qualifierLoop_cons _ _ _ _ hne]
  unfold fromStream
  rw [if_neg hne, hp]

def sampleUint32 : StoredQualifier := ⟨0x80000001, 0, 0x13, leBytes 4 5, "key".toList, .integer 5⟩
theorem sampleUint32_ok : sampleUint32.Ok asciiText [] :=
  ⟨.predefined 1 "key" .key, .uint32 5 (by decide)⟩

example : readQualifiers asciiText [] sampleUint32.bytes = .ok [("key".toList, .none)] :=
  C130_uint32_missing _ _ _ sampleUint32_ok rfl

def sampleReference : StoredQualifier := ⟨0x80000006, 0, 0x66, leBytes 4 0, "provider".toList, .text []⟩
example : sampleReference.Ok asciiText [0, 0] ∧ sampleReference.type = 0x66 :=
  ⟨⟨.predefined 6 "provider" .provider,
    .reference 0 [] (by decide) ⟨0, [], by decide, by decide, [], [], by decide, rfl⟩⟩, rfl⟩

/-- C130: not all qualifiers come out as stored. -/
theorem C130_qualifiers_claim_false : ¬ C130_qualifiers_claim := by
  intro h
  have := h asciiText [] [sampleUint32] (by
    intro q hq
    simp only [List.mem_singleton] at hq
    subst hq
    exact sampleUint32_ok)
  revert this
  decide

theorem lookup_append {V : Type} (a b : List (Str × V)) (k : Str) :
    (a ++ b).lookup k = (a.lookup k).or (b.lookup k) := by
  induction a with
  | nil => simp
  | cons x a ih =>
    obtain ⟨x, v⟩ := x
    simp only [List.cons_append, List.lookup_cons, ih]
    cases k == x <;> simp

theorem lookup_none {V : Type} (a : List (Str × V)) (k : Str) (h : ∀ x ∈ a, x.1 ≠ k) : a.lookup k = none := by
  induction a with
  | nil => rfl
  | cons x a ih =>
    obtain ⟨x, v⟩ := x
    rw [List.lookup_cons, beq_false_of_ne (fun e => h (x, v) (by simp) e.symm), ih (fun y hy => h y (by simp [hy]))]

theorem lastOf_spec {V : Type} (a b : List (Str × V)) (k : Str) (v : V) (h : ∀ x ∈ b, x.1 ≠ k) :
    lastOf (a ++ (k, v) :: b) k = some v := by
  unfold lastOf
  rw [List.reverse_append, List.reverse_cons, lookup_append, lookup_append,
    lookup_none b.reverse k (by simpa using h)]
  simp

/-- C130: of qualifiers whose names differ by case only, the last one is known; and a class is abstract by the value of
its last qualifier of that name. -/
theorem C130_last (cp : Bytes → Option Str) (values : Bytes) (a b : List StoredQualifier) (q : StoredQualifier)
    (h : ∀ x ∈ a ++ q :: b, x.Ok cp values) (ht : ∀ x ∈ a ++ q :: b, x.type ≠ 0x13 ∧ x.type ≠ 0x66)
    (hb : ∀ x ∈ b, x.name.map Char.toLower ≠ q.name.map Char.toLower) :
    (readQualifiers cp values ((a ++ q :: b).flatMap (·.bytes))).toOption.bind
      (lastOf · (q.name.map Char.toLower)) = some q.value := by
  rw [C130_qualifiers_partial cp values _ h ht]
  show lastOf _ _ = _
  rw [List.map_append, List.map_cons]
  refine lastOf_spec _ _ _ _ ?_
  intro x hx
  obtain ⟨y, hy, rfl⟩ := List.mem_map.1 hx
  exact hb y hy

example : (readQualifiers asciiText sampleValues (sampleQualifiers.flatMap (·.bytes))).toOption.bind
      (lastOf · "dynamic".toList) = some (.text ['A']) :=
  C130_last asciiText sampleValues [sampleQualifiers.head (by decide)] [] (sampleQualifiers.getLast (by decide))
    sampleQualifiers_ok.1 sampleQualifiers_ok.2 (by simp)

/-! ## Errors -/

/-- The errors that reading a definition has. -/
def ParseOrValue (e : Err) : Prop := e = .parseError ∨ e = .valueError

theorem fromStream_errors {α : Type} (parse : Bytes → Option (α × Bytes)) (b : Bytes) (e : Err)
    (h : fromStream parse b = .error e) : ParseOrValue e ∧ (b ≠ [] → e = .parseError) := by
  unfold fromStream at h
  split at h
  · rename_i hb
    cases h
    exact ⟨.inr rfl, fun h => absurd hb h⟩
  · split at h
    · cases h; exact ⟨.inl rfl, fun _ => rfl⟩
    · cases h

theorem readCimString_errors (cp : Bytes → Option Str) (values : Bytes) (o : Nat) (e : Err)
    (h : readCimString cp values o = .error e) : ParseOrValue e := by
  unfold readCimString at h
  cases hs : fromStream (parseCimString cp) (values.drop o) with
  | error e' =>
    rw [hs] at h
    cases h
    exact (fromStream_errors _ _ _ hs).1
  | ok r => rw [hs] at h; cases h

theorem readName_errors (cp : Bytes → Option Str) (values : Bytes) (o : Nat) (e : Err)
    (h : readName cp values o = .error e) : ParseOrValue e := by
  unfold readName at h
  split at h
  · cases h
  · exact readCimString_errors cp values o e h

theorem num_rest (w : Nat) (b : Bytes) (n : Nat) (rest : Bytes) (h : num w b = some (n, rest)) :
    rest.length + w = b.length := by
  unfold num at h
  split at h
  · cases h
  · cases h
    rw [List.length_drop]
    omega

theorem raw_rest (w : Nat) (b d rest : Bytes) (h : raw w b = some (d, rest)) : rest.length + w = b.length := by
  unfold raw at h
  split at h
  · cases h
  · cases h
    rw [List.length_drop]
    omega

/-- What is stored for a type: a value or an offset. -/
def Shape (type : Nat) (r : Raw) : Prop := (type ∈ offsetTypes → ∃ o, r = .offset o) ∧ (type ∉ offsetTypes → ∃ v, r = .value v)

theorem rawUnsigned_shape (w : Nat) (b : Bytes) (r : Raw) (rest : Bytes) (h : rawUnsigned w b = some (r, rest)) :
    (∃ v, r = .value v) ∧ rest.length ≤ b.length := by
  unfold rawUnsigned at h
  obtain ⟨⟨n, c⟩, hn, he⟩ := Option.map_eq_some_iff.1 h
  cases he
  have := num_rest w b n c hn
  exact ⟨⟨_, rfl⟩, by simp only; omega⟩

theorem rawSigned_shape (w : Nat) (b : Bytes) (r : Raw) (rest : Bytes) (h : rawSigned w b = some (r, rest)) :
    (∃ v, r = .value v) ∧ rest.length ≤ b.length := by
  unfold rawSigned at h
  obtain ⟨⟨n, c⟩, hn, he⟩ := Option.map_eq_some_iff.1 h
  cases he
  have := num_rest w b n c hn
  exact ⟨⟨_, rfl⟩, by simp only; omega⟩

theorem rawReal_shape (w : Nat) (b : Bytes) (r : Raw) (rest : Bytes) (h : rawReal w b = some (r, rest)) :
    (∃ v, r = .value v) ∧ rest.length ≤ b.length := by
  unfold rawReal at h
  obtain ⟨⟨n, c⟩, hn, he⟩ := Option.map_eq_some_iff.1 h
  cases he
  have := raw_rest w b n c hn
  exact ⟨⟨_, rfl⟩, by simp only; omega⟩

theorem boolean16_rest (b : Bytes) (v : Bool) (rest : Bytes) (h : boolean16 b = some (v, rest)) :
    rest.length ≤ b.length := by
  unfold boolean16 at h
  split at h
  · rename_i n c hn
    have := num_rest 2 b n c hn
    split at h
    · cases h; omega
    · split at h
      · cases h; omega
      · cases h
  · cases h

theorem shape_value (type : Nat) (r : Raw) (n m : Nat) (ht : type ∉ offsetTypes) (h : (∃ v, r = .value v) ∧ n ≤ m) :
    Shape type r ∧ n ≤ m := ⟨⟨fun h => absurd h ht, fun _ => h.1⟩, h.2⟩

theorem parseRaw_shape (type : Nat) (b : Bytes) (r : Raw) (rest : Bytes) (h : parseRaw type b = some (r, rest)) :
    Shape type r ∧ rest.length ≤ b.length := by
  unfold parseRaw at h
  split at h
  · exact shape_value _ _ _ _ (by decide) (rawSigned_shape _ _ _ _ h)
  · exact shape_value _ _ _ _ (by decide) (rawSigned_shape _ _ _ _ h)
  · exact shape_value _ _ _ _ (by decide) (rawReal_shape _ _ _ _ h)
  · exact shape_value _ _ _ _ (by decide) (rawReal_shape _ _ _ _ h)
  · refine shape_value _ _ _ _ (by decide) ?_
    obtain ⟨⟨v, c⟩, hv, he⟩ := Option.map_eq_some_iff.1 h
    cases he
    exact ⟨⟨_, rfl⟩, boolean16_rest _ _ _ hv⟩
  · exact shape_value _ _ _ _ (by decide) (rawSigned_shape _ _ _ _ h)
  · exact shape_value _ _ _ _ (by decide) (rawUnsigned_shape _ _ _ _ h)
  · exact shape_value _ _ _ _ (by decide) (rawUnsigned_shape _ _ _ _ h)
  · exact shape_value _ _ _ _ (by decide) (rawUnsigned_shape _ _ _ _ h)
  · exact shape_value _ _ _ _ (by decide) (rawSigned_shape _ _ _ _ h)
  · exact shape_value _ _ _ _ (by decide) (rawUnsigned_shape _ _ _ _ h)
  · split at h
    · rename_i ht
      obtain ⟨⟨n, c⟩, hn, he⟩ := Option.map_eq_some_iff.1 h
      cases he
      have := num_rest 4 b n c hn
      exact ⟨⟨fun _ => ⟨_, rfl⟩, fun h => absurd ht h⟩, by simp only; omega⟩
    · cases h

theorem parseQualifier_shape (b : Bytes) (name type : Nat) (r : Raw) (rest : Bytes)
    (h : parseQualifier b = some ((name, type, r), rest)) : Shape type r ∧ rest.length < b.length := by
  unfold parseQualifier at h
  simp only [Option.bind_eq_bind] at h
  obtain ⟨⟨n, b1⟩, h1, h⟩ := Option.bind_eq_some_iff.1 h
  obtain ⟨⟨u, b2⟩, h2, h⟩ := Option.bind_eq_some_iff.1 h
  obtain ⟨⟨t, b3⟩, h3, h⟩ := Option.bind_eq_some_iff.1 h
  obtain ⟨⟨v, b4⟩, h4, h⟩ := Option.bind_eq_some_iff.1 h
  cases h
  have e1 := num_rest _ _ _ _ h1
  have e2 := num_rest _ _ _ _ h2
  have e3 := num_rest _ _ _ _ h3
  obtain ⟨hs, e4⟩ := parseRaw_shape _ _ _ _ h4
  refine ⟨hs, ?_⟩
  simp only at e1 e2 e3 e4 ⊢
  omega

theorem qualifierValue_errors (cp : Bytes → Option Str) (values : Bytes) (type : Nat) (r : Raw) (e : Err)
    (hs : Shape type r) (h : qualifierValue cp values type r = .error e) : ParseOrValue e := by
  unfold qualifierValue at h
  split at h
  · rename_i ht
    have hn : type ∉ offsetTypes := by
      rcases ht with rfl | ht | rfl | rfl
      · decide
      · simp only [integerTypes, List.mem_cons, List.not_mem_nil, or_false] at ht
        rcases ht with rfl | rfl | rfl | rfl | rfl | rfl | rfl <;> decide
      · decide
      · decide
    obtain ⟨v, rfl⟩ := hs.2 hn
    cases h
  · split at h
    · rename_i ht
      subst ht
      obtain ⟨o, rfl⟩ := hs.1 (by decide)
      simp only at h
      cases hc : readCimString cp values o with
      | error e' =>
        rw [hc] at h
        cases h
        exact readCimString_errors _ _ _ _ hc
      | ok s => rw [hc] at h; cases h
    · cases h

theorem qualifierLoop_errors (cp : Bytes → Option Str) (values : Bytes) : ∀ (fuel : Nat) (b : Bytes) (e : Err),
    b.length ≤ fuel → qualifierLoop cp values fuel b = .error e → ParseOrValue e := by
  intro fuel
  induction fuel with
  | zero =>
    intro b e hb h
    have : b = [] := List.length_eq_zero_iff.1 (by omega)
    subst this
    cases h
  | succ fuel ih =>
    intro b e hb h
    by_cases hne : b = []
    · subst hne; cases h
    rw [qualifierLoop_cons _ _ _ _ hne] at h
    cases hq : fromStream parseQualifier b with
    | error e' =>
      rw [hq] at h
      cases h
      exact (fromStream_errors _ _ _ hq).1
    | ok x =>
      obtain ⟨⟨name, type, r⟩, rest⟩ := x
      rw [hq] at h
      have hp : parseQualifier b = some ((name, type, r), rest) := by
        unfold fromStream at hq
        rw [if_neg hne] at hq
        split at hq
        · cases hq
        · rename_i hp; cases hq; exact hp
      obtain ⟨hs, hl⟩ := parseQualifier_shape _ _ _ _ _ hp
      simp only at h
      cases hn : readName cp values name with
      | error e' =>
        rw [hn] at h
        cases h
        exact readName_errors _ _ _ _ hn
      | ok s =>
        rw [hn] at h
        simp only at h
        cases hv : qualifierValue cp values type r with
        | error e' =>
          rw [hv] at h
          cases h
          exact qualifierValue_errors _ _ _ _ _ hs hv
        | ok v =>
          rw [hv] at h
          simp only at h
          cases hr : qualifierLoop cp values fuel rest with
          | error e' =>
            rw [hr] at h
            cases h
            exact ih rest _ (by omega) hr
          | ok l => rw [hr] at h; cases h

/-- C130: reading qualifiers ends, and it fails with a parse error or a value error only. -/
theorem C130_errors (cp : Bytes → Option Str) (values b : Bytes) (e : Err) (h : readQualifiers cp values b = .error e) :
    e = .parseError ∨ e = .valueError :=
  qualifierLoop_errors cp values _ b e (Nat.le_refl _) h

/-! ## Proofs: classes -/

theorem sized_bytes (d rest : Bytes) (h : d.length + 4 < 2 ^ 32) : sized (sizedBytes d ++ rest) = some (d, rest) := by
  unfold sized sizedBytes
  simp only [List.append_assoc, Option.bind_eq_bind]
  rw [num_bytes 4 _ h, Option.bind_some]
  simp only
  rw [if_neg (by omega), raw_bytes_of _ d rest (by omega)]

theorem parseDefinition_bytes (cp : Bytes → Option Str) (values : Bytes) (p : StoredProperty) (h : p.Ok cp values)
    (rest : Bytes) : parseDefinition (p.definition ++ rest) =
      some ((p.type, p.index, p.offset, p.qualifiers.flatMap (·.bytes)), rest) := by
  unfold parseDefinition StoredProperty.definition
  simp only [List.append_assoc, Option.bind_eq_bind]
  rw [num_bytes 4 _ h.type, Option.bind_some]
  simp only
  rw [num_bytes 2 _ h.index, Option.bind_some]
  simp only
  rw [num_bytes 4 _ h.offset, Option.bind_some]
  simp only
  rw [num_bytes 4 _ h.level, Option.bind_some]
  simp only
  rw [sized_bytes _ _ h.size, Option.bind_some]
  rfl

theorem readProperty_stored (cp : Bytes → Option Str) (values : Bytes) (p : StoredProperty) (h : p.Ok cp values)
    (ht : ∀ q ∈ p.qualifiers, q.type ≠ 0x13 ∧ q.type ≠ 0x66) :
    readProperty cp values p.nameOffset p.definitionOffset = .ok p.shown := by
  unfold readProperty
  rw [readName_at cp values _ _ h.name]
  simp only
  obtain ⟨post, hp⟩ := holds_drop _ _ _ h.definition
  have hf : fromStream parseDefinition (values.drop p.definitionOffset) =
      .ok ((p.type, p.index, p.offset, p.qualifiers.flatMap (·.bytes)), post) := by
    unfold fromStream
    rw [hp, if_neg (by simp [StoredProperty.definition, leBytes]), parseDefinition_bytes cp values p h post]
  rw [hf]
  simp only
  rw [C130_qualifiers_partial cp values _ h.qualifiers ht]
  rfl

theorem readProperties_stored (cp : Bytes → Option Str) (values : Bytes) (ps : List StoredProperty)
    (h : ∀ p ∈ ps, p.Ok cp values) (ht : ∀ p ∈ ps, ∀ q ∈ p.qualifiers, q.type ≠ 0x13 ∧ q.type ≠ 0x66) :
    readProperties cp values (ps.map (fun p => (p.nameOffset, p.definitionOffset))) = .ok (ps.map (·.shown)) := by
  induction ps with
  | nil => rfl
  | cons p ps ih =>
    simp only [List.map_cons, readProperties]
    rw [readProperty_stored cp values p (h p (by simp)) (ht p (by simp)),
      ih (fun x hx => h x (by simp [hx])) (fun x hx => ht x (by simp [hx]))]
    rfl

theorem parsePairs_bytes (cp : Bytes → Option Str) (values : Bytes) (ps : List StoredProperty)
    (h : ∀ p ∈ ps, p.Ok cp values) (rest : Bytes) :
    several parsePair ps.length
      (ps.flatMap (fun p => leBytes 4 p.nameOffset ++ leBytes 4 p.definitionOffset) ++ rest) =
        some (ps.map (fun p => (p.nameOffset, p.definitionOffset)), rest) := by
  induction ps with
  | nil => rfl
  | cons p ps ih =>
    have hp := h p (by simp)
    simp only [List.length_cons, several, List.flatMap_cons, List.append_assoc, Option.bind_eq_bind]
    have : ∀ rest, parsePair (leBytes 4 p.nameOffset ++ (leBytes 4 p.definitionOffset ++ rest)) =
        some ((p.nameOffset, p.definitionOffset), rest) := by
      intro rest
      unfold parsePair
      simp only [Option.bind_eq_bind]
      rw [num_bytes 4 _ (nameAt_lt cp values _ _ hp.name), Option.bind_some]
      simp only
      rw [num_bytes 4 _ hp.definitionOffset, Option.bind_some]
      rfl
    rw [this, Option.bind_some]
    simp only
    rw [ih (fun x hx => h x (by simp [hx])), Option.bind_some]
    rfl

theorem mask_values (n : Nat) (flag : Bool) (h : n < 2 ^ 31) :
    (n + if flag then 2 ^ 31 else 0) &&& 0x7FFFFFF = n % 2 ^ 27 := by
  rw [show (0x7FFFFFF : Nat) = 2 ^ 27 - 1 from rfl, Nat.and_two_pow_sub_one_eq_mod]
  cases flag
  · simp
  · simp only [if_true]
    omega

theorem parseClassBlock_bytes (cp : Bytes → Option Str) (c : StoredClass) (h : c.Ok cp) (rest : Bytes) :
    ∃ more, parseClassBlock (c.bytes ++ rest) = some (⟨c.nameOffset, c.superBytes, c.qualifiers.flatMap (·.bytes),
      c.properties.map (fun p => (p.nameOffset, p.definitionOffset)), c.values.take (c.values.length % 2 ^ 27)⟩, more) := by
  refine ⟨(c.values ++ rest).drop (c.values.length % 2 ^ 27), ?_⟩
  unfold parseClassBlock StoredClass.bytes
  simp only [List.append_assoc, Option.bind_eq_bind, List.cons_append, List.nil_append]
  rw [num1_cons, Option.bind_some]
  simp only
  rw [num_bytes 4 _ h.nameOffset, Option.bind_some]
  simp only
  rw [num_bytes 4 _ h.defaults, Option.bind_some]
  simp only
  rw [sized_bytes _ _ h.superSize, Option.bind_some]
  simp only
  rw [sized_bytes _ _ h.qualifiersSize, Option.bind_some]
  simp only
  rw [num_bytes 4 _ h.count, Option.bind_some]
  simp only
  rw [parsePairs_bytes cp c.values c.properties h.properties, Option.bind_some]
  simp only
  rw [raw_bytes, Option.bind_some]
  simp only
  rw [num_bytes 4 _ (by have := h.values; split <;> omega), Option.bind_some]
  simp only
  rw [mask_values _ _ h.values]
  have hle : c.values.length % 2 ^ 27 ≤ c.values.length := Nat.mod_le _ _
  have hr : raw (c.values.length % 2 ^ 27) (c.values ++ rest) =
      some (c.values.take (c.values.length % 2 ^ 27), (c.values ++ rest).drop (c.values.length % 2 ^ 27)) := by
    unfold raw
    rw [if_neg (by simp only [List.length_append]; omega), List.take_append_of_le_length hle]
  rw [hr, Option.bind_some]
  rfl

theorem fromStream_class (cp : Bytes → Option Str) (c : StoredClass) (h : c.Ok cp) (rest : Bytes) :
    ∃ more, fromStream parseClassBlock (c.bytes ++ rest) =
      .ok (⟨c.nameOffset, c.superBytes, c.qualifiers.flatMap (·.bytes),
        c.properties.map (fun p => (p.nameOffset, p.definitionOffset)), c.values.take (c.values.length % 2 ^ 27)⟩, more) := by
  obtain ⟨more, hm⟩ := parseClassBlock_bytes cp c h rest
  refine ⟨more, ?_⟩
  unfold fromStream
  rw [if_neg (by simp [StoredClass.bytes]), hm]

/-- C129: a class definition whose values take less than 2^27 bytes comes out as stored: its name, that of the class it
extends, its qualifiers and its properties with their index, offset, type and qualifiers, in order. -/
theorem C129_class_partial (cp : Bytes → Option Str) (c : StoredClass) (rest : Bytes) (h : c.Ok cp)
    (hq : ∀ q ∈ c.qualifiers, q.type ≠ 0x13 ∧ q.type ≠ 0x66)
    (hp : ∀ p ∈ c.properties, ∀ q ∈ p.qualifiers, q.type ≠ 0x13 ∧ q.type ≠ 0x66) (hs : c.values.length < 2 ^ 27) :
    readClass cp (c.bytes ++ rest) = .ok c.shown := by
  obtain ⟨more, hm⟩ := fromStream_class cp c h rest
  unfold readClass
  rw [hm]
  simp only
  rw [Nat.mod_eq_of_lt hs, List.take_length, readCimString_at cp _ _ _ h.name]
  simp only
  have hsup : (if c.superBytes = [] then .ok none else (readCimString cp c.superBytes 0).map some : Res (Option Str)) =
      .ok (c.super.map (·.2.2)) := by
    cases hc : c.super with
    | none => simp [StoredClass.superBytes, hc]
    | some x =>
      obtain ⟨flags, text, s⟩ := x
      obtain ⟨h0, ht⟩ := h.super flags text s hc
      have hb : c.superBytes = flags :: (text ++ [0]) := by simp [StoredClass.superBytes, hc]
      rw [hb, if_neg (by simp), readCimString_at cp _ 0 s ⟨flags, text, h0, ht, [], [], by simp, rfl⟩]
      rfl
  rw [hsup]
  simp only
  rw [C130_qualifiers_partial cp _ _ h.qualifiers hq]
  simp only
  rw [readProperties_stored cp _ _ h.properties hp]
  rfl

/-- A class `A` that extends `B`, with a qualifier and a property. -/
def sampleClass : StoredClass :=
  ⟨0, 0, ['A'], some (0, [0x42], ['B']), [⟨0x80000007, 0, 0x0b, [0xff, 0xff], "dynamic".toList, .boolean true⟩],
    [⟨0x80000001, 3, 2, "key".toList, 1, 4, 0x13, [⟨0x80000003, 0, 0x11, [9], "read".toList, .integer 9⟩]⟩],
    [1, 2], [0, 0x41, 0] ++ (leBytes 4 0x13 ++ (leBytes 2 1 ++ (leBytes 4 4 ++ (leBytes 4 2 ++
      (leBytes 4 14 ++ (leBytes 4 0x80000003 ++ ([0] ++ (leBytes 4 0x11 ++ [9])))))))), true⟩

theorem sampleClass_ok : sampleClass.Ok asciiText where
  nameOffset := by decide
  name := ⟨0, [0x41], by decide, by decide, [], sampleClass.values.drop 3, by decide, rfl⟩
  super := by
    intro flags text s h
    cases h
    exact ⟨by decide, by decide⟩
  superSize := by decide
  qualifiers := by
    intro q hq
    simp only [sampleClass, List.mem_singleton] at hq
    subst hq
    exact ⟨.predefined 7 "dynamic" .dynamic, .true_⟩
  qualifiersSize := by decide
  properties := by
    intro p hp
    simp only [sampleClass, List.mem_singleton] at hp
    subst hp
    refine ⟨.predefined 1 "key" .key, ⟨[0, 0x41, 0], [], by decide, rfl⟩, by decide, by decide, by decide, by decide,
      by decide, by decide, ?_⟩
    intro q hq
    simp only [List.mem_singleton] at hq
    subst hq
    exact ⟨.predefined 3 "read" .read, .uint8 9 (by decide)⟩
  count := by decide
  defaults := by decide
  values := by decide

example : readClass asciiText sampleClass.bytes = .ok ⟨['A'], some ['B'], [("dynamic".toList, .boolean true)],
    [⟨"key".toList, 1, 4, 0x13, [("read".toList, .integer 9)]⟩]⟩ := by
  have := C129_class_partial asciiText sampleClass [] sampleClass_ok (by decide) (by decide) (by decide)
  rwa [List.append_nil] at this

/-- A class whose name is behind many other bytes. -/
def largeClass (n : Nat) : StoredClass := ⟨0, n, [], none, [], [], [], List.replicate n 1 ++ [0, 0], false⟩

theorem largeClass_length (n : Nat) : (largeClass n).values.length = n + 2 := by
  simp [largeClass]

theorem largeClass_ok (n : Nat) (h : n < 2 ^ 30) : (largeClass n).Ok asciiText where
  nameOffset := by show n < _; omega
  name := ⟨0, [], by simp, rfl, List.replicate n 1, [], by simp [largeClass], by simp [largeClass]⟩
  super := by
    intro flags text s h
    cases h
  superSize := by simp [largeClass, StoredClass.superBytes]
  qualifiers := by
    intro q hq
    cases hq
  qualifiersSize := by simp [largeClass]
  properties := by
    intro q hq
    cases hq
  count := by simp [largeClass]
  defaults := by simp [largeClass]
  values := by rw [largeClass_length]; omega

theorem largeClass_differs (n : Nat) (h : n < 2 ^ 30) (hn : (n + 2) % 2 ^ 27 ≤ n) :
    readClass asciiText ((largeClass n).bytes ++ []) = .error .valueError := by
  obtain ⟨more, hm⟩ := fromStream_class asciiText (largeClass n) (largeClass_ok n h) []
  have hd : ((largeClass n).values.take ((largeClass n).values.length % 2 ^ 27)).drop (largeClass n).nameOffset = [] := by
    apply List.drop_of_length_le
    rw [List.length_take, largeClass_length]
    show _ ≤ n
    omega
  unfold readClass
  rw [hm]
  simp only
  unfold readCimString
  rw [hd]
  rfl

/-- C129: a larger one does not: the size is read with 27 bits instead of 31. -/
theorem C129_class_claim_false : ¬ C129_class_claim := by
  intro h
  obtain ⟨n, hn⟩ : ∃ n, n = 2 ^ 27 := ⟨_, rfl⟩
  have h1 := h asciiText (largeClass n) [] (largeClass_ok n (by omega)) (by intro q hq; cases hq)
    (by intro q hq; cases hq)
  rw [largeClass_differs n (by omega) (by omega)] at h1
  cases h1

/-- C129: a class definition whose name is not among its values is not a parse error. -/
theorem C129_errors_claim_false : ¬ C129_errors_claim := by
  intro h
  have := h asciiText ([0] ++ leBytes 4 0 ++ leBytes 4 0 ++ leBytes 4 4 ++ leBytes 4 4 ++ leBytes 4 0 ++ leBytes 4 0)
    .valueError (by decide) (by decide)
  cases this

theorem readProperty_errors (cp : Bytes → Option Str) (values : Bytes) (n d : Nat) (e : Err)
    (h : readProperty cp values n d = .error e) : ParseOrValue e := by
  unfold readProperty at h
  split at h
  · rename_i hn; cases h; exact readName_errors _ _ _ _ hn
  · split at h
    · rename_i hd; cases h; exact (fromStream_errors _ _ _ hd).1
    · split at h
      · rename_i hq; cases h; exact C130_errors _ _ _ _ hq
      · cases h

theorem readProperties_errors (cp : Bytes → Option Str) (values : Bytes) (ds : List (Nat × Nat)) (e : Err)
    (h : readProperties cp values ds = .error e) : ParseOrValue e := by
  induction ds with
  | nil => cases h
  | cons d ds ih =>
    unfold readProperties at h
    split at h
    · rename_i hp; cases h; exact readProperty_errors _ _ _ _ _ hp
    · cases hr : readProperties cp values ds with
      | error e' =>
        rw [hr] at h
        cases h
        exact ih hr
      | ok l => rw [hr] at h; cases h

/-- C129: reading any class definition fails with a parse error or a value error only. -/
theorem C129_errors_partial (cp : Bytes → Option Str) (b : Bytes) (e : Err) (h : readClass cp b = .error e) :
    e = .parseError ∨ e = .valueError := by
  unfold readClass at h
  split at h
  · rename_i hc; cases h; exact (fromStream_errors _ _ _ hc).1
  · rename_i c _ _
    split at h
    · rename_i hn; cases h; exact readCimString_errors _ _ _ _ hn
    · split at h
      · rename_i hs
        cases h
        split at hs
        · cases hs
        · cases hr : readCimString cp c.super 0 with
          | error e' =>
            rw [hr] at hs
            cases hs
            exact readCimString_errors _ _ _ _ hr
          | ok s => rw [hr] at hs; cases hs
      · split at h
        · rename_i hq; cases h; exact C130_errors _ _ _ _ hq
        · cases hr : readProperties cp c.values c.descriptors with
          | error e' =>
            rw [hr] at h
            cases h
            exact readProperties_errors _ _ _ _ hr
          | ok l => rw [hr] at h; cases h

example : readClass asciiText [1, 2, 3] = .error .parseError := by decide

/-- C129: a class is abstract by the value of its last qualifier of that name, and it is not without one. -/
theorem C129_abstract (c : ClassInfo) :
    ((∀ x ∈ c.qualifiers, x.1 ≠ "abstract".toList) → isAbstract c = .boolean false) ∧
    ∀ a v b, c.qualifiers = a ++ ("abstract".toList, v) :: b → (∀ x ∈ b, x.1 ≠ "abstract".toList) →
      isAbstract c = v := by
  refine ⟨fun h => ?_, fun a v b hc hb => ?_⟩
  · unfold isAbstract lastOf
    rw [lookup_none _ _ (by simpa using h)]
    rfl
  · unfold isAbstract
    rw [hc, lastOf_spec a b _ v hb]
    rfl

example : isAbstract ⟨[], none, [("abstract".toList, .boolean true), ("key".toList, .none)], []⟩ = .boolean true :=
  (C129_abstract _).2 [] _ [("key".toList, .none)] rfl (by decide)

end Dtf.Wmi
