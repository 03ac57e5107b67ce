import Verif.Wmi.Definitions

/-!
# Instances and object records of the WMI repository (C131, C132)
-/

namespace Dtf.Wmi
open Py DataFormat Text Formats Unified

/-! ## Model: values of properties -/

def unsignedMap (w : Nat) (b : Bytes) : Option (Value × Bytes) := (num w b).map (fun r => (.integer r.1, r.2))
def signedMap (w : Nat) (b : Bytes) : Option (Value × Bytes) := (num w b).map (fun r => (.integer (signed w r.1), r.2))
def booleanMap (b : Bytes) : Option (Value × Bytes) := (boolean16 b).map (fun r => (.boolean r.1, r.2))

/-- The data types `property_value_...` (wmi_repository.yaml 468-524) by the rest of their name.  There are none for
the other type qualifiers. -/
def valueMaps : List (Str × (Bytes → Option (Value × Bytes))) :=
  [("boolean".toList, booleanMap),
    ("uint8".toList, unsignedMap 1),
    ("uint16".toList, unsignedMap 2),
    ("sint32".toList, signedMap 4),
    ("uint32".toList, unsignedMap 4),
    ("uint64".toList, unsignedMap 8),
    ("offset".toList, unsignedMap 4)]

/-- `_FIXED_SIZE_VALUE_DATA_TYPES` (wmi_repository.py 2969-2983). -/
def fixedTypes : List Nat := [0x02, 0x03, 0x04, 0x05, 0x0B, 0x10, 0x11, 0x12, 0x13, 0x14, 0x15]

/-- `_STRING_VALUE_DATA_TYPES` (wmi_repository.py 2985). -/
def stringTypes : List Nat := [0x08, 0x65, 0x66]

/-- A value of a fixed size (wmi_repository.py 3143-3154): without a data type map there is a value error. -/
def readFixed (qualifier : Str) (b : Bytes) : Res Value :=
  match valueMaps.lookup qualifier with
  | none => .error .valueError
  | some m => (fromStream m b).map (·.1)

/-- `cim_string_array` (wmi_repository.yaml 204-215). -/
def parseOffsets (b : Bytes) : Option (List Nat × Bytes) := do
  let (count, b) ← num 4 b
  several (num 4) count b

def readStrings (cp : Bytes → Option Str) (values : Bytes) : List Nat → Res (List Str)
  | [] => .ok []
  | o :: os =>
    match readCimString cp values o with
    | .error e => .error e
    | .ok s => (readStrings cp values os).map (s :: ·)

/-- The value of a property (wmi_repository.py 3135-3240). -/
def readValue (cp : Bytes → Option Str) (stored values : Bytes) (m : PropertyMap) : Res Value :=
  if m.dataType ∈ fixedTypes then readFixed m.qualifier (stored.drop m.offset)
  else
    match fromStream (num 4) (stored.drop m.offset) with
    | .error e => .error e
    | .ok (o, _) =>
      if m.dataType ∈ stringTypes then
        if o > 0 then (readCimString cp values o).map .text else .ok .none
      else if m.dataType = 0x2008 then
        if o > 0 then
          match fromStream parseOffsets (values.drop o) with
          | .error e => .error e
          | .ok (os, _) => (readStrings cp values os).map .texts
        else .ok .none
      else .ok .none

def readValues (cp : Bytes → Option Str) (stored values : Bytes) : List PropertyMap → Res (List (Str × Value))
  | [] => .ok []
  | m :: ms =>
    match readValue cp stored values m with
    | .error e => .error e
    | .ok v => (readValues cp stored values ms).map ((m.name, v) :: ·)

/-! ## Model: instances -/

/-- The size of the state bits (wmi_repository.py 3040-3043). -/
def stateSize (n : Nat) : Nat := if n % 4 > 0 then n / 4 + 1 else n / 4

/-- `instance_block` (wmi_repository.yaml 598-623): the offset of the name, the values and the type of what follows. -/
def parseInstance (state size : Nat) (b : Bytes) : Option ((Nat × Bytes × Nat) × Bytes) := do
  let (name, b) ← num 4 b
  let (_, b) ← num 1 b
  let (_, b) ← raw state b
  let (stored, b) ← raw size b
  let (_, b) ← sized b
  let (type, b) ← num 1 b
  if type = 1 ∨ type = 2 then return ((name, stored, type), b) else none

/-- The loop over the dynamic entries (wmi_repository.py 3093-3111): what follows them. -/
def skipEntries : Nat → Bytes → Res Bytes
  | 0, b => .ok b
  | n + 1, b =>
    match fromStream sized b with
    | .error e => .error e
    | .ok (_, b) => skipEntries n b

/-- The dynamic block (wmi_repository.py 3073-3111). -/
def skipDynamic (type : Nat) (b : Bytes) : Res Bytes :=
  if type = 2 then
    match fromStream (num 4) b with
    | .error e => .error e
    | .ok (n, b) => skipEntries n b
  else .ok b

/-- `ReadInstanceBlockData` (wmi_repository.py 3019-3246) with the maps of the properties of the class, in the order of
their dictionary, and the size of their values: the name of the class and the values.  The names of different maps
differ, so no value replaces another one. -/
def readInstance (cp : Bytes → Option Str) (maps : List PropertyMap) (size : Nat) (b : Bytes) :
    Res (Str × List (Str × Value)) :=
  match fromStream (parseInstance (stateSize maps.length) size) b with
  | .error e => .error e
  | .ok ((name, stored, type), b) =>
    match skipDynamic type b with
    | .error e => .error e
    | .ok b =>
      match fromStream (num 4) b with
      | .error e => .error e
      | .ok (_, values) =>
        match readCimString cp values name with
        | .error e => .error e
        | .ok name => (readValues cp stored values maps).map (name, ·)

/-! ## Model: object records -/

/-- A text of UTF-16 with a number of characters. -/
def text16 (utf16 : Bytes → Option Str) (n : Nat) (b : Bytes) : Option (Str × Bytes) := do
  let (d, b) ← raw (2 * n) b
  let s ← utf16 d
  return (s, b)

/-- `class_definition_object_record` (wmi_repository.yaml 578-597). -/
def parseClassRecord (utf16 : Bytes → Option Str) (b : Bytes) : Option ((Str × Bytes) × Bytes) := do
  let (n, b) ← num 4 b
  let (super, b) ← text16 utf16 n b
  let (_, b) ← num 8 b
  let (data, b) ← sized b
  return ((super, data), b)

/-- A reference to the data of a class definition or an instance; the text is the name of the super class or the hash of
that of the class. -/
structure Reference where
  text : Str
  data : Bytes
  offset : Nat
deriving DecidableEq, Repr

/-- `ClassDefinitionReference.ReadObjectRecord` (wmi_repository.py 2832-2864): the offset is the size of the record. -/
def readClassReference (utf16 : Bytes → Option Str) (b : Bytes) : Res Reference :=
  (fromStream (parseClassRecord utf16) b).map (fun r => ⟨r.1.1, r.1.2, b.length - r.2.length⟩)

/-- `instance_object_record_v1` and `instance_object_record_v2` (wmi_repository.yaml 644-683), whose hash has a number of
characters. -/
def parseInstanceRecord (utf16 : Bytes → Option Str) (n : Nat) (b : Bytes) : Option ((Str × Bytes) × Bytes) := do
  let (hash, b) ← text16 utf16 n b
  let (_, b) ← num 8 b
  let (_, b) ← num 8 b
  let (data, b) ← sized b
  return ((hash, data), b)

/-- `InstanceReference.ReadObjectRecord` (wmi_repository.py 2900-2932); `old` is that the format version is 2.1. -/
def readInstanceReference (utf16 : Bytes → Option Str) (old : Bool) (b : Bytes) : Res Reference :=
  (fromStream (parseInstanceRecord utf16 (if old then 32 else 64)) b).map
    (fun r => ⟨r.1.1, r.1.2, if old then 84 else 144⟩)

/-! ## Specification -/

/-- The names of the data types. -/
inductive CimName : Nat → String → Prop
  | sint16 : CimName 0x02 "sint16"
  | sint32 : CimName 0x03 "sint32"
  | real32 : CimName 0x04 "real32"
  | real64 : CimName 0x05 "real64"
  | boolean : CimName 0x0b "boolean"
  | sint8 : CimName 0x10 "sint8"
  | uint8 : CimName 0x11 "uint8"
  | uint16 : CimName 0x12 "uint16"
  | uint32 : CimName 0x13 "uint32"
  | sint64 : CimName 0x14 "sint64"
  | uint64 : CimName 0x15 "uint64"

/-- Texts are at offsets, in order. -/
inductive StringsAt (cp : Bytes → Option Str) (values : Bytes) : List Nat → List Str → Prop
  | nil : StringsAt cp values [] []
  | cons (o : Nat) (s : Str) (os : List Nat) (ss : List Str) : o < 2 ^ 32 → StringAt cp values o s →
      StringsAt cp values os ss → StringsAt cp values (o :: os) (s :: ss)

/-- What the bytes of a property of a type with a type qualifier stand for. -/
inductive InstanceValue (cp : Bytes → Option Str) (values : Bytes) : Nat → Str → Bytes → Value → Prop
  | fixed (t : Nat) (q : String) (d : Bytes) (v : Value) : CimName t q → StoredAs cp values t d v →
      InstanceValue cp values t q.toList d v
  | unset (t : Nat) (q : Str) : t = 0x08 ∨ t = 0x65 ∨ t = 0x66 ∨ t = 0x2008 →
      InstanceValue cp values t q [0, 0, 0, 0] .none
  | text (t : Nat) (q : Str) (o : Nat) (s : Str) : t = 0x08 ∨ t = 0x65 ∨ t = 0x66 → 0 < o → o < 2 ^ 32 →
      StringAt cp values o s → InstanceValue cp values t q (leBytes 4 o) (.text s)
  | texts (q : Str) (o : Nat) (os : List Nat) (ss : List Str) : 0 < o → o < 2 ^ 32 → os.length < 2 ^ 32 →
      Holds values o (leBytes 4 os.length ++ os.flatMap (leBytes 4)) → StringsAt cp values os ss →
      InstanceValue cp values 0x2008 q (leBytes 4 o) (.texts ss)

/-- An instance as it is stored. -/
structure StoredInstance where
  nameOffset : Nat
  name : Str
  unknown : UInt8
  state : Bytes
  stored : Bytes
  qualifiers : Bytes
  /-- The dynamic properties, if there is a block for them. -/
  dynamic : Option (List Bytes)
  unknown2 : Nat
  values : Bytes

def StoredInstance.dynamicBytes (i : StoredInstance) : Bytes :=
  match i.dynamic with
  | none => [1]
  | some l => [2] ++ (leBytes 4 l.length ++ l.flatMap sizedBytes)

def StoredInstance.bytes (i : StoredInstance) : Bytes :=
  leBytes 4 i.nameOffset ++ ([i.unknown] ++ (i.state ++ (i.stored ++ (sizedBytes i.qualifiers ++ (i.dynamicBytes ++
    (leBytes 4 i.unknown2 ++ i.values))))))

/-- Two bits for each property and as many bytes of values as there are. -/
structure StoredInstance.Ok (cp : Bytes → Option Str) (properties size : Nat) (i : StoredInstance) : Prop where
  nameOffset : i.nameOffset < 2 ^ 32
  name : StringAt cp i.values i.nameOffset i.name
  state : i.state.length = (2 * properties + 7) / 8
  stored : i.stored.length = size
  qualifiers : i.qualifiers.length + 4 < 2 ^ 32
  dynamic : ∀ l, i.dynamic = some l → l.length < 2 ^ 32 ∧ ∀ d ∈ l, d.length + 4 < 2 ^ 32
  unknown2 : i.unknown2 < 2 ^ 32

/-- A property has a value in an instance. -/
def HasValue (cp : Bytes → Option Str) (i : StoredInstance) (m : PropertyMap) (v : Value) : Prop :=
  ∃ d, Holds i.stored m.offset d ∧ InstanceValue cp i.values m.dataType m.qualifier d v

/-- The claim of C131: instances come out as they were stored. -/
def C131_instance_claim : Prop := ∀ (cp : Bytes → Option Str) (i : StoredInstance) (l : List (PropertyMap × Value))
  (size : Nat), i.Ok cp l.length size → (∀ x ∈ l, HasValue cp i x.1 x.2) →
  readInstance cp (l.map (·.1)) size i.bytes = .ok (i.name, l.map (fun x => (x.1.name, x.2)))

/-- The types that cannot be read. -/
def Unreadable (t : Nat) : Prop := t = 0x02 ∨ t = 0x04 ∨ t = 0x05 ∨ t = 0x10 ∨ t = 0x14

instance (t : Nat) : Decidable (Unreadable t) := by unfold Unreadable; infer_instance

/-! ## Proofs: values -/

theorem fromStream_bytes {α : Type} (parse : Bytes → Option (α × Bytes)) (b : Bytes) (r : α × Bytes) (hb : b ≠ [])
    (h : parse b = some r) : fromStream parse b = .ok r := by
  unfold fromStream
  rw [if_neg hb, h]

theorem readFixed_of (q : Str) (m : Bytes → Option (Value × Bytes)) (b rest : Bytes) (v : Value)
    (hq : valueMaps.lookup q = some m) (hb : b ≠ []) (h : m b = some (v, rest)) : readFixed q b = .ok v := by
  unfold readFixed
  rw [hq]
  simp only
  rw [fromStream_bytes m b _ hb h]
  rfl

theorem readFixed_stored (cp : Bytes → Option Str) (values : Bytes) (t : Nat) (q : String) (d : Bytes) (v : Value)
    (hq : CimName t q) (h : StoredAs cp values t d v) (hr : ¬ Unreadable t) (rest : Bytes) :
    readFixed q.toList (d ++ rest) = .ok v := by
  cases hq with
  | sint16 => exact absurd (by decide) hr
  | real32 => exact absurd (by decide) hr
  | real64 => exact absurd (by decide) hr
  | sint8 => exact absurd (by decide) hr
  | sint64 => exact absurd (by decide) hr
  | sint32 =>
    cases h with
    | sint32 i h1 h2 =>
      refine readFixed_of _ (signedMap 4) _ rest _ (by rfl) (by simp [leBytes]) ?_
      unfold signedMap
      rw [num_bytes 4 _ (unsigned_lt 4 i), Option.map_some, signed_unsigned 4 i (by omega) (by omega)]
  | boolean => cases h <;> rfl
  | uint8 =>
    cases h with
    | uint8 n hn =>
      refine readFixed_of _ (unsignedMap 1) _ rest _ (by rfl) (by simp [leBytes]) ?_
      unfold unsignedMap
      rw [num_bytes 1 n hn]
      rfl
  | uint16 =>
    cases h with
    | uint16 n hn =>
      refine readFixed_of _ (unsignedMap 2) _ rest _ (by rfl) (by simp [leBytes]) ?_
      unfold unsignedMap
      rw [num_bytes 2 n hn]
      rfl
  | uint32 =>
    cases h with
    | uint32 n hn =>
      refine readFixed_of _ (unsignedMap 4) _ rest _ (by rfl) (by simp [leBytes]) ?_
      unfold unsignedMap
      rw [num_bytes 4 n hn]
      rfl
  | uint64 =>
    cases h with
    | uint64 n hn =>
      refine readFixed_of _ (unsignedMap 8) _ rest _ (by rfl) (by simp [leBytes]) ?_
      unfold unsignedMap
      rw [num_bytes 8 n hn]
      rfl

theorem cimName_fixed (t : Nat) (q : String) (h : CimName t q) : t ∈ fixedTypes := by
  cases h <;> decide

theorem cimName_unreadable (t : Nat) (q : String) (h : CimName t q) (hu : Unreadable t) :
    valueMaps.lookup q.toList = none := by
  cases h <;> first | rfl | exact absurd hu (by decide)

theorem offset_bytes (o : Nat) (h : o < 2 ^ 32) (rest : Bytes) :
    fromStream (num 4) (leBytes 4 o ++ rest) = .ok (o, rest) :=
  fromStream_bytes _ _ _ (by simp [leBytes]) (num_bytes 4 o h rest)

theorem readStrings_at (cp : Bytes → Option Str) (values : Bytes) (os : List Nat) (ss : List Str)
    (h : StringsAt cp values os ss) : readStrings cp values os = .ok ss := by
  induction h with
  | nil => rfl
  | cons o s os ss ho hs _ ih =>
    unfold readStrings
    rw [readCimString_at cp values o s hs, ih]
    rfl

theorem stringsAt_lt (cp : Bytes → Option Str) (values : Bytes) (os : List Nat) (ss : List Str)
    (h : StringsAt cp values os ss) : ∀ o ∈ os, o < 2 ^ 32 := by
  induction h with
  | nil => simp
  | cons o s os ss ho hs _ ih =>
    intro x hx
    rcases List.mem_cons.1 hx with rfl | hx
    · exact ho
    · exact ih x hx

theorem readValue_stored (cp : Bytes → Option Str) (stored values d : Bytes) (m : PropertyMap) (v : Value)
    (hd : Holds stored m.offset d) (h : InstanceValue cp values m.dataType m.qualifier d v) (hr : ¬ Unreadable m.dataType) :
    readValue cp stored values m = .ok v := by
  obtain ⟨post, hp⟩ := holds_drop _ _ _ hd
  unfold readValue
  rw [hp]
  generalize m.dataType = t at *
  generalize m.qualifier = q at *
  cases h with
  | fixed t q d v hq hs => rw [if_pos (cimName_fixed t q hq), readFixed_stored cp values t q d v hq hs hr]
  | unset t q ht =>
    have e : fromStream (num 4) ([0, 0, 0, 0] ++ post) = .ok (0, post) := offset_bytes 0 (by decide) post
    rw [e]
    rcases ht with rfl | rfl | rfl | rfl <;> rfl
  | text t q o s ht h0 ho hs =>
    rw [offset_bytes o ho]
    have h1 : t ∉ fixedTypes := by rcases ht with rfl | rfl | rfl <;> decide
    have h2 : t ∈ stringTypes := by rcases ht with rfl | rfl | rfl <;> decide
    rw [if_neg h1]
    simp only
    rw [if_pos h2, if_pos h0, readCimString_at cp values o s hs]
    rfl
  | texts q o os ss h0 ho hl hh hs =>
    rw [offset_bytes o ho, if_neg (by decide)]
    simp only
    rw [if_neg (by decide), if_pos (by trivial), if_pos h0]
    obtain ⟨post', hp'⟩ := holds_drop _ _ _ hh
    have hparse : parseOffsets (leBytes 4 os.length ++ os.flatMap (leBytes 4) ++ post') = some (os, post') := by
      unfold parseOffsets
      simp only [List.append_assoc, Option.bind_eq_bind]
      rw [num_bytes 4 _ hl, Option.bind_some]
      simp only
      have := several_num 4 id os (stringsAt_lt cp values os ss hs) post'
      simpa using this
    rw [hp', fromStream_bytes _ _ _ (by simp [leBytes]) hparse]
    simp only
    rw [readStrings_at cp values os ss hs]
    rfl

theorem readValues_stored (cp : Bytes → Option Str) (i : StoredInstance) (l : List (PropertyMap × Value))
    (h : ∀ x ∈ l, HasValue cp i x.1 x.2) (hr : ∀ x ∈ l, ¬ Unreadable x.1.dataType) :
    readValues cp i.stored i.values (l.map (·.1)) = .ok (l.map (fun x => (x.1.name, x.2))) := by
  induction l with
  | nil => rfl
  | cons x l ih =>
    obtain ⟨d, hd, hv⟩ := h x (by simp)
    simp only [List.map_cons, readValues]
    rw [readValue_stored cp _ _ d _ _ hd hv (hr x (by simp)),
      ih (fun y hy => h y (by simp [hy])) (fun y hy => hr y (by simp [hy]))]
    rfl

theorem readValue_unreadable (cp : Bytes → Option Str) (stored values d : Bytes) (m : PropertyMap) (v : Value)
    (h : InstanceValue cp values m.dataType m.qualifier d v) (hr : Unreadable m.dataType) :
    readValue cp stored values m = .error .valueError := by
  unfold readValue
  generalize m.dataType = t at *
  generalize m.qualifier = q at *
  cases h with
  | fixed t q d v hq hs =>
    rw [if_pos (cimName_fixed t q hq)]
    unfold readFixed
    rw [cimName_unreadable t q hq hr]
  | unset t q ht => rcases ht with rfl | rfl | rfl | rfl <;> exact absurd hr (by decide)
  | text t q o s ht _ _ _ => rcases ht with rfl | rfl | rfl <;> exact absurd hr (by decide)
  | texts _ _ _ _ _ _ _ _ _ => exact absurd hr (by decide)

theorem readValues_unreadable (cp : Bytes → Option Str) (i : StoredInstance) (l : List (PropertyMap × Value))
    (h : ∀ x ∈ l, HasValue cp i x.1 x.2) (hr : ∃ x ∈ l, Unreadable x.1.dataType) :
    readValues cp i.stored i.values (l.map (·.1)) = .error .valueError := by
  induction l with
  | nil => obtain ⟨x, hx, _⟩ := hr; cases hx
  | cons x l ih =>
    obtain ⟨d, hd, hv⟩ := h x (by simp)
    simp only [List.map_cons, readValues]
    by_cases hu : Unreadable x.1.dataType
    · rw [readValue_unreadable cp _ _ d _ _ hv hu]
    · rw [readValue_stored cp _ _ d _ _ hd hv hu]
      simp only
      rw [ih (fun y hy => h y (by simp [hy])) (by
        obtain ⟨y, hy, hyu⟩ := hr
        rcases List.mem_cons.1 hy with rfl | hy
        · exact absurd hyu hu
        · exact ⟨y, hy, hyu⟩)]
      rfl

/-! ## Proofs: instances -/

theorem stateSize_spec (n : Nat) : stateSize n = (2 * n + 7) / 8 := by
  unfold stateSize
  split <;> omega

theorem skipEntries_bytes (l : List Bytes) (h : ∀ d ∈ l, d.length + 4 < 2 ^ 32) (rest : Bytes) :
    skipEntries l.length (l.flatMap sizedBytes ++ rest) = .ok rest := by
  induction l with
  | nil => rfl
  | cons d l ih =>
    simp only [List.length_cons, skipEntries, List.flatMap_cons, List.append_assoc]
    rw [fromStream_bytes _ _ _ (by simp [sizedBytes, leBytes]) (sized_bytes d _ (h d (by simp)))]
    exact ih (fun x hx => h x (by simp [hx]))

theorem instance_read (cp : Bytes → Option Str) (maps : List PropertyMap) (size : Nat) (i : StoredInstance)
    (h : i.Ok cp maps.length size) :
    readInstance cp maps size i.bytes = (readValues cp i.stored i.values maps).map (i.name, ·) := by
  have hdyn : ∃ t, (t = 1 ∨ t = 2) ∧ ∀ rest, ∃ more, num 1 (i.dynamicBytes ++ rest) = some (t, more) ∧
      skipDynamic t more = .ok rest := by
    cases hd : i.dynamic with
    | none =>
      refine ⟨1, .inl rfl, fun rest => ⟨rest, ?_, rfl⟩⟩
      simp only [StoredInstance.dynamicBytes, hd, List.cons_append, List.nil_append]
      exact num1_cons 1 rest
    | some l =>
      obtain ⟨hl, he⟩ := h.dynamic l hd
      refine ⟨2, .inr rfl, fun rest => ⟨leBytes 4 l.length ++ (l.flatMap sizedBytes ++ rest), ?_, ?_⟩⟩
      · simp only [StoredInstance.dynamicBytes, hd, List.cons_append, List.nil_append, List.append_assoc]
        exact num1_cons 2 _
      · unfold skipDynamic
        rw [if_pos rfl, offset_bytes _ hl]
        exact skipEntries_bytes l he rest
  obtain ⟨t, ht, hdyn⟩ := hdyn
  obtain ⟨more, h1, h2⟩ := hdyn (leBytes 4 i.unknown2 ++ i.values)
  have hparse : parseInstance (stateSize maps.length) size i.bytes = some ((i.nameOffset, i.stored, t), more) := by
    unfold parseInstance StoredInstance.bytes
    simp only [Option.bind_eq_bind, List.cons_append, List.nil_append]
    rw [num_bytes 4 _ h.nameOffset, Option.bind_some]
    simp only
    rw [num1_cons, Option.bind_some]
    simp only
    rw [raw_bytes_of _ i.state _ (by rw [h.state, stateSize_spec]), Option.bind_some]
    simp only
    rw [raw_bytes_of _ i.stored _ h.stored, Option.bind_some]
    simp only
    rw [sized_bytes _ _ h.qualifiers, Option.bind_some]
    simp only
    rw [h1, Option.bind_some]
    simp only
    rw [if_pos ht]
    rfl
  unfold readInstance
  rw [fromStream_bytes _ _ _ (by simp [StoredInstance.bytes, leBytes]) hparse]
  simp only
  rw [h2]
  simp only
  rw [offset_bytes _ h.unknown2]
  simp only
  rw [readCimString_at cp _ _ _ h.name]

/-- C131: an instance comes out as stored if none of its properties is a signed integer of 8, 16 or 64 bits or a
floating-point number: the name of its class and the values of all its properties, in order. -/
theorem C131_instance_partial (cp : Bytes → Option Str) (i : StoredInstance) (l : List (PropertyMap × Value)) (size : Nat)
    (h : i.Ok cp l.length size) (hv : ∀ x ∈ l, HasValue cp i x.1 x.2) (hr : ∀ x ∈ l, ¬ Unreadable x.1.dataType) :
    readInstance cp (l.map (·.1)) size i.bytes = .ok (i.name, l.map (fun x => (x.1.name, x.2))) := by
  rw [instance_read cp _ size i (by simpa using h), readValues_stored cp i l hv hr]
  rfl

/-- C131: an instance of a class with any such property cannot be read at all. -/
theorem C131_unreadable (cp : Bytes → Option Str) (i : StoredInstance) (l : List (PropertyMap × Value)) (size : Nat)
    (h : i.Ok cp l.length size) (hv : ∀ x ∈ l, HasValue cp i x.1 x.2) (hr : ∃ x ∈ l, Unreadable x.1.dataType) :
    readInstance cp (l.map (·.1)) size i.bytes = .error .valueError := by
  rw [instance_read cp _ size i (by simpa using h), readValues_unreadable cp i l hv hr]
  rfl

def sampleInstance : StoredInstance :=
  ⟨0, ['A'], 0, [3], [0xfe, 0xff, 0xff, 0xff, 0, 0, 0, 0, 3, 0, 0, 0, 6, 0, 0, 0], [], some [[7]], 5,
    [0, 0x41, 0, 0, 0x42, 0, 2, 0, 0, 0, 3, 0, 0, 0, 0, 0, 0, 0]⟩

def sampleMaps : List (PropertyMap × Value) :=
  [(⟨"N".toList, 0x03, 0, 4, "sint32".toList⟩, .integer (-2)), (⟨"E".toList, 0x08, 4, 4, "string".toList⟩, .none),
    (⟨"S".toList, 0x65, 8, 4, "datetime".toList⟩, .text ['B']),
    (⟨"L".toList, 0x2008, 12, 4, "string".toList⟩, .texts [['B'], ['A']])]

theorem sampleInstance_ok : sampleInstance.Ok asciiText 4 16 where
  nameOffset := by decide
  name := ⟨0, [0x41], by decide, by decide, [], sampleInstance.values.drop 3, by decide, rfl⟩
  state := by decide
  stored := by decide
  qualifiers := by decide
  dynamic := by
    intro l hl
    cases hl
    exact ⟨by decide, by decide⟩
  unknown2 := by decide

theorem sampleMaps_ok : ∀ x ∈ sampleMaps, HasValue asciiText sampleInstance x.1 x.2 := by
  intro x hx
  simp only [sampleMaps, List.mem_cons, List.not_mem_nil, or_false] at hx
  have hA : StringAt asciiText sampleInstance.values 0 ['A'] :=
    ⟨0, [0x41], by decide, by decide, [], sampleInstance.values.drop 3, by decide, rfl⟩
  have hB : StringAt asciiText sampleInstance.values 3 ['B'] :=
    ⟨0, [0x42], by decide, by decide, [0, 0x41, 0], sampleInstance.values.drop 6, by decide, rfl⟩
  rcases hx with rfl | rfl | rfl | rfl
  · exact ⟨[0xfe, 0xff, 0xff, 0xff], ⟨[], sampleInstance.stored.drop 4, by decide, rfl⟩,
      .fixed 0x03 "sint32" _ _ .sint32 (.sint32 (-2) (by decide) (by decide))⟩
  · exact ⟨[0, 0, 0, 0], ⟨sampleInstance.stored.take 4, sampleInstance.stored.drop 8, by decide, rfl⟩,
      .unset _ _ (.inl rfl)⟩
  · exact ⟨[3, 0, 0, 0], ⟨sampleInstance.stored.take 8, sampleInstance.stored.drop 12, by decide, rfl⟩,
      .text _ _ 3 _ (.inr (.inl rfl)) (by decide) (by decide) hB⟩
  · exact ⟨[6, 0, 0, 0], ⟨sampleInstance.stored.take 12, [], by decide, rfl⟩,
      .texts _ 6 [3, 0] _ (by decide) (by decide) (by decide)
        ⟨sampleInstance.values.take 6, [], by decide, rfl⟩
        (.cons _ _ _ _ (by decide) hB (.cons _ _ _ _ (by decide) hA .nil))⟩

example : readInstance asciiText (sampleMaps.map (·.1)) 16 sampleInstance.bytes = .ok (['A'],
    [(['N'], .integer (-2)), (['E'], .none), (['S'], .text ['B']), (['L'], .texts [['B'], ['A']])]) :=
  C131_instance_partial asciiText sampleInstance sampleMaps 16 sampleInstance_ok sampleMaps_ok (by decide)

def longInstance : StoredInstance := ⟨0, [], 0, [0], [9, 0, 0, 0, 0, 0, 0, 0], [], none, 0, [0, 0]⟩
def longMaps : List (PropertyMap × Value) := [(⟨['N'], 0x14, 0, 8, "sint64".toList⟩, .integer 9)]

theorem longInstance_ok : longInstance.Ok asciiText 1 8 where
  nameOffset := by decide
  name := ⟨0, [], by decide, by decide, [], [], by decide, rfl⟩
  state := by decide
  stored := by decide
  qualifiers := by decide
  dynamic := by
    intro l hl
    cases hl
  unknown2 := by decide

theorem longMaps_ok : ∀ x ∈ longMaps, HasValue asciiText longInstance x.1 x.2 := by
  intro x hx
  simp only [longMaps, List.mem_singleton] at hx
  subst hx
  exact ⟨_, ⟨[], [], rfl, rfl⟩, .fixed 0x14 "sint64" _ _ .sint64 (.sint64 9 (by decide) (by decide))⟩

/-- C131: not all instances come out as stored. -/
theorem C131_instance_claim_false : ¬ C131_instance_claim := by
  intro h
  have h1 := h asciiText longInstance longMaps 8 longInstance_ok longMaps_ok
  rw [C131_unreadable asciiText longInstance longMaps 8 longInstance_ok longMaps_ok ⟨_, List.mem_singleton.2 rfl, by decide⟩]
    at h1
  cases h1

/-- C131: the value of a property that is an array of anything but texts is always missing. -/
theorem C131_array_missing (cp : Bytes → Option Str) (stored values : Bytes) (m : PropertyMap)
    (ht : m.dataType ≥ 0x2000 ∧ m.dataType ≠ 0x2008) (h : m.offset + 4 ≤ stored.length) :
    readValue cp stored values m = .ok .none := by
  unfold readValue
  have h1 : m.dataType ∉ fixedTypes := by
    intro hm
    simp only [fixedTypes, List.mem_cons, List.not_mem_nil, or_false] at hm
    omega
  have h2 : m.dataType ∉ stringTypes := by
    intro hm
    simp only [stringTypes, List.mem_cons, List.not_mem_nil, or_false] at hm
    omega
  have hl : (stored.drop m.offset).length ≥ 4 := by rw [List.length_drop]; omega
  have hn : num 4 (stored.drop m.offset) =
      some (leNat ((stored.drop m.offset).take 4), (stored.drop m.offset).drop 4) := by
    unfold num
    rw [if_neg (by omega)]
  rw [if_neg h1, fromStream_bytes _ _ _ (by intro e; rw [e] at hl; simp at hl) hn]
  simp only
  rw [if_neg h2, if_neg ht.2]

example : readValue asciiText [1, 0, 0, 0] [] ⟨['N'], 0x2011, 0, 4, "uint8".toList⟩ = .ok .none :=
  C131_array_missing _ _ _ _ ⟨by decide, by decide⟩ (by decide)

theorem readStrings_errors (cp : Bytes → Option Str) (values : Bytes) (os : List Nat) (e : Err)
    (h : readStrings cp values os = .error e) : ParseOrValue e := by
  induction os with
  | nil => cases h
  | cons o os ih =>
    unfold readStrings at h
    split at h
    · rename_i hs; cases h; exact readCimString_errors _ _ _ _ hs
    · cases hr : readStrings cp values os with
      | error e' => rw [hr] at h; cases h; exact ih hr
      | ok l => rw [hr] at h; cases h

theorem map_error {α β : Type} (f : α → β) (r : Res α) (e : Err) (h : r.map f = .error e) : r = .error e := by
  cases r with
  | error e' => cases h; rfl
  | ok x => cases h

theorem readValue_errors (cp : Bytes → Option Str) (stored values : Bytes) (m : PropertyMap) (e : Err)
    (h : readValue cp stored values m = .error e) : ParseOrValue e := by
  unfold readValue at h
  split at h
  · unfold readFixed at h
    split at h
    · cases h; exact .inr rfl
    · exact (fromStream_errors _ _ _ (map_error _ _ _ h)).1
  · split at h
    · rename_i hs; cases h; exact (fromStream_errors _ _ _ hs).1
    · split at h
      · split at h
        · exact readCimString_errors _ _ _ _ (map_error _ _ _ h)
        · cases h
      · split at h
        · split at h
          · split at h
            · rename_i hs; cases h; exact (fromStream_errors _ _ _ hs).1
            · exact readStrings_errors _ _ _ _ (map_error _ _ _ h)
          · cases h
        · cases h

theorem readValues_errors (cp : Bytes → Option Str) (stored values : Bytes) (ms : List PropertyMap) (e : Err)
    (h : readValues cp stored values ms = .error e) : ParseOrValue e := by
  induction ms with
  | nil => cases h
  | cons m ms ih =>
    unfold readValues at h
    split at h
    · rename_i hs; cases h; exact readValue_errors _ _ _ _ _ hs
    · exact ih (map_error _ _ _ h)

theorem skipEntries_errors (n : Nat) : ∀ (b : Bytes) (e : Err), skipEntries n b = .error e → ParseOrValue e := by
  induction n with
  | zero => intro b e h; cases h
  | succ n ih =>
    intro b e h
    unfold skipEntries at h
    split at h
    · rename_i hs; cases h; exact (fromStream_errors _ _ _ hs).1
    · exact ih _ _ h

/-- C131: reading any instance fails with a parse error or a value error only. -/
theorem C131_errors_partial (cp : Bytes → Option Str) (maps : List PropertyMap) (size : Nat) (b : Bytes) (e : Err)
    (h : readInstance cp maps size b = .error e) : e = .parseError ∨ e = .valueError := by
  unfold readInstance at h
  split at h
  · rename_i hs; cases h; exact (fromStream_errors _ _ _ hs).1
  · split at h
    · rename_i hs
      cases h
      unfold skipDynamic at hs
      split at hs
      · split at hs
        · rename_i hn; cases hs; exact (fromStream_errors _ _ _ hn).1
        · exact skipEntries_errors _ _ _ hs
      · cases hs
    · split at h
      · rename_i hs; cases h; exact (fromStream_errors _ _ _ hs).1
      · split at h
        · rename_i hs; cases h; exact readCimString_errors _ _ _ _ hs
        · exact readValues_errors _ _ _ _ _ (map_error _ _ _ h)

/-- The claim of C131 about errors. -/
def C131_errors_claim : Prop := ∀ (cp : Bytes → Option Str) (maps : List PropertyMap) (size : Nat) (b : Bytes) (e : Err),
  b ≠ [] → readInstance cp maps size b = .error e → e = .parseError

/-- C131: an instance that ends early is not always a parse error. -/
theorem C131_errors_claim_false : ¬ C131_errors_claim := by
  intro h
  have := h asciiText [] 0 ([0, 0, 0, 0] ++ [0] ++ [4, 0, 0, 0] ++ [1]) .valueError (by decide) (by decide)
  cases this

/-! ## Object records -/

/-- A record of a class definition: the name of the super class, a time and the definition. -/
def classRecord (super : Bytes) (n time : Nat) (data : Bytes) : Bytes :=
  leBytes 4 n ++ (super ++ (leBytes 8 time ++ sizedBytes data))

/-- A record of an instance: a hash, two times and the instance. -/
def instanceRecord (hash : Bytes) (time1 time2 : Nat) (data : Bytes) : Bytes :=
  hash ++ (leBytes 8 time1 ++ (leBytes 8 time2 ++ sizedBytes data))

theorem text16_bytes (utf16 : Bytes → Option Str) (n : Nat) (d rest : Bytes) (s : Str) (hl : d.length = 2 * n)
    (hs : utf16 d = some s) : text16 utf16 n (d ++ rest) = some (s, rest) := by
  unfold text16
  simp only [Option.bind_eq_bind]
  rw [raw_bytes_of _ d rest hl, Option.bind_some]
  simp only
  rw [hs, Option.bind_some]
  rfl

theorem parseClassRecord_bytes (utf16 : Bytes → Option Str) (super : Bytes) (s : Str) (n time : Nat) (data rest : Bytes)
    (hl : super.length = 2 * n) (hs : utf16 super = some s) (hn : n < 2 ^ 32) (ht : time < 2 ^ 64)
    (hd : data.length + 4 < 2 ^ 32) :
    parseClassRecord utf16 (classRecord super n time data ++ rest) = some ((s, data), rest) := by
  unfold parseClassRecord classRecord
  simp only [List.append_assoc, Option.bind_eq_bind]
  rw [num_bytes 4 n hn, Option.bind_some]
  simp only
  rw [text16_bytes utf16 n super _ s hl hs, Option.bind_some]
  simp only
  rw [num_bytes 8 time ht, Option.bind_some]
  simp only
  rw [sized_bytes data rest hd, Option.bind_some]
  rfl

/-- C132: the record of a class definition gives the name of the super class and the data of the definition, whatever
follows; the offset is that of the end of the data. -/
theorem C132_class (utf16 : Bytes → Option Str) (super : Bytes) (s : Str) (n time : Nat) (data rest : Bytes)
    (hl : super.length = 2 * n) (hs : utf16 super = some s) (hn : n < 2 ^ 32) (ht : time < 2 ^ 64)
    (hd : data.length + 4 < 2 ^ 32) :
    readClassReference utf16 (classRecord super n time data ++ rest) = .ok ⟨s, data, 16 + super.length + data.length⟩ := by
  unfold readClassReference
  rw [fromStream_bytes _ _ _ (by simp [classRecord, leBytes])
    (parseClassRecord_bytes utf16 super s n time data rest hl hs hn ht hd)]
  have : (classRecord super n time data ++ rest).length - rest.length = 16 + super.length + data.length := by
    simp only [classRecord, sizedBytes, List.length_append, leBytes_length]
    omega
  show Except.ok (Reference.mk s data ((classRecord super n time data ++ rest).length - rest.length)) = _
  rw [this]

example : readClassReference (fun b => some (b.map (fun c => Char.ofNat c.toNat))) (classRecord [0x41, 0x42] 1 7 [1, 2, 3] ++ [9]) =
    .ok ⟨['A', 'B'], [1, 2, 3], 21⟩ :=
  C132_class _ _ _ _ _ _ _ (by decide) (by decide) (by decide) (by decide) (by decide)

theorem parseInstanceRecord_bytes (utf16 : Bytes → Option Str) (hash : Bytes) (s : Str) (n time1 time2 : Nat)
    (data rest : Bytes) (hl : hash.length = 2 * n) (hs : utf16 hash = some s) (h1 : time1 < 2 ^ 64) (h2 : time2 < 2 ^ 64)
    (hd : data.length + 4 < 2 ^ 32) :
    parseInstanceRecord utf16 n (instanceRecord hash time1 time2 data ++ rest) = some ((s, data), rest) := by
  unfold parseInstanceRecord instanceRecord
  simp only [List.append_assoc, Option.bind_eq_bind]
  rw [text16_bytes utf16 n hash _ s hl hs, Option.bind_some]
  simp only
  rw [num_bytes 8 time1 h1, Option.bind_some]
  simp only
  rw [num_bytes 8 time2 h2, Option.bind_some]
  simp only
  rw [sized_bytes data rest hd, Option.bind_some]
  rfl

/-- C132: the record of an instance gives the hash, of 32 characters in format version 2.1 and of 64 in others, and the
data of the instance. -/
theorem C132_instance (utf16 : Bytes → Option Str) (old : Bool) (hash : Bytes) (s : Str) (time1 time2 : Nat)
    (data rest : Bytes) (hl : hash.length = if old then 64 else 128) (hs : utf16 hash = some s) (h1 : time1 < 2 ^ 64)
    (h2 : time2 < 2 ^ 64) (hd : data.length + 4 < 2 ^ 32) :
    readInstanceReference utf16 old (instanceRecord hash time1 time2 data ++ rest) =
      .ok ⟨s, data, if old then 84 else 144⟩ := by
  unfold readInstanceReference
  rw [fromStream_bytes _ _ _ (by simp [instanceRecord, leBytes])
    (parseInstanceRecord_bytes utf16 hash s _ time1 time2 data rest (by cases old <;> simpa using hl) hs h1 h2 hd)]
  rfl

/-- The offset of a reference is where its data is in the record. -/
def Placed (record : Bytes) (r : Reference) : Prop := slice record r.offset (r.offset + r.data.length) = r.data

instance (record : Bytes) (r : Reference) : Decidable (Placed record r) := by unfold Placed; infer_instance

/-- The claims of C132: the offset of a reference is where its data is. -/
def C132_class_offset_claim : Prop := ∀ (utf16 : Bytes → Option Str) (b : Bytes) (r : Reference),
  readClassReference utf16 b = .ok r → Placed b r

def C132_instance_offset_claim : Prop := ∀ (utf16 : Bytes → Option Str) (old : Bool) (b : Bytes) (r : Reference),
  readInstanceReference utf16 old b = .ok r → Placed b r

/-- C132: it is for an instance of format version 2.1. -/
theorem C132_instance_offset_partial (utf16 : Bytes → Option Str) (hash : Bytes) (s : Str) (time1 time2 : Nat)
    (data rest : Bytes) (hl : hash.length = 64) (hs : utf16 hash = some s) (h1 : time1 < 2 ^ 64)
    (h2 : time2 < 2 ^ 64) (hd : data.length + 4 < 2 ^ 32) :
    ∃ r, readInstanceReference utf16 true (instanceRecord hash time1 time2 data ++ rest) = .ok r ∧
      Placed (instanceRecord hash time1 time2 data ++ rest) r := by
  refine ⟨_, C132_instance utf16 true hash s time1 time2 data rest hl hs h1 h2 hd, ?_⟩
  have hh : Holds (instanceRecord hash time1 time2 data ++ rest) 84 data := by
    refine ⟨hash ++ (leBytes 8 time1 ++ (leBytes 8 time2 ++ leBytes 4 (data.length + 4))), rest, ?_, ?_⟩
    · simp [instanceRecord, sizedBytes]
    · simp only [List.length_append, leBytes_length]
      omega
  exact (holds_slice _ _ _ hh).1

/-- C132: it is not for a class definition: it is where the data ends. -/
theorem C132_class_offset_claim_false : ¬ C132_class_offset_claim := by
  intro h
  have := h (fun _ => some []) (classRecord [] 0 0 [1]) ⟨[], [1], 17⟩ (by decide)
  revert this
  decide

/-- C132: it is not for an instance of other format versions: it is that of the size of the data. -/
theorem C132_instance_offset_claim_false : ¬ C132_instance_offset_claim := by
  intro h
  have := h (fun _ => some []) false (instanceRecord (List.replicate 128 0x41) 0 0 [1]) ⟨[], [1], 144⟩ (by decide +kernel)
  revert this
  decide +kernel

theorem C132_errors (utf16 : Bytes → Option Str) (old : Bool) (b : Bytes) (e : Err) (hb : b ≠ []) :
    (readClassReference utf16 b = .error e → e = .parseError) ∧
    (readInstanceReference utf16 old b = .error e → e = .parseError) :=
  ⟨fun h => (fromStream_errors _ _ _ (map_error _ _ _ h)).2 hb,
    fun h => (fromStream_errors _ _ _ (map_error _ _ _ h)).2 hb⟩

example : readInstanceReference (fun _ => some []) true [1, 2, 3] = .error .parseError := by decide

end Dtf.Wmi
