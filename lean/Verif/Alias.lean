import Verif.Records
import Verif.Slices

/-!
# Alias data of login items (C143)
-/

namespace Dtf.Alias
open Py DataFormat

abbrev Str := List Char

/-! ## Model -/

/-- `alias_data_record_v2` (alias_data.yaml). -/
structure RecordV2 where
  aliasType : Nat
  volumeName : Bytes
  volumeTime : Nat
  fileSystem : Bytes
  diskType : Bytes
  parent : Nat
  targetName : Bytes
  target : Nat
  targetTime : Nat
deriving DecidableEq, Repr

/-- `alias_data_record_v3` (alias_data.yaml). -/
structure RecordV3 where
  aliasType : Nat
  volumeTime : Nat
  fileSystem : Bytes
  diskType : Nat
  parent : Nat
  target : Nat
  targetTime : Nat
  volumeFlags : Nat
  unknown : Bytes
deriving DecidableEq, Repr

inductive Record
  | v2 (r : RecordV2)
  | v3 (r : RecordV3)
deriving DecidableEq, Repr

/-- A tagged value (alias_data.yaml `alias_data_tagged_value`). -/
inductive Value
  | data (tag : Nat) (data : Bytes)
  | integers (l : List Nat)
  | utf8 (tag : Nat) (s : Str)
  | utf16 (tag : Nat) (s : Str)
deriving DecidableEq, Repr

/-- `alias_data_record_header`: the application information, the size and the format version. -/
def parseHeader (b : Bytes) : Option (Bytes × Nat × Nat) :=
  if beNat (slice b 6 8) = 2 ∨ beNat (slice b 6 8) = 3 then
    some (slice b 0 4, beNat (slice b 4 6), beNat (slice b 6 8))
  else none

def headerMap : DataTypeMap (Bytes × Nat × Nat) := (fixedMap 8 id).refine parseHeader

def parseV2 (b : Bytes) : RecordV2 :=
  { aliasType := beNat (slice b 0 2), volumeName := slice b 2 30, volumeTime := beNat (slice b 30 34),
    fileSystem := slice b 34 36, diskType := slice b 36 38, parent := beNat (slice b 38 42),
    targetName := slice b 42 106, target := beNat (slice b 106 110), targetTime := beNat (slice b 110 114) }

def parseV3 (b : Bytes) : RecordV3 :=
  { aliasType := beNat (slice b 0 2), volumeTime := beNat (slice b 2 10), fileSystem := slice b 10 14,
    diskType := beNat (slice b 14 16), parent := beNat (slice b 16 20), target := beNat (slice b 20 24),
    targetTime := beNat (slice b 24 32), volumeFlags := beNat (slice b 32 36), unknown := slice b 36 50 }

/-- Big-endian integers of four bytes, as many as there are. -/
def integers (b : Bytes) : Nat → List Nat
  | 0 => []
  | n + 1 => beNat (b.take 4) :: integers (b.drop 4) n

/-- The structure of the value with a tag, from all the bytes of the value.  `utf8` and `utf16` are
the decoders.  Simplified: a string of UTF-16 that does not fit in the data of the value is not
read; dtfabric might ask for more data. -/
def parseValue (utf8 utf16 : Bytes → Option Str) (b : Bytes) : Option Value :=
  let tag := beNat (slice b 0 2)
  let size := beNat (slice b 2 4)
  let data := slice b 4 (4 + size)
  if tag = 1 then some (.integers (integers data (size / 4)))
  else if tag ∈ [0, 2, 6, 0x12, 0x13] then (utf8 data).map (.utf8 tag)
  else if tag ∈ [0x0e, 0x0f] then
    if b.length < 6 + 2 * beNat (slice b 4 6) then none
    else (utf16 (slice b 6 (6 + 2 * beNat (slice b 4 6)))).map (.utf16 tag)
  else some (.data tag data)

/-- The tagged value with its padding (alias_data.yaml `alias_data_tagged_value_base`): the size of
the data is even. -/
def valueMap (utf8 utf16 : Bytes → Option Str) : DataTypeMap Value :=
  (sizedMap 4 (fun h => beNat (slice h 2 4) + beNat (slice h 2 4) % 2) id).refine (parseValue utf8 utf16)

/-- `ReadFileObject` (alias_data.py lines 162-190): the structures it reads, which the debug output
shows. -/
def readAlias (utf8 utf16 : Bytes → Option Str) (fuel : Nat) (data : Bytes) :
    Option (Res (Record × List Value)) :=
  -- lines 171 and 54-81
  match structAt headerMap data 0 with
  | .error e => some (.error e)
  | .ok ((application, size, version), _) =>
    if application ≠ [0, 0, 0, 0] then some (.error .parseError)
    -- lines 175-176
    else if size ≠ data.length then some (.error .parseError)
    else if version = 2 then
      match structAt (fixedMap 114 parseV2) data 8 with
      | .error e => some (.error e)
      | .ok (r, _) =>
        (readUntil (valueMap utf8 utf16) data size fuel 150 []).map (·.map (fun l => (.v2 r, l)))
    else
      match structAt (fixedMap 50 parseV3) data 8 with
      | .error e => some (.error e)
      | .ok (r, _) =>
        (readUntil (valueMap utf8 utf16) data size fuel 58 []).map (·.map (fun l => (.v3 r, l)))

/-! ## Specification

The documentation of the format, "Mac OS login item alias data format". -/

/-- A value with a tag: the data and, if it is of odd size, a byte. -/
def tagged (tag : Nat) (data : Bytes) (pad : UInt8) : Bytes :=
  [beBytes 2 tag, beBytes 2 data.length, data, if data.length % 2 = 1 then [pad] else []].flatten

/-- What the data of a value stands for. -/
inductive Stands (utf8 utf16 : Bytes → Option Str) : Nat → Bytes → Value → Prop
  | integers (l : List Nat) (h : ∀ i ∈ l, i < 2 ^ 32) :
    Stands utf8 utf16 1 (l.flatMap (beBytes 4)) (.integers l)
  | utf8 (tag : Nat) (data : Bytes) (s : Str) (h : tag ∈ [0, 2, 6, 0x12, 0x13]) (hd : utf8 data = some s) :
    Stands utf8 utf16 tag data (.utf8 tag s)
  | utf16 (tag : Nat) (units : List Nat) (s : Str) (h : tag ∈ [0x0e, 0x0f])
      (hd : utf16 (units.flatMap (beBytes 2)) = some s) :
    Stands utf8 utf16 tag (beBytes 2 units.length ++ units.flatMap (beBytes 2)) (.utf16 tag s)
  | data (tag : Nat) (data : Bytes) (h : tag ∉ [0, 1, 2, 6, 0x0e, 0x0f, 0x12, 0x13]) :
    Stands utf8 utf16 tag data (.data tag data)

/-- The data of a record of version 2 with the 28 bytes of unknown meaning. -/
def RecordV2.bytes (r : RecordV2) (more : Bytes) : Bytes :=
  [beBytes 2 r.aliasType, r.volumeName, beBytes 4 r.volumeTime, r.fileSystem, r.diskType, beBytes 4 r.parent,
    r.targetName, beBytes 4 r.target, beBytes 4 r.targetTime, more].flatten

def RecordV2.Ok (r : RecordV2) : Prop :=
  r.aliasType < 2 ^ 16 ∧ r.volumeName.length = 28 ∧ r.volumeTime < 2 ^ 32 ∧ r.fileSystem.length = 2 ∧
    r.diskType.length = 2 ∧ r.parent < 2 ^ 32 ∧ r.targetName.length = 64 ∧ r.target < 2 ^ 32 ∧ r.targetTime < 2 ^ 32

def RecordV3.bytes (r : RecordV3) : Bytes :=
  [beBytes 2 r.aliasType, beBytes 8 r.volumeTime, r.fileSystem, beBytes 2 r.diskType, beBytes 4 r.parent,
    beBytes 4 r.target, beBytes 8 r.targetTime, beBytes 4 r.volumeFlags, r.unknown].flatten

def RecordV3.Ok (r : RecordV3) : Prop :=
  r.aliasType < 2 ^ 16 ∧ r.volumeTime < 2 ^ 64 ∧ r.fileSystem.length = 4 ∧ r.diskType < 2 ^ 16 ∧ r.parent < 2 ^ 32 ∧
    r.target < 2 ^ 32 ∧ r.targetTime < 2 ^ 64 ∧ r.volumeFlags < 2 ^ 32 ∧ r.unknown.length = 14

/-- A value as stored: the tag, the data and the padding. -/
abbrev Stored := Nat × Bytes × UInt8

def Stored.bytes (s : Stored) : Bytes := tagged s.1 s.2.1 s.2.2

/-- Value by value, what is stored stands for the values. -/
inductive AllStand (utf8 utf16 : Bytes → Option Str) : List Stored → List Value → Prop
  | nil : AllStand utf8 utf16 [] []
  | cons (s : Stored) (v : Value) (ss : List Stored) (vs : List Value) (ht : s.1 < 2 ^ 16)
      (hs : s.2.1.length < 2 ^ 16) (h : Stands utf8 utf16 s.1 s.2.1 v) (hr : AllStand utf8 utf16 ss vs) :
    AllStand utf8 utf16 (s :: ss) (v :: vs)

/-- Alias data: the header, the data of the record and the values. -/
def aliasBytes (version : Nat) (body values : Bytes) : Bytes :=
  [[0, 0, 0, 0], beBytes 2 (8 + body.length + values.length), beBytes 2 version, body, values].flatten

/-! ## Proofs -/

theorem integers_flatMap (l : List Nat) (h : ∀ i ∈ l, i < 2 ^ 32) (rest : Bytes) :
    integers (l.flatMap (beBytes 4) ++ rest) l.length = l := by
  induction l with
  | nil => rfl
  | cons i l ih =>
    rw [List.length_cons, integers, List.flatMap_cons, List.append_assoc,
      List.take_left' (length_beBytes 4 i), List.drop_left' (length_beBytes 4 i), ih (fun j hj => h j (by simp [hj])),
      beNat_beBytes_of_lt 4 i (h i (by simp))]

theorem flatMap_beBytes_length (w : Nat) (l : List Nat) : (l.flatMap (beBytes w)).length = w * l.length := by
  induction l with
  | nil => rfl
  | cons i l ih => rw [List.flatMap_cons, List.length_append, ih, length_beBytes, List.length_cons, Nat.mul_succ]; omega

theorem tagged_length (tag : Nat) (data : Bytes) (pad : UInt8) :
    (tagged tag data pad).length = 4 + (data.length + data.length % 2) := by
  unfold tagged
  split <;> simp <;> omega

theorem parseValue_tagged (utf8 utf16 : Bytes → Option Str) (tag : Nat) (data : Bytes) (pad : UInt8) (v : Value)
    (ht : tag < 2 ^ 16) (hs : data.length < 2 ^ 16) (h : Stands utf8 utf16 tag data v) :
    parseValue utf8 utf16 (tagged tag data pad) = some v := by
  have hl := tagged_length tag data pad
  have f1 : beNat (slice (tagged tag data pad) 0 2) = tag := beField [] 2 tag _ 0 2 (by simp) rfl ht
  have f2 : beNat (slice (tagged tag data pad) 2 4) = data.length := beField [beBytes 2 tag] 2 data.length _ 2 4 (by simp) rfl hs
  have f3 : slice (tagged tag data pad) 4 (4 + data.length) = data :=
    slice_fields [beBytes 2 tag, beBytes 2 data.length] data _ 4 _ (by simp) rfl
  unfold parseValue
  dsimp only
  rw [f1, f2, f3]
  cases h with
  | integers l hl' =>
    rw [if_pos rfl, flatMap_beBytes_length, Nat.mul_div_cancel_left _ (by decide)]
    have := integers_flatMap l hl' []
    rw [List.append_nil] at this
    rw [this]
  | utf8 _ _ s hm hd =>
    rw [if_neg (by rintro rfl; simp at hm), if_pos hm, hd]
    rfl
  | utf16 _ units s hm hd =>
    have hu : units.length < 2 ^ 16 := by
      rw [List.length_append, flatMap_beBytes_length] at hs
      omega
    rw [if_neg (by rintro rfl; simp at hm), if_neg (by
      simp only [List.mem_cons, List.not_mem_nil, or_false] at hm ⊢
      omega), if_pos hm]
    have g1 : beNat (slice (tagged tag (beBytes 2 units.length ++ units.flatMap (beBytes 2)) pad) 4 6) = units.length := by
      have e : tagged tag (beBytes 2 units.length ++ units.flatMap (beBytes 2)) pad =
          ([beBytes 2 tag, beBytes 2 (beBytes 2 units.length ++ units.flatMap (beBytes 2)).length] ++
            beBytes 2 units.length :: [units.flatMap (beBytes 2),
              if (beBytes 2 units.length ++ units.flatMap (beBytes 2)).length % 2 = 1 then [pad] else []]).flatten := by
        simp [tagged]
      rw [e]
      exact beField _ 2 units.length _ 4 6 (by simp) rfl hu
    have g2 : slice (tagged tag (beBytes 2 units.length ++ units.flatMap (beBytes 2)) pad) 6 (6 + 2 * units.length) =
        units.flatMap (beBytes 2) := by
      have e : tagged tag (beBytes 2 units.length ++ units.flatMap (beBytes 2)) pad =
          ([beBytes 2 tag, beBytes 2 (beBytes 2 units.length ++ units.flatMap (beBytes 2)).length, beBytes 2 units.length] ++
            units.flatMap (beBytes 2) :: [
              if (beBytes 2 units.length ++ units.flatMap (beBytes 2)).length % 2 = 1 then [pad] else []]).flatten := by
        simp [tagged]
      rw [e]
      exact slice_fields _ _ _ 6 _ (by simp) (by rw [flatMap_beBytes_length])
    rw [g1, g2, hd, if_neg]
    · rfl
    · rw [hl, List.length_append, flatMap_beBytes_length, length_beBytes]
      omega
  | data _ _ hm =>
    simp only [List.mem_cons, List.not_mem_nil, or_false, not_or] at hm
    rw [if_neg (by omega), if_neg (by simp only [List.mem_cons, List.not_mem_nil, or_false]; omega),
      if_neg (by simp only [List.mem_cons, List.not_mem_nil, or_false]; omega)]

theorem value_encodes (utf8 utf16 : Bytes → Option Str) (s : Stored) (v : Value)
    (ht : s.1 < 2 ^ 16) (hs : s.2.1.length < 2 ^ 16) (h : Stands utf8 utf16 s.1 s.2.1 v) :
    Encodes (valueMap utf8 utf16) s.bytes v := by
  refine encodes_refine _ _ _ s.bytes _ ?_ (parseValue_tagged utf8 utf16 _ _ _ _ ht hs h)
  have hl := tagged_length s.1 s.2.1 s.2.2
  have f2 : beNat (slice (s.bytes.take 4) 2 4) = s.2.1.length := by
    rw [slice_take _ _ _ _ (by decide)]
    exact beField [beBytes 2 s.1] 2 s.2.1.length _ 2 4 (by simp) rfl hs
  exact encodes_sized 4 _ id s.bytes (by decide) (by unfold Stored.bytes; omega) (by
    show 4 + (beNat (slice (s.bytes.take 4) 2 4) + beNat (slice (s.bytes.take 4) 2 4) % 2) = _
    rw [f2]
    unfold Stored.bytes
    omega)

theorem readUntil_values (utf8 utf16 : Bytes → Option Str) (ss : List Stored) (vs : List Value)
    (h : AllStand utf8 utf16 ss vs) (pre : Bytes) (fuel : Nat) (hf : ss.length < fuel) :
    readUntil (valueMap utf8 utf16) (pre ++ ss.flatMap Stored.bytes) (pre ++ ss.flatMap Stored.bytes).length fuel pre.length [] =
      some (.ok vs) := by
  have key : ∃ items : List (Bytes × Value), items.map (·.1) = ss.map Stored.bytes ∧ items.map (·.2) = vs ∧
      ∀ i ∈ items, Encodes (valueMap utf8 utf16) i.1 i.2 ∧ i.1 ≠ [] := by
    clear hf
    induction h with
    | nil => exact ⟨[], rfl, rfl, by simp⟩
    | cons s v ss vs ht hs h hr ih =>
      obtain ⟨items, h1, h2, h3⟩ := ih
      refine ⟨(s.bytes, v) :: items, by simp [h1], by simp [h2], ?_⟩
      intro i hi
      rw [List.mem_cons] at hi
      rcases hi with rfl | hi
      · refine ⟨value_encodes utf8 utf16 s v ht hs h, ?_⟩
        intro hc
        have := tagged_length s.1 s.2.1 s.2.2
        have hc' : tagged s.1 s.2.1 s.2.2 = [] := hc
        rw [hc'] at this
        simp at this
        omega
      · exact h3 i hi
  obtain ⟨items, h1, h2, h3⟩ := key
  have e : items.flatMap (·.1) = ss.flatMap Stored.bytes := by
    rw [List.flatMap_def, List.flatMap_def, h1]
  have hlen : items.length = ss.length := by
    have := congrArg List.length h1
    simpa using this
  have := readUntil_encodes (valueMap utf8 utf16) items (fun i hi => (h3 i hi).1) (fun i hi => (h3 i hi).2) pre []
    (fuel - ss.length - 1) []
  rw [e, List.append_nil, hlen, show ss.length + (fuel - ss.length - 1) + 1 = fuel by omega, h2, List.nil_append] at this
  exact this

theorem header_read (version : Nat) (body values : Bytes) (hv : version = 2 ∨ version = 3)
    (hl : 8 + body.length + values.length < 2 ^ 16) :
    structAt headerMap (aliasBytes version body values) 0 =
      .ok (([0, 0, 0, 0], 8 + body.length + values.length, version), 8) := by
  have hlen : ([[0, 0, 0, 0], beBytes 2 (8 + body.length + values.length), beBytes 2 version] : List Bytes).flatten.length = 8 := by
    simp
  have hp : parseHeader ([[0, 0, 0, 0], beBytes 2 (8 + body.length + values.length), beBytes 2 version] : List Bytes).flatten =
      some ([0, 0, 0, 0], 8 + body.length + values.length, version) := by
    have f1 : slice ([[0, 0, 0, 0], beBytes 2 (8 + body.length + values.length), beBytes 2 version] : List Bytes).flatten 0 4 =
        [0, 0, 0, 0] := slice_fields [] _ _ 0 4 (by simp) rfl
    have f2 : beNat (slice ([[0, 0, 0, 0], beBytes 2 (8 + body.length + values.length), beBytes 2 version] : List Bytes).flatten 4 6) =
        8 + body.length + values.length := beField [[0, 0, 0, 0]] 2 _ _ 4 6 (by simp) rfl hl
    have f3 : beNat (slice ([[0, 0, 0, 0], beBytes 2 (8 + body.length + values.length), beBytes 2 version] : List Bytes).flatten 6 8) =
        version := beField [[0, 0, 0, 0], beBytes 2 (8 + body.length + values.length)] 2 _ [] 6 8 (by simp) rfl (by omega)
    unfold parseHeader
    rw [f1, f2, f3, if_pos hv]
  have := (encodes_refine _ parseHeader _ _ _ (encodes_fixed 8 id _ (by decide) hlen) hp) [] (body ++ values)
  rw [hlen] at this
  rw [show aliasBytes version body values =
    [] ++ ([[0, 0, 0, 0], beBytes 2 (8 + body.length + values.length), beBytes 2 version] : List Bytes).flatten ++ (body ++ values) by
      simp [aliasBytes]]
  exact this

theorem aliasBytes_length (version : Nat) (body values : Bytes) :
    (aliasBytes version body values).length = 8 + body.length + values.length := by
  simp [aliasBytes]
  omega

theorem parseV2_bytes (r : RecordV2) (h : r.Ok) : parseV2 (r.bytes []) = r := by
  obtain ⟨h1, h2, h3, h4, h5, h6, h7, h8, h9⟩ := h
  have f1 : beNat (slice (r.bytes []) 0 2) = r.aliasType := beField [] 2 _ _ 0 2 (by simp) rfl h1
  have f2 : slice (r.bytes []) 2 30 = r.volumeName :=
    slice_fields [beBytes 2 r.aliasType] _ _ 2 30 (by simp) (by omega)
  have f3 : beNat (slice (r.bytes []) 30 34) = r.volumeTime :=
    beField [beBytes 2 r.aliasType, r.volumeName] 4 _ _ 30 34 (by simp [h2]) rfl h3
  have f4 : slice (r.bytes []) 34 36 = r.fileSystem :=
    slice_fields [beBytes 2 r.aliasType, r.volumeName, beBytes 4 r.volumeTime] _ _ 34 36 (by simp [h2]) (by omega)
  have f5 : slice (r.bytes []) 36 38 = r.diskType :=
    slice_fields [beBytes 2 r.aliasType, r.volumeName, beBytes 4 r.volumeTime, r.fileSystem] _ _ 36 38
      (by simp [h2, h4]) (by omega)
  have f6 : beNat (slice (r.bytes []) 38 42) = r.parent :=
    beField [beBytes 2 r.aliasType, r.volumeName, beBytes 4 r.volumeTime, r.fileSystem, r.diskType] 4 _ _ 38 42
      (by simp [h2, h4, h5]) rfl h6
  have f7 : slice (r.bytes []) 42 106 = r.targetName :=
    slice_fields [beBytes 2 r.aliasType, r.volumeName, beBytes 4 r.volumeTime, r.fileSystem, r.diskType,
      beBytes 4 r.parent] _ _ 42 106 (by simp [h2, h4, h5]) (by omega)
  have f8 : beNat (slice (r.bytes []) 106 110) = r.target :=
    beField [beBytes 2 r.aliasType, r.volumeName, beBytes 4 r.volumeTime, r.fileSystem, r.diskType,
      beBytes 4 r.parent, r.targetName] 4 _ _ 106 110 (by simp [h2, h4, h5, h7]) rfl h8
  have f9 : beNat (slice (r.bytes []) 110 114) = r.targetTime :=
    beField [beBytes 2 r.aliasType, r.volumeName, beBytes 4 r.volumeTime, r.fileSystem, r.diskType,
      beBytes 4 r.parent, r.targetName, beBytes 4 r.target] 4 _ [[]] 110 114 (by simp [h2, h4, h5, h7]) rfl h9
  unfold parseV2
  rw [f1, f2, f3, f4, f5, f6, f7, f8, f9]

theorem parseV3_bytes (r : RecordV3) (h : r.Ok) : parseV3 r.bytes = r := by
  obtain ⟨h1, h2, h3, h4, h5, h6, h7, h8, h9⟩ := h
  have f1 : beNat (slice r.bytes 0 2) = r.aliasType := beField [] 2 _ _ 0 2 (by simp) rfl h1
  have f2 : beNat (slice r.bytes 2 10) = r.volumeTime := beField [beBytes 2 r.aliasType] 8 _ _ 2 10 (by simp) rfl h2
  have f3 : slice r.bytes 10 14 = r.fileSystem :=
    slice_fields [beBytes 2 r.aliasType, beBytes 8 r.volumeTime] _ _ 10 14 (by simp) (by omega)
  have f4 : beNat (slice r.bytes 14 16) = r.diskType :=
    beField [beBytes 2 r.aliasType, beBytes 8 r.volumeTime, r.fileSystem] 2 _ _ 14 16 (by simp [h3]) rfl h4
  have f5 : beNat (slice r.bytes 16 20) = r.parent :=
    beField [beBytes 2 r.aliasType, beBytes 8 r.volumeTime, r.fileSystem, beBytes 2 r.diskType] 4 _ _ 16 20
      (by simp [h3]) rfl h5
  have f6 : beNat (slice r.bytes 20 24) = r.target :=
    beField [beBytes 2 r.aliasType, beBytes 8 r.volumeTime, r.fileSystem, beBytes 2 r.diskType, beBytes 4 r.parent] 4 _ _
      20 24 (by simp [h3]) rfl h6
  have f7 : beNat (slice r.bytes 24 32) = r.targetTime :=
    beField [beBytes 2 r.aliasType, beBytes 8 r.volumeTime, r.fileSystem, beBytes 2 r.diskType, beBytes 4 r.parent,
      beBytes 4 r.target] 8 _ _ 24 32 (by simp [h3]) rfl h7
  have f8 : beNat (slice r.bytes 32 36) = r.volumeFlags :=
    beField [beBytes 2 r.aliasType, beBytes 8 r.volumeTime, r.fileSystem, beBytes 2 r.diskType, beBytes 4 r.parent,
      beBytes 4 r.target, beBytes 8 r.targetTime] 4 _ _ 32 36 (by simp [h3]) rfl h8
  have f9 : slice r.bytes 36 50 = r.unknown :=
    slice_fields [beBytes 2 r.aliasType, beBytes 8 r.volumeTime, r.fileSystem, beBytes 2 r.diskType, beBytes 4 r.parent,
      beBytes 4 r.target, beBytes 8 r.targetTime, beBytes 4 r.volumeFlags] _ [] 36 50 (by simp [h3]) (by omega)
  unfold parseV3
  rw [f1, f2, f3, f4, f5, f6, f7, f8, f9]

/-- **C143** (version 2): alias data of version 2 is read with all its values, in order. -/
theorem C143_version2 (utf8 utf16 : Bytes → Option Str) (r : RecordV2) (more : Bytes) (ss : List Stored) (vs : List Value)
    (fuel : Nat) (hr : r.Ok) (hm : more.length = 28) (h : AllStand utf8 utf16 ss vs)
    (hl : 150 + (ss.flatMap Stored.bytes).length < 2 ^ 16) (hf : ss.length < fuel) :
    readAlias utf8 utf16 fuel (aliasBytes 2 (r.bytes more) (ss.flatMap Stored.bytes)) = some (.ok (.v2 r, vs)) := by
  have hb : (r.bytes []).length = 114 := by
    obtain ⟨h1, h2, h3, h4, h5, h6, h7, h8, h9⟩ := hr
    simp [RecordV2.bytes, h2, h4, h5, h7]
  have hb' : r.bytes more = r.bytes [] ++ more := by simp [RecordV2.bytes]
  have hbl : (r.bytes more).length = 142 := by rw [hb', List.length_append]; omega
  unfold readAlias
  rw [header_read 2 _ _ (Or.inl rfl) (by omega)]
  dsimp only
  rw [if_neg (by simp), if_neg (by rw [aliasBytes_length]; simp), if_pos rfl]
  generalize hpre : ([[0, 0, 0, 0], beBytes 2 (8 + (r.bytes more).length + (ss.flatMap Stored.bytes).length), beBytes 2 2] :
    List Bytes).flatten = pre
  have hpl : pre.length = 8 := by rw [← hpre]; simp
  have e1 : aliasBytes 2 (r.bytes more) (ss.flatMap Stored.bytes) = pre ++ r.bytes [] ++ (more ++ ss.flatMap Stored.bytes) := by
    rw [← hpre]
    simp [aliasBytes, hb']
  have h1 := structAt_fixed_append 114 parseV2 pre (r.bytes []) (more ++ ss.flatMap Stored.bytes) (by decide) hb
  rw [hpl, ← e1, parseV2_bytes r hr] at h1
  rw [show ((8 : Nat) : Int) = 8 from rfl] at h1
  rw [h1]
  dsimp only
  have h2 := readUntil_values utf8 utf16 ss vs h (pre ++ r.bytes [] ++ more) fuel hf
  have e2 : pre ++ r.bytes [] ++ more ++ ss.flatMap Stored.bytes = aliasBytes 2 (r.bytes more) (ss.flatMap Stored.bytes) := by
    rw [e1]; simp
  rw [e2, aliasBytes_length, show (pre ++ r.bytes [] ++ more).length = 150 by simp only [List.length_append]; omega] at h2
  rw [h2]
  rfl

/-- **C143** (version 3): alias data of version 3 is read with all its values, in order. -/
theorem C143_version3 (utf8 utf16 : Bytes → Option Str) (r : RecordV3) (ss : List Stored) (vs : List Value)
    (fuel : Nat) (hr : r.Ok) (h : AllStand utf8 utf16 ss vs)
    (hl : 58 + (ss.flatMap Stored.bytes).length < 2 ^ 16) (hf : ss.length < fuel) :
    readAlias utf8 utf16 fuel (aliasBytes 3 r.bytes (ss.flatMap Stored.bytes)) = some (.ok (.v3 r, vs)) := by
  have hb : r.bytes.length = 50 := by
    obtain ⟨h1, h2, h3, h4, h5, h6, h7, h8, h9⟩ := hr
    simp [RecordV3.bytes, h3, h9]
  unfold readAlias
  rw [header_read 3 _ _ (Or.inr rfl) (by omega)]
  dsimp only
  rw [if_neg (by simp), if_neg (by rw [aliasBytes_length]; simp), if_neg (by decide)]
  generalize hpre : ([[0, 0, 0, 0], beBytes 2 (8 + r.bytes.length + (ss.flatMap Stored.bytes).length), beBytes 2 3] :
    List Bytes).flatten = pre
  have hpl : pre.length = 8 := by rw [← hpre]; simp
  have e1 : aliasBytes 3 r.bytes (ss.flatMap Stored.bytes) = pre ++ r.bytes ++ ss.flatMap Stored.bytes := by
    rw [← hpre]
    simp [aliasBytes]
  have h1 := structAt_fixed_append 50 parseV3 pre r.bytes (ss.flatMap Stored.bytes) (by decide) hb
  rw [hpl, ← e1, parseV3_bytes r hr] at h1
  rw [show ((8 : Nat) : Int) = 8 from rfl] at h1
  rw [h1]
  dsimp only
  have h2 := readUntil_values utf8 utf16 ss vs h (pre ++ r.bytes) fuel hf
  rw [← e1, aliasBytes_length, show (pre ++ r.bytes).length = 58 by simp only [List.length_append]; omega] at h2
  rw [h2]
  rfl

theorem value_positive (utf8 utf16 : Bytes → Option Str) : PositiveSizes (valueMap utf8 utf16) :=
  positive_refine _ _ (positive_sized 4 _ id (by decide))

theorem value_errors (utf8 utf16 : Bytes → Option Str) : ParseErrors (valueMap utf8 utf16) :=
  errors_refine _ _ (errors_sized 4 _ id (by decide))

theorem option_map_ne_none {α β : Type} (x : Option α) (f : α → β) (h : x ≠ none) : x.map f ≠ none := by
  cases x with
  | none => exact absurd rfl h
  | some a => simp

/-- **C143** (ends): reading ends for all data. -/
theorem C143_terminates (utf8 utf16 : Bytes → Option Str) (data : Bytes) :
    readAlias utf8 utf16 (data.length + 1) data ≠ none := by
  unfold readAlias
  split
  · simp
  · rename_i application size version _ _
    split
    · simp
    split
    · simp
    rename_i _ hs
    have hs : size = data.length := Classical.not_not.1 hs
    split
    · split
      · simp
      · exact option_map_ne_none _ _ (readUntil_enough _ (value_positive _ _) _ _ _ _ _ (by omega))
    · split
      · simp
      · exact option_map_ne_none _ _ (readUntil_enough _ (value_positive _ _) _ _ _ _ _ (by omega))

/-- **C143** (errors): data that is not read as alias data raises a parse error. -/
theorem C143_errors (utf8 utf16 : Bytes → Option Str) (fuel : Nat) (data : Bytes) (e : Err)
    (h : readAlias utf8 utf16 fuel data = some (.error e)) : e = .parseError := by
  have map_error : ∀ (x : Option (Res (List Value))) (f : List Value → Record × List Value),
      x.map (·.map f) = some (.error e) → x = some (.error e) := by
    intro x f hx
    cases x with
    | none => cases hx
    | some r =>
      cases r with
      | ok l => cases hx
      | error e' => simp [Except.map] at hx; rw [hx]
  unfold readAlias at h
  split at h
  · rename_i e' he
    cases h
    exact errors_refine _ _ (errors_fixed 8 id (by decide)) data 0 _ he
  · split at h
    · cases h; rfl
    split at h
    · cases h; rfl
    split at h
    · split at h
      · rename_i e' he
        cases h
        exact errors_fixed 114 parseV2 (by decide) data 8 _ he
      · exact readUntil_error _ (value_errors _ _) _ _ _ _ _ _ (map_error _ _ h)
    · split at h
      · rename_i e' he
        cases h
        exact errors_fixed 50 parseV3 (by decide) data 8 _ he
      · exact readUntil_error _ (value_errors _ _) _ _ _ _ _ _ (map_error _ _ h)

/-- What is accepted has the size that the header says, so that data of two records, which the
documentation allows, is never accepted. -/
theorem C143_size (utf8 utf16 : Bytes → Option Str) (fuel : Nat) (data : Bytes) (x : Record × List Value)
    (h : readAlias utf8 utf16 fuel data = some (.ok x)) :
    data.take 4 = [0, 0, 0, 0] ∧ beNat (slice data 4 6) = data.length ∧
      (beNat (slice data 6 8) = 2 ∨ beNat (slice data 6 8) = 3) := by
  unfold readAlias at h
  split at h
  · cases h
  · rename_i application size version k hh
    have : application = data.take 4 ∧ size = beNat (slice data 4 6) ∧ (beNat (slice data 6 8) = 2 ∨ beNat (slice data 6 8) = 3) := by
      unfold headerMap at hh
      rw [structAt_refine, show ((0 : Int)) = ((0 : Nat) : Int) from rfl, structAt_fixed 8 id data 0 (by decide)] at hh
      split at hh
      · cases hh
      · rename_i b k' hb
        split at hb
        · cases hb
        · simp only [List.drop_zero, id, Except.ok.injEq, Prod.mk.injEq] at hb
          obtain ⟨rfl, _⟩ := hb
          split at hh
          · rename_i y hy
            simp only [Except.ok.injEq, Prod.mk.injEq] at hh
            obtain ⟨rfl, _⟩ := hh
            unfold parseHeader at hy
            rw [slice_take _ _ _ _ (by decide), slice_take _ _ _ _ (by decide),
              slice_take _ _ _ _ (by decide)] at hy
            split at hy
            · rename_i hv
              simp only [Option.some.injEq, Prod.mk.injEq] at hy
              obtain ⟨rfl, rfl, _⟩ := hy
              exact ⟨by simp [slice], rfl, hv⟩
            · cases hy
          · cases hh
    obtain ⟨rfl, rfl, hv⟩ := this
    split at h
    · cases h
    split at h
    · cases h
    · rename_i h1 h2
      exact ⟨Classical.not_not.1 h1, Classical.not_not.1 h2, hv⟩

/-- The claim that alias data of more than one record, as the documentation allows, is read. -/
def C143_records_claim : Prop :=
  ∀ (utf8 utf16 : Bytes → Option Str) (r : RecordV3), r.Ok →
    ∃ fuel x, readAlias utf8 utf16 fuel (aliasBytes 3 r.bytes [] ++ aliasBytes 3 r.bytes []) = some (.ok x)

/-- A record of version 3. -/
def sample : RecordV3 := ⟨0, 65536, [72, 43, 0, 0], 0, 2, 17, 131072, 0, List.replicate 14 0⟩

theorem sample_ok : sample.Ok := by unfold RecordV3.Ok; decide

/-- The claim is false: such data is refused. -/
theorem C143_records_claim_false : ¬ C143_records_claim := by
  intro h
  obtain ⟨fuel, x, hx⟩ := h (fun _ => none) (fun _ => none) sample sample_ok
  have := (C143_size _ _ _ _ _ hx).2.1
  exact absurd this (by decide)

/-- The claim that the terminator, the tag 0xffff, ends the values: padding after it is not read. -/
def C143_terminator_claim : Prop :=
  ∀ (utf8 utf16 : Bytes → Option Str) (r : RecordV3) (ss : List Stored) (vs : List Value) (padding : Nat), r.Ok →
    AllStand utf8 utf16 ss vs → 58 + (ss.flatMap Stored.bytes).length + 4 + padding < 2 ^ 16 →
    ∃ fuel, readAlias utf8 utf16 fuel
        (aliasBytes 3 r.bytes (ss.flatMap Stored.bytes ++ tagged 0xffff [] 0 ++ List.replicate padding 0)) =
      some (.ok (.v3 r, vs ++ [.data 0xffff []]))

/-- The claim is false: the padding is read as values. -/
theorem C143_terminator_claim_false : ¬ C143_terminator_claim := by
  intro h
  obtain ⟨fuel, hf⟩ := h (fun _ => none) (fun _ => none) sample [] [] 2 sample_ok .nil (by decide)
  have key : ∀ fuel, readAlias (fun _ => none) (fun _ => none) fuel
      (aliasBytes 3 sample.bytes (([] : List Stored).flatMap Stored.bytes ++ tagged 0xffff [] 0 ++ List.replicate 2 0)) ≠
      some (.ok (.v3 sample, [] ++ [.data 0xffff []])) := by
    intro fuel
    rcases fuel with _ | _ | fuel
    · decide
    · decide
    · have e : ∀ n, readUntil (valueMap (fun _ => none) (fun _ => none))
          (aliasBytes 3 sample.bytes (([] : List Stored).flatMap Stored.bytes ++ tagged 0xffff [] 0 ++ List.replicate 2 0)) 64
          (n + 2) 58 [] = some (.error .parseError) := by
        intro n
        rw [readUntil, if_pos (by decide),
          show structAt (valueMap (fun _ => none) (fun _ => none))
            (aliasBytes 3 sample.bytes (([] : List Stored).flatMap Stored.bytes ++ tagged 0xffff [] 0 ++ List.replicate 2 0))
            ((58 : Nat) : Int) = .ok (.data 0xffff [], 4) by decide]
        dsimp only
        rw [readUntil, if_pos (by decide), show structAt (valueMap (fun _ => none) (fun _ => none))
            (aliasBytes 3 sample.bytes (([] : List Stored).flatMap Stored.bytes ++ tagged 0xffff [] 0 ++ List.replicate 2 0))
            ((58 + Int.toNat 4 : Nat) : Int) = .error .parseError by decide]
      unfold readAlias
      rw [header_read 3 _ _ (Or.inr rfl) (by decide)]
      dsimp only
      rw [if_neg (by simp), if_neg (by rw [aliasBytes_length]; simp), if_neg (by decide)]
      split
      · simp
      · have e' := e fuel
        rw [show (64 : Nat) = 8 + sample.bytes.length + (([] : List Stored).flatMap Stored.bytes ++ tagged 0xffff [] 0 ++
          List.replicate 2 0).length by decide] at e'
        rw [e']
        simp [Except.map]
  exact key fuel hf

/-! ### A case that meets the hypotheses -/

/-- Alias data with ancestors, a path of odd size and the terminator. -/
example : AllStand (fun b => some (b.map (fun x => Char.ofNat x.toNat))) (fun _ => none)
    [(1, [5, 2].flatMap (beBytes 4), 0), (0x12, [47, 97, 98], 0), (0xffff, [], 0)]
    [.integers [5, 2], .utf8 0x12 ['/', 'a', 'b'], .data 0xffff []] := by
  refine .cons _ _ _ _ (by decide) (by decide) (.integers [5, 2] (by decide)) ?_
  refine .cons _ _ _ _ (by decide) (by decide) (.utf8 0x12 [47, 97, 98] _ (by decide) (by decide)) ?_
  exact .cons _ _ _ _ (by decide) (by decide) (.data 0xffff [] (by decide)) .nil

/-- A file name in UTF-16. -/
example : Stands (fun _ => none) (fun b => if b = [0, 97] then some ['a'] else none) 0x0e [0, 1, 0, 97] (.utf16 0x0e ['a']) :=
  .utf16 0x0e [97] ['a'] (by decide) (by decide)

end Dtf.Alias
