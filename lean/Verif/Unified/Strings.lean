import Verif.Sequence
import Mathlib.Tactic.NormNum
import Mathlib.Data.List.Forall2

/-!
# Strings files of the unified logs (C31, C32, C73)

Models the shared-cache strings file and the uuidtext file of dtformats/unified_logging.py.  Reading
a zero-terminated string at an offset of the file is a parameter (`cstr`): the properties are about
the offset that is used.
-/

namespace Dtf.Unified
open Py DataFormat

/-! ## Model -/

/-- A range of a shared-cache strings file (`DSCRange`) after `ReadFileObject`.  `ident` and `path`
are the identifier and the path of the image. -/
structure Range (S : Type) where
  rangeOffset : Nat
  rangeSize : Nat
  dataOffset : Nat
  textOffset : Nat
  textSize : Nat
  ident : Bytes
  path : S
deriving DecidableEq

/-- `ImageValues` (unified_logging.py 68-92). -/
structure ImageValues (S : Type) where
  ident : Bytes
  path : Option S
  string : Option S
  textOffset : Nat
deriving DecidableEq

/-- `DSCFile.GetImageValues` (unified_logging.py 2215-2257).  `percentS` is the string `"%s"`. -/
def dscImageValues {S : Type} (percentS : S) (cstr : Nat → Res S) (isDynamic : Bool)
    (reference : Nat) : List (Range S) → Res (Option (ImageValues S))
  | [] => .ok none
  | r :: rs =>
    let rangeOffset := if isDynamic then r.textOffset else r.rangeOffset
    let rangeSize := if isDynamic then r.textSize else r.rangeSize
    if reference < rangeOffset then dscImageValues percentS cstr isDynamic reference rs
    else
      let relativeOffset := reference - rangeOffset
      if relativeOffset ≤ rangeSize then
        if isDynamic then .ok (some ⟨r.ident, some r.path, some percentS, r.textOffset⟩)
        else
          match cstr (r.dataOffset + relativeOffset) with
          | .error e => .error e
          | .ok s => .ok (some ⟨r.ident, some r.path, some s, r.textOffset⟩)
      else dscImageValues percentS cstr isDynamic reference rs

/-- A range descriptor of a shared-cache strings file. -/
structure RangeDescriptor where
  rangeOffset : Nat
  dataOffset : Nat
  rangeSize : Nat
  uuidIndex : Nat
deriving DecidableEq, Repr

/-- `dsc_range_descriptor_v1` and `dsc_range_descriptor_v2` (aul_dsc.yaml). -/
def rangeMap (version : Nat) : DataTypeMap RangeDescriptor :=
  if version = 1 then
    fixedMap 16 (fun b => { uuidIndex := leNat (slice b 0 4), rangeOffset := leNat (slice b 4 8),
                            dataOffset := leNat (slice b 8 12), rangeSize := leNat (slice b 12 16) })
  else
    fixedMap 24 (fun b => { rangeOffset := leNat (slice b 0 8), dataOffset := leNat (slice b 8 12),
                            rangeSize := leNat (slice b 12 16), uuidIndex := leNat (slice b 16 24) })

/-- A UUID descriptor of a shared-cache strings file. -/
structure UuidDescriptor where
  textOffset : Nat
  textSize : Nat
  ident : Bytes
  pathOffset : Nat
deriving DecidableEq, Repr

/-- `dsc_uuid_descriptor_v1` and `dsc_uuid_descriptor_v2` (aul_dsc.yaml). -/
def uuidMap (version : Nat) : DataTypeMap UuidDescriptor :=
  if version = 1 then
    fixedMap 28 (fun b => { textOffset := leNat (slice b 0 4), textSize := leNat (slice b 4 8),
                            ident := slice b 8 24, pathOffset := leNat (slice b 24 28) })
  else
    fixedMap 32 (fun b => { textOffset := leNat (slice b 0 8), textSize := leNat (slice b 8 12),
                            ident := slice b 12 28, pathOffset := leNat (slice b 28 32) })

/-- The image paths of the UUID descriptors, which `_ReadUUIDDescriptors` reads after each
descriptor (unified_logging.py 2210-2212). -/
def imagePaths {S : Type} (cstr : Nat → Res S) : List UuidDescriptor → Res (List (UuidDescriptor × S))
  | [] => .ok []
  | u :: us =>
    match cstr u.pathOffset with
    | .error e => .error e
    | .ok p =>
      match imagePaths cstr us with
      | .error e => .error e
      | .ok ps => .ok ((u, p) :: ps)

/-- The last loop of `ReadFileObject` (unified_logging.py 2290-2296). -/
def resolveRanges {S : Type} (uuids : List (UuidDescriptor × S)) :
    List RangeDescriptor → Res (List (Range S))
  | [] => .ok []
  | r :: rs =>
    match uuids[r.uuidIndex]? with
    | none => .error .indexError
    | some (u, p) =>
      match resolveRanges uuids rs with
      | .error e => .error e
      | .ok out =>
        .ok ({ rangeOffset := r.rangeOffset, rangeSize := r.rangeSize, dataOffset := r.dataOffset,
               textOffset := u.textOffset, textSize := u.textSize, ident := u.ident,
               path := p } :: out)

/-- `DSCFile.ReadFileObject` (unified_logging.py 2259-2296) with `_ReadFileHeader` (2031-2070),
`_ReadRangeDescriptors` (2096-2141) and `_ReadUUIDDescriptors` (2167-2213).  The order in which
errors of descriptors and of image paths are raised is simplified: all descriptors are read before
the image paths. -/
def readDsc {S : Type} (cstr : Nat → Res S) (data : Bytes) : Res (List (Range S)) :=
  match structAt (fixedMap 16 id) data 0 with
  | .error e => .error e
  | .ok (h, _) =>
    if h.take 4 ≠ [0x68, 0x63, 0x73, 0x64] then .error .parseError
    else
      let version := leNat (slice h 4 6)
      let minor := leNat (slice h 6 8)
      if ¬ ((version = 1 ∧ minor = 0) ∨ (version = 2 ∧ minor = 0)) then .error .parseError
      else
        match readMany (rangeMap version) data (leNat (slice h 8 12)) 16 with
        | .error e => .error e
        | .ok (ranges, off) =>
          match readMany (uuidMap version) data (leNat (slice h 12 16)) off with
          | .error e => .error e
          | .ok (uuids, _) =>
            match imagePaths cstr uuids with
            | .error e => .error e
            | .ok uuids => resolveRanges uuids ranges

/-- An entry of a uuidtext file as kept by `ReadFileObject`: its offset in the file, and the offset
and the size of its descriptor. -/
structure Entry where
  fileOffset : Nat
  offset : Nat
  size : Nat
deriving DecidableEq, Repr

/-- `UUIDTextFile.GetString` (unified_logging.py 5234-5255). -/
def uuidtextString {S : Type} (cstr : Nat → Res S) (reference : Nat) : List Entry → Res (Option S)
  | [] => .ok none
  | e :: es =>
    if reference < e.offset then uuidtextString cstr reference es
    else
      let relativeOffset := reference - e.offset
      if relativeOffset ≤ e.size then
        match cstr (e.fileOffset + relativeOffset) with
        | .error e => .error e
        | .ok s => .ok (some s)
      else uuidtextString cstr reference es

/-- The descriptors of the header, eight bytes each. -/
def parseDescriptors : Nat → Bytes → List (Nat × Nat)
  | 0, _ => []
  | n + 1, b => (leNat (slice b 0 4), leNat (slice b 4 8)) :: parseDescriptors n (b.drop 8)

/-- The map of a `uuidtext_file_header` (aul_uuidtext.yaml): its version and its descriptors. -/
def headerMap : DataTypeMap ((Nat × Nat) × List (Nat × Nat)) :=
  (sizedMap 16 (fun h => 8 * leNat (slice h 12 16)) id).refine (fun b =>
    if b.take 4 = [0x99, 0x88, 0x77, 0x66] then
      some ((leNat (slice b 4 8), leNat (slice b 8 12)),
        parseDescriptors (leNat (slice b 12 16)) (b.drop 16))
    else none)

/-- The loop of `ReadFileObject` (unified_logging.py 5279-5282). -/
def layOut (fileOffset : Nat) : List (Nat × Nat) → List Entry × Nat
  | [] => ([], fileOffset)
  | d :: ds =>
    let (es, off) := layOut (fileOffset + d.2) ds
    (⟨fileOffset, d.1, d.2⟩ :: es, off)

/-- `UUIDTextFile.ReadFileObject` (unified_logging.py 5265-5284): the entries and the image path of
the footer. -/
def readUuidtext {S : Type} (cstr : Nat → Res S) (data : Bytes) : Res (List Entry × S) :=
  match structAt headerMap data 0 with
  | .error e => .error e
  | .ok ((version, descriptors), size) =>
    if version ≠ (2, 1) then .error .parseError
    else
      let (entries, off) := layOut size.toNat descriptors
      match cstr off with
      | .error e => .error e
      | .ok path => .ok (entries, path)

/-! ## C31: references into shared-cache strings -/

/-- The half-open interval of a range contains the reference. -/
def Range.Contains {S : Type} (r : Range S) (isDynamic : Bool) (reference : Nat) : Prop :=
  if isDynamic then r.textOffset ≤ reference ∧ reference < r.textOffset + r.textSize
  else r.rangeOffset ≤ reference ∧ reference < r.rangeOffset + r.rangeSize

/-- The reference is the end of the range. -/
def Range.EndsAt {S : Type} (r : Range S) (isDynamic : Bool) (reference : Nat) : Prop :=
  if isDynamic then reference = r.textOffset + r.textSize
  else reference = r.rangeOffset + r.rangeSize

/-- The values of the image of a range, with the string at the place of the range that the reference
denotes.  Specification. -/
def Range.values {S : Type} (r : Range S) (percentS : S) (cstr : Nat → Res S) (isDynamic : Bool)
    (reference : Nat) : Res (ImageValues S) :=
  if isDynamic then .ok ⟨r.ident, some r.path, some percentS, r.textOffset⟩
  else
    (cstr (r.dataOffset + (reference - r.rangeOffset))).map
      (fun s => ⟨r.ident, some r.path, some s, r.textOffset⟩)

/-- The claim of C31, first part: a reference is resolved through a range that contains it. -/
def C31_contains_claim : Prop :=
  ∀ (S : Type) (percentS : S) (cstr : Nat → Res S) (isDynamic : Bool) (reference : Nat)
    (ranges : List (Range S)) (r : Range S), r ∈ ranges → r.Contains isDynamic reference →
    ranges.Pairwise (fun a b => ∀ x, ¬ (a.Contains isDynamic x ∧ b.Contains isDynamic x)) →
    dscImageValues percentS cstr isDynamic reference ranges =
      (r.values percentS cstr isDynamic reference).map some

/-- The claim of C31, second part: a reference outside all ranges is not resolved. -/
def C31_outside_claim : Prop :=
  ∀ (S : Type) (percentS : S) (cstr : Nat → Res S) (isDynamic : Bool) (reference : Nat)
    (ranges : List (Range S)), (∀ r ∈ ranges, ¬ r.Contains isDynamic reference) →
    dscImageValues percentS cstr isDynamic reference ranges = .ok none

/-- **C31** is false: the first string of a range is resolved through the range before it. -/
theorem C31_next_range_lost : ¬ C31_contains_claim := by
  intro h
  have := h Nat 0 (fun o => .ok o) false 10
    [⟨0, 10, 100, 0, 0, [1], 0⟩, ⟨10, 10, 200, 0, 0, [2], 0⟩] ⟨10, 10, 200, 0, 0, [2], 0⟩
    (by simp) (by simp [Range.Contains]) (by simp [Range.Contains]; omega)
  revert this
  decide

/-- **C31** is false: the end of a range is resolved. -/
theorem C31_end_of_range_resolved : ¬ C31_outside_claim := by
  intro h
  have := h Nat 0 (fun o => .ok o) false 10 [⟨0, 10, 100, 0, 0, [1], 0⟩]
    (by simp [Range.Contains])
  revert this
  decide

theorem dsc_step {S : Type} (percentS : S) (cstr : Nat → Res S) (isDynamic : Bool)
    (reference : Nat) (r : Range S) (rs : List (Range S)) :
    ((r.Contains isDynamic reference ∨ r.EndsAt isDynamic reference) →
      dscImageValues percentS cstr isDynamic reference (r :: rs) =
        (r.values percentS cstr isDynamic reference).map some) ∧
    (¬ (r.Contains isDynamic reference ∨ r.EndsAt isDynamic reference) →
      dscImageValues percentS cstr isDynamic reference (r :: rs) =
        dscImageValues percentS cstr isDynamic reference rs) := by
  rw [dscImageValues]
  cases isDynamic
  · simp only [Range.Contains, Range.EndsAt, Range.values, Bool.false_eq_true, if_false]
    refine ⟨fun h => ?_, fun h => ?_⟩
    · rw [if_neg (by omega), if_pos (by omega)]
      cases cstr (r.dataOffset + (reference - r.rangeOffset)) <;> rfl
    · by_cases hlt : reference < r.rangeOffset
      · rw [if_pos hlt]
      · rw [if_neg hlt, if_neg (by omega)]
  · simp only [Range.Contains, Range.EndsAt, Range.values, if_true]
    refine ⟨fun h => ?_, fun h => ?_⟩
    · rw [if_neg (by omega), if_pos (by omega)]
      rfl
    · by_cases hlt : reference < r.textOffset
      · rw [if_pos hlt]
      · rw [if_neg hlt, if_neg (by omega)]

/-- **C31** (partial): for all range tables, a reference is resolved through the first range that
contains it or ends at it, and to nothing if there is no such range. -/
theorem C31_first_range_partial {S : Type} (percentS : S) (cstr : Nat → Res S) (isDynamic : Bool)
    (reference : Nat) (ranges : List (Range S)) :
    (∀ a r b, ranges = a ++ r :: b →
      (∀ x ∈ a, ¬ (x.Contains isDynamic reference ∨ x.EndsAt isDynamic reference)) →
      (r.Contains isDynamic reference ∨ r.EndsAt isDynamic reference) →
      dscImageValues percentS cstr isDynamic reference ranges =
        (r.values percentS cstr isDynamic reference).map some) ∧
    ((∀ x ∈ ranges, ¬ (x.Contains isDynamic reference ∨ x.EndsAt isDynamic reference)) →
      dscImageValues percentS cstr isDynamic reference ranges = .ok none) := by
  constructor
  · intro a r b hr ha hc
    subst hr
    induction a with
    | nil => exact (dsc_step percentS cstr isDynamic reference r b).1 hc
    | cons x a ih =>
      rw [List.cons_append, (dsc_step percentS cstr isDynamic reference x _).2 (ha x (by simp))]
      exact ih (fun y hy => ha y (List.mem_cons_of_mem _ hy))
  · intro h
    induction ranges with
    | nil => rfl
    | cons x rs ih =>
      rw [(dsc_step percentS cstr isDynamic reference x _).2 (h x (by simp))]
      exact ih (fun y hy => h y (List.mem_cons_of_mem _ hy))

/-- **C31** (partial): in a table of disjoint ranges, a reference is resolved through the range that
contains it if no range ends there. -/
theorem C31_resolved_partial {S : Type} (percentS : S) (cstr : Nat → Res S) (isDynamic : Bool)
    (reference : Nat) (ranges : List (Range S)) (r : Range S) (hr : r ∈ ranges)
    (hc : r.Contains isDynamic reference)
    (hd : ranges.Pairwise (fun a b => ∀ x, ¬ (a.Contains isDynamic x ∧ b.Contains isDynamic x)))
    (he : ∀ x ∈ ranges, ¬ x.EndsAt isDynamic reference) :
    dscImageValues percentS cstr isDynamic reference ranges =
      (r.values percentS cstr isDynamic reference).map some := by
  obtain ⟨a, b, rfl⟩ := List.append_of_mem hr
  refine (C31_first_range_partial percentS cstr isDynamic reference _).1 a r b rfl ?_ (.inl hc)
  intro x hx
  rintro (h | h)
  · rw [List.pairwise_append] at hd
    exact hd.2.2 x hx r (by simp) reference ⟨h, hc⟩
  · exact he x (by simp [hx]) h

example : dscImageValues (S := Nat) 0 (fun o => .ok o) false 15
    [⟨0, 10, 100, 0, 0, [1], 7⟩, ⟨10, 10, 200, 5, 0, [2], 8⟩] =
      .ok (some ⟨[2], some 8, some 205, 5⟩) := by decide

/-! ## C73: reading shared-cache strings files -/

/-- The bytes of a range descriptor. -/
def RangeDescriptor.bytes (version : Nat) (r : RangeDescriptor) : Bytes :=
  if version = 1 then
    [leBytes 4 r.uuidIndex, leBytes 4 r.rangeOffset, leBytes 4 r.dataOffset,
      leBytes 4 r.rangeSize].flatten
  else
    [leBytes 8 r.rangeOffset, leBytes 4 r.dataOffset, leBytes 4 r.rangeSize,
      leBytes 8 r.uuidIndex].flatten

/-- The values fit in the fields of the version. -/
def RangeDescriptor.Fits (version : Nat) (r : RangeDescriptor) : Prop :=
  r.dataOffset < 2 ^ 32 ∧ r.rangeSize < 2 ^ 32 ∧
    (if version = 1 then r.uuidIndex < 2 ^ 32 ∧ r.rangeOffset < 2 ^ 32
     else r.uuidIndex < 2 ^ 64 ∧ r.rangeOffset < 2 ^ 64)

theorem range_encodes (version : Nat) (r : RangeDescriptor) (h : r.Fits version) :
    Encodes (rangeMap version) (r.bytes version) r := by
  obtain ⟨h1, h2, h3⟩ := h
  unfold rangeMap RangeDescriptor.bytes
  split
  · rename_i hv
    rw [if_pos hv] at h3
    have e := encodes_fixed 16 (fun b => (⟨leNat (slice b 4 8), leNat (slice b 8 12),
      leNat (slice b 12 16), leNat (slice b 0 4)⟩ : RangeDescriptor))
      [leBytes 4 r.uuidIndex, leBytes 4 r.rangeOffset, leBytes 4 r.dataOffset,
      leBytes 4 r.rangeSize].flatten (by decide) (by simp)
    have q1 := leField [] 4 r.uuidIndex [leBytes 4 r.rangeOffset, leBytes 4 r.dataOffset,
      leBytes 4 r.rangeSize] 0 4 (by simp) (by simp) (by norm_num; omega)
    have q2 := leField [leBytes 4 r.uuidIndex] 4 r.rangeOffset [leBytes 4 r.dataOffset,
      leBytes 4 r.rangeSize] 4 8 (by simp) (by simp) (by norm_num; omega)
    have q3 := leField [leBytes 4 r.uuidIndex, leBytes 4 r.rangeOffset] 4 r.dataOffset
      [leBytes 4 r.rangeSize] 8 12 (by simp) (by simp) (by norm_num; omega)
    have q4 := leField [leBytes 4 r.uuidIndex, leBytes 4 r.rangeOffset, leBytes 4 r.dataOffset] 4
      r.rangeSize [] 12 16 (by simp) (by simp) (by norm_num; omega)
    simp only [List.nil_append, List.cons_append] at q1 q2 q3 q4
    rw [q1, q2, q3, q4] at e
    exact e
  · rename_i hv
    rw [if_neg hv] at h3
    have e := encodes_fixed 24 (fun b => (⟨leNat (slice b 0 8), leNat (slice b 8 12),
      leNat (slice b 12 16), leNat (slice b 16 24)⟩ : RangeDescriptor))
      [leBytes 8 r.rangeOffset, leBytes 4 r.dataOffset, leBytes 4 r.rangeSize,
      leBytes 8 r.uuidIndex].flatten (by decide) (by simp)
    have q1 := leField [] 8 r.rangeOffset [leBytes 4 r.dataOffset, leBytes 4 r.rangeSize,
      leBytes 8 r.uuidIndex] 0 8 (by simp) (by simp) (by norm_num; omega)
    have q2 := leField [leBytes 8 r.rangeOffset] 4 r.dataOffset [leBytes 4 r.rangeSize,
      leBytes 8 r.uuidIndex] 8 12 (by simp) (by simp) (by norm_num; omega)
    have q3 := leField [leBytes 8 r.rangeOffset, leBytes 4 r.dataOffset] 4 r.rangeSize
      [leBytes 8 r.uuidIndex] 12 16 (by simp) (by simp) (by norm_num; omega)
    have q4 := leField [leBytes 8 r.rangeOffset, leBytes 4 r.dataOffset, leBytes 4 r.rangeSize] 8
      r.uuidIndex [] 16 24 (by simp) (by simp) (by norm_num; omega)
    simp only [List.nil_append, List.cons_append] at q1 q2 q3 q4
    rw [q1, q2, q3, q4] at e
    exact e

/-- The bytes of a UUID descriptor. -/
def UuidDescriptor.bytes (version : Nat) (u : UuidDescriptor) : Bytes :=
  if version = 1 then
    [leBytes 4 u.textOffset, leBytes 4 u.textSize, u.ident, leBytes 4 u.pathOffset].flatten
  else
    [leBytes 8 u.textOffset, leBytes 4 u.textSize, u.ident, leBytes 4 u.pathOffset].flatten

def UuidDescriptor.Fits (version : Nat) (u : UuidDescriptor) : Prop :=
  u.textSize < 2 ^ 32 ∧ u.pathOffset < 2 ^ 32 ∧ u.ident.length = 16 ∧
    (if version = 1 then u.textOffset < 2 ^ 32 else u.textOffset < 2 ^ 64)

theorem uuid_encodes (version : Nat) (u : UuidDescriptor) (h : u.Fits version) :
    Encodes (uuidMap version) (u.bytes version) u := by
  obtain ⟨h1, h2, h3, h4⟩ := h
  unfold uuidMap UuidDescriptor.bytes
  split
  · rename_i hv
    rw [if_pos hv] at h4
    have e := encodes_fixed 28 (fun b => (⟨leNat (slice b 0 4), leNat (slice b 4 8), slice b 8 24,
      leNat (slice b 24 28)⟩ : UuidDescriptor))
      [leBytes 4 u.textOffset, leBytes 4 u.textSize, u.ident, leBytes 4 u.pathOffset].flatten
      (by decide) (by simp [h3])
    have q1 := leField [] 4 u.textOffset [leBytes 4 u.textSize, u.ident, leBytes 4 u.pathOffset] 0 4
      (by simp) (by simp) (by norm_num; omega)
    have q2 := leField [leBytes 4 u.textOffset] 4 u.textSize [u.ident, leBytes 4 u.pathOffset] 4 8
      (by simp) (by simp) (by norm_num; omega)
    have q3 := slice_fields [leBytes 4 u.textOffset, leBytes 4 u.textSize] u.ident
      [leBytes 4 u.pathOffset] 8 24 (by simp) (by simp [h3])
    have q4 := leField [leBytes 4 u.textOffset, leBytes 4 u.textSize, u.ident] 4 u.pathOffset [] 24 28
      (by simp [h3]) (by simp) (by norm_num; omega)
    simp only [List.nil_append, List.cons_append] at q1 q2 q3 q4
    rw [q1, q2, q3, q4] at e
    exact e
  · rename_i hv
    rw [if_neg hv] at h4
    have e := encodes_fixed 32 (fun b => (⟨leNat (slice b 0 8), leNat (slice b 8 12), slice b 12 28,
      leNat (slice b 28 32)⟩ : UuidDescriptor))
      [leBytes 8 u.textOffset, leBytes 4 u.textSize, u.ident, leBytes 4 u.pathOffset].flatten
      (by decide) (by simp [h3])
    have q1 := leField [] 8 u.textOffset [leBytes 4 u.textSize, u.ident, leBytes 4 u.pathOffset] 0 8
      (by simp) (by simp) (by norm_num; omega)
    have q2 := leField [leBytes 8 u.textOffset] 4 u.textSize [u.ident, leBytes 4 u.pathOffset] 8 12
      (by simp) (by simp) (by norm_num; omega)
    have q3 := slice_fields [leBytes 8 u.textOffset, leBytes 4 u.textSize] u.ident
      [leBytes 4 u.pathOffset] 12 28 (by simp) (by simp [h3])
    have q4 := leField [leBytes 8 u.textOffset, leBytes 4 u.textSize, u.ident] 4 u.pathOffset [] 28 32
      (by simp [h3]) (by simp) (by norm_num; omega)
    simp only [List.nil_append, List.cons_append] at q1 q2 q3 q4
    rw [q1, q2, q3, q4] at e
    exact e

/-- A shared-cache strings file: header, range descriptors, UUID descriptors and the rest. -/
def dscFile (version : Nat) (ranges : List RangeDescriptor) (uuids : List UuidDescriptor)
    (rest : Bytes) : Bytes :=
  [[0x68, 0x63, 0x73, 0x64], leBytes 2 version, leBytes 2 0, leBytes 4 ranges.length,
    leBytes 4 uuids.length].flatten ++ ranges.flatMap (RangeDescriptor.bytes version) ++
    uuids.flatMap (UuidDescriptor.bytes version) ++ rest

/-- A range descriptor, resolved with the UUID descriptor it names.  Specification. -/
def IsRange {S : Type} (cstr : Nat → Res S) (uuids : List UuidDescriptor) (d : RangeDescriptor)
    (r : Range S) : Prop :=
  r.rangeOffset = d.rangeOffset ∧ r.rangeSize = d.rangeSize ∧ r.dataOffset = d.dataOffset ∧
    ∃ u, uuids[d.uuidIndex]? = some u ∧ r.textOffset = u.textOffset ∧ r.textSize = u.textSize ∧
      r.ident = u.ident ∧ cstr u.pathOffset = .ok r.path

theorem readMany_fields {σ : Type} (m : DataTypeMap σ) (enc : σ → Bytes) (items : List σ)
    (h : ∀ i ∈ items, Encodes m (enc i) i) (pre post : Bytes) :
    readMany m (pre ++ items.flatMap enc ++ post) items.length pre.length =
      .ok (items, (pre ++ items.flatMap enc).length) := by
  have := readMany_encodes m (items.map (fun i => (enc i, i))) (by
    intro p hp
    obtain ⟨i, hi, rfl⟩ := List.mem_map.mp hp
    exact h i hi) pre post
  simpa [List.flatMap_map, Function.comp_def] using this

/-- **C73**: reading a shared-cache strings file of either version gives every range in order, with
the identifier, path and text range of the image that its descriptor names. -/
theorem C73_read_dsc {S : Type} (cstr : Nat → Res S) (version : Nat) (ranges : List RangeDescriptor)
    (uuids : List UuidDescriptor) (rest : Bytes) (hv : version = 1 ∨ version = 2)
    (hr : ∀ r ∈ ranges, r.Fits version ∧ r.uuidIndex < uuids.length)
    (hu : ∀ u ∈ uuids, u.Fits version ∧ ∃ p, cstr u.pathOffset = .ok p)
    (hn : ranges.length < 2 ^ 32) (hm : uuids.length < 2 ^ 32) :
    ∃ out, readDsc cstr (dscFile version ranges uuids rest) = .ok out ∧
      List.Forall₂ (IsRange cstr uuids) ranges out := by
  -- The image paths.
  have hpaths : ∀ us : List UuidDescriptor, (∀ u ∈ us, ∃ p, cstr u.pathOffset = .ok p) →
      ∃ ps, imagePaths cstr us = .ok ps ∧ ps.map (·.1) = us ∧
        ∀ q ∈ ps, cstr q.1.pathOffset = .ok q.2 := by
    intro us
    induction us with
    | nil => intro _; exact ⟨[], rfl, rfl, by simp⟩
    | cons u us ih =>
      intro h
      obtain ⟨p, hp⟩ := h u (by simp)
      obtain ⟨ps, e, h1, h2⟩ := ih (fun x hx => h x (List.mem_cons_of_mem _ hx))
      refine ⟨(u, p) :: ps, ?_, by simp [h1], ?_⟩
      · rw [imagePaths, hp]
        simp only [e]
      · intro q hq
        rcases List.mem_cons.mp hq with rfl | hq
        · exact hp
        · exact h2 q hq
  obtain ⟨ps, eps, hps1, hps2⟩ := hpaths uuids (fun u h => (hu u h).2)
  -- The ranges.
  have hres : ∀ rs : List RangeDescriptor, (∀ r ∈ rs, r.uuidIndex < uuids.length) →
      ∃ out, resolveRanges ps rs = .ok out ∧ List.Forall₂ (IsRange cstr uuids) rs out := by
    intro rs
    induction rs with
    | nil => intro _; exact ⟨[], rfl, .nil⟩
    | cons r rs ih =>
      intro h
      obtain ⟨out, e, h1⟩ := ih (fun x hx => h x (List.mem_cons_of_mem _ hx))
      have hlt : r.uuidIndex < ps.length := by
        have := h r (by simp)
        rw [← hps1, List.length_map] at this
        exact this
      obtain ⟨⟨u, p⟩, hup⟩ : ∃ q, ps[r.uuidIndex]? = some q := ⟨_, List.getElem?_eq_getElem hlt⟩
      have huu : uuids[r.uuidIndex]? = some u := by
        rw [← hps1, List.getElem?_map, hup]
        rfl
      refine ⟨_, by rw [resolveRanges, hup]; dsimp only; rw [e], ?_⟩
      refine .cons ⟨rfl, rfl, rfl, u, huu, rfl, rfl, rfl, ?_⟩ h1
      exact hps2 (u, p) (List.mem_of_getElem? hup)
  obtain ⟨out, eout, hout⟩ := hres ranges (fun r h => (hr r h).2)
  refine ⟨out, ?_, hout⟩
  -- The header.
  have hvl : version < 2 ^ 16 := by omega
  generalize hhd : [[0x68, 0x63, 0x73, 0x64], leBytes 2 version, leBytes 2 0,
    leBytes 4 ranges.length, leBytes 4 uuids.length].flatten = hd
  have hlen : hd.length = 16 := by rw [← hhd]; simp
  have hfile : dscFile version ranges uuids rest = hd ++
      ranges.flatMap (RangeDescriptor.bytes version) ++
      uuids.flatMap (UuidDescriptor.bytes version) ++ rest := by rw [← hhd]; rfl
  have hst : structAt (fixedMap 16 id) (dscFile version ranges uuids rest) 0 = .ok (hd, 16) := by
    have := structAt_fixed_append 16 id [] hd (ranges.flatMap (RangeDescriptor.bytes version) ++
      uuids.flatMap (UuidDescriptor.bytes version) ++ rest) (by decide) hlen
    rw [hfile]
    simpa using this
  have h0 : hd.take 4 = [0x68, 0x63, 0x73, 0x64] := by rw [← hhd]; rfl
  have h1 : leNat (slice hd 4 6) = version := by
    rw [← hhd]
    exact leField [[0x68, 0x63, 0x73, 0x64]] 2 version [leBytes 2 0, leBytes 4 ranges.length,
      leBytes 4 uuids.length] 4 6 (by simp) (by simp) (by norm_num; omega)
  have h2 : leNat (slice hd 6 8) = 0 := by
    rw [← hhd]
    exact leField [[0x68, 0x63, 0x73, 0x64], leBytes 2 version] 2 0 [leBytes 4 ranges.length,
      leBytes 4 uuids.length] 6 8 (by simp) (by simp) (by norm_num)
  have h3 : leNat (slice hd 8 12) = ranges.length := by
    rw [← hhd]
    exact leField [[0x68, 0x63, 0x73, 0x64], leBytes 2 version, leBytes 2 0] 4 ranges.length
      [leBytes 4 uuids.length] 8 12 (by simp) (by simp) (by norm_num; omega)
  have h4 : leNat (slice hd 12 16) = uuids.length := by
    rw [← hhd]
    exact leField [[0x68, 0x63, 0x73, 0x64], leBytes 2 version, leBytes 2 0,
      leBytes 4 ranges.length] 4 uuids.length [] 12 16 (by simp) (by simp) (by norm_num; omega)
  have m1 := readMany_fields (rangeMap version) (RangeDescriptor.bytes version) ranges
    (fun r h => range_encodes version r (hr r h).1) hd
    (uuids.flatMap (UuidDescriptor.bytes version) ++ rest)
  have m2 := readMany_fields (uuidMap version) (UuidDescriptor.bytes version) uuids
    (fun u h => uuid_encodes version u (hu u h).1)
    (hd ++ ranges.flatMap (RangeDescriptor.bytes version)) rest
  have e1 : hd ++ ranges.flatMap (RangeDescriptor.bytes version) ++
      (uuids.flatMap (UuidDescriptor.bytes version) ++ rest) = dscFile version ranges uuids rest := by
    rw [hfile]; simp
  rw [e1, hlen] at m1
  rw [← hfile] at m2
  unfold readDsc
  rw [hst]
  dsimp only
  rw [h0, if_neg (by simp), h1, h2, h3, h4, if_neg (by omega), m1]
  dsimp only
  rw [m2]
  dsimp only
  rw [eps]
  exact eout

/-- A file of version 1 with one range. -/
example : readDsc (S := Nat) (fun o => .ok o)
    (dscFile 1 [⟨5, 60, 7, 0⟩] [⟨1, 2, List.replicate 16 9, 61⟩] [0x61, 0, 0x62, 0]) =
    .ok [⟨5, 7, 60, 1, 2, List.replicate 16 9, 61⟩] := by decide +kernel

/-! ## C32: references into uuidtext files -/

/-- The half-open interval of an entry contains the reference. -/
def Entry.Contains (e : Entry) (reference : Nat) : Prop :=
  e.offset ≤ reference ∧ reference < e.offset + e.size

/-- The claim of C32: a reference is resolved through the entry that contains it. -/
def C32_contains_claim : Prop :=
  ∀ (S : Type) (cstr : Nat → Res S) (reference : Nat) (entries : List Entry) (e : Entry),
    e ∈ entries → e.Contains reference →
    entries.Pairwise (fun a b => ∀ x, ¬ (a.Contains x ∧ b.Contains x)) →
    uuidtextString cstr reference entries =
      (cstr (e.fileOffset + (reference - e.offset))).map some

/-- **C32** is false: the first string of an entry is looked for at the end of the entry before it. -/
theorem C32_next_entry_lost : ¬ C32_contains_claim := by
  intro h
  have := h Nat (fun o => .ok o) 10 [⟨100, 0, 10⟩, ⟨500, 10, 10⟩] ⟨500, 10, 10⟩ (by simp)
    (by simp [Entry.Contains]) (by simp [Entry.Contains]; omega)
  revert this
  decide

theorem uuidtext_step {S : Type} (cstr : Nat → Res S) (reference : Nat) (e : Entry)
    (es : List Entry) :
    (e.Contains reference ∨ reference = e.offset + e.size →
      uuidtextString cstr reference (e :: es) =
        (cstr (e.fileOffset + (reference - e.offset))).map some) ∧
    (¬ (e.Contains reference ∨ reference = e.offset + e.size) →
      uuidtextString cstr reference (e :: es) = uuidtextString cstr reference es) := by
  rw [uuidtextString]
  simp only [Entry.Contains]
  refine ⟨fun h => ?_, fun h => ?_⟩
  · rw [if_neg (by omega), if_pos (by omega)]
    cases cstr (e.fileOffset + (reference - e.offset)) <;> rfl
  · by_cases hlt : reference < e.offset
    · rw [if_pos hlt]
    · rw [if_neg hlt, if_neg (by omega)]

/-- **C32** (partial): for all entry tables, a reference is resolved through the first entry that
contains it or ends at it, and to nothing if there is none. -/
theorem C32_first_entry_partial {S : Type} (cstr : Nat → Res S) (reference : Nat)
    (entries : List Entry) :
    (∀ a e b, entries = a ++ e :: b →
      (∀ x ∈ a, ¬ (x.Contains reference ∨ reference = x.offset + x.size)) →
      (e.Contains reference ∨ reference = e.offset + e.size) →
      uuidtextString cstr reference entries =
        (cstr (e.fileOffset + (reference - e.offset))).map some) ∧
    ((∀ x ∈ entries, ¬ (x.Contains reference ∨ reference = x.offset + x.size)) →
      uuidtextString cstr reference entries = .ok none) := by
  constructor
  · intro a e b hr ha hc
    subst hr
    induction a with
    | nil => exact (uuidtext_step cstr reference e b).1 hc
    | cons x a ih =>
      rw [List.cons_append, (uuidtext_step cstr reference x _).2 (ha x (by simp))]
      exact ih (fun y hy => ha y (List.mem_cons_of_mem _ hy))
  · intro h
    induction entries with
    | nil => rfl
    | cons x es ih =>
      rw [(uuidtext_step cstr reference x _).2 (h x (by simp))]
      exact ih (fun y hy => h y (List.mem_cons_of_mem _ hy))

/-- A uuidtext file: header, descriptors of the entries (with the offset of their strings), the
strings of the entries one after the other, and the footer. -/
def uuidtextFile (entries : List (Nat × Bytes)) (footer : Bytes) : Bytes :=
  [[0x99, 0x88, 0x77, 0x66], leBytes 4 2, leBytes 4 1, leBytes 4 entries.length].flatten ++
    entries.flatMap (fun e => leBytes 4 e.1 ++ leBytes 4 e.2.length) ++ entries.flatMap (·.2) ++ footer

theorem parseDescriptors_bytes (entries : List (Nat × Bytes)) (post : Bytes)
    (h : ∀ e ∈ entries, e.1 < 2 ^ 32 ∧ e.2.length < 2 ^ 32) :
    parseDescriptors entries.length
      (entries.flatMap (fun e => leBytes 4 e.1 ++ leBytes 4 e.2.length) ++ post) =
        entries.map (fun e => (e.1, e.2.length)) := by
  induction entries with
  | nil => rfl
  | cons e es ih =>
    obtain ⟨h1, h2⟩ := h e (by simp)
    have e0 : (e :: es).flatMap (fun e => leBytes 4 e.1 ++ leBytes 4 e.2.length) ++ post =
        [leBytes 4 e.1, leBytes 4 e.2.length,
          es.flatMap (fun e => leBytes 4 e.1 ++ leBytes 4 e.2.length) ++ post].flatten := by simp
    have q1 := leField [] 4 e.1 [leBytes 4 e.2.length,
      es.flatMap (fun e => leBytes 4 e.1 ++ leBytes 4 e.2.length) ++ post] 0 4 (by simp) (by simp)
      (by norm_num; omega)
    have q2 := leField [leBytes 4 e.1] 4 e.2.length [
      es.flatMap (fun e => leBytes 4 e.1 ++ leBytes 4 e.2.length) ++ post] 4 8 (by simp) (by simp)
      (by norm_num; omega)
    simp only [List.nil_append, List.cons_append] at q1 q2
    have e3 : [leBytes 4 e.1, leBytes 4 e.2.length,
        es.flatMap (fun e => leBytes 4 e.1 ++ leBytes 4 e.2.length) ++ post].flatten.drop 8 =
        es.flatMap (fun e => leBytes 4 e.1 ++ leBytes 4 e.2.length) ++ post := by
      simp only [List.flatten_cons, List.flatten_nil, List.append_nil]
      rw [← List.append_assoc, List.drop_left' (by simp)]
    rw [e0, List.length_cons, parseDescriptors, q1, q2, e3,
      ih (fun x hx => h x (List.mem_cons_of_mem _ hx))]
    rfl

theorem layOut_spec (off : Nat) (entries : List (Nat × Bytes)) :
    layOut off (entries.map (fun e => (e.1, e.2.length))) =
      ((List.range entries.length).map (fun i =>
        ⟨off + ((entries.take i).flatMap (·.2)).length, (entries.getD i (0, [])).1,
          (entries.getD i (0, [])).2.length⟩),
        off + (entries.flatMap (·.2)).length) := by
  induction entries generalizing off with
  | nil => simp [layOut]
  | cons e es ih =>
    rw [List.map_cons, layOut, ih]
    simp only [List.length_cons, List.range_succ_eq_map, List.map_cons, List.map_map,
      List.flatMap_cons, List.length_append, Prod.mk.injEq, List.cons.injEq]
    refine ⟨⟨by simp, ?_⟩, by omega⟩
    apply List.map_congr_left
    intro i _
    simp only [Function.comp, List.take_succ_cons, List.flatMap_cons, List.length_append,
      List.getD_cons_succ, Entry.mk.injEq, and_true]
    omega

/-- **C32** (layout): for every uuidtext file the offset kept for an entry is the place of its
strings in the file, and the image path is read right after the last entry. -/
theorem C32_layout {S : Type} (cstr : Nat → Res S) (entries : List (Nat × Bytes)) (footer : Bytes)
    (path : S) (h : ∀ e ∈ entries, e.1 < 2 ^ 32 ∧ e.2.length < 2 ^ 32)
    (hn : entries.length < 2 ^ 32)
    (hp : ∀ off, (uuidtextFile entries footer).drop off = footer → off ≤ (uuidtextFile entries footer).length →
      cstr off = .ok path) :
    ∃ es, readUuidtext cstr (uuidtextFile entries footer) = .ok (es, path) ∧
      List.Forall₂ (fun (d : Nat × Bytes) (e : Entry) =>
        e.offset = d.1 ∧ e.size = d.2.length ∧
          d.2 <+: (uuidtextFile entries footer).drop e.fileOffset) entries es := by
  generalize hhd : [[0x99, 0x88, 0x77, 0x66], leBytes 4 2, leBytes 4 1,
    leBytes 4 entries.length].flatten = hd
  have hlen : hd.length = 16 := by rw [← hhd]; simp
  have hdl : (entries.flatMap (fun e => leBytes 4 e.1 ++ leBytes 4 e.2.length)).length =
      8 * entries.length := by
    clear h hn hp hhd
    induction entries with
    | nil => rfl
    | cons e es ih => rw [List.flatMap_cons, List.length_append, ih]; simp; omega
  have hfile : uuidtextFile entries footer = (hd ++
      entries.flatMap (fun e => leBytes 4 e.1 ++ leBytes 4 e.2.length)) ++
      (entries.flatMap (·.2) ++ footer) := by rw [← hhd]; simp [uuidtextFile]
  generalize hds : entries.flatMap (fun e => leBytes 4 e.1 ++ leBytes 4 e.2.length) = ds at hdl hfile
  have h0 : ∀ t : Bytes, (hd ++ t).take 4 = [0x99, 0x88, 0x77, 0x66] := by
    intro t; rw [← hhd]; rfl
  have hfix : ∀ (t : Bytes) a b, b ≤ 16 → slice (hd ++ t) a b = slice hd a b := by
    intro t a b hb
    unfold slice
    rw [List.take_append_of_le_length (by omega)]
  have h1 : leNat (slice hd 4 8) = 2 := by
    rw [← hhd]
    exact leField [[0x99, 0x88, 0x77, 0x66]] 4 2 [leBytes 4 1, leBytes 4 entries.length] 4 8
      (by simp) (by simp) (by norm_num)
  have h2 : leNat (slice hd 8 12) = 1 := by
    rw [← hhd]
    exact leField [[0x99, 0x88, 0x77, 0x66], leBytes 4 2] 4 1 [leBytes 4 entries.length] 8 12
      (by simp) (by simp) (by norm_num)
  have h3 : leNat (slice hd 12 16) = entries.length := by
    rw [← hhd]
    exact leField [[0x99, 0x88, 0x77, 0x66], leBytes 4 2, leBytes 4 1] 4 entries.length [] 12 16
      (by simp) (by simp) (by norm_num; omega)
  have henc : Encodes headerMap (hd ++ ds) ((2, 1), entries.map (fun e => (e.1, e.2.length))) := by
    apply encodes_refine _ _ (hd ++ ds) (hd ++ ds)
    · refine encodes_sized 16 (fun h => 8 * leNat (slice h 12 16)) id (hd ++ ds) (by decide)
        (by simp [hlen]) ?_
      rw [List.take_left' hlen, h3, List.length_append, hlen, hdl]
    · rw [h0, if_pos rfl, hfix _ _ _ (by omega), hfix _ _ _ (by omega), hfix _ _ _ (by omega), h1, h2,
        h3, List.drop_left' hlen]
      have := parseDescriptors_bytes entries [] h
      rw [List.append_nil, hds] at this
      rw [this]
  have hst := henc [] (entries.flatMap (·.2) ++ footer)
  rw [List.nil_append, ← hfile] at hst
  have hsz : (hd ++ ds).length = 16 + 8 * entries.length := by rw [List.length_append, hlen, hdl]
  refine ⟨(List.range entries.length).map (fun i =>
        ⟨(hd ++ ds).length + ((entries.take i).flatMap (·.2)).length, (entries.getD i (0, [])).1,
          (entries.getD i (0, [])).2.length⟩), ?_, ?_⟩
  · unfold readUuidtext
    rw [show ((0 : Int)) = ((([] : Bytes).length : Nat) : Int) from rfl, hst]
    dsimp only
    rw [if_neg (by simp), Int.toNat_natCast, layOut_spec]
    dsimp only
    rw [hp]
    · rw [hfile, ← List.append_assoc, ← List.length_append, List.drop_left]
    · rw [hfile]; simp; omega
  · rw [List.forall₂_iff_get]
    refine ⟨by simp, ?_⟩
    intro i hi hi2
    simp only [List.get_eq_getElem, List.getElem_map, List.getElem_range]
    have hg : entries.getD i (0, []) = entries[i] := by
      rw [List.getD_eq_getElem?_getD, List.getElem?_eq_getElem hi]
      rfl
    refine ⟨by rw [hg], by rw [hg], ?_⟩
    have hsplit : entries = entries.take i ++ entries[i] :: entries.drop (i + 1) := by
      rw [List.getElem_cons_drop, List.take_append_drop]
    have hfl : entries.flatMap (·.2) = (entries.take i).flatMap (·.2) ++ (entries[i].2 ++
        (entries.drop (i + 1)).flatMap (·.2)) := by
      conv => lhs; rw [hsplit]
      rw [List.flatMap_append, List.flatMap_cons]
    rw [hfile, hfl, ← List.length_append]
    have : hd ++ ds ++ ((entries.take i).flatMap (·.2) ++ (entries[i].2 ++
        (entries.drop (i + 1)).flatMap (·.2)) ++ footer) =
        (hd ++ ds ++ (entries.take i).flatMap (·.2)) ++ (entries[i].2 ++
          ((entries.drop (i + 1)).flatMap (·.2) ++ footer)) := by simp
    rw [this, List.drop_left' (by simp only [List.length_append])]
    exact List.prefix_append _ _

theorem forall₂_append_left {α β : Type} {R : α → β → Prop} {a b : List α} {c : List β}
    (h : List.Forall₂ R (a ++ b) c) :
    ∃ c₁ c₂, c = c₁ ++ c₂ ∧ List.Forall₂ R a c₁ ∧ List.Forall₂ R b c₂ := by
  induction a generalizing c with
  | nil => exact ⟨[], c, rfl, .nil, h⟩
  | cons x a ih =>
    cases h with
    | cons hx ht =>
      obtain ⟨c₁, c₂, rfl, h1, h2⟩ := ih ht
      exact ⟨_ :: c₁, c₂, rfl, .cons hx h1, h2⟩

/-- **C32** (partial): in every uuidtext file, a reference `k` bytes into an entry is resolved with
the string that starts `k` bytes into the strings of that entry, if no earlier entry contains the
reference or ends there. -/
theorem C32_string_partial {S : Type} (cstr : Nat → Res S) (a b : List (Nat × Bytes))
    (d : Nat × Bytes) (k : Nat) (footer : Bytes) (path : S)
    (h : ∀ e ∈ a ++ d :: b, e.1 < 2 ^ 32 ∧ e.2.length < 2 ^ 32)
    (hn : (a ++ d :: b).length < 2 ^ 32)
    (hp : ∀ off, (uuidtextFile (a ++ d :: b) footer).drop off = footer →
      off ≤ (uuidtextFile (a ++ d :: b) footer).length → cstr off = .ok path)
    (hk : k < d.2.length)
    (ha : ∀ x ∈ a, d.1 + k < x.1 ∨ x.1 + x.2.length < d.1 + k) :
    ∃ es off, readUuidtext cstr (uuidtextFile (a ++ d :: b) footer) = .ok (es, path) ∧
      uuidtextString cstr (d.1 + k) es = (cstr off).map some ∧
      d.2.drop k <+: (uuidtextFile (a ++ d :: b) footer).drop off := by
  obtain ⟨es, he, hf⟩ := C32_layout cstr (a ++ d :: b) footer path h hn hp
  obtain ⟨ea, er, rfl, hfa, hfb⟩ := forall₂_append_left hf
  cases hfb with
  | @cons _ e _ eb hed _ =>
    obtain ⟨h1, h2, h3⟩ := hed
    refine ⟨_, e.fileOffset + k, he, ?_, ?_⟩
    · rw [(C32_first_entry_partial cstr (d.1 + k) _).1 ea e eb rfl ?_ ?_, h1]
      · congr 2; omega
      · intro x hx
        obtain ⟨i, hi, rfl⟩ := List.getElem_of_mem hx
        have hlen := hfa.length_eq
        obtain ⟨g1, g2, _⟩ := (List.forall₂_iff_get.mp hfa).2 i (by omega) hi
        simp only [List.get_eq_getElem] at g1 g2
        have := ha a[i] (List.getElem_mem _)
        simp only [Entry.Contains]
        omega
      · left
        simp only [Entry.Contains]
        omega
    · rw [← List.drop_drop]
      obtain ⟨t, ht⟩ := h3
      rw [← ht, List.drop_append_of_le_length (by omega)]
      exact List.prefix_append _ _

/-- A file with two entries. -/
example : readUuidtext (S := Nat) (fun o => .ok o)
    (uuidtextFile [(0, [0x61, 0]), (16, [0x62, 0x63, 0])] [0x2f, 0]) =
    .ok ([⟨32, 0, 2⟩, ⟨34, 16, 3⟩], 37) := by decide +kernel

end Dtf.Unified
