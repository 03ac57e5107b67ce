import Verif.Slices

/-!
# Windows (Enhanced) Metafiles (C48, C95)
-/

namespace Dtf.Wemf
open Py DataFormat

/-! ## Model -/

/-- `Record` (wemf.py 11-35). -/
structure Record where
  type : Nat
  size : Nat
  dataOffset : Int
  dataSize : Int
deriving DecidableEq, Repr

/-- `emf_record_header` (emf.yaml 365-374): the type and the size. -/
def emfHeader : DataTypeMap (Nat × Nat) :=
  (fixedMap 8 id).refine (fun b => some (leNat (slice b 0 4), leNat (slice b 4 8)))

/-- `wmf_record_header` (wmf.yaml 784-793): the type and the size in bytes (wemf.py 714). -/
def wmfHeader : DataTypeMap (Nat × Nat) :=
  (fixedMap 6 id).refine (fun b => some (leNat (slice b 4 6), 2 * leNat (slice b 0 4)))

/-- `_ReadRecord` (wemf.py 138-168, 691-721) and the offset of the next (wemf.py 230, 843).  The size of the header is
taken for the offset of the data. -/
def readRecord (m : DataTypeMap (Nat × Nat)) (data : Bytes) (off : Nat) : Res (Record × Nat) :=
  match structAt m data off with
  | .error e => .error e
  | .ok ((type, size), dataOffset) => .ok (⟨type, size, dataOffset, size - (dataOffset - off)⟩, off + size)

/-- `ReadFileObject` (wemf.py 218-230) of a Windows Enhanced Metafile. The values of the header are not used.
`none` is out of fuel. -/
def readEmf (data : Bytes) (fuel : Nat) : Option (Res (List Record)) :=
  match structAt (fixedMap 108 id) data 0 with
  | .error e => some (.error e)
  | .ok _ => walk (readRecord emfHeader data) data.length fuel 108 []

/-- `wmf_header` (wmf.yaml 723-753) with the checks of wemf.py 665-669. -/
def wmfFileHeader : DataTypeMap Unit :=
  (fixedMap 18 id).refine (fun b =>
    if (leNat (slice b 0 2) = 1 ∨ leNat (slice b 0 2) = 2) ∧ leNat (slice b 2 4) = 9 then some () else none)

/-- `_WMF_PLACEABLE_SIGNATURE` (wemf.py 306). -/
def placeableSignature : Bytes := [0xd7, 0xcd, 0xc6, 0x9a]

/-- The placeable (wemf.py 826-835): the offset of the header.  Going back 4 bytes in a smaller file is an error. -/
def readPlaceable (data : Bytes) : Res Nat :=
  if data.length < 4 then .error .parseError
  else if slice data 0 4 = placeableSignature then
    match structAt (fixedMap 22 id) data 0 with
    | .error e => .error e
    | .ok _ => .ok 22
  else .ok 0

/-- `ReadFileObject` (wemf.py 817-843) of a Windows Metafile. -/
def readWmf (data : Bytes) (fuel : Nat) : Option (Res (List Record)) :=
  match readPlaceable data with
  | .error e => some (.error e)
  | .ok off =>
    match structAt wmfFileHeader data off with
    | .error e => some (.error e)
    | .ok _ => walk (readRecord wmfHeader data) data.length fuel (off + 18) []

/-! ## The specification -/

/-- A record as it is stored: its type and its data. -/
structure Stored where
  type : Nat
  body : Bytes

def Stored.emf (s : Stored) : Bytes := [leBytes 4 s.type, leBytes 4 (8 + s.body.length), s.body].flatten

def Stored.wmf (s : Stored) : Bytes := [leBytes 4 ((6 + s.body.length) / 2), leBytes 2 s.type, s.body].flatten

def Stored.EmfOk (s : Stored) : Prop := s.type < 2 ^ 32 ∧ s.body.length + 8 < 2 ^ 32

def Stored.WmfOk (s : Stored) : Prop := s.type < 2 ^ 16 ∧ s.body.length + 6 < 2 ^ 33 ∧ s.body.length % 2 = 0

/-! ## Proofs -/

theorem emf_step (s : Stored) (h : s.EmfOk) (pre post : Bytes) :
    readRecord emfHeader (pre ++ s.emf ++ post) pre.length =
      .ok (⟨s.type, s.emf.length, 8, s.emf.length - 8 + pre.length⟩, pre.length + s.emf.length) := by
  obtain ⟨h1, h2⟩ := h
  have e : pre ++ s.emf ++ post =
      pre ++ [leBytes 4 s.type, leBytes 4 (8 + s.body.length)].flatten ++ (s.body ++ post) := by simp [Stored.emf]
  have hl : s.emf.length = 8 + s.body.length := by simp [Stored.emf]; omega
  have he : Encodes emfHeader [leBytes 4 s.type, leBytes 4 (8 + s.body.length)].flatten (s.type, 8 + s.body.length) := by
    refine encodes_refine _ _ _ _ _ (encodes_fixed 8 id _ (by omega) (by simp)) ?_
    have f0 : leNat (slice [leBytes 4 s.type, leBytes 4 (8 + s.body.length)].flatten 0 4) = s.type :=
      leField [] 4 _ _ 0 4 rfl rfl (by omega)
    have f1 : leNat (slice [leBytes 4 s.type, leBytes 4 (8 + s.body.length)].flatten 4 8) = 8 + s.body.length :=
      leField [leBytes 4 _] 4 _ _ 4 8 (by simp) rfl (by omega)
    rw [id, f0, f1]
  unfold readRecord
  rw [e, he]
  simp [hl]
  omega

theorem wmf_step (s : Stored) (h : s.WmfOk) (pre post : Bytes) :
    readRecord wmfHeader (pre ++ s.wmf ++ post) pre.length =
      .ok (⟨s.type, s.wmf.length, 6, s.wmf.length - 6 + pre.length⟩, pre.length + s.wmf.length) := by
  obtain ⟨h1, h2, h3⟩ := h
  have e : pre ++ s.wmf ++ post =
      pre ++ [leBytes 4 ((6 + s.body.length) / 2), leBytes 2 s.type].flatten ++ (s.body ++ post) := by
    simp [Stored.wmf]
  have hl : s.wmf.length = 6 + s.body.length := by simp [Stored.wmf]; omega
  have he : Encodes wmfHeader [leBytes 4 ((6 + s.body.length) / 2), leBytes 2 s.type].flatten
      (s.type, 6 + s.body.length) := by
    refine encodes_refine _ _ _ _ _ (encodes_fixed 6 id _ (by omega) (by simp)) ?_
    have f0 : leNat (slice [leBytes 4 ((6 + s.body.length) / 2), leBytes 2 s.type].flatten 0 4) =
        (6 + s.body.length) / 2 := leField [] 4 _ _ 0 4 rfl rfl (by omega)
    have f1 : leNat (slice [leBytes 4 ((6 + s.body.length) / 2), leBytes 2 s.type].flatten 4 6) = s.type :=
      leField [leBytes 4 _] 2 _ _ 4 6 (by simp) rfl (by omega)
    rw [id, f0, f1]
    congr 2
    omega
  unfold readRecord
  rw [e, he]
  simp [hl]
  omega

theorem readRecord_size (m : DataTypeMap (Nat × Nat)) (data : Bytes) (off : Nat) (r : Record) (next : Nat)
    (h : readRecord m data off = .ok (r, next)) : next = off + r.size := by
  unfold readRecord at h
  split at h
  · cases h
  · cases h; rfl

/-! ## C48 -/

/-- Reading ends for every file. -/
def C48_claim : Prop := ∀ data, ∃ fuel, readEmf data fuel ≠ none ∧ readWmf data fuel ≠ none

/-- It does if no record has the size 0. -/
theorem C48_terminates_partial (data : Bytes)
    (h : ∀ off r next, readRecord emfHeader data off = .ok (r, next) ∨ readRecord wmfHeader data off = .ok (r, next) →
      r.size ≠ 0) :
    readEmf data (data.length + 1) ≠ none ∧ readWmf data (data.length + 1) ≠ none := by
  have key : ∀ m off, (∀ off r next, readRecord m data off = .ok (r, next) → r.size ≠ 0) →
      walk (readRecord m data) data.length (data.length + 1) off [] ≠ none := by
    intro m off hm hn
    have ht := walk_terminates (readRecord m data) data.length (fun off x next _ hs => by
      have := readRecord_size _ _ _ _ _ hs
      have := hm _ _ _ hs
      omega) off []
    cases hr : walk (readRecord m data) data.length (data.length - off + 1) off [] with
    | none => exact ht hr
    | some r =>
      have := walk_mono _ _ _ (data.length + 1 - (data.length - off + 1)) _ _ _ hr
      rw [show data.length - off + 1 + (data.length + 1 - (data.length - off + 1)) = data.length + 1 by omega, hn]
        at this
      cases this
  constructor
  · unfold readEmf
    split
    · simp
    · exact key _ _ (fun off r next hr => h off r next (Or.inl hr))
  · unfold readWmf
    split
    · simp
    · split
      · simp
      · exact key _ _ (fun off r next hr => h off r next (Or.inr hr))

/-- A record with the size 0 after the header. -/
theorem C48_size_0_loops (header rest : Bytes) (type : Nat) (h1 : header.length = 108) (fuel : Nat) :
    readEmf (header ++ [leBytes 4 type, leBytes 4 0].flatten ++ rest) fuel = none := by
  unfold readEmf
  have hs : structAt (fixedMap 108 id) (header ++ [leBytes 4 type, leBytes 4 0].flatten ++ rest) 0 =
      .ok (header, 108) := by
    have := encodes_fixed 108 id header (by omega) h1 [] ([leBytes 4 type, leBytes 4 0].flatten ++ rest)
    simpa [h1] using this
  rw [hs]
  dsimp only
  have he : Encodes emfHeader [leBytes 4 type, leBytes 4 0].flatten (type % 2 ^ 32, 0) := by
    refine encodes_refine _ _ _ _ _ (encodes_fixed 8 id _ (by omega) (by simp)) ?_
    have f0 : slice [leBytes 4 type, leBytes 4 0].flatten 0 4 = leBytes 4 type :=
      slice_fields [] (leBytes 4 type) _ 0 4 rfl (by simp)
    have f1 : leNat (slice [leBytes 4 type, leBytes 4 0].flatten 4 8) = 0 :=
      leField [leBytes 4 _] 4 _ _ 4 8 (by simp) rfl (by omega)
    rw [id, f0, f1, leNat_leBytes]
  refine walk_stuck _ _ _ ⟨type % 2 ^ 32, 0, 8, 0 - (8 - 108)⟩ (by simp [h1]; omega) ?_ _ _
  unfold readRecord
  rw [show (108 : Nat) = header.length from h1.symm, he]
  simp [h1]

theorem C48_claim_false : ¬ C48_claim := by
  intro h
  obtain ⟨fuel, hf, _⟩ := h (List.replicate 108 0 ++ [leBytes 4 14, leBytes 4 0].flatten ++ [])
  exact hf (C48_size_0_loops _ _ _ (by simp) _)

/-- All records of an Enhanced Metafile with a header of 108 bytes are read, in order. -/
theorem C48_emf_partial (header : Bytes) (h1 : header.length = 108) (records : List Stored)
    (h : ∀ r ∈ records, r.EmfOk) (fuel : Nat) (hf : records.length < fuel) :
    ∃ out, readEmf (header ++ records.flatMap (·.emf)) fuel = some (.ok out) ∧
      out.map (fun r => (r.type, r.size)) = records.map (fun r => (r.type, 8 + r.body.length)) := by
  have hs : structAt (fixedMap 108 id) (header ++ records.flatMap (·.emf)) 0 = .ok (header, 108) := by
    have := encodes_fixed 108 id header (by omega) h1 [] (records.flatMap (·.emf))
    simpa [h1] using this
  have hw := walk_items (readRecord emfHeader) (fun _ => True)
    (records.map (fun r => (r.emf, fun off => (⟨r.type, r.emf.length, 8, r.emf.length - 8 + off⟩ : Record))))
    (by
      intro i hi pre post _
      obtain ⟨r, hr, rfl⟩ := List.mem_map.mp hi
      exact ⟨emf_step r (h r hr) pre post, trivial⟩)
    (by
      intro i hi
      obtain ⟨r, hr, rfl⟩ := List.mem_map.mp hi
      simp [Stored.emf, leBytes])
    header [] trivial fuel (by simpa using hf) []
  simp only [List.flatMap_map, List.append_nil, List.nil_append] at hw
  unfold readEmf
  rw [hs]
  dsimp only
  rw [← h1, hw]
  refine ⟨_, rfl, ?_⟩
  generalize header.length = off
  clear hw hs h hf
  induction records generalizing off with
  | nil => rfl
  | cons r records ih =>
    simp only [List.map_cons, valuesFrom, ih, List.cons.injEq, Prod.mk.injEq, true_and, and_true]
    simp [Stored.emf]
    omega

/-- A header of a Windows Metafile. -/
def WmfHeader (b : Bytes) : Prop :=
  ∃ type rest, b = [leBytes 2 type, leBytes 2 9, rest].flatten ∧ (type = 1 ∨ type = 2) ∧ rest.length = 14

/-- The 32-bit value 0x9ac6cdd7. -/
def placeableKey : Bytes := leBytes 4 0x9ac6cdd7

theorem placeableKey_eq : placeableSignature = placeableKey := by decide +kernel

/-- A placeable, or none. -/
def Placeable (b : Bytes) : Prop := b = [] ∨ ∃ rest, b = placeableKey ++ rest ∧ rest.length = 18

/-- All records of a Windows Metafile are read, in order, with or without a placeable. -/
theorem C48_wmf_records (placeable header : Bytes) (hp : Placeable placeable) (hh : WmfHeader header)
    (records : List Stored) (h : ∀ r ∈ records, r.WmfOk) (fuel : Nat) (hf : records.length < fuel) :
    ∃ out, readWmf (placeable ++ header ++ records.flatMap (·.wmf)) fuel = some (.ok out) ∧
      out.map (fun r => (r.type, r.size)) = records.map (fun r => (r.type, 6 + r.body.length)) := by
  obtain ⟨type, rest, rfl, ht, hr⟩ := hh
  generalize hd : [leBytes 2 type, leBytes 2 9, rest].flatten = header
  have hl : header.length = 18 := by rw [← hd]; simp [hr]
  have h0 : leNat (slice header 0 2) = type := by rw [← hd]; exact leField [] 2 _ _ 0 2 rfl rfl (by omega)
  have h1 : leNat (slice header 2 4) = 9 := by
    rw [← hd]; exact leField [leBytes 2 _] 2 _ _ 2 4 (by simp) rfl (by omega)
  have hplace : readPlaceable (placeable ++ header ++ records.flatMap (·.wmf)) = .ok placeable.length := by
    unfold readPlaceable
    rw [if_neg (by simp; omega)]
    rcases hp with rfl | ⟨prest, rfl, hpr⟩
    · rw [if_neg]
      · rfl
      · intro hc
        have : leNat (slice (header ++ records.flatMap (·.wmf)) 0 2) = type := by
          have e : slice (header ++ records.flatMap (·.wmf)) 0 2 = slice header 0 2 := by
            simp only [slice, List.drop_zero]
            rw [List.take_append_of_le_length (by omega)]
          rw [e, h0]
        have e2 : slice (header ++ records.flatMap (·.wmf)) 0 2 = (slice (header ++ records.flatMap (·.wmf)) 0 4).take 2 := by
          simp [slice, List.take_take]
        rw [List.nil_append] at hc
        rw [e2, hc, placeableKey_eq] at this
        have : leNat (placeableKey.take 2) = 52695 := by decide
        omega
    · rw [if_pos]
      · have := encodes_fixed 22 id (placeableKey ++ prest) (by omega) (by simp [placeableKey, hpr]) []
          (header ++ records.flatMap (·.wmf))
        rw [List.nil_append, List.length_nil, ← List.append_assoc] at this
        erw [this]
        simp [placeableKey, hpr]
      · rw [placeableKey_eq]
        simp [slice, placeableKey]
  have hs : structAt wmfFileHeader (placeable ++ header ++ records.flatMap (·.wmf)) placeable.length =
      .ok ((), header.length) := by
    refine encodes_refine _ _ _ header () (encodes_fixed 18 id _ (by omega) hl) ?_ placeable _
    rw [h0, h1, if_pos ⟨ht, rfl⟩]
  have hw := walk_items (readRecord wmfHeader) (fun _ => True)
    (records.map (fun r => (r.wmf, fun off => (⟨r.type, r.wmf.length, 6, r.wmf.length - 6 + off⟩ : Record))))
    (by
      intro i hi pre post _
      obtain ⟨r, hr, rfl⟩ := List.mem_map.mp hi
      exact ⟨wmf_step r (h r hr) pre post, trivial⟩)
    (by
      intro i hi
      obtain ⟨r, hr, rfl⟩ := List.mem_map.mp hi
      simp [Stored.wmf, leBytes])
    (placeable ++ header) [] trivial fuel (by simpa using hf) []
  simp only [List.flatMap_map, List.append_nil, List.nil_append] at hw
  unfold readWmf
  rw [hplace]
  dsimp only
  rw [hs]
  dsimp only
  rw [← hl, ← List.length_append, hw]
  refine ⟨_, rfl, ?_⟩
  generalize (placeable ++ header).length = off
  clear hw hs h hf hplace
  induction records generalizing off with
  | nil => rfl
  | cons r records ih =>
    simp only [List.map_cons, valuesFrom, ih, List.cons.injEq, Prod.mk.injEq, true_and, and_true]
    simp [Stored.wmf]
    omega

/-- An Enhanced Metafile of two records. -/
example : ∃ out, readEmf (List.replicate 108 0 ++ [(⟨37, [1, 2, 3, 4]⟩ : Stored), ⟨14, []⟩].flatMap (·.emf)) 3 =
    some (.ok out) ∧ out.map (fun r => (r.type, r.size)) = [(37, 12), (14, 8)] :=
  C48_emf_partial _ (by simp) [⟨37, [1, 2, 3, 4]⟩, ⟨14, []⟩] (by simp [Stored.EmfOk]) 3 (by decide)

/-- A Windows Metafile with a placeable and two records. -/
example : ∃ out, readWmf ((placeableKey ++ List.replicate 18 0) ++
    [leBytes 2 1, leBytes 2 9, List.replicate 14 0].flatten ++
    [(⟨0x103, [1, 0]⟩ : Stored), ⟨0, []⟩].flatMap (·.wmf)) 3 =
    some (.ok out) ∧ out.map (fun r => (r.type, r.size)) = [(0x103, 8), (0, 6)] :=
  C48_wmf_records _ _ (Or.inr ⟨_, rfl, by simp⟩) ⟨1, _, rfl, Or.inl rfl, by simp⟩ [⟨0x103, [1, 0]⟩, ⟨0, []⟩]
    (by simp [Stored.WmfOk]) 3 (by decide)

/-- The hypothesis of `C48_terminates_partial` holds of an empty Enhanced Metafile. -/
example : readEmf (List.replicate 108 1) 109 ≠ none := by
  have := (C48_terminates_partial (List.replicate 108 1) (by
    have hm : ∀ k, k + 8 ≤ 108 → slice (slice (List.replicate 108 (1 : UInt8)) k (k + 8)) 4 8 = [1, 1, 1, 1] := by
      intro k hk
      rw [slice_slice _ _ _ _ _ (by omega), slice_eq_take_drop, List.drop_replicate, List.take_replicate]
      rw [show min (k + 8 - (k + 4)) (108 - (k + 4)) = 4 by omega]
      rfl
    have hn : ∀ k, k + 6 ≤ 108 → slice (slice (List.replicate 108 (1 : UInt8)) k (k + 6)) 0 4 = [1, 1, 1, 1] := by
      intro k hk
      rw [slice_slice _ _ _ _ _ (by omega), slice_eq_take_drop, List.drop_replicate, List.take_replicate]
      rw [show min (k + 4 - (k + 0)) (108 - (k + 0)) = 4 by omega]
      rfl
    intro off r next hr
    rcases hr with hr | hr
    · unfold readRecord at hr
      split at hr
      · cases hr
      · rename_i hx
        obtain ⟨h1, h2, _⟩ := structAt_fixed_ok 8 _ _ _ _ _ (by omega) hx
        simp only [List.length_replicate] at h1
        rw [hm off (by omega)] at h2
        cases h2
        cases hr
        exact show leNat [1, 1, 1, 1] ≠ 0 by decide
    · unfold readRecord at hr
      split at hr
      · cases hr
      · rename_i hx
        obtain ⟨h1, h2, _⟩ := structAt_fixed_ok 6 _ _ _ _ _ (by omega) hx
        simp only [List.length_replicate] at h1
        rw [hn off (by omega)] at h2
        cases h2
        cases hr
        exact show 2 * leNat [1, 1, 1, 1] ≠ 0 by decide)).1
  simpa using this

/-! ## C95 -/

/-- A record tells where its data is. -/
def C95_data_claim : Prop :=
  ∀ (s : Stored) (pre post : Bytes), s.EmfOk →
    ∃ r next, readRecord emfHeader (pre ++ s.emf ++ post) pre.length = .ok (r, next) ∧
      r.dataOffset = pre.length + 8 ∧ r.dataSize = s.body.length

/-- It does so only at the start of a file. -/
theorem C95_data (s : Stored) (pre post : Bytes) (h : s.EmfOk) :
    ∃ r next, readRecord emfHeader (pre ++ s.emf ++ post) pre.length = .ok (r, next) ∧
      (r.dataOffset = pre.length + 8 ↔ pre = []) ∧ (r.dataSize = s.body.length ↔ pre = []) := by
  have hl : s.emf.length = 8 + s.body.length := by simp [Stored.emf]; omega
  refine ⟨_, _, emf_step s h pre post, ?_, ?_⟩
  · rw [← List.length_eq_zero_iff]
    dsimp only
    omega
  · rw [← List.length_eq_zero_iff]
    dsimp only
    omega

theorem C95_data_claim_false : ¬ C95_data_claim := by
  intro h
  have hs : (⟨14, []⟩ : Stored).EmfOk := by simp [Stored.EmfOk]
  obtain ⟨r, next, h1, h2, _⟩ := h ⟨14, []⟩ [0] [] hs
  obtain ⟨r', next', h1', h2', _⟩ := C95_data ⟨14, []⟩ [0] [] hs
  rw [h1] at h1'
  cases h1'
  exact absurd (h2'.mp h2) (by simp)

/-- All records are read after a header of any of the sizes that are in use (88, 100 and 108 bytes) and
after the description that may follow it; the size is in the header. -/
def C95_header_claim : Prop :=
  ∀ (fields : Bytes) (records : List Stored), 80 ≤ fields.length → fields.length + 8 < 2 ^ 32 → (∀ r ∈ records, r.EmfOk) →
    ∃ fuel out, readEmf ([leBytes 4 1, leBytes 4 (8 + fields.length), fields].flatten ++ records.flatMap (·.emf)) fuel =
      some (.ok out) ∧ out.map (·.type) = records.map (·.type)

/-- With a header of 100 bytes the first record is skipped. -/
theorem C95_header_100 : readEmf ([leBytes 4 1, leBytes 4 100, List.replicate 92 0].flatten ++
    [(⟨14, []⟩ : Stored)].flatMap (·.emf)) 1 = some (.ok []) := by decide +kernel

theorem C95_header_claim_false : ¬ C95_header_claim := by
  intro h
  obtain ⟨fuel, out, h1, h2⟩ := h (List.replicate 92 0) [⟨14, []⟩] (by simp) (by simp) (by simp [Stored.EmfOk])
  have hw := C95_header_100
  simp only [List.length_replicate] at h1
  cases fuel with
  | zero =>
    have : readEmf ([leBytes 4 1, leBytes 4 100, List.replicate 92 0].flatten ++
      [(⟨14, []⟩ : Stored)].flatMap (·.emf)) 0 = none := by decide +kernel
    rw [this] at h1
    cases h1
  | succ fuel =>
    have : readEmf ([leBytes 4 1, leBytes 4 100, List.replicate 92 0].flatten ++
        [(⟨14, []⟩ : Stored)].flatMap (·.emf)) (1 + fuel) = some (.ok []) := by
      unfold readEmf at hw ⊢
      split
      · rename_i he
        rw [he] at hw
        exact hw
      · rename_i he
        rw [he] at hw
        exact walk_mono _ _ _ _ _ _ _ hw
    rw [show fuel + 1 = 1 + fuel by omega, this] at h1
    cases h1
    cases h2

end Dtf.Wemf
