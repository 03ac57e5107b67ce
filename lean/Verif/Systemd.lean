import Verif.Slices
import Mathlib.Data.List.Forall2

/-!
# The systemd journal (C42, C93)
-/

namespace Dtf.Systemd
open Py DataFormat

/-! ## Model -/

/-- A sequence of 64-bit integers. -/
def ints : Nat → Bytes → List Nat
  | 0, _ => []
  | n + 1, b => leNat (b.take 8) :: ints n (b.drop 8)

/-- LPKSHHRH (systemd.yaml 51-55). -/
def signature : Bytes := [76, 80, 75, 83, 72, 72, 82, 72]

/-- `systemd_journal_file_header` (systemd.yaml 45-102) and `_ReadFileHeader` (systemd.py 281-315): the offset of
the first entry array. -/
def parseHeader (b : Bytes) : Option Nat :=
  if slice b 0 8 = signature ∧ leNat (slice b 88 96) ∈ [208, 224, 240] then
    some (leNat (slice b 176 184))
  else none

def headerMap : DataTypeMap Nat := (fixedMap 208 id).refine parseHeader

/-- An object: its structure has a part of `hdr` bytes and data that extends to the data size (systemd.yaml
118-203). -/
def objectMap (hdr : Nat) : DataTypeMap Bytes :=
  sizedMap hdr (fun b => leNat (slice b 8 16) - hdr) id

/-- The offset of the next entry array and the offsets of the entries: `systemd_journal_entry_array_object`
(systemd.yaml 184-203) and `_ReadEntryArrayObject` (systemd.py 193-235). -/
def parseArray (b : Bytes) : Option (Nat × List Nat) :=
  let size := leNat (slice b 8 16)
  if leNat (slice b 0 1) = 6 ∧ leNat (slice b 1 2) = 0 ∧ 24 ≤ size ∧ (size - 24) % 8 = 0 then
    some (leNat (slice b 16 24), ints ((size - 24) / 8) (b.drop 24))
  else none

def arrayMap : DataTypeMap (Nat × List Nat) := (objectMap 24).refine parseArray

structure Entry where
  sequence : Nat
  realTime : Nat
  /-- The offsets of the data objects and their hashes, one after the other. -/
  items : List Nat
deriving DecidableEq, Repr

/-- `systemd_journal_entry_object` (systemd.yaml 156-182) and `_ReadEntryObject` (systemd.py 237-279). -/
def parseEntry (b : Bytes) : Option Entry :=
  let size := leNat (slice b 8 16)
  if leNat (slice b 0 1) = 3 ∧ leNat (slice b 1 2) = 0 ∧ 64 ≤ size ∧ (size - 64) % 16 = 0 then
    some ⟨leNat (slice b 16 24), leNat (slice b 24 32), ints ((size - 64) / 8) (b.drop 64)⟩
  else none

def entryMap : DataTypeMap Entry := (objectMap 64).refine parseEntry

/-- `systemd_journal_data_object` (systemd.yaml 118-145) and `_ReadDataObject` (systemd.py 145-191). -/
def parseData (b : Bytes) : Option Bytes :=
  if leNat (slice b 0 1) = 1 ∧ leNat (slice b 1 2) ∈ [0, 1, 2] ∧ 64 ≤ leNat (slice b 8 16) then some (b.drop 64)
  else none

def dataMap : DataTypeMap Bytes := (objectMap 64).refine parseData

def readAt {σ : Type} (m : DataTypeMap σ) (data : Bytes) (off : Nat) : Res σ :=
  match structAt m data off with
  | .error e => .error e
  | .ok (x, _) => .ok x

/-- The entry arrays (systemd.py 356-365).  `none` is out of fuel. -/
def readArrays (data : Bytes) : Nat → Nat → List Nat → Option (Res (List Nat))
  | 0, _, _ => none
  | fuel + 1, off, acc =>
    match readAt arrayMap data off with
    | .error e => some (.error e)
    | .ok (next, offsets) =>
      if next = 0 then some (.ok (acc ++ offsets)) else readArrays data fuel next (acc ++ offsets)

/-- Every second element. -/
def evens : List Nat → List Nat
  | [] => []
  | [a] => [a]
  | a :: _ :: l => a :: evens l

def readAll {σ : Type} (f : Nat → Res σ) : List Nat → Res (List σ)
  | [] => .ok []
  | off :: l =>
    match f off with
    | .error e => .error e
    | .ok x =>
      match readAll f l with
      | .error e => .error e
      | .ok xs => .ok (x :: xs)

/-- An entry with its data (systemd.py 371-374). -/
def readEntry (data : Bytes) (off : Nat) : Res (Entry × List Bytes) :=
  match readAt entryMap data off with
  | .error e => .error e
  | .ok e =>
    match readAll (readAt dataMap data) (evens e.items) with
    | .error e => .error e
    | .ok ds => .ok (e, ds)

/-- `ReadFileObject` (systemd.py 345-374). -/
def readFile (data : Bytes) (fuel : Nat) : Option (Res (List (Entry × List Bytes))) :=
  match readAt headerMap data 0 with
  | .error e => some (.error e)
  | .ok off =>
    match readArrays data fuel off [] with
    | none => none
    | some (.error e) => some (.error e)
    | some (.ok offsets) => some (readAll (readEntry data) (offsets.filter (· ≠ 0)))

/-! ## The specification -/

/-- Some bytes are in the file at an offset. -/
def HasAt (data : Bytes) (off : Nat) (s : Bytes) : Prop :=
  ∃ pre post, data = pre ++ s ++ post ∧ pre.length = off

structure StoredHeader where
  part1 : Bytes
  size : Nat
  part2 : Bytes
  arrayOffset : Nat
  part3 : Bytes

/-- The text "LPKSHHRH". -/
def magic : Bytes := "LPKSHHRH".toList.map (fun c => c.toNat.toUInt8)

theorem magic_eq : signature = magic := by decide +kernel

def StoredHeader.bytes (h : StoredHeader) : Bytes :=
  [magic, h.part1, leBytes 8 h.size, h.part2, leBytes 8 h.arrayOffset, h.part3].flatten

def StoredHeader.Ok (h : StoredHeader) : Prop :=
  h.part1.length = 80 ∧ (h.size = 208 ∨ h.size = 224 ∨ h.size = 240) ∧ h.part2.length = 80 ∧
    h.arrayOffset < 2 ^ 64 ∧ h.part3.length = 24

/-- The entry array object with the offset of the next and the offsets of entries. -/
def arrayBytes (reserved : Bytes) (next : Nat) (offsets : List Nat) : Bytes :=
  [[6], [0], reserved, leBytes 8 (24 + 8 * offsets.length), leBytes 8 next, offsets.flatMap (leBytes 8)].flatten

structure StoredEntry where
  reserved : Bytes
  sequence : Nat
  realTime : Nat
  rest : Bytes
  /-- The offset and the hash of each item. -/
  items : List (Nat × Nat)

def StoredEntry.bytes (e : StoredEntry) : Bytes :=
  [[3], [0], e.reserved, leBytes 8 (64 + 16 * e.items.length), leBytes 8 e.sequence, leBytes 8 e.realTime, e.rest,
    e.items.flatMap (fun i => leBytes 8 i.1 ++ leBytes 8 i.2)].flatten

def StoredEntry.Ok (e : StoredEntry) : Prop :=
  e.reserved.length = 6 ∧ e.sequence < 2 ^ 64 ∧ e.realTime < 2 ^ 64 ∧ e.rest.length = 32 ∧
    (∀ i ∈ e.items, i.1 < 2 ^ 64 ∧ i.2 < 2 ^ 64) ∧ 64 + 16 * e.items.length < 2 ^ 64

def StoredEntry.value (e : StoredEntry) : Entry :=
  ⟨e.sequence, e.realTime, e.items.flatMap (fun i => [i.1, i.2])⟩

/-- A data object. -/
def dataBytes (flags : UInt8) (reserved rest d : Bytes) : Bytes :=
  [[1], [flags], reserved, leBytes 8 (64 + d.length), rest, d].flatten

/-- A data object with data is at an offset of the file. -/
def HasData (data : Bytes) (off : Nat) (d : Bytes) : Prop :=
  ∃ (flags : UInt8) (reserved rest : Bytes), HasAt data off (dataBytes flags reserved rest d) ∧ flags.toNat ≤ 2 ∧
    reserved.length = 6 ∧ rest.length = 48 ∧ 64 + d.length < 2 ^ 64

/-- There is an entry array object at an offset of the file. -/
def HasArray (data : Bytes) (off next : Nat) (offsets : List Nat) : Prop :=
  ∃ reserved : Bytes, HasAt data off (arrayBytes reserved next offsets) ∧ reserved.length = 6 ∧ next < 2 ^ 64 ∧
    (∀ o ∈ offsets, o < 2 ^ 64) ∧ 24 + 8 * offsets.length < 2 ^ 64

/-- A chain of entry arrays and all of the offsets in these. -/
inductive Chain (data : Bytes) : Nat → List Nat → Prop where
  | last (off : Nat) (offsets : List Nat) : HasArray data off 0 offsets → Chain data off offsets
  | next (off n : Nat) (offsets rest : List Nat) : HasArray data off n offsets → n ≠ 0 → Chain data n rest →
      Chain data off (offsets ++ rest)

/-- There is an entry with data at an offset of the file. -/
def HasEntry (data : Bytes) (off : Nat) (x : Entry × List Bytes) : Prop :=
  ∃ e : StoredEntry, e.Ok ∧ HasAt data off e.bytes ∧ x.1 = e.value ∧
    List.Forall₂ (fun (i : Nat × Nat) d => HasData data i.1 d) e.items x.2

/-! ## Proofs -/

theorem readAt_of {σ : Type} (m : DataTypeMap σ) (data : Bytes) (off : Nat) (s : Bytes) (x : σ)
    (h : HasAt data off s) (he : Encodes m s x) : readAt m data off = .ok x := by
  obtain ⟨pre, post, rfl, rfl⟩ := h
  unfold readAt
  rw [he pre post]

theorem ints_bytes (l : List Nat) (h : ∀ o ∈ l, o < 2 ^ 64) (rest : Bytes) :
    ints l.length (l.flatMap (leBytes 8) ++ rest) = l := by
  induction l with
  | nil => rfl
  | cons a l ih =>
    rw [List.flatMap_cons, List.length_cons, ints, List.append_assoc, List.take_left' (by simp),
      List.drop_left' (by simp), ih (fun o ho => h o (by simp [ho])),
      leNat_leBytes_of_lt _ _ (by simpa using h a (by simp))]

theorem object_encodes (hdr : Nat) (s : Bytes) (h1 : 16 ≤ hdr) (h2 : hdr ≤ s.length)
    (h3 : leNat (slice s 8 16) = s.length) : Encodes (objectMap hdr) s s := by
  refine encodes_sized hdr _ id s (by omega) h2 ?_
  rw [slice_take _ _ _ _ h1, h3]
  omega

theorem header_encodes (h : StoredHeader) (hk : h.Ok) : Encodes headerMap h.bytes h.arrayOffset := by
  obtain ⟨h1, h2, h3, h4, h5⟩ := hk
  have e8 : magic.length = 8 := by decide
  have hl : h.bytes.length = 208 := by simp [StoredHeader.bytes, h1, h3, h5, e8]
  refine encodes_refine _ _ _ h.bytes _ (encodes_fixed 208 id h.bytes (by omega) hl) ?_
  have f0 : slice h.bytes 0 8 = magic := slice_fields [] _ _ 0 8 rfl (by rw [e8])
  have f1 : leNat (slice h.bytes 88 96) = h.size :=
    leField [magic, h.part1] 8 _ _ 88 96 (by simp [e8, h1]) rfl (by omega)
  have f2 : leNat (slice h.bytes 176 184) = h.arrayOffset :=
    leField [magic, h.part1, leBytes 8 _, h.part2] 8 _ _ 176 184 (by simp [e8, h1, h3]) rfl
      (by omega)
  unfold parseHeader
  rw [f0, f1, f2, if_pos ⟨rfl, by simpa using h2⟩]

theorem length_flatMap_le (l : List Nat) : (l.flatMap (leBytes 8)).length = 8 * l.length := by
  induction l with
  | nil => rfl
  | cons a l ih => rw [List.flatMap_cons, List.length_append, ih, leBytes_length, List.length_cons]; omega

theorem array_encodes (reserved : Bytes) (next : Nat) (offsets : List Nat) (h1 : reserved.length = 6)
    (h2 : next < 2 ^ 64) (h3 : ∀ o ∈ offsets, o < 2 ^ 64) (h4 : 24 + 8 * offsets.length < 2 ^ 64) :
    Encodes arrayMap (arrayBytes reserved next offsets) (next, offsets) := by
  have hl : (arrayBytes reserved next offsets).length = 24 + 8 * offsets.length := by
    simp only [arrayBytes, List.flatten_cons, List.flatten_nil, List.length_append, leBytes_length,
      length_flatMap_le, h1, List.length_cons, List.length_nil]
    omega
  have f0 : leNat (slice (arrayBytes reserved next offsets) 8 16) = 24 + 8 * offsets.length :=
    leField [[6], [0], reserved] 8 _ _ 8 16 (by simp [h1]) rfl (by omega)
  refine encodes_refine _ _ _ _ _ (object_encodes 24 _ (by omega) (by omega) (by rw [f0, hl])) ?_
  have f1 : leNat (slice (arrayBytes reserved next offsets) 16 24) = next :=
    leField [[6], [0], reserved, leBytes 8 _] 8 _ _ 16 24 (by simp [h1]) rfl (by omega)
  have f2 : slice (arrayBytes reserved next offsets) 0 1 = [6] := slice_fields [] [6] _ 0 1 rfl rfl
  have f3 : slice (arrayBytes reserved next offsets) 1 2 = [0] := slice_fields [[6]] [0] _ 1 2 rfl rfl
  have f4 : (arrayBytes reserved next offsets).drop 24 = offsets.flatMap (leBytes 8) ++ [] := by
    have e : arrayBytes reserved next offsets =
        [[6], [0], reserved, leBytes 8 (24 + 8 * offsets.length), leBytes 8 next].flatten ++
          (offsets.flatMap (leBytes 8) ++ []) := by simp [arrayBytes]
    rw [e]
    exact List.drop_left' (by simp [h1])
  unfold parseArray
  dsimp only
  rw [f0, f1, f2, f3, f4, if_pos ⟨rfl, rfl, by omega, by omega⟩,
    show (24 + 8 * offsets.length - 24) / 8 = offsets.length by omega, ints_bytes _ h3]

theorem items_bytes (l : List (Nat × Nat)) :
    l.flatMap (fun i => leBytes 8 i.1 ++ leBytes 8 i.2) = (l.flatMap (fun i => [i.1, i.2])).flatMap (leBytes 8) := by
  induction l with
  | nil => rfl
  | cons a l ih => simp [ih]

theorem length_items (l : List (Nat × Nat)) : (l.flatMap (fun i => [i.1, i.2])).length = 2 * l.length := by
  induction l with
  | nil => rfl
  | cons a l ih => simp only [List.flatMap_cons, List.length_append, ih, List.length_cons, List.length_nil]; omega

theorem evens_items (l : List (Nat × Nat)) : evens (l.flatMap (fun i => [i.1, i.2])) = l.map (·.1) := by
  induction l with
  | nil => rfl
  | cons a l ih => simpa [evens] using ih

theorem entry_encodes (e : StoredEntry) (h : e.Ok) : Encodes entryMap e.bytes e.value := by
  obtain ⟨h1, h2, h3, h4, h5, h6⟩ := h
  have hl : e.bytes.length = 64 + 16 * e.items.length := by
    simp only [StoredEntry.bytes, List.flatten_cons, List.flatten_nil, List.length_append, leBytes_length,
      items_bytes, length_flatMap_le, length_items, h1, h4, List.length_cons, List.length_nil]
    omega
  have f0 : leNat (slice e.bytes 8 16) = 64 + 16 * e.items.length :=
    leField [[3], [0], e.reserved] 8 _ _ 8 16 (by simp [h1]) rfl (by omega)
  refine encodes_refine _ _ _ _ _ (object_encodes 64 _ (by omega) (by omega) (by rw [f0, hl])) ?_
  have f1 : leNat (slice e.bytes 16 24) = e.sequence :=
    leField [[3], [0], e.reserved, leBytes 8 _] 8 _ _ 16 24 (by simp [h1]) rfl (by omega)
  have f5 : leNat (slice e.bytes 24 32) = e.realTime :=
    leField [[3], [0], e.reserved, leBytes 8 _, leBytes 8 _] 8 _ _ 24 32 (by simp [h1]) rfl (by omega)
  have f2 : slice e.bytes 0 1 = [3] := slice_fields [] [3] _ 0 1 rfl rfl
  have f3 : slice e.bytes 1 2 = [0] := slice_fields [[3]] [0] _ 1 2 rfl rfl
  have f4 : e.bytes.drop 64 = (e.items.flatMap (fun i => [i.1, i.2])).flatMap (leBytes 8) ++ [] := by
    have e' : e.bytes =
        [[3], [0], e.reserved, leBytes 8 (64 + 16 * e.items.length), leBytes 8 e.sequence, leBytes 8 e.realTime,
          e.rest].flatten ++ ((e.items.flatMap (fun i => [i.1, i.2])).flatMap (leBytes 8) ++ []) := by
      rw [← items_bytes]
      simp [StoredEntry.bytes]
    rw [e']
    exact List.drop_left' (by simp [h1, h4])
  unfold parseEntry
  dsimp only
  have hb := ints_bytes (e.items.flatMap (fun i => [i.1, i.2])) (by
    intro o ho
    simp only [List.mem_flatMap, List.mem_cons, List.not_mem_nil, or_false] at ho
    obtain ⟨i, hi, rfl | rfl⟩ := ho
    · exact (h5 i hi).1
    · exact (h5 i hi).2) []
  rw [length_items] at hb
  rw [f0, f1, f2, f3, f4, f5, if_pos ⟨rfl, rfl, by omega, by omega⟩,
    show (64 + 16 * e.items.length - 64) / 8 = 2 * e.items.length by omega, hb]
  rfl

theorem data_encodes (flags : UInt8) (reserved rest d : Bytes) (hf : flags.toNat ≤ 2) (h1 : reserved.length = 6)
    (h2 : rest.length = 48) (h3 : 64 + d.length < 2 ^ 64) :
    Encodes dataMap (dataBytes flags reserved rest d) d := by
  have hl : (dataBytes flags reserved rest d).length = 64 + d.length := by
    simp [dataBytes, h1, h2]; omega
  have f0 : leNat (slice (dataBytes flags reserved rest d) 8 16) = 64 + d.length :=
    leField [[1], [flags], reserved] 8 _ _ 8 16 (by simp [h1]) rfl (by omega)
  refine encodes_refine _ _ _ _ _ (object_encodes 64 _ (by omega) (by omega) (by rw [f0, hl])) ?_
  have f2 : slice (dataBytes flags reserved rest d) 0 1 = [1] := slice_fields [] [1] _ 0 1 rfl rfl
  have f3 : slice (dataBytes flags reserved rest d) 1 2 = [flags] := slice_fields [[1]] [flags] _ 1 2 rfl rfl
  have f4 : (dataBytes flags reserved rest d).drop 64 = d := by
    have e' : dataBytes flags reserved rest d =
        [[1], [flags], reserved, leBytes 8 (64 + d.length), rest].flatten ++ d := by simp [dataBytes]
    rw [e']
    exact List.drop_left' (by simp [h1, h2])
  unfold parseData
  have hfl : leNat [flags] = flags.toNat := by simp [leNat]
  have hm : leNat [flags] ∈ [0, 1, 2] := by
    rw [hfl]
    simp only [List.mem_cons, List.not_mem_nil, or_false]
    omega
  rw [f0, f2, f3, f4, if_pos ⟨rfl, hm, by omega⟩]

theorem readArray_of (data : Bytes) (off next : Nat) (offsets : List Nat) (h : HasArray data off next offsets) :
    readAt arrayMap data off = .ok (next, offsets) := by
  obtain ⟨reserved, h1, h2, h3, h4, h5⟩ := h
  exact readAt_of _ _ _ _ _ h1 (array_encodes _ _ _ h2 h3 h4 h5)

theorem readArrays_chain (data : Bytes) (off : Nat) (offsets : List Nat) (h : Chain data off offsets) :
    ∃ n, ∀ fuel acc, readArrays data (n + fuel) off acc = some (.ok (acc ++ offsets)) := by
  induction h with
  | last off offsets h =>
    refine ⟨1, fun fuel acc => ?_⟩
    rw [show 1 + fuel = fuel + 1 by omega, readArrays, readArray_of _ _ _ _ h]
    simp
  | next off n offsets rest h hn _ ih =>
    obtain ⟨m, hm⟩ := ih
    refine ⟨m + 1, fun fuel acc => ?_⟩
    rw [show m + 1 + fuel = (m + fuel) + 1 by omega, readArrays, readArray_of _ _ _ _ h]
    dsimp only
    rw [if_neg hn, hm, List.append_assoc]

theorem readAll_forall₂ {σ τ : Type} (f : Nat → Res σ) (R : τ → σ → Prop) (g : τ → Nat)
    (hR : ∀ t x, R t x → f (g t) = .ok x) (l : List τ) (xs : List σ) (h : List.Forall₂ R l xs) :
    readAll f (l.map g) = .ok xs := by
  induction h with
  | nil => rfl
  | cons hx _ ih => rw [List.map_cons, readAll, hR _ _ hx]; dsimp only; rw [ih]

theorem readData_of (data : Bytes) (off : Nat) (d : Bytes) (h : HasData data off d) :
    readAt dataMap data off = .ok d := by
  obtain ⟨flags, reserved, rest, h1, h2, h3, h4, h5⟩ := h
  exact readAt_of _ _ _ _ _ h1 (data_encodes _ _ _ _ h2 h3 h4 h5)

theorem readEntry_of (data : Bytes) (off : Nat) (x : Entry × List Bytes) (h : HasEntry data off x) :
    readEntry data off = .ok x := by
  obtain ⟨e, h1, h2, h3, h4⟩ := h
  obtain ⟨v, ds⟩ := x
  cases h3
  unfold readEntry
  rw [readAt_of _ _ _ _ _ h2 (entry_encodes e h1)]
  dsimp only
  rw [StoredEntry.value, evens_items,
    readAll_forall₂ _ _ _ (fun (t : Nat × Nat) x hx => readData_of data t.1 x hx) _ _ h4]

/-! ## C42 -/

/-- Reading ends for every file. -/
def C42_claim : Prop := ∀ data : Bytes, ∃ fuel, readFile data fuel ≠ none

/-- An entry array that is its own successor is read for ever. -/
theorem C42_cycle (data : Bytes) (off : Nat) (offsets : List Nat) (h : HasArray data off off offsets)
    (h0 : off ≠ 0) (fuel : Nat) (acc : List Nat) : readArrays data fuel off acc = none := by
  induction fuel generalizing acc with
  | zero => rfl
  | succ fuel ih =>
    rw [readArrays, readArray_of _ _ _ _ h]
    dsimp only
    rw [if_neg h0, ih]

def loopHeader : StoredHeader := ⟨List.replicate 80 0, 208, List.replicate 80 0, 208, List.replicate 24 0⟩

theorem loopHeader_ok : loopHeader.Ok := by unfold StoredHeader.Ok; decide

/-- A file of one entry array that is its own successor. -/
def loopFile : Bytes := loopHeader.bytes ++ arrayBytes (List.replicate 6 0) 208 []

theorem C42_claim_false : ¬ C42_claim := by
  intro h
  obtain ⟨fuel, hf⟩ := h loopFile
  apply hf
  unfold readFile
  rw [readAt_of headerMap loopFile 0 loopHeader.bytes 208
    ⟨[], arrayBytes (List.replicate 6 0) 208 [], rfl, rfl⟩ (header_encodes _ loopHeader_ok)]
  dsimp only
  rw [C42_cycle loopFile 208 [] ⟨List.replicate 6 0, ⟨loopHeader.bytes, [], by simp [loopFile], by decide +kernel⟩, rfl,
    by decide, by simp, by decide⟩ (by decide)]

theorem readArrays_forward (data : Bytes)
    (h : ∀ off next offsets, readAt arrayMap data off = .ok (next, offsets) → next = 0 ∨ off < next) (fuel : Nat) :
    ∀ off acc, data.length - off < fuel → readArrays data fuel off acc ≠ none := by
  induction fuel with
  | zero => intro off acc hf; omega
  | succ fuel ih =>
    intro off acc hf
    rw [readArrays]
    cases hr : readAt arrayMap data off with
    | error e => simp
    | ok x =>
      obtain ⟨next, offsets⟩ := x
      dsimp only
      split
      · simp
      · rename_i hn
        have hlt := (h _ _ _ hr).resolve_left hn
        have hlen : off < data.length := by
          unfold readAt at hr
          split at hr
          · cases hr
          · rename_i y n hy
            have hp : PositiveSizes arrayMap := positive_refine _ _ (positive_sized _ _ _ (by decide))
            have := hp _ _ _ _ hy
            omega
        exact ih _ _ (by omega)

/-- Reading ends if every entry array is stored after the one that refers to it, as in a journal that is only
appended to.  What is missing are the files in which the arrays refer back. -/
theorem C42_terminates_partial (data : Bytes)
    (h : ∀ off next offsets, readAt arrayMap data off = .ok (next, offsets) → next = 0 ∨ off < next) :
    readFile data (data.length + 1) ≠ none := by
  unfold readFile
  split
  · simp
  · rename_i off _
    have := readArrays_forward data h (data.length + 1) off [] (by omega)
    split
    · contradiction
    · simp
    · simp

/-! ## C93 -/

/-- Every entry of every entry array is read with its data, in order.  Offsets that are zero are left out. -/
theorem C93_entries (data : Bytes) (header : StoredHeader) (offsets : List Nat) (entries : List (Entry × List Bytes))
    (hh : header.Ok) (hd : HasAt data 0 header.bytes) (hc : Chain data header.arrayOffset offsets)
    (he : List.Forall₂ (HasEntry data) (offsets.filter (· ≠ 0)) entries) :
    ∃ n, ∀ fuel, readFile data (n + fuel) = some (.ok entries) := by
  obtain ⟨n, hn⟩ := readArrays_chain _ _ _ hc
  refine ⟨n, fun fuel => ?_⟩
  unfold readFile
  rw [readAt_of headerMap data 0 header.bytes _ hd (header_encodes _ hh)]
  dsimp only
  rw [hn]
  dsimp only
  have := readAll_forall₂ (readEntry data) _ id (fun t x hx => readEntry_of data t x hx) _ _ he
  rw [List.map_id] at this
  rw [List.nil_append, this]

/-- Two entry arrays, one entry that has one data object. -/
def sampleHeader : StoredHeader := ⟨List.replicate 80 0, 208, List.replicate 80 0, 208, List.replicate 24 0⟩
def sampleEntry : StoredEntry := ⟨List.replicate 6 0, 7, 9, List.replicate 32 0, [(360, 5)]⟩
def sampleFile : Bytes :=
  sampleHeader.bytes ++ arrayBytes (List.replicate 6 0) 248 [0, 280] ++ arrayBytes (List.replicate 6 0) 0 [0] ++
    sampleEntry.bytes ++ dataBytes 0 (List.replicate 6 0) (List.replicate 48 0) [65, 61, 66]

example : ∃ n, ∀ fuel, readFile sampleFile (n + fuel) = some (.ok [(⟨7, 9, [360, 5]⟩, [[65, 61, 66]])]) := by
  refine C93_entries sampleFile sampleHeader ([0, 280] ++ [0]) _ (by unfold StoredHeader.Ok; decide +kernel)
    ⟨[], sampleFile.drop 208, by decide +kernel, rfl⟩ ?_ ?_
  · refine .next _ 248 _ _ ⟨List.replicate 6 0, ⟨sampleFile.take 208, sampleFile.drop 248, by decide +kernel, by decide +kernel⟩,
      rfl, by decide +kernel, by decide +kernel, by decide +kernel⟩ (by decide +kernel) (.last _ _ ?_)
    exact ⟨List.replicate 6 0, ⟨sampleFile.take 248, sampleFile.drop 280, by decide +kernel, by decide +kernel⟩,
      rfl, by decide +kernel, by decide +kernel, by decide +kernel⟩
  · rw [show ([0, 280] ++ [0] : List Nat).filter (· ≠ 0) = [280] by decide +kernel]
    refine .cons ⟨sampleEntry, by unfold StoredEntry.Ok; decide +kernel,
      ⟨sampleFile.take 280, sampleFile.drop 360, by decide +kernel, by decide +kernel⟩, rfl, ?_⟩ .nil
    exact .cons ⟨0, List.replicate 6 0, List.replicate 48 0, ⟨sampleFile.take 360, [], by decide +kernel, by decide +kernel⟩,
      by decide +kernel, rfl, rfl, by decide +kernel⟩ .nil

/-- Nothing of an entry array is left out: its size is that of its header and of the offsets that are read. -/
theorem C93_array_complete (b : Bytes) (next : Nat) (offsets : List Nat) (h : parseArray b = some (next, offsets)) :
    leNat (slice b 8 16) = 24 + 8 * offsets.length := by
  have ints_length : ∀ (n : Nat) (b : Bytes), (ints n b).length = n := by
    intro n
    induction n with
    | zero => intro b; rfl
    | succ n ih => intro b; rw [ints, List.length_cons, ih]
  unfold parseArray at h
  dsimp only at h
  split at h
  · simp only [Option.some.injEq, Prod.mk.injEq] at h
    rw [← h.2, ints_length]
    omega
  · cases h

end Dtf.Systemd
