import Verif.DataFormat.Props

/-!
# Structures with a fixed header and a size taken from it

Most structures of the formats are of this shape.  The data type map of such a structure is
modelled by `sizedMap`: dtfabric first asks for the fixed part, and once it has that part it asks
for the whole structure.  Reading one from a file is computed by `structAt_sized`.
-/

namespace Dtf.DataFormat
open Py

/-- The dtfabric map of a structure with a fixed part of `hdr` bytes followed by as many bytes as
`extra` computes from the fixed part. -/
def sizedMap {σ : Type} (hdr : Nat) (extra : Bytes → Nat) (parse : Bytes → σ) : DataTypeMap σ where
  sizeHint := hdr
  mapByteStream := fun bs =>
    if bs.length < hdr then .tooSmall hdr
    else
      let n := hdr + extra (bs.take hdr)
      if bs.length < n then .tooSmall n else .mapped (parse (bs.take n))

/-- The dtfabric map of a structure of a fixed size. -/
def fixedMap {σ : Type} (size : Nat) (parse : Bytes → σ) : DataTypeMap σ :=
  sizedMap size (fun _ => 0) parse

/-- `_ReadStructureFromFileObject` on a file with the given contents, without the position of the
file after the call.  The fuel suffices by `C07_terminates`. -/
def structAt {σ : Type} (m : DataTypeMap σ) (data : Bytes) (off : Int) : Res (σ × Int) :=
  match readStructure m (data.length + 2) ⟨data, 0⟩ off with
  | some (r, _) => r
  | none => .error .runtimeError

/-- The position of the file before the call does not matter to reading a structure. -/
theorem structAt_pos {σ : Type} (m : DataTypeMap σ) (data : Bytes) (off : Int) (pos : Nat) :
    (readStructure m (data.length + 2) ⟨data, pos⟩ off).map (·.1) =
      some (structAt m data off) := by
  have h := C07_terminates m ⟨data, 0⟩ off
  have e : (readStructure m (data.length + 2) ⟨data, pos⟩ off).map (·.1) =
      (readStructure m (data.length + 2) ⟨data, 0⟩ off).map (·.1) := by
    unfold readStructure
    rw [readStructureLoop, readStructureLoop]
    split
    · rfl
    · by_cases ho : off + 0 < 0
      · have e1 : ∀ p n, readData (some ⟨data, p⟩) (off + 0) n =
            (.error .osError, some ⟨data, p⟩) := by
          intro p n
          simp only [readData, File.seekSet, if_pos ho]
        rw [e1, e1]
        rfl
      · have e1 : ∀ n, readData (some ⟨data, pos⟩) (off + 0) n =
            readData (some ⟨data, 0⟩) (off + 0) n := by
          intro n
          simp only [readData, File.seekSet, if_neg ho]
        rw [e1]
        generalize hrd : readData (some ⟨data, 0⟩) (off + 0) (m.sizeHint - 0) = rd
        obtain ⟨r, f'⟩ := rd
        cases r with
        | error e => rfl
        | ok seg =>
          cases f' with
          | some f' => rfl
          | none =>
            exfalso
            simp only [readData, File.seekSet, if_neg ho] at hrd
            split at hrd <;> simp at hrd
  rw [e]
  unfold structAt
  cases hr : readStructure m (data.length + 2) ⟨data, 0⟩ off with
  | none => exact absurd hr h
  | some r => rfl

theorem readData_ok (data : Bytes) (pos off n : Nat) (h : off + n ≤ data.length) :
    readData (some ⟨data, pos⟩) off n =
      (.ok ((data.drop off).take n), some ⟨data, off + n⟩) := by
  have hl : ((data.drop off).take n).length = n := by simp; omega
  simp only [readData, File.seekSet, File.read]
  rw [if_neg (by omega)]
  simp only [Int.toNat_natCast, show ¬ ((n : Int) < 0) by omega, if_false]
  rw [if_neg (by omega), hl]

theorem readData_short (data : Bytes) (pos off n : Nat) (h : data.length < off + n) (hn : 0 < n) :
    (readData (some ⟨data, pos⟩) off n).1 = .error .parseError := by
  have hl : ((data.drop off).take n).length < n := by simp; omega
  simp only [readData, File.seekSet, File.read]
  rw [if_neg (by omega)]
  simp only [Int.toNat_natCast, show ¬ ((n : Int) < 0) by omega, if_false]
  rw [if_pos (by omega)]

/-- What reading a structure with a sized map gives, for every file and offset. -/
theorem structAt_sized {σ : Type} (hdr : Nat) (extra : Bytes → Nat) (parse : Bytes → σ)
    (data : Bytes) (off : Nat) (hh : 0 < hdr) :
    structAt (sizedMap hdr extra parse) data off =
      if data.length < off + hdr then .error .parseError
      else if data.length < off + (hdr + extra ((data.drop off).take hdr)) then .error .parseError
      else .ok (parse ((data.drop off).take (hdr + extra ((data.drop off).take hdr))),
        ((hdr + extra ((data.drop off).take hdr) : Nat) : Int)) := by
  unfold structAt readStructure
  rw [readStructureLoop, if_neg (by simp [sizedMap]; omega)]
  have e1 : (off : Int) + 0 = off := by omega
  have e2 : (sizedMap hdr extra parse).sizeHint - 0 = ((hdr : Nat) : Int) := by simp [sizedMap]
  rw [e1, e2]
  by_cases h1 : data.length < off + hdr
  · rw [if_pos h1]
    have := readData_short data 0 off hdr h1 hh
    generalize readData (some ⟨data, 0⟩) (off : Int) (hdr : Int) = rd at this
    obtain ⟨r, f'⟩ := rd
    simp only at this
    subst this
    rfl
  · rw [if_neg h1, readData_ok data 0 off hdr (by omega)]
    simp only [List.nil_append, Option.getD_some]
    have hl : ((data.drop off).take hdr).length = hdr := by simp; omega
    simp only [sizedMap, hl, Nat.lt_irrefl, if_false, List.take_take, Nat.min_self]
    generalize hx : extra ((data.drop off).take hdr) = x
    by_cases h0 : x = 0
    · subst h0
      simp only [Nat.add_zero, Nat.lt_irrefl, if_false]
      rw [if_neg h1]
      simp
    · rw [if_pos (by omega)]
      simp only
      rw [readStructureLoop, if_neg (by omega)]
      have e3 : (off : Int) + (hdr : Int) = ((off + hdr : Nat) : Int) := by omega
      have e4 : ((hdr + x : Nat) : Int) - (hdr : Int) = ((x : Nat) : Int) := by omega
      rw [e3, e4]
      by_cases h2 : data.length < off + (hdr + x)
      · rw [if_pos h2]
        have := readData_short data (off + hdr) (off + hdr) x (by omega) (by omega)
        generalize readData (some ⟨data, off + hdr⟩) ((off + hdr : Nat) : Int) (x : Int) = rd at this
        obtain ⟨r, f'⟩ := rd
        simp only at this
        subst this
        rfl
      · rw [if_neg h2, readData_ok data _ (off + hdr) x (by omega)]
        simp only [Option.getD_some]
        have e5 : (data.drop off).take hdr ++ (data.drop (off + hdr)).take x =
            (data.drop off).take (hdr + x) := by
          rw [List.take_add, List.drop_drop]
        rw [e5]
        have hl2 : ((data.drop off).take (hdr + x)).length = hdr + x := by simp; omega
        have e6 : ((data.drop off).take (hdr + x)).take hdr = (data.drop off).take hdr := by
          rw [List.take_take]
          congr 1
          omega
        simp only [hl2, e6, hx, List.take_take, Nat.min_self, Nat.lt_irrefl, if_false]
        rw [if_neg (by omega)]

/-- What reading a structure of a fixed size gives. -/
theorem structAt_fixed {σ : Type} (size : Nat) (parse : Bytes → σ) (data : Bytes) (off : Nat)
    (hh : 0 < size) :
    structAt (fixedMap size parse) data off =
      if data.length < off + size then .error .parseError
      else .ok (parse ((data.drop off).take size), (size : Int)) := by
  rw [fixedMap, structAt_sized _ _ _ _ _ hh]
  simp only [Nat.add_zero]
  split <;> rfl

/-- A structure with a sized map that lies in the file is read. -/
theorem structAt_sized_append {σ : Type} (hdr : Nat) (extra : Bytes → Nat) (parse : Bytes → σ)
    (pre s post : Bytes) (hh : 0 < hdr) (hs : hdr ≤ s.length)
    (he : hdr + extra (s.take hdr) = s.length) :
    structAt (sizedMap hdr extra parse) (pre ++ s ++ post) pre.length =
      .ok (parse s, (s.length : Int)) := by
  have e1 : (pre ++ s ++ post).drop pre.length = s ++ post := by simp
  have e2 : (s ++ post).take hdr = s.take hdr := by
    rw [List.take_append_of_le_length hs]
  rw [structAt_sized _ _ _ _ _ hh, e1, e2, he, if_neg (by simp; omega), if_neg (by simp)]
  simp

/-- A structure of a fixed size that lies in the file is read. -/
theorem structAt_fixed_append {σ : Type} (size : Nat) (parse : Bytes → σ) (pre s post : Bytes)
    (hh : 0 < size) (hs : s.length = size) :
    structAt (fixedMap size parse) (pre ++ s ++ post) pre.length = .ok (parse s, (size : Int)) := by
  subst hs
  exact structAt_sized_append _ _ _ pre s post hh (by omega) (by simp)

/-- `structAt` at a negative offset: the seek fails. -/
theorem structAt_negative {σ : Type} (m : DataTypeMap σ) (data : Bytes) (off : Int)
    (ho : off < 0) (hz : m.sizeHint ≠ 0) : structAt m data off = .error .osError := by
  unfold structAt readStructure
  rw [readStructureLoop, if_neg hz]
  have : readData (some ⟨data, 0⟩) (off + 0) (m.sizeHint - 0) = (.error .osError, some ⟨data, 0⟩) := by
    simp [readData, File.seekSet, ho]
  rw [this]

end Dtf.DataFormat
