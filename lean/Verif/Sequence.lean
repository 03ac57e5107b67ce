import Verif.Fields

/-!
# Sequences of structures

Many formats store structures one after the other.  This file has the two loops with which they are
read, a number of them (`readMany`) and all up to an end (`readUntil`), and what holds of these for
all files.
-/

namespace Dtf.DataFormat
open Py

/-- A data type map with values that are checked or converted after mapping: dtfabric raises a
mapping error if a member does not have the value that the definition requires. -/
def DataTypeMap.refine {σ τ : Type} (m : DataTypeMap σ) (f : σ → Option τ) : DataTypeMap τ where
  sizeHint := m.sizeHint
  mapByteStream := fun bs =>
    match m.mapByteStream bs with
    | .mapped x =>
      match f x with
      | some y => .mapped y
      | none => .mappingError
    | .tooSmall n => .tooSmall n
    | .mappingError => .mappingError

theorem readStructureLoop_refine {σ τ : Type} (m : DataTypeMap σ) (f : σ → Option τ) (off : Int)
    (fuel : Nat) (file : File) (data : Bytes) (last size : Int) :
    (readStructureLoop (m.refine f) off fuel file data last size).map (·.1) =
      (readStructureLoop m off fuel file data last size).map (fun r =>
        match r.1 with
        | .error e => .error e
        | .ok (x, n) =>
          match f x with
          | some y => .ok (y, n)
          | none => .error .parseError) := by
  induction fuel generalizing file data last size with
  | zero => rfl
  | succ fuel ih =>
    rw [readStructureLoop, readStructureLoop]
    split
    · rfl
    · split
      · rfl
      · dsimp only [DataTypeMap.refine]
        rename_i segment f' _
        cases hm : m.mapByteStream (data ++ segment) with
        | mapped x =>
          dsimp only
          cases hfx : f x <;> simp [hfx]
        | tooSmall n => dsimp only; exact ih _ _ _ _
        | mappingError => rfl

/-- Reading a structure with checked values. -/
theorem structAt_refine {σ τ : Type} (m : DataTypeMap σ) (f : σ → Option τ) (data : Bytes)
    (off : Int) :
    structAt (m.refine f) data off =
      match structAt m data off with
      | .error e => .error e
      | .ok (x, n) =>
        match f x with
        | some y => .ok (y, n)
        | none => .error .parseError := by
  have h := readStructureLoop_refine m f off (data.length + 2) ⟨data, 0⟩ [] 0 m.sizeHint
  unfold structAt readStructure
  rw [show (m.refine f).sizeHint = m.sizeHint from rfl]
  cases h1 : readStructureLoop (m.refine f) off (data.length + 2) ⟨data, 0⟩ [] 0 m.sizeHint with
  | none =>
    cases h2 : readStructureLoop m off (data.length + 2) ⟨data, 0⟩ [] 0 m.sizeHint with
    | none => rfl
    | some r => rw [h1, h2] at h; simp at h
  | some r =>
    cases h2 : readStructureLoop m off (data.length + 2) ⟨data, 0⟩ [] 0 m.sizeHint with
    | none => rw [h1, h2] at h; simp at h
    | some r' =>
      rw [h1, h2] at h
      simp only [Option.map_some, Option.some.injEq] at h
      obtain ⟨a, b⟩ := r
      obtain ⟨a', b'⟩ := r'
      exact h

/-- The bytes `s` are a structure with value `x`: wherever they are in a file, they are read as
`x`, all of them. -/
def Encodes {σ : Type} (m : DataTypeMap σ) (s : Bytes) (x : σ) : Prop :=
  ∀ pre post : Bytes, structAt m (pre ++ s ++ post) pre.length = .ok (x, (s.length : Int))

theorem encodes_fixed {σ : Type} (size : Nat) (parse : Bytes → σ) (s : Bytes) (hh : 0 < size)
    (hs : s.length = size) : Encodes (fixedMap size parse) s (parse s) := by
  intro pre post
  rw [structAt_fixed_append size parse pre s post hh hs, hs]

theorem encodes_sized {σ : Type} (hdr : Nat) (extra : Bytes → Nat) (parse : Bytes → σ) (s : Bytes)
    (hh : 0 < hdr) (hs : hdr ≤ s.length) (he : hdr + extra (s.take hdr) = s.length) :
    Encodes (sizedMap hdr extra parse) s (parse s) := by
  intro pre post
  exact structAt_sized_append hdr extra parse pre s post hh hs he

theorem encodes_refine {σ τ : Type} (m : DataTypeMap σ) (f : σ → Option τ) (s : Bytes) (x : σ)
    (y : τ) (h : Encodes m s x) (hf : f x = some y) : Encodes (m.refine f) s y := by
  intro pre post
  rw [structAt_refine, h pre post]
  simp [hf]

/-- Structures that are read have a size: it is never zero or less. -/
def PositiveSizes {σ : Type} (m : DataTypeMap σ) : Prop :=
  ∀ (data : Bytes) (off : Nat) (x : σ) (n : Int), structAt m data off = .ok (x, n) →
    0 < n ∧ off + n ≤ data.length

theorem positive_sized {σ : Type} (hdr : Nat) (extra : Bytes → Nat) (parse : Bytes → σ)
    (hh : 0 < hdr) : PositiveSizes (sizedMap hdr extra parse) := by
  intro data off x n h
  rw [structAt_sized _ _ _ _ _ hh] at h
  split at h
  · simp at h
  split at h
  · simp at h
  simp only [Except.ok.injEq, Prod.mk.injEq] at h
  omega

theorem positive_fixed {σ : Type} (size : Nat) (parse : Bytes → σ) (hh : 0 < size) :
    PositiveSizes (fixedMap size parse) := positive_sized size _ parse hh

theorem positive_refine {σ τ : Type} (m : DataTypeMap σ) (f : σ → Option τ)
    (h : PositiveSizes m) : PositiveSizes (m.refine f) := by
  intro data off x n hx
  rw [structAt_refine] at hx
  split at hx
  · simp at hx
  rename_i y k hy
  split at hx
  · simp only [Except.ok.injEq, Prod.mk.injEq] at hx
    obtain ⟨_, rfl⟩ := hx
    exact h data off y k hy
  · simp at hx

/-- `_ReadData` of a file that is open (data_format.py 590-632). -/
def dataAt (data : Bytes) (off size : Nat) : Res Bytes :=
  (readData (some ⟨data, 0⟩) off size).1

theorem dataAt_ok (data : Bytes) (off size : Nat) (h : off + size ≤ data.length) :
    dataAt data off size = .ok (slice data off (off + size)) := by
  unfold dataAt
  rw [readData_ok data 0 off size h, slice_eq_take_drop, Nat.add_sub_cancel_left]

theorem dataAt_short (data : Bytes) (off size : Nat) (h : data.length < off + size)
    (hs : 0 < size) : dataAt data off size = .error .parseError := by
  unfold dataAt
  rw [readData_short data 0 off size h hs]

theorem dataAt_append (pre s post : Bytes) :
    dataAt (pre ++ s ++ post) pre.length s.length = .ok s := by
  rw [dataAt_ok _ _ _ (by simp), slice_eq_take_drop, List.append_assoc, List.drop_left]
  rw [Nat.add_sub_cancel_left, List.take_left]

/-! ## A number of structures -/

/-- `for _ in range(n)`: read a structure, add its size to the offset.  Returns the values and the
offset after the last one. -/
def readMany {σ : Type} (m : DataTypeMap σ) (data : Bytes) : Nat → Nat → Res (List σ × Nat)
  | 0, off => .ok ([], off)
  | n + 1, off =>
    match structAt m data off with
    | .error e => .error e
    | .ok (x, size) =>
      match readMany m data n (off + size.toNat) with
      | .error e => .error e
      | .ok (xs, off) => .ok (x :: xs, off)

/-- The stored structures are read, all of them and in order. -/
theorem readMany_encodes {σ : Type} (m : DataTypeMap σ) (items : List (Bytes × σ))
    (h : ∀ i ∈ items, Encodes m i.1 i.2) (pre post : Bytes) :
    readMany m (pre ++ items.flatMap (·.1) ++ post) items.length pre.length =
      .ok (items.map (·.2), (pre ++ items.flatMap (·.1)).length) := by
  induction items generalizing pre with
  | nil => simp [readMany]
  | cons i items ih =>
    have h1 := h i (by simp) pre (items.flatMap (·.1) ++ post)
    have h2 := ih (fun j hj => h j (List.mem_cons_of_mem _ hj)) (pre ++ i.1)
    have e1 : pre ++ (i :: items).flatMap (·.1) ++ post =
        pre ++ i.1 ++ (items.flatMap (·.1) ++ post) := by simp
    have e2 : pre ++ i.1 ++ items.flatMap (·.1) ++ post =
        pre ++ i.1 ++ (items.flatMap (·.1) ++ post) := by simp
    rw [e2] at h2
    rw [List.length_cons, readMany, e1, h1]
    dsimp only
    rw [Int.toNat_natCast, ← List.length_append, h2]
    simp

/-- What was read came from consecutive places of the file. -/
theorem readMany_length {σ : Type} (m : DataTypeMap σ) (data : Bytes) (n off : Nat) (xs : List σ)
    (off' : Nat) (h : readMany m data n off = .ok (xs, off')) : xs.length = n := by
  induction n generalizing off xs off' with
  | zero => simp only [readMany, Except.ok.injEq, Prod.mk.injEq] at h; simp [← h.1]
  | succ n ih =>
    rw [readMany] at h
    split at h
    · simp at h
    split at h
    · simp at h
    rename_i ys o hy
    simp only [Except.ok.injEq, Prod.mk.injEq] at h
    rw [← h.1, List.length_cons, ih _ _ _ hy]

/-! ## Structures up to an end -/

/-- `while offset < end`: read a structure, add its size to the offset. -/
def readUntil {σ : Type} (m : DataTypeMap σ) (data : Bytes) (stop : Nat) :
    Nat → Nat → List σ → Option (Res (List σ))
  | 0, _, _ => none
  | fuel + 1, off, acc =>
    if off < stop then
      match structAt m data off with
      | .error e => some (.error e)
      | .ok (x, size) => readUntil m data stop fuel (off + size.toNat) (acc ++ [x])
    else some (.ok acc)

/-- Reading ends for all files when structures have a size. -/
theorem readUntil_terminates {σ : Type} (m : DataTypeMap σ) (hm : PositiveSizes m) (data : Bytes)
    (stop off : Nat) (acc : List σ) : readUntil m data stop (stop - off + 1) off acc ≠ none := by
  have key : ∀ fuel off acc, stop - off < fuel → readUntil m data stop fuel off acc ≠ none := by
    intro fuel
    induction fuel with
    | zero => intro off acc h; omega
    | succ fuel ih =>
      intro off acc h
      rw [readUntil]
      split
      · split
        · simp
        · rename_i x size hx
          have := hm data off x size hx
          exact ih _ _ (by omega)
      · simp
  exact key _ _ _ (by omega)

/-- The stored structures are read, all of them and in order. -/
theorem readUntil_encodes {σ : Type} (m : DataTypeMap σ) (items : List (Bytes × σ))
    (h : ∀ i ∈ items, Encodes m i.1 i.2) (hp : ∀ i ∈ items, i.1 ≠ []) (pre post : Bytes) (fuel : Nat)
    (acc : List σ) :
    readUntil m (pre ++ items.flatMap (·.1) ++ post) (pre ++ items.flatMap (·.1)).length
        (items.length + fuel + 1) pre.length acc = some (.ok (acc ++ items.map (·.2))) := by
  induction items generalizing pre acc with
  | nil => simp [readUntil]
  | cons i items ih =>
    have h1 := h i (by simp) pre (items.flatMap (·.1) ++ post)
    have h2 := ih (fun j hj => h j (List.mem_cons_of_mem _ hj))
      (fun j hj => hp j (List.mem_cons_of_mem _ hj)) (pre ++ i.1) (acc ++ [i.2])
    have e1 : pre ++ (i :: items).flatMap (·.1) ++ post =
        pre ++ i.1 ++ (items.flatMap (·.1) ++ post) := by simp
    have e2 : pre ++ i.1 ++ items.flatMap (·.1) ++ post =
        pre ++ i.1 ++ (items.flatMap (·.1) ++ post) := by simp
    have e3 : pre ++ (i :: items).flatMap (·.1) = pre ++ i.1 ++ items.flatMap (·.1) := by simp
    have hi : 0 < i.1.length := List.length_pos_iff.mpr (hp i (by simp))
    rw [e2] at h2
    rw [List.length_cons, show items.length + 1 + fuel + 1 = (items.length + fuel + 1) + 1 by omega,
      readUntil, e1, e3, if_pos (by simp only [List.length_append]; omega), h1]
    dsimp only
    rw [Int.toNat_natCast, ← List.length_append, h2]
    simp

/-- More fuel does not change the result. -/
theorem readUntil_mono {σ : Type} (m : DataTypeMap σ) (data : Bytes) (stop fuel off : Nat)
    (acc : List σ) (r : Res (List σ)) (h : readUntil m data stop fuel off acc = some r) :
    readUntil m data stop (fuel + 1) off acc = some r := by
  induction fuel generalizing off acc with
  | zero => simp [readUntil] at h
  | succ fuel ih =>
    rw [readUntil] at h ⊢
    split
    · rename_i hlt
      rw [if_pos hlt] at h
      split at h
      · exact h
      · exact ih _ _ h
    · rename_i hlt
      rw [if_neg hlt] at h
      exact h

/-! ## Loops that follow sizes or offsets in the file -/

/-- `while offset < end`: one round of the loop (`step`) reads something at the offset and gives the
next offset. -/
def walk {σ : Type} (step : Nat → Res (σ × Nat)) (stop : Nat) :
    Nat → Nat → List σ → Option (Res (List σ))
  | 0, _, _ => none
  | fuel + 1, off, acc =>
    if off < stop then
      match step off with
      | .error e => some (.error e)
      | .ok (x, next) => walk step stop fuel next (acc ++ [x])
    else some (.ok acc)

/-- The loop ends if every round moves forward. -/
theorem walk_terminates {σ : Type} (step : Nat → Res (σ × Nat)) (stop : Nat)
    (h : ∀ off x next, off < stop → step off = .ok (x, next) → off < next) (off : Nat)
    (acc : List σ) : walk step stop (stop - off + 1) off acc ≠ none := by
  have key : ∀ fuel off acc, stop - off < fuel → walk step stop fuel off acc ≠ none := by
    intro fuel
    induction fuel with
    | zero => intro off acc h; omega
    | succ fuel ih =>
      intro off acc hf
      rw [walk]
      split
      · rename_i hlt
        split
        · simp
        · rename_i x next hx
          have := h off x next hlt hx
          exact ih _ _ (by omega)
      · simp
  exact key _ _ _ (by omega)

/-- A round that stays where it is is repeated for ever. -/
theorem walk_stuck {σ : Type} (step : Nat → Res (σ × Nat)) (stop off : Nat) (x : σ)
    (hlt : off < stop) (h : step off = .ok (x, off)) (fuel : Nat) (acc : List σ) :
    walk step stop fuel off acc = none := by
  induction fuel generalizing acc with
  | zero => rfl
  | succ fuel ih => rw [walk, if_pos hlt, h]; exact ih _

theorem walk_mono {σ : Type} (step : Nat → Res (σ × Nat)) (stop fuel k off : Nat) (acc : List σ)
    (r : Res (List σ)) (h : walk step stop fuel off acc = some r) :
    walk step stop (fuel + k) off acc = some r := by
  induction fuel generalizing off acc with
  | zero => simp [walk] at h
  | succ fuel ih =>
    rw [show fuel + 1 + k = fuel + k + 1 by omega]
    rw [walk] at h ⊢
    split
    · rename_i hlt
      rw [if_pos hlt] at h
      split at h
      · exact h
      · exact ih _ _ h
    · rename_i hlt
      rw [if_neg hlt] at h
      exact h

/-- Rounds that follow each other from one offset to another. -/
inductive Rounds {σ : Type} (step : Nat → Res (σ × Nat)) (stop : Nat) :
    Nat → List σ → Nat → Prop
  | nil (off : Nat) : Rounds step stop off [] off
  | cons (off next off' : Nat) (x : σ) (xs : List σ) (hlt : off < stop)
      (h : step off = .ok (x, next)) (t : Rounds step stop next xs off') :
      Rounds step stop off (x :: xs) off'

theorem Rounds.append {σ : Type} {step : Nat → Res (σ × Nat)} {stop a b c : Nat} {xs ys : List σ}
    (h1 : Rounds step stop a xs b) (h2 : Rounds step stop b ys c) :
    Rounds step stop a (xs ++ ys) c := by
  induction h1 with
  | nil => exact h2
  | cons off next off' x xs hlt h _ ih => exact .cons off next c x _ hlt h (ih h2)

/-- The loop does the rounds that follow each other. -/
theorem walk_rounds {σ : Type} (step : Nat → Res (σ × Nat)) (stop off off' : Nat) (xs acc : List σ)
    (fuel : Nat) (h : Rounds step stop off xs off') :
    walk step stop (xs.length + fuel) off acc = walk step stop fuel off' (acc ++ xs) := by
  induction h generalizing acc with
  | nil off => simp
  | cons off next off' x xs hlt h _ ih =>
    rw [List.length_cons, show xs.length + 1 + fuel = (xs.length + fuel) + 1 by omega, walk,
      if_pos hlt, h]
    dsimp only
    rw [ih]
    simp

theorem walk_done {σ : Type} (step : Nat → Res (σ × Nat)) (stop off off' : Nat) (xs acc : List σ)
    (fuel : Nat) (h : Rounds step stop off xs off') (hstop : stop ≤ off') :
    walk step stop (xs.length + fuel + 1) off acc = some (.ok (acc ++ xs)) := by
  rw [Nat.add_assoc, walk_rounds step stop off off' xs acc _ h, walk, if_neg (by omega)]

/-- What the loop returns was read in rounds that follow each other up to the end. -/
theorem walk_ok {σ : Type} (step : Nat → Res (σ × Nat)) (stop fuel off : Nat) (acc out : List σ)
    (h : walk step stop fuel off acc = some (.ok out)) :
    ∃ xs off', out = acc ++ xs ∧ Rounds step stop off xs off' ∧ stop ≤ off' := by
  induction fuel generalizing off acc with
  | zero => simp [walk] at h
  | succ fuel ih =>
    rw [walk] at h
    split at h
    · rename_i hlt
      split at h
      · simp at h
      · rename_i x next hx
        obtain ⟨xs, off', e, hr, hs⟩ := ih next _ h
        exact ⟨x :: xs, off', by simp [e], .cons off next off' x xs hlt hx hr, hs⟩
    · simp only [Option.some.injEq, Except.ok.injEq] at h
      exact ⟨[], off, by simp [h], .nil off, by omega⟩

/-- Rounds that lead back to their start are repeated for ever. -/
theorem walk_cycle {σ : Type} (step : Nat → Res (σ × Nat)) (stop off : Nat) (xs acc : List σ)
    (hx : xs ≠ []) (h : Rounds step stop off xs off) (fuel : Nat) :
    walk step stop fuel off acc = none := by
  induction fuel using Nat.strongRecOn generalizing acc with
  | _ fuel ih =>
    cases hw : walk step stop fuel off acc with
    | none => rfl
    | some r =>
      by_cases hlt : fuel < xs.length
      · have h1 := walk_mono step stop fuel (xs.length - fuel + 0) off acc r hw
        have h2 := walk_rounds step stop off off xs acc 0 h
        rw [show fuel + (xs.length - fuel + 0) = xs.length + 0 by omega, h2] at h1
        simp [walk] at h1
      · have h2 := walk_rounds step stop off off xs acc (fuel - xs.length) h
        rw [show xs.length + (fuel - xs.length) = fuel by omega] at h2
        have hpos : 0 < xs.length := List.length_pos_iff.mpr hx
        rw [hw, ih (fuel - xs.length) (by omega)] at h2
        exact h2

/-! ## Things that are stored one after another -/

/-- What is made of things that are stored one after another, from the place where each is. -/
def valuesFrom {σ : Type} : Nat → List (Bytes × (Nat → σ)) → List σ
  | _, [] => []
  | off, i :: is => i.2 off :: valuesFrom (off + i.1.length) is

/-- If a round of the loop reads each of the things wherever it is stored, the loop reads all of them.
`I` is a condition on the places, such as alignment. -/
theorem rounds_items {σ : Type} (step : Bytes → Nat → Res (σ × Nat)) (I : Nat → Prop)
    (items : List (Bytes × (Nat → σ)))
    (h : ∀ i ∈ items, ∀ pre post : Bytes, I pre.length →
      step (pre ++ i.1 ++ post) pre.length = .ok (i.2 pre.length, pre.length + i.1.length) ∧
      I (pre.length + i.1.length))
    (m : Nat) (hp : ∀ i ∈ items, m ≤ i.1.length) (pre post : Bytes) (stop : Nat) (hi : I pre.length)
    (hstop : pre.length + (items.flatMap (·.1)).length < stop + m) :
    Rounds (step (pre ++ items.flatMap (·.1) ++ post)) stop pre.length
      (valuesFrom pre.length items) (pre.length + (items.flatMap (·.1)).length) := by
  induction items generalizing pre with
  | nil => simpa [valuesFrom] using Rounds.nil _
  | cons i items ih =>
    have hpos := hp i (by simp)
    have e : pre ++ (i :: items).flatMap (·.1) ++ post =
        pre ++ i.1 ++ (items.flatMap (·.1) ++ post) := by simp
    obtain ⟨h1, h2⟩ := h i (by simp) pre (items.flatMap (·.1) ++ post) hi
    simp only [List.flatMap_cons, List.length_append] at hstop
    have ih := ih (fun j hj => h j (List.mem_cons_of_mem _ hj))
      (fun j hj => hp j (List.mem_cons_of_mem _ hj)) (pre ++ i.1) (by simpa using h2)
      (by simp only [List.length_append]; omega)
    rw [valuesFrom]
    refine .cons _ (pre.length + i.1.length) _ _ _ (by omega) (by rw [e]; exact h1) ?_
    have e2 : pre ++ (i :: items).flatMap (·.1) ++ post =
        pre ++ i.1 ++ items.flatMap (·.1) ++ post := by simp
    rw [e2]
    simpa [Nat.add_assoc] using ih

theorem valuesFrom_length {σ : Type} (off : Nat) (items : List (Bytes × (Nat → σ))) :
    (valuesFrom off items).length = items.length := by
  induction items generalizing off with
  | nil => rfl
  | cons i items ih => simp [valuesFrom, ih]

/-- The loop reads all of the things, and enough fuel is one more than their number.  It may stop up to
`m - 1` bytes before the end of the things, if each of these has at least `m` bytes. -/
theorem walk_items_stop {σ : Type} (step : Bytes → Nat → Res (σ × Nat)) (I : Nat → Prop)
    (items : List (Bytes × (Nat → σ)))
    (h : ∀ i ∈ items, ∀ pre post : Bytes, I pre.length →
      step (pre ++ i.1 ++ post) pre.length = .ok (i.2 pre.length, pre.length + i.1.length) ∧
      I (pre.length + i.1.length))
    (m : Nat) (hp : ∀ i ∈ items, m ≤ i.1.length) (pre post : Bytes) (stop : Nat) (hi : I pre.length)
    (h1 : pre.length + (items.flatMap (·.1)).length < stop + m)
    (h2 : stop ≤ pre.length + (items.flatMap (·.1)).length) (fuel : Nat)
    (hf : items.length < fuel) (acc : List σ) :
    walk (step (pre ++ items.flatMap (·.1) ++ post)) stop fuel pre.length acc =
      some (.ok (acc ++ valuesFrom pre.length items)) := by
  have hr := rounds_items step I items h m hp pre post stop hi h1
  have hd := walk_done _ _ _ _ _ acc (fuel - items.length - 1) hr h2
  rw [valuesFrom_length] at hd
  rw [← hd]
  congr 1
  omega

theorem walk_items {σ : Type} (step : Bytes → Nat → Res (σ × Nat)) (I : Nat → Prop)
    (items : List (Bytes × (Nat → σ)))
    (h : ∀ i ∈ items, ∀ pre post : Bytes, I pre.length →
      step (pre ++ i.1 ++ post) pre.length = .ok (i.2 pre.length, pre.length + i.1.length) ∧
      I (pre.length + i.1.length))
    (hp : ∀ i ∈ items, i.1 ≠ []) (pre post : Bytes) (hi : I pre.length) (fuel : Nat)
    (hf : items.length < fuel) (acc : List σ) :
    walk (step (pre ++ items.flatMap (·.1) ++ post)) (pre ++ items.flatMap (·.1)).length fuel
      pre.length acc = some (.ok (acc ++ valuesFrom pre.length items)) :=
  walk_items_stop step I items h 1 (fun i hi => List.length_pos_iff.mpr (hp i hi)) pre post _ hi
    (by simp) (by simp) fuel hf acc

/-- What is made of things of which the places do not matter. -/
theorem valuesFrom_map_const {σ τ : Type} (off : Nat) (items : List τ) (f : τ → Bytes) (g : τ → σ) :
    valuesFrom off (items.map (fun i => (f i, fun _ => g i))) = items.map g := by
  induction items generalizing off with
  | nil => rfl
  | cons i items ih => simp [valuesFrom, ih]

end Dtf.DataFormat
