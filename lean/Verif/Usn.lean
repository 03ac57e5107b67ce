import Verif.Slices

/-!
# The USN change journal (C43)
-/

namespace Dtf.Usn
open Py DataFormat

/-! ## Model -/

structure Record where
  fileReference : Nat
  parentReference : Nat
  sequence : Nat
  timestamp : Nat
  reason : Nat
  name : Bytes
deriving DecidableEq, Repr

def parseRecord (b : Bytes) : Option Record :=
  let size := leNat (slice b 0 4)
  let nameSize := leNat (slice b 56 58)
  if leNat (slice b 4 6) = 2 ∧ leNat (slice b 6 8) = 0 ∧ 60 + nameSize ≤ size then
    some ⟨leNat (slice b 8 16), leNat (slice b 16 24), leNat (slice b 24 32), leNat (slice b 32 40),
      leNat (slice b 40 44), slice b 60 (60 + nameSize)⟩
  else none

/-- `usn_record_v2` (usn_journal.yaml 49-91).  The name is kept as bytes. -/
def recordMap : DataTypeMap Record :=
  (sizedMap 60 (fun b => leNat (slice b 0 4) - 60) id).refine parseRecord

/-- The 60 zero bytes of `_EMPTY_USN_RECORD_HEADER` (usn_journal.py 20). -/
def emptyHeader : Bytes := List.replicate 60 0

/-- What is found at a position of the file. -/
inductive Found where
  | empty
  | failed (e : Err)
  | record (r : Record) (pos size : Nat)

/-- One round of the inner loop (usn_journal.py 74-80): 60 bytes are read, the file goes 60 bytes back even if
there were less, and a record is read there. -/
def findRecord (data : Bytes) (pos : Nat) : Found :=
  let header := slice data pos (pos + 60)
  if header = emptyHeader then .empty
  else if pos + header.length < 60 then .failed .osError
  else
    match structAt recordMap data (pos + header.length - 60 : Nat) with
    | .error e => .failed e
    | .ok (r, n) => .record r (pos + header.length - 60 + n.toNat) n.toNat

/-- `ReadRecords` (usn_journal.py 58-85): the records it yields and how it ends.  `block` is the size that is
left of the block while one is read.  The position in the file and the offset are not the same.  `none` is
out of fuel. -/
def readRecords (data : Bytes) : Nat → Nat → Int → Option Int → List Record → Option (List Record × Res Unit)
  | 0, _, _, _, _ => none
  | fuel + 1, pos, offset, none, acc =>
    if offset < data.length then readRecords data fuel pos offset (some (min 4096 data.length)) acc
    else some (acc, .ok ())
  | fuel + 1, pos, offset, some block, acc =>
    if block > 60 then
      match findRecord data pos with
      | .empty => readRecords data fuel (pos + 60) (offset + block) none acc
      | .failed e => some (acc, .error e)
      | .record r pos' n => readRecords data fuel pos' (offset + n) (some (block - n)) (acc ++ [r])
    else readRecords data fuel pos (offset + block) none acc

def records (data : Bytes) (fuel : Nat) : Option (List Record × Res Unit) :=
  readRecords data fuel 0 0 none []

/-! ## The specification -/

/-- A record as it is stored. -/
structure Stored where
  value : Record
  fields : Bytes
  nameOffset : Nat
  padding : Bytes

def Stored.bytes (s : Stored) : Bytes :=
  [leBytes 4 (60 + s.value.name.length + s.padding.length), leBytes 2 2, leBytes 2 0, leBytes 8 s.value.fileReference,
    leBytes 8 s.value.parentReference, leBytes 8 s.value.sequence, leBytes 8 s.value.timestamp,
    leBytes 4 s.value.reason, s.fields, leBytes 2 s.value.name.length, leBytes 2 s.nameOffset, s.value.name,
    s.padding].flatten

def Stored.Ok (s : Stored) : Prop :=
  s.value.fileReference < 2 ^ 64 ∧ s.value.parentReference < 2 ^ 64 ∧ s.value.sequence < 2 ^ 64 ∧
    s.value.timestamp < 2 ^ 64 ∧ s.value.reason < 2 ^ 32 ∧ s.fields.length = 12 ∧ s.nameOffset < 2 ^ 16 ∧
    s.value.name.length < 2 ^ 16 ∧ 60 + s.value.name.length + s.padding.length < 2 ^ 32

def recordBytes (l : List Stored) : Bytes := l.flatMap (·.bytes)

/-- A journal is made of blocks of 4096 bytes, each of which has records and zero bytes. -/
def journal (blocks : List (List Stored)) : Bytes :=
  blocks.flatMap (fun b => recordBytes b ++ List.replicate (4096 - (recordBytes b).length) 0)

/-! ## Proofs -/

theorem Stored.length (s : Stored) (h : s.Ok) :
    s.bytes.length = 60 + s.value.name.length + s.padding.length := by
  have := h.2.2.2.2.2.1
  simp [Stored.bytes]; omega

theorem encodes (s : Stored) (h : s.Ok) : Encodes recordMap s.bytes s.value := by
  have hl := s.length h
  obtain ⟨h1, h2, h3, h4, h5, h6, h7, h8, h9⟩ := h
  have f0 : leNat (slice s.bytes 0 4) = 60 + s.value.name.length + s.padding.length :=
    leField [] 4 _ _ 0 4 rfl rfl (by omega)
  refine encodes_refine _ _ _ s.bytes _ (encodes_sized 60 _ id _ (by omega) (by omega) ?_) ?_
  · rw [slice_take _ _ _ _ (by omega), f0]
    omega
  · have f1 : leNat (slice s.bytes 4 6) = 2 :=
      leField [leBytes 4 _] 2 _ _ 4 6 (by simp) rfl (by omega)
    have f2 : leNat (slice s.bytes 6 8) = 0 :=
      leField [leBytes 4 _, leBytes 2 2] 2 _ _ 6 8 (by simp) rfl (by omega)
    have f3 : leNat (slice s.bytes 8 16) = s.value.fileReference :=
      leField [leBytes 4 _, leBytes 2 2, leBytes 2 0] 8 _ _ 8 16 (by simp) rfl (by omega)
    have f4 : leNat (slice s.bytes 16 24) = s.value.parentReference :=
      leField [leBytes 4 _, leBytes 2 2, leBytes 2 0, leBytes 8 _] 8 _ _ 16 24 (by simp) rfl (by omega)
    have f5 : leNat (slice s.bytes 24 32) = s.value.sequence :=
      leField [leBytes 4 _, leBytes 2 2, leBytes 2 0, leBytes 8 _, leBytes 8 _] 8 _ _ 24 32 (by simp) rfl (by omega)
    have f6 : leNat (slice s.bytes 32 40) = s.value.timestamp :=
      leField [leBytes 4 _, leBytes 2 2, leBytes 2 0, leBytes 8 _, leBytes 8 _, leBytes 8 _] 8 _ _ 32 40
        (by simp) rfl (by omega)
    have f7 : leNat (slice s.bytes 40 44) = s.value.reason :=
      leField [leBytes 4 _, leBytes 2 2, leBytes 2 0, leBytes 8 _, leBytes 8 _, leBytes 8 _, leBytes 8 _] 4 _ _ 40 44
        (by simp) rfl (by omega)
    have f8 : leNat (slice s.bytes 56 58) = s.value.name.length :=
      leField [leBytes 4 _, leBytes 2 2, leBytes 2 0, leBytes 8 _, leBytes 8 _, leBytes 8 _, leBytes 8 _,
        leBytes 4 _, s.fields] 2 _ _ 56 58 (by simp [h6]) rfl (by omega)
    have f9 : slice s.bytes 60 (60 + s.value.name.length) = s.value.name :=
      slice_fields [leBytes 4 _, leBytes 2 2, leBytes 2 0, leBytes 8 _, leBytes 8 _, leBytes 8 _, leBytes 8 _,
        leBytes 4 _, s.fields, leBytes 2 _, leBytes 2 _] s.value.name [s.padding] 60 (60 + s.value.name.length)
        (by simp [h6]) rfl
    unfold parseRecord
    dsimp only
    rw [f0, f1, f2, f3, f4, f5, f6, f7, f8, f9, if_pos ⟨rfl, rfl, by omega⟩]

theorem readRecords_none (data : Bytes) (fuel pos : Nat) (offset : Int) (acc : List Record) :
    readRecords data (fuel + 1) pos offset none acc =
      if offset < data.length then readRecords data fuel pos offset (some (min 4096 data.length)) acc
      else some (acc, .ok ()) := rfl

theorem readRecords_some (data : Bytes) (fuel pos : Nat) (offset block : Int) (acc : List Record) :
    readRecords data (fuel + 1) pos offset (some block) acc =
      if block > 60 then
        match findRecord data pos with
        | .empty => readRecords data fuel (pos + 60) (offset + block) none acc
        | .failed e => some (acc, .error e)
        | .record r pos' n => readRecords data fuel pos' (offset + n) (some (block - n)) (acc ++ [r])
      else readRecords data fuel pos (offset + block) none acc := rfl

theorem positive : PositiveSizes recordMap :=
  positive_refine _ _ (positive_sized _ _ _ (by decide))

theorem header_ne (s : Stored) : s.bytes.take 60 ≠ emptyHeader := by
  intro hz
  have f1 : leNat (slice s.bytes 4 6) = 2 :=
    leField [leBytes 4 _] 2 _ _ 4 6 (by simp) rfl (by omega)
  rw [← slice_take _ 60 _ _ (by omega), hz] at f1
  exact absurd f1 (by decide)

theorem findRecord_stored (pre post : Bytes) (s : Stored) (h : s.Ok) :
    findRecord (pre ++ s.bytes ++ post) pre.length =
      .record s.value (pre ++ s.bytes).length s.bytes.length := by
  have hl := s.length h
  unfold findRecord
  dsimp only
  rw [slice_at _ _ _ _ (by omega), if_neg (header_ne s), List.length_take, Nat.min_eq_left (by omega),
    if_neg (by omega), Nat.add_sub_cancel, encodes s h pre post]
  simp

theorem step_record (pre post : Bytes) (s : Stored) (h : s.Ok) (fuel : Nat) (offset block : Int)
    (acc : List Record) (hb : 60 < block) :
    readRecords (pre ++ s.bytes ++ post) (fuel + 1) pre.length offset (some block) acc =
      readRecords (pre ++ s.bytes ++ post) fuel (pre ++ s.bytes).length (offset + s.bytes.length)
        (some (block - s.bytes.length)) (acc ++ [s.value]) := by
  rw [readRecords_some, if_pos (by omega), findRecord_stored pre post s h]

theorem step_records (l : List Stored) : ∀ (pre post : Bytes) (offset block : Int) (acc : List Record),
    (∀ s ∈ l, s.Ok ∧ 60 < s.bytes.length) → ((recordBytes l).length : Int) ≤ block → ∀ fuel,
    readRecords (pre ++ recordBytes l ++ post) (fuel + l.length) pre.length offset (some block) acc =
      readRecords (pre ++ recordBytes l ++ post) fuel (pre ++ recordBytes l).length
        (offset + (recordBytes l).length) (some (block - (recordBytes l).length))
        (acc ++ l.map (·.value)) := by
  induction l with
  | nil => intro pre post offset block acc _ _ fuel; simp [recordBytes]
  | cons s l ih =>
    intro pre post offset block acc h hb fuel
    have hs := h s (by simp)
    have e : recordBytes (s :: l) = s.bytes ++ recordBytes l := by simp [recordBytes]
    rw [e] at hb ⊢
    rw [List.length_append] at hb
    have e1 : pre ++ (s.bytes ++ recordBytes l) ++ post = pre ++ s.bytes ++ (recordBytes l ++ post) := by simp
    have e2 : pre ++ s.bytes ++ (recordBytes l ++ post) = (pre ++ s.bytes) ++ recordBytes l ++ post := by simp
    rw [e1, List.length_cons, ← Nat.add_assoc, step_record _ _ _ hs.1 _ _ _ _ (by omega), e2,
      ih _ _ _ _ _ (fun t ht => h t (by simp [ht])) (by omega)]
    congr 1
    · simp
    · simp; omega
    · simp; omega
    · simp

/-- One block that is full. -/
theorem step_full (l : List Stored) (pre post : Bytes) (acc : List Record)
    (h : ∀ s ∈ l, s.Ok ∧ 60 < s.bytes.length) (hb : (recordBytes l).length = 4096) (fuel : Nat) :
    readRecords (pre ++ recordBytes l ++ post) (fuel + l.length + 2) pre.length pre.length none acc =
      readRecords (pre ++ recordBytes l ++ post) (fuel) (pre ++ recordBytes l).length
        (pre ++ recordBytes l).length none (acc ++ l.map (·.value)) := by
  have hm : min 4096 ((pre ++ recordBytes l ++ post).length : Int) = 4096 := by
    simp [hb]; omega
  rw [show fuel + l.length + 2 = (fuel + 1) + l.length + 1 by omega, readRecords_none,
    if_pos (by simp [hb]; omega), hm, step_records l _ _ _ _ _ h (by omega), hb, readRecords_some, if_neg (by omega)]
  congr 1
  simp [hb]

/-- The last block. -/
theorem step_last (l : List Stored) (pre : Bytes) (z : Nat) (acc : List Record)
    (h : ∀ s ∈ l, s.Ok ∧ 60 < s.bytes.length)
    (hb : (min 4096 (pre ++ recordBytes l ++ List.replicate z 0).length : Nat) = (recordBytes l).length + z)
    (hp : 0 < (recordBytes l).length + z) (fuel : Nat) :
    readRecords (pre ++ recordBytes l ++ List.replicate z 0) (fuel + l.length + 3) pre.length pre.length none acc =
      some (acc ++ l.map (·.value), .ok ()) := by
  have hm : min 4096 ((pre ++ recordBytes l ++ List.replicate z 0).length : Int) = (recordBytes l).length + z := by
    omega
  rw [show fuel + l.length + 3 = (fuel + 2) + l.length + 1 by omega, readRecords_none,
    if_pos (by simp; omega), hm, step_records l _ _ _ _ _ h (by omega), readRecords_some]
  have hend : ¬ ((pre.length : Int) + (recordBytes l).length +
      (((recordBytes l).length : Int) + z - (recordBytes l).length) <
        (pre ++ recordBytes l ++ List.replicate z 0).length) := by
    simp only [List.length_append, List.length_replicate]
    push_cast
    omega
  split
  · rename_i hz
    have := slice_at (pre ++ recordBytes l) (List.replicate z (0 : UInt8)) [] 60 (by simp; omega)
    rw [List.append_nil, List.take_replicate, Nat.min_eq_left (by omega)] at this
    have hf : findRecord (pre ++ recordBytes l ++ List.replicate z 0) (pre ++ recordBytes l).length = .empty := by
      unfold findRecord
      dsimp only
      rw [this]
      exact if_pos rfl
    rw [hf]
    dsimp only
    rw [readRecords_none, if_neg hend]
  · rw [readRecords_none, if_neg hend]

theorem findRecord_size (data : Bytes) (pos : Nat) (r : Record) (pos' n : Nat)
    (h : findRecord data pos = .record r pos' n) : 0 < n := by
  unfold findRecord at h
  dsimp only at h
  split at h
  · cases h
  · split at h
    · cases h
    · split at h
      · cases h
      · rename_i r' m hm
        have := positive _ _ _ _ hm
        cases h
        omega

theorem readRecords_mono (data : Bytes) (fuel k : Nat) : ∀ (pos : Nat) (offset : Int) (block : Option Int)
    (acc : List Record) (r : List Record × Res Unit), readRecords data fuel pos offset block acc = some r →
    readRecords data (fuel + k) pos offset block acc = some r := by
  induction fuel with
  | zero => intro pos offset block acc r h; simp [readRecords] at h
  | succ fuel ih =>
    intro pos offset block acc r h
    rw [show fuel + 1 + k = fuel + k + 1 by omega]
    cases block with
    | none =>
      rw [readRecords_none] at h ⊢
      split
      · rename_i hc
        rw [if_pos hc] at h
        exact ih _ _ _ _ _ h
      · rename_i hc
        rw [if_neg hc] at h
        exact h
    | some block =>
      rw [readRecords_some] at h ⊢
      split
      · rename_i hc
        rw [if_pos hc] at h
        cases hf : findRecord data pos with
        | empty => rw [hf] at h; exact ih _ _ _ _ _ h
        | failed e => rw [hf] at h; exact h
        | record r pos' n => rw [hf] at h; exact ih _ _ _ _ _ h
      · rename_i hc
        rw [if_neg hc] at h
        exact ih _ _ _ _ _ h

/-- What is left to be read; `w` is more than what one block takes. -/
def left (w : Nat) (data : Bytes) (offset : Int) : Option Int → Nat
  | none => (data.length - offset).toNat * w
  | some block => (data.length - (offset + block)).toNat * w + block.toNat + 1

theorem readRecords_terminates (data : Bytes) (hd : 0 < data.length) (w : Nat) (hw : 4098 ≤ w)
    (fuel : Nat) :
    ∀ (pos : Nat) (offset : Int) (block : Option Int) (acc : List Record), left w data offset block < fuel →
      readRecords data fuel pos offset block acc ≠ none := by
  induction fuel with
  | zero => intro pos offset block acc h; omega
  | succ fuel ih =>
    intro pos offset block acc h
    cases block with
    | none =>
      rw [readRecords_none]
      split
      · rename_i hlt
        refine ih _ _ _ _ ?_
        rw [left] at h
        rw [left]
        have hm : min (4096 : Int) data.length ≤ 4096 := Int.min_le_left _ _
        have hp : 0 < min (4096 : Int) data.length := by omega
        generalize min (4096 : Int) data.length = m at *
        have hle : ((data.length - (offset + m)).toNat + 1) * w ≤ (data.length - offset).toNat * w :=
          Nat.mul_le_mul_right _ (by omega)
        rw [Nat.add_mul] at hle
        omega
      · simp
    | some block =>
      rw [readRecords_some]
      rw [left] at h
      split
      · cases hf : findRecord data pos with
        | empty => exact ih _ _ _ _ (by rw [left]; omega)
        | failed e => simp
        | record r pos' n =>
          have := findRecord_size _ _ _ _ _ hf
          refine ih _ _ _ _ ?_
          rw [left, show offset + (n : Int) + (block - n) = offset + block by omega]
          omega
      · exact ih _ _ _ _ (by rw [left]; omega)

/-! ## C43 -/

/-- Every journal that is made of blocks with records and zero bytes is read completely. -/
def C43_claim : Prop :=
  ∀ blocks : List (List Stored), (∀ b ∈ blocks, (∀ s ∈ b, s.Ok ∧ 60 < s.bytes.length) ∧ (recordBytes b).length ≤ 4096) →
    ∃ fuel, records (journal blocks) fuel = some (blocks.flatten.map (·.value), .ok ())

/-- All records are returned, in order, when every block but the last is filled with records.  What is missing
are the journals with padding in an earlier block, for which it is false. -/
theorem C43_full_blocks_partial (blocks : List (List Stored)) (last : List Stored)
    (hf : ∀ b ∈ blocks, (∀ s ∈ b, s.Ok ∧ 60 < s.bytes.length) ∧ (recordBytes b).length = 4096)
    (hl : (∀ s ∈ last, s.Ok ∧ 60 < s.bytes.length) ∧ (recordBytes last).length ≤ 4096) :
    ∃ n, ∀ fuel, records (journal (blocks ++ [last])) (n + fuel) =
      some ((blocks ++ [last]).flatten.map (·.value), .ok ()) := by
  have key : ∀ (blocks : List (List Stored)) (pre : Bytes) (acc : List Record),
      (∀ b ∈ blocks, (∀ s ∈ b, s.Ok ∧ 60 < s.bytes.length) ∧ (recordBytes b).length = 4096) →
      ∃ n, ∀ fuel, readRecords (pre ++ journal (blocks ++ [last])) (n + fuel) pre.length pre.length none acc =
        some (acc ++ (blocks ++ [last]).flatten.map (·.value), .ok ()) := by
    intro blocks
    induction blocks with
    | nil =>
      intro pre acc _
      refine ⟨last.length + 3, fun fuel => ?_⟩
      have e : pre ++ journal ([] ++ [last]) =
          pre ++ recordBytes last ++ List.replicate (4096 - (recordBytes last).length) 0 := by simp [journal]
      rw [e, show last.length + 3 + fuel = fuel + last.length + 3 by omega,
        step_last _ _ _ _ hl.1 (by simp; omega) (by omega)]
      simp
    | cons b blocks ih =>
      intro pre acc h
      have hb := h b (by simp)
      obtain ⟨n, hn⟩ := ih (pre ++ recordBytes b) (acc ++ b.map (·.value)) (fun c hc => h c (by simp [hc]))
      refine ⟨n + b.length + 2, fun fuel => ?_⟩
      have e : pre ++ journal (b :: blocks ++ [last]) = pre ++ recordBytes b ++ journal (blocks ++ [last]) := by
        simp [journal, hb.2]
      rw [e, show n + b.length + 2 + fuel = (n + fuel) + b.length + 2 by omega,
        step_full _ _ _ _ hb.1 hb.2, hn]
      simp
  simpa [records] using key blocks [] [] hf

/-- All records of a file of at most one block are returned, whatever the padding. -/
theorem C43_one_block_partial (l : List Stored) (z : Nat) (h : ∀ s ∈ l, s.Ok ∧ 60 < s.bytes.length)
    (hs : (recordBytes l).length + z ≤ 4096) :
    ∃ n, ∀ fuel, records (recordBytes l ++ List.replicate z 0) (n + fuel) = some (l.map (·.value), .ok ()) := by
  refine ⟨l.length + 3, fun fuel => ?_⟩
  by_cases hp : 0 < (recordBytes l).length + z
  · have := step_last l [] z [] h (by simp; omega) hp fuel
    simpa [records, show l.length + 3 + fuel = fuel + l.length + 3 by omega] using this
  · have h0 : l = [] := by
      cases l with
      | nil => rfl
      | cons s l =>
        have := (h s (by simp)).2
        rw [show recordBytes (s :: l) = s.bytes ++ recordBytes l by simp [recordBytes], List.length_append] at hp
        omega
    subst h0
    have hz : z = 0 := by omega
    subst hz
    rw [show ([] : List Stored).length + 3 + fuel = (fuel + 2) + 1 by simp; omega, records, readRecords_none]
    simp [recordBytes]

/-- A record of some size. -/
def witness (sequence size : Nat) : Stored :=
  ⟨⟨1, 5, sequence, 0, 1, []⟩, List.replicate 12 0, 60, List.replicate (size - 60) 0⟩

/-- The records of a block that comes after padding are not returned, and it is not an error. -/
theorem C43_lost : records (journal [[witness 1 3900], [witness 2 4096]]) 10 =
    some ([(witness 1 3900).value], .ok ()) := by
  decide +kernel

/-- A block with little padding makes that the journal cannot be read. -/
theorem C43_rejected : records (journal [[witness 1 4056], [witness 2 4096]]) 10 =
    some ([(witness 1 4056).value], .error .parseError) := by
  decide +kernel

theorem witness_ok (sequence size : Nat) (h1 : sequence < 2 ^ 64) (h2 : 60 ≤ size) (h3 : size < 2 ^ 32) :
    (witness sequence size).Ok ∧ (witness sequence size).bytes.length = size := by
  have hk : (witness sequence size).Ok := by
    refine ⟨?_, ?_, h1, ?_, ?_, ?_, ?_, ?_, ?_⟩ <;> simp [witness]
    omega
  refine ⟨hk, ?_⟩
  rw [Stored.length _ hk]
  simp [witness]
  omega

theorem C43_claim_false : ¬ C43_claim := by
  intro h
  have w1 := witness_ok 1 3900 (by decide) (by decide) (by decide)
  have w2 := witness_ok 2 4096 (by decide) (by decide) (by decide)
  obtain ⟨fuel, hf⟩ := h [[witness 1 3900], [witness 2 4096]] (by
    intro b hb
    simp only [List.mem_cons, List.not_mem_nil, or_false] at hb
    rcases hb with rfl | rfl
    · simp [recordBytes, w1]
    · simp [recordBytes, w2])
  have h1 := readRecords_mono _ _ 10 _ _ _ _ _ hf
  have h2 := readRecords_mono _ _ fuel _ _ _ _ _ C43_lost
  rw [Nat.add_comm] at h2
  rw [h1] at h2
  exact absurd (congrArg (fun r => r.map (fun x => x.1.length)) h2) (by decide)

/-- Reading terminates for every file. -/
theorem C43_terminates (data : Bytes) : ∃ n, ∀ k, records data (n + k) = records data n ∧ records data n ≠ none := by
  by_cases hd : data.length = 0
  · refine ⟨1, fun k => ?_⟩
    rw [records, records, Nat.add_comm, readRecords_none, readRecords_none, hd]
    simp
  have h := readRecords_terminates data (by omega) 4098 (Nat.le_refl _) (data.length * 4098 + 1) 0 0 none []
    (by rw [left]; simp)
  refine ⟨data.length * 4098 + 1, fun k => ⟨?_, h⟩⟩
  cases hr : readRecords data (data.length * 4098 + 1) 0 0 none [] with
  | none => exact absurd hr h
  | some r =>
    unfold records
    rw [readRecords_mono _ _ k _ _ _ _ _ hr, hr]

/-- Two full blocks and a last one with padding. -/
example : ∃ n, ∀ fuel, records (journal ([[witness 1 4096], [witness 2 96, witness 3 4000]] ++ [[witness 4 80]]))
    (n + fuel) = some ([1, 2, 3, 4].map (fun i => (witness i 60).value), .ok ()) := by
  have w := fun i n h1 h2 h3 => witness_ok i n h1 h2 h3
  have h := C43_full_blocks_partial [[witness 1 4096], [witness 2 96, witness 3 4000]] [witness 4 80]
    (by simp [recordBytes, w 1 4096 (by decide) (by decide) (by decide), w 2 96 (by decide) (by decide) (by decide),
          w 3 4000 (by decide) (by decide) (by decide)])
    (by simp [recordBytes, w 4 80 (by decide) (by decide) (by decide)])
  exact h

end Dtf.Usn
