import Verif.Formats.Props
import Verif.Sequence

/-!
# Object records of the WMI repository (C36, C89)
-/

namespace Dtf.Wmi
open Py DataFormat

/-! ## Model: pages and object records -/

/-- `cim_object_descriptor` (wmi_repository.yaml 725-736). -/
structure Descriptor where
  identifier : Nat
  dataOffset : Nat
  dataSize : Nat
  checksum : Nat
deriving DecidableEq, Repr

def parseDescriptor (b : Bytes) : Descriptor :=
  ⟨leNat (slice b 0 4), leNat (slice b 4 8), leNat (slice b 8 12), leNat (slice b 12 16)⟩

/-- `_ReadObjectDescriptors` and `_ReadObjectDescriptor` (wmi_repository.py 919-980), of the data from
the start of the page to the end of the file. -/
def readDescriptors (rest : Bytes) : Res (List Descriptor) :=
  if rest.take 16 = List.replicate 16 0 then .ok []
  else if rest.length < 16 then .error .parseError
  else
    match readDescriptors (rest.drop 16) with
    | .error e => .error e
    | .ok ds => .ok (parseDescriptor (rest.take 16) :: ds)
termination_by rest.length
decreasing_by simp only [List.length_drop]; omega

/-- `GetObjectDescriptor` (wmi_repository.py 223-247). -/
def getDescriptor (ds : List Descriptor) (identifier : Nat) (dataSize : Int) : Option Descriptor :=
  match ds.find? (fun d => d.identifier = identifier) with
  | none => none
  | some d => if (d.dataSize : Int) ≠ dataSize then none else some d

/-- `sequence[i]` of Python, which counts from the end for negative indices. -/
def pyIndex {α : Type} (l : List α) (i : Int) : Option α :=
  if 0 ≤ i then l[i.toNat]?
  else if -(l.length : Int) ≤ i then l[(i + l.length).toNat]?
  else none

/-- `read` of a file opened by `open(path, "rb")`: a size of -1 is everything up to the end and other
negative sizes are refused. -/
def bufferedRead (data : Bytes) (pos : Nat) (size : Int) : Res Bytes :=
  if size < -1 then .error .valueError else .ok (File.read ⟨data, pos⟩ size).1

/-- `ReadObjectRecordDataSegment` (wmi_repository.py 1038-1071). -/
def readSegment (data : Bytes) (pageOffset dataOffset : Nat) (dataSize : Int) : Res Bytes :=
  let available : Int := 8192 - dataOffset
  bufferedRead data (pageOffset + dataOffset) (if dataSize > available then available else dataSize)

/-- The loop of `_GetObjectRecord` (wmi_repository.py 3761-3798).  `first` is the identifier of the
record while the page of the descriptor was not read; `none` is out of fuel. -/
def recordLoop (data : Bytes) (table : List Nat) : Nat → Int → Option Nat → Int → Option (Res Bytes)
  | fuel, mapped, first, size =>
    if size ≤ 0 then some (.ok [])
    else
      match fuel with
      | 0 => none
      | fuel + 1 =>
        match pyIndex table mapped with
        | none => some (.error .indexError)
        | some pageNumber =>
          let pageOffset := pageNumber * 8192
          if data.length ≤ pageOffset then some (.error .parseError)
          else
            let dataOffset : Res Nat :=
              match first with
              | none => .ok 0
              | some identifier =>
                match readDescriptors (data.drop pageOffset) with
                | .error e => .error e
                | .ok ds =>
                  match getDescriptor ds identifier size with
                  | none => .error .attributeError
                  | some d => .ok d.dataOffset
            match dataOffset with
            | .error e => some (.error e)
            | .ok dataOffset =>
              match readSegment data pageOffset dataOffset size with
              | .error e => some (.error e)
              | .ok [] => some (.error .parseError)
              | .ok (b :: bs) =>
                (recordLoop data table fuel (mapped + 1) none (size - (b :: bs).length)).map
                  (fun r => r.map ((b :: bs) ++ ·))

/-- `_GetObjectRecord` (wmi_repository.py 3740-3799) of an open repository. -/
def getObjectRecord (data : Bytes) (table : List Nat) (fuel : Nat) (mapped : Int) (identifier : Nat)
    (size : Int) : Option (Res Bytes) :=
  recordLoop data table fuel mapped (some identifier) size

/-! ## Specification -/

/-- Bytes of a record are stored from an offset of a mapped page on, and go on at the start of the next
mapped page. -/
inductive Stored (data : Bytes) (table : List Nat) : Nat → Nat → Bytes → Prop
  | done (mapped off : Nat) : Stored data table mapped off []
  | page (mapped off page : Nat) (here rest : Bytes) (ht : table[mapped]? = some page)
      (hne : here ≠ []) (hd : slice data (page * 8192 + off) (page * 8192 + off + here.length) = here)
      (hl : here.length = 8192 - off ∨ (rest = [] ∧ here.length ≤ 8192 - off))
      (hr : Stored data table (mapped + 1) 0 rest) : Stored data table mapped off (here ++ rest)

/-! ## C36: records -/

theorem recordLoop_done (data : Bytes) (table : List Nat) (fuel : Nat) (m : Int) (first : Option Nat)
    (size : Int) (h : size ≤ 0) : recordLoop data table fuel m first size = some (.ok []) := by
  unfold recordLoop; rw [if_pos h]

/-- **C36**: the loop ends, since every round reads at least one byte. -/
theorem C36_terminates (data : Bytes) (table : List Nat) (fuel : Nat) (m : Int) (first : Option Nat)
    (size : Int) (h : size ≤ fuel) : (recordLoop data table fuel m first size).isSome := by
  induction fuel generalizing m first size with
  | zero => rw [recordLoop_done _ _ _ _ _ _ (by omega)]; rfl
  | succ fuel ih =>
    unfold recordLoop
    split
    · rfl
    · dsimp only
      split
      · rfl
      · split
        · rfl
        · split
          · rfl
          · split
            · rfl
            · rfl
            · rename_i b bs _
              have := ih (m + 1) none (size - (b :: bs).length) (by simp only [List.length_cons]; omega)
              simpa using this

theorem slice_self {α : Type} (data here : List α) (a b : Nat) (h : slice data a b = here)
    (hb : b = a + here.length) (hne : here ≠ []) : (data.drop a).take here.length = here ∧
      b ≤ data.length := by
  subst hb
  have hl : (slice data a (a + here.length)).length = here.length := by rw [h]
  have hpos := List.length_pos_iff.mpr hne
  rw [slice_length] at hl
  refine ⟨?_, by omega⟩
  rw [slice_eq_take_drop, show a + here.length - a = here.length by omega] at h
  exact h

theorem readSegment_here (data here : Bytes) (page off : Nat) (size : Nat) (hne : here ≠ [])
    (hd : slice data (page * 8192 + off) (page * 8192 + off + here.length) = here)
    (hl : (here.length = 8192 - off ∧ here.length ≤ size) ∨
      (size = here.length ∧ here.length ≤ 8192 - off)) :
    readSegment data (page * 8192) off size = .ok here := by
  have hpos := List.length_pos_iff.mpr hne
  obtain ⟨h1, h2⟩ := slice_self data here _ _ hd rfl hne
  unfold readSegment bufferedRead
  have e : (if (size : Int) > 8192 - (off : Int) then (8192 - (off : Int)) else size) = here.length := by
    rcases hl with ⟨ha, hb⟩ | ⟨ha, hb⟩
    · split <;> omega
    · split <;> omega
  dsimp only
  rw [e, if_neg (by omega)]
  unfold File.read
  dsimp only
  rw [if_neg (by omega), Int.toNat_natCast, h1]

theorem pyIndex_nat {α : Type} (l : List α) (n : Nat) : pyIndex l (n : Int) = l[n]? := by
  unfold pyIndex
  rw [if_pos (by omega), Int.toNat_natCast]

/-- The pages after the first one. -/
theorem recordLoop_stored (data : Bytes) (table : List Nat) (m off : Nat) (r : Bytes)
    (h : Stored data table m off r) (hoff : off = 0) (fuel : Nat) (hf : r.length ≤ fuel) :
    recordLoop data table fuel m none r.length = some (.ok r) := by
  induction h generalizing fuel with
  | done m off => rw [recordLoop_done _ _ _ _ _ _ (by simp)]
  | page m off page here rest ht hne hd hl hr ih =>
    subst hoff
    have hpos := List.length_pos_iff.mpr hne
    obtain ⟨_, h2⟩ := slice_self data here _ _ hd rfl hne
    simp only [List.length_append] at hf ⊢
    cases fuel with
    | zero => omega
    | succ fuel =>
      unfold recordLoop
      rw [if_neg (by omega)]
      dsimp only
      rw [pyIndex_nat, ht]
      dsimp only
      rw [if_neg (by omega), readSegment_here data here page 0 (here.length + rest.length) hne hd (by
        rcases hl with hl | ⟨hl, hl'⟩
        · exact .inl ⟨hl, by omega⟩
        · exact .inr ⟨by simp [hl], hl'⟩)]
      cases here with
      | nil => exact absurd rfl hne
      | cons b bs =>
        dsimp only
        have e : (((b :: bs).length + rest.length : Nat) : Int) - ((b :: bs).length : Nat) =
            (rest.length : Nat) := by omega
        have e1 : (m : Int) + 1 = ((m + 1 : Nat) : Int) := by omega
        rw [e, e1, ih rfl fuel (by simp only [List.length_cons] at hf; omega)]
        rfl

/-- **C36**: a record that is stored from the offset of its descriptor on, over any number of mapped
pages, is read as it is. -/
theorem C36_record (data : Bytes) (table : List Nat) (mapped page identifier : Nat)
    (ds : List Descriptor) (d : Descriptor) (r : Bytes) (fuel : Nat) (hr : r ≠ [])
    (ht : table[mapped]? = some page) (hds : readDescriptors (data.drop (page * 8192)) = .ok ds)
    (hd : ds.find? (fun d => d.identifier = identifier) = some d) (hsize : d.dataSize = r.length)
    (h : Stored data table mapped d.dataOffset r) (hf : r.length ≤ fuel) :
    getObjectRecord data table fuel mapped identifier r.length = some (.ok r) := by
  cases h with
  | done => exact absurd rfl hr
  | page _ _ page' here rest ht' hne hsl hl hrest =>
    rw [ht, Option.some.injEq] at ht'
    subst ht'
    have hpos := List.length_pos_iff.mpr hne
    obtain ⟨_, h2⟩ := slice_self data here _ _ hsl rfl hne
    simp only [List.length_append] at hf hsize ⊢
    cases fuel with
    | zero => omega
    | succ fuel =>
      unfold getObjectRecord recordLoop
      rw [if_neg (by omega)]
      dsimp only
      rw [pyIndex_nat, ht]
      dsimp only
      rw [if_neg (by omega), hds]
      dsimp only
      unfold getDescriptor
      rw [hd]
      dsimp only
      rw [if_neg (by rw [hsize]; simp)]
      dsimp only
      rw [readSegment_here data here page d.dataOffset (here.length + rest.length) hne hsl (by
        rcases hl with hl | ⟨hl, hl'⟩
        · exact .inl ⟨hl, by omega⟩
        · exact .inr ⟨by simp [hl], hl'⟩)]
      cases here with
      | nil => exact absurd rfl hne
      | cons b bs =>
        dsimp only
        have e : (((b :: bs).length + rest.length : Nat) : Int) - ((b :: bs).length : Nat) =
            (rest.length : Nat) := by omega
        have e1 : (mapped : Int) + 1 = ((mapped + 1 : Nat) : Int) := by omega
        rw [e, e1, recordLoop_stored data table (mapped + 1) 0 rest hrest rfl fuel
          (by simp only [List.length_cons] at hf; omega)]
        rfl

/-- The descriptors of a page are read up to the empty one. -/
theorem C36_descriptors (ds : List Descriptor) (post : Bytes)
    (h : ∀ d ∈ ds, d.identifier < 2 ^ 32 ∧ d.dataOffset < 2 ^ 32 ∧ d.dataSize < 2 ^ 32 ∧
      d.checksum < 2 ^ 32 ∧ ¬ (d.identifier = 0 ∧ d.dataOffset = 0 ∧ d.dataSize = 0 ∧ d.checksum = 0)) :
    readDescriptors (ds.flatMap (fun d => [leBytes 4 d.identifier, leBytes 4 d.dataOffset,
      leBytes 4 d.dataSize, leBytes 4 d.checksum].flatten) ++ (List.replicate 16 0 ++ post)) = .ok ds := by
  induction ds with
  | nil =>
    rw [readDescriptors, if_pos (by simp [List.take_append])]
  | cons d ds ih =>
    have ih := ih (fun x hx => h x (List.mem_cons_of_mem _ hx))
    obtain ⟨h1, h2, h3, h4, h5⟩ := h d (by simp)
    rw [List.flatMap_cons, List.append_assoc]
    generalize hp : (ds.flatMap _ ++ _ : Bytes) = p at ih ⊢
    have hl : ([leBytes 4 d.identifier, leBytes 4 d.dataOffset, leBytes 4 d.dataSize,
        leBytes 4 d.checksum].flatten).length = 16 := by simp
    have hparse : parseDescriptor [leBytes 4 d.identifier, leBytes 4 d.dataOffset, leBytes 4 d.dataSize,
        leBytes 4 d.checksum].flatten = d := by
      unfold parseDescriptor
      have e1 := leField [] 4 d.identifier [leBytes 4 d.dataOffset, leBytes 4 d.dataSize,
        leBytes 4 d.checksum] 0 4 rfl rfl (by omega)
      have e2 := leField [leBytes 4 d.identifier] 4 d.dataOffset [leBytes 4 d.dataSize,
        leBytes 4 d.checksum] 4 8 (by simp) rfl (by omega)
      have e3 := leField [leBytes 4 d.identifier, leBytes 4 d.dataOffset] 4 d.dataSize
        [leBytes 4 d.checksum] 8 12 (by simp) rfl (by omega)
      have e4 := leField [leBytes 4 d.identifier, leBytes 4 d.dataOffset, leBytes 4 d.dataSize] 4
        d.checksum [] 12 16 (by simp) rfl (by omega)
      simp only [List.nil_append, List.cons_append] at e1 e2 e3 e4
      rw [e1, e2, e3, e4]
    rw [readDescriptors, List.take_left' hl, List.drop_left' hl, ih, hparse, if_neg ?_, if_neg ?_]
    · simp only [List.length_append, hl]; omega
    · intro e
      rw [e] at hparse
      apply h5
      rw [← hparse]
      decide

/-- **C36** for what the files may hold: the record has the declared number of bytes. -/
def C36_size_claim : Prop :=
  ∀ (data : Bytes) (table : List Nat) (fuel : Nat) (mapped : Int) (identifier : Nat) (size : Nat)
    (r : Bytes), getObjectRecord data table fuel mapped identifier size = some (.ok r) →
    r.length = size

/-- A file with a descriptor whose data is after the end of its page. -/
def outsidePage : Bytes :=
  [1, 0, 0, 0, 1, 0x20, 0, 0, 2, 0, 0, 0, 0, 0, 0, 0] ++ List.replicate 8176 0 ++ [0, 1, 2, 3, 4, 5]

/-- **C36** is false of descriptors with an offset of 8193: everything up to the end of the file is
returned. -/
theorem C36_too_large : ¬ C36_size_claim := by
  intro h
  have hd : outsidePage = [⟨1, 8193, 2, 0⟩].flatMap (fun d : Descriptor => [leBytes 4 d.identifier,
      leBytes 4 d.dataOffset, leBytes 4 d.dataSize, leBytes 4 d.checksum].flatten) ++
      (List.replicate 16 0 ++ (List.replicate 8160 0 ++ [0, 1, 2, 3, 4, 5])) := by
    have e : List.replicate 8176 (0 : UInt8) = List.replicate 16 0 ++ List.replicate 8160 0 := by
      rw [List.replicate_append_replicate]
    unfold outsidePage
    rw [e, List.append_assoc, List.append_assoc]
    rfl
  have hl : outsidePage.length = 8198 := by
    unfold outsidePage
    simp only [List.length_append, List.length_replicate]
    rfl
  have hr : readDescriptors outsidePage = .ok [⟨1, 8193, 2, 0⟩] := by
    rw [hd]
    exact C36_descriptors _ _ (by simp)
  have hs : readSegment outsidePage 0 8193 2 = .ok [1, 2, 3, 4, 5] := by
    unfold readSegment bufferedRead File.read
    have : outsidePage.drop 8193 = [1, 2, 3, 4, 5] := by decide +kernel
    simp [this]
  have := h outsidePage [0] 1 0 1 2 [1, 2, 3, 4, 5] (by
    unfold getObjectRecord recordLoop
    rw [if_neg (by omega)]
    dsimp only
    rw [show pyIndex [0] 0 = some 0 from rfl]
    dsimp only
    rw [if_neg (by rw [hl]; omega), Nat.zero_mul, List.drop_zero, hr]
    dsimp only
    rw [show getDescriptor [⟨1, 8193, 2, 0⟩] 1 (2 : Nat) = some ⟨1, 8193, 2, 0⟩ by decide]
    dsimp only
    rw [show ((2 : Nat) : Int) = 2 from rfl, hs]
    dsimp only
    rw [recordLoop_done _ _ _ _ _ _ (by decide)]
    rfl)
  simp at this

/-- **C36** (partial): if the data offset of the descriptor is within the page, a record has the
declared number of bytes. -/
theorem C36_size_partial (data : Bytes) (table : List Nat) (fuel : Nat) (mapped : Int)
    (first : Option Nat) (size : Nat) (r : Bytes)
    (hoff : ∀ identifier, first = some identifier → ∀ page ds d, pyIndex table mapped = some page →
      readDescriptors (data.drop (page * 8192)) = .ok ds →
      ds.find? (fun d => d.identifier = identifier) = some d → d.dataOffset ≤ 8192)
    (h : recordLoop data table fuel mapped first size = some (.ok r)) : r.length = size := by
  induction fuel generalizing mapped first size r with
  | zero =>
    unfold recordLoop at h
    split at h
    · simp only [Option.some.injEq, Except.ok.injEq] at h
      subst h; simp; omega
    · simp at h
  | succ fuel ih =>
    unfold recordLoop at h
    split at h
    · simp only [Option.some.injEq, Except.ok.injEq] at h
      subst h; simp; omega
    · dsimp only at h
      split at h
      · simp at h
      · rename_i page hpage
        split at h
        · simp at h
        · split at h
          · simp at h
          · rename_i off hdo
            have hle : off ≤ 8192 := by
              cases first with
              | none => simp only [Except.ok.injEq] at hdo; omega
              | some identifier =>
                dsimp only at hdo
                split at hdo
                · simp at hdo
                · rename_i ds hds
                  split at hdo
                  · simp at hdo
                  · rename_i d hd
                    simp only [Except.ok.injEq] at hdo
                    subst hdo
                    unfold getDescriptor at hd
                    split at hd
                    · simp at hd
                    · rename_i d' hfind
                      split at hd
                      · simp at hd
                      · simp only [Option.some.injEq] at hd
                        subst hd
                        exact hoff identifier rfl page ds d' hpage hds hfind
            split at h
            · simp at h
            · simp at h
            · rename_i b bs hseg
              have hlen : (b :: bs).length ≤ size := by
                unfold readSegment bufferedRead at hseg
                dsimp only at hseg
                have hrs : 0 ≤ (if (size : Int) > 8192 - (off : Int) then 8192 - (off : Int) else size) ∧
                    (if (size : Int) > 8192 - (off : Int) then 8192 - (off : Int) else size) ≤ size := by
                  split <;> omega
                generalize (if (size : Int) > 8192 - (off : Int) then 8192 - (off : Int) else size) = rs
                  at hseg hrs
                rw [if_neg (by omega)] at hseg
                simp only [Except.ok.injEq] at hseg
                unfold File.read at hseg
                dsimp only at hseg
                rw [if_neg (by omega)] at hseg
                have := congrArg List.length hseg
                rw [List.length_take] at this
                omega
              rw [show (size : Int) - ((b :: bs).length : Nat) = ((size - (b :: bs).length : Nat) : Int) by
                omega] at h
              cases hrec : recordLoop data table fuel (mapped + 1) none
                  ((size - (b :: bs).length : Nat) : Int) with
              | none => rw [hrec] at h; simp at h
              | some res =>
                rw [hrec] at h
                cases res with
                | error e => simp [Except.map] at h
                | ok rest =>
                  simp only [Option.map_some, Except.map, Option.some.injEq, Except.ok.injEq] at h
                  have := ih (mapped + 1) none (size - (b :: bs).length) rest (by simp) hrec
                  rw [← h, List.length_append, this]
                  omega

/-- Two pages: the record starts at offset 8190 of the second page of the file and goes on in the first
one. -/
def twoPages : Bytes :=
  [30, 40] ++ List.replicate 8190 0 ++
    ([7, 0, 0, 0, 0xfe, 0x1f, 0, 0, 4, 0, 0, 0, 0, 0, 0, 0] ++ List.replicate 8174 0 ++ [10, 20])

theorem twoPages_stored : Stored twoPages [1, 0] 0 8190 [10, 20, 30, 40] := by
  have h1 : slice twoPages (1 * 8192 + 8190) (1 * 8192 + 8190 + 2) = [10, 20] := by decide +kernel
  have h2 : slice twoPages (0 * 8192 + 0) (0 * 8192 + 0 + 2) = [30, 40] := by decide +kernel
  exact .page 0 8190 1 [10, 20] [30, 40] rfl (by simp) h1 (.inl rfl)
    (.page 1 0 0 [30, 40] [] rfl (by simp) h2 (.inr ⟨rfl, by simp⟩) (.done _ _))

example : getObjectRecord twoPages [1, 0] 4 0 7 4 = some (.ok [10, 20, 30, 40]) := by
  have hd : readDescriptors (twoPages.drop (1 * 8192)) = .ok [⟨7, 8190, 4, 0⟩] := by decide +kernel
  exact C36_record twoPages [1, 0] 0 1 7 [⟨7, 8190, 4, 0⟩] ⟨7, 8190, 4, 0⟩ [10, 20, 30, 40] 4 (by simp)
    rfl hd (by decide) rfl twoPages_stored (by simp)

end Dtf.Wmi
