import Verif.DataFormat.Model

/-!
# Properties of the reading core (C05, C06, C07)
-/

namespace Dtf.DataFormat
open Py

/-! ## C06: exact reads -/

/-- C06.  Data is returned exactly when all requested bytes exist, and then it is these
bytes. -/
theorem C06_exact_or_error (f : File) (off size : Int) (b : Bytes) :
    (readData (some f) off size).1 = .ok b ↔
      ∃ o n : Nat, off = o ∧ size = n ∧ b.length = n ∧ b = (f.data.drop o).take n := by
  unfold readData File.seekSet File.read
  constructor
  · intro h
    by_cases ho : off < 0
    · simp [ho] at h
    · by_cases hs : size < 0
      · simp only [ho, hs, if_false, if_true] at h
        split at h
        · simp at h
        · omega
      · simp only [ho, hs, if_false] at h
        split at h
        · simp at h
        · rename_i hne
          simp only [Except.ok.injEq] at h
          refine ⟨off.toNat, size.toNat, by omega, by omega, ?_, h.symm⟩
          rw [← h]
          omega
  · rintro ⟨o, n, rfl, rfl, hl, hb⟩
    have h1 : ¬ ((o : Int) < 0) := by omega
    have h2 : ¬ ((n : Int) < 0) := by omega
    simp only [h1, h2, if_false, Int.toNat_natCast, ← hb, hl, ne_eq, not_true_eq_false]

example : (readData (some ⟨[1, 2, 3, 4], 0⟩) 1 2).1 = .ok [2, 3] := by decide

/-- C06.  When the bytes do not all exist the error is a parse error, unless the offset
is negative, which is an operating system error. -/
theorem C06_short_is_parse_error (f : File) (off size : Int) (hoff : 0 ≤ off)
    (h : size < 0 ∨ (f.data.length : Int) < off + size ∧ 0 < size) :
    (readData (some f) off size).1 = .error .parseError := by
  unfold readData File.seekSet File.read
  have ho : ¬ off < 0 := by omega
  by_cases hs : size < 0
  · have hne : ((f.data.length - off.toNat : Nat) : Int) ≠ size := by omega
    simp [ho, hs, hne]
  · have hne : ((min size.toNat (f.data.length - off.toNat) : Nat) : Int) ≠ size := by omega
    simp only [ho, hs, if_false, List.length_take, List.length_drop, hne, ne_eq,
      not_false_eq_true, if_true]

example : (0 : Int) ≤ 3 ∧ ((4 : Int) < 3 + 2 ∧ (0 : Int) < 2) := by decide

theorem C06_negative_offset (f : File) (off size : Int) (hoff : off < 0) :
    (readData (some f) off size).1 = .error .osError := by
  simp [readData, File.seekSet, hoff]

/-! ## C07: structure reads -/

theorem readData_file (f : File) (off size : Int) (b : Bytes) (f' : Option File)
    (h : readData (some f) off size = (.ok b, f')) :
    ∃ g, f' = some g ∧ g.data = f.data ∧ (g.pos : Int) = off + size ∧ 0 ≤ off := by
  unfold readData File.seekSet File.read at h
  by_cases ho : off < 0
  · simp [ho] at h
  · by_cases hs : size < 0
    · have hne : ((f.data.length - off.toNat : Nat) : Int) ≠ size := by omega
      simp [ho, hs, hne] at h
    · simp only [ho, hs, if_false] at h
      split at h
      · simp at h
      · rename_i hne
        simp only [Prod.mk.injEq, Except.ok.injEq] at h
        obtain ⟨_, h⟩ := h
        refine ⟨_, h.symm, rfl, ?_, by omega⟩
        simp only [ne_eq, Decidable.not_not] at hne
        simp only
        omega

/-- The loop invariant: what has been read is the contiguous run of the file that starts
at the offset. -/
theorem loop_contiguous {σ : Type} (m : DataTypeMap σ) (off fuel : Nat) (f : File) (data : Bytes)
    (last hint : Int) (hl : last = data.length) (hd : data = (f.data.drop off).take data.length)
    (v : σ) (n : Int) (f' : File)
    (h : readStructureLoop m off fuel f data last hint = some (.ok (v, n), f')) :
    ∃ run : Bytes, run = (f.data.drop off).take run.length ∧ n = run.length ∧
      m.mapByteStream run = .mapped v ∧ data.length < run.length ∧ f'.data = f.data ∧
      f'.pos = off + run.length := by
  induction fuel generalizing f data last hint with
  | zero => simp [readStructureLoop] at h
  | succ fuel ih =>
    rw [readStructureLoop] at h
    split at h
    · simp at h
    · rename_i hne
      split at h
      · simp at h
      · rename_i seg fo hr
        obtain ⟨g, rfl, hg, hgpos, _⟩ := readData_file _ _ _ _ _ hr
        have hex := (C06_exact_or_error f _ _ seg).mp (by rw [hr])
        obtain ⟨o, k, ho, hk, hsl, hseg⟩ := hex
        have hok : o = off + data.length := by omega
        have hcat : data ++ seg = (f.data.drop off).take (data ++ seg).length := by
          rw [List.length_append, List.take_add, ← hd, List.drop_drop, ← hok, hsl, ← hseg]
        have hkpos : 0 < k := by omega
        simp only [Option.getD_some] at h
        split at h
        · rename_i values hm
          simp only [Option.some.injEq, Prod.mk.injEq, Except.ok.injEq] at h
          obtain ⟨⟨rfl, rfl⟩, rfl⟩ := h
          refine ⟨data ++ seg, hcat, ?_, hm, ?_, hg, ?_⟩
          · simp only [List.length_append]; omega
          · simp only [List.length_append]; omega
          · simp only [List.length_append]; omega
        · simp at h
        · rename_i nh hm
          obtain ⟨run, r1, r2, r3, r4, r5, r6⟩ := ih g (data ++ seg) hint nh
            (by simp only [List.length_append]; omega) (by rw [hg]; exact hcat) h
          rw [hg] at r1 r5
          exact ⟨run, r1, r2, r3, by simp only [List.length_append] at r4; omega, r5, r6⟩

/-- C07.  A structure that is returned is the mapping of a contiguous non-empty run of
the file that starts at the offset; the size returned is the length of that run and the
file is positioned after it. -/
theorem C07_structure_is_contiguous {σ : Type} (m : DataTypeMap σ) (off fuel : Nat) (f : File)
    (v : σ) (n : Int) (f' : File) (h : readStructure m fuel f off = some (.ok (v, n), f')) :
    ∃ run : Bytes, run = (f.data.drop off).take run.length ∧ n = run.length ∧
      0 < run.length ∧ off + run.length ≤ f.data.length ∧
      m.mapByteStream run = .mapped v ∧ f'.data = f.data ∧ f'.pos = off + run.length := by
  obtain ⟨run, h1, h2, h3, h4, h5, h6⟩ :=
    loop_contiguous m off fuel f [] 0 m.sizeHint rfl (by simp) v n f' h
  refine ⟨run, h1, h2, by simpa using h4, ?_, h3, h5, h6⟩
  have := congrArg List.length h1
  simp only [List.length_take, List.length_drop] at this
  simp only [List.length_nil] at h4
  omega

theorem loop_terminates {σ : Type} (m : DataTypeMap σ) (off fuel : Nat) (f : File) (data : Bytes)
    (last hint : Int) (hl : last = data.length) (hle : off + data.length ≤ max f.data.length off)
    (hf : f.data.length - (off + data.length) + 2 ≤ fuel) :
    readStructureLoop m off fuel f data last hint ≠ none := by
  induction fuel generalizing f data last hint with
  | zero => omega
  | succ fuel ih =>
    rw [readStructureLoop]
    split
    · simp
    · rename_i hne
      split
      · simp
      · rename_i seg fo hr
        obtain ⟨g, rfl, hg, hgpos, _⟩ := readData_file _ _ _ _ _ hr
        obtain ⟨o, k, ho, hk, hsl, hseg⟩ := (C06_exact_or_error f _ _ seg).mp (by rw [hr])
        have hlen := congrArg List.length hseg
        simp only [List.length_take, List.length_drop] at hlen
        simp only [Option.getD_some]
        split
        · simp
        · simp
        · apply ih
          · simp only [List.length_append]; omega
          · simp only [List.length_append, hg]; omega
          · simp only [List.length_append, hg]; omega

/-- C07.  Reading a structure terminates for every data type map, whatever size hints it
gives, and for every file and offset. -/
theorem C07_terminates {σ : Type} (m : DataTypeMap σ) (f : File) (off : Int) :
    readStructure m (f.data.length + 2) f off ≠ none := by
  by_cases ho : off < 0
  · unfold readStructure
    rw [readStructureLoop]
    split
    · simp
    · have : readData (some f) (off + 0) (m.sizeHint - 0) = (.error .osError, some f) := by
        simp [readData, File.seekSet, ho]
      rw [this]
      simp
  · obtain ⟨o, rfl⟩ : ∃ o : Nat, off = o := ⟨off.toNat, by omega⟩
    exact loop_terminates m o _ f [] 0 _ rfl (by simp; omega) (by simp)

/-- C07.  More fuel never changes the answer, so the answer with the fuel above is the
answer of the unbounded loop. -/
theorem C07_fuel_irrelevant {σ : Type} (m : DataTypeMap σ) (f : File) (off : Int) (fuel k : Nat)
    (r : Res (σ × Int) × File) (h : readStructure m fuel f off = some r) :
    readStructure m (fuel + k) f off = some r := by
  unfold readStructure at *
  generalize ([] : Bytes) = data at *
  generalize (0 : Int) = last at *
  generalize m.sizeHint = hint at *
  induction fuel generalizing f data last hint with
  | zero => simp [readStructureLoop] at h
  | succ fuel ih =>
    rw [Nat.succ_add, readStructureLoop]
    rw [readStructureLoop] at h
    split
    · rename_i hc; simpa [hc] using h
    · rename_i hc
      simp only [hc, if_false] at h
      split
      · rename_i e f' hr; simpa [hr] using h
      · rename_i seg f' hr
        simp only [hr] at h
        dsimp only
        split
        · rename_i v hm; simpa [hm] using h
        · rename_i hm; simpa [hm] using h
        · rename_i nh hm
          simp only [hm] at h
          exact ih _ _ _ _ h

/-- A map for a string with a length byte, used to show that the theorems about structure
reads speak about real reads. -/
def pascal : DataTypeMap Bytes where
  sizeHint := 1
  mapByteStream
    | [] => .tooSmall 1
    | n :: rest =>
      if rest.length < n.toNat then .tooSmall (1 + n.toNat) else .mapped (rest.take n.toNat)

example : readStructure pascal 7 ⟨[9, 9, 2, 65, 66], 0⟩ 2 =
    some (.ok ([65, 66], 3), ⟨[9, 9, 2, 65, 66], 5⟩) := by decide

/-! ## C05: the open/close protocol -/

/-- The object holds an opened file. -/
def Obj.isOpen (o : Obj) : Bool := o.fileObject.isSome

/-- The number of calls of a history that opened a file whose parsing then failed. -/
def failedParses (o : Bool) : List Op → Nat
  | [] => 0
  | .close :: ops => failedParses false ops
  | .open sizeKnown openable parse :: ops =>
    if o then failedParses true ops
    else if sizeKnown && openable then
      (if parse.isSome then 1 + failedParses false ops else failedParses true ops)
    else failedParses false ops

/-- The specification of the protocol: a boolean that says whether the file is open, and
whether a call succeeds. -/
def protocol (o : Bool) : Op → Bool × Bool
  | .close => (o, false)
  | .open sizeKnown openable parse =>
    if o then (false, true) else
      let ok := sizeKnown && openable && parse.isNone
      (ok, ok)

def runProtocol (o : Bool) : List Op → List Bool × Bool
  | [] => ([], o)
  | op :: ops =>
    let s := protocol o op
    let r := runProtocol s.2 ops
    (s.1 :: r.1, r.2)

/-- The object's bookkeeping: the held file is live, was opened by the object, and
handles are numbered in the order they are opened. -/
structure ObjInv (o : Obj) (w : World) : Prop where
  held : ∀ h, o.fileObject = some h → h ∈ w.live ∧ o.openedInObject = true
  closed : o.fileObject = none → o.openedInObject = false
  bound : ∀ h ∈ w.live, h < w.opened
  nodup : w.live.Nodup

theorem ObjInv.init : ObjInv newObj ⟨[], 0⟩ where
  held := by simp [newObj]
  closed := by simp [newObj]
  bound := by simp
  nodup := by simp

theorem ObjInv.step {o : Obj} {w : World} (h : ObjInv o w) (op : Op) :
    ObjInv (stepObj o w op).2.1 (stepObj o w op).2.2 := by
  cases op with
  | close =>
    unfold stepObj
    cases hf : o.fileObject with
    | none => simpa [hf] using h
    | some k =>
      have := (h.held k hf).2
      simp only [this, if_true]
      exact { held := by simp, closed := by simp
              bound := fun x hx => h.bound x (List.mem_of_mem_erase hx)
              nodup := h.nodup.erase k }
  | «open» s a p =>
    unfold stepObj
    cases hf : o.fileObject with
    | some k => simpa [hf] using h
    | none =>
      simp only
      split
      · exact h
      · split
        · exact h
        · have hb : ∀ x ∈ w.opened :: w.live, x < w.opened + 1 := by
            intro x hx
            rcases List.mem_cons.mp hx with rfl | hx
            · omega
            · have := h.bound x hx; omega
          have hn : (w.opened :: w.live).Nodup := by
            refine List.nodup_cons.mpr ⟨fun hm => ?_, h.nodup⟩
            exact Nat.lt_irrefl _ (h.bound _ hm)
          cases p with
          | some e =>
            exact { held := by simp [hf], closed := fun _ => h.closed hf, bound := hb, nodup := hn }
          | none =>
            exact { held := by simp, closed := by simp, bound := hb, nodup := hn }

theorem ObjInv.run {o : Obj} {w : World} (h : ObjInv o w) (ops : List Op) :
    ObjInv (runObj o w ops).2.1 (runObj o w ops).2.2 := by
  induction ops generalizing o w with
  | nil => exact h
  | cons op ops ih => exact ih (h.step op)

/-- C05.  For every history of calls, exactly the calls that the two-state protocol
accepts succeed, and the object is open exactly when the protocol says so. -/
theorem C05_follows_protocol (ops : List Op) :
    (runObj newObj ⟨[], 0⟩ ops).1.map (fun r => r.toBool) = (runProtocol false ops).1 ∧
      (runObj newObj ⟨[], 0⟩ ops).2.1.isOpen = (runProtocol false ops).2 := by
  suffices h : ∀ (ops : List Op) (o : Obj) (w : World) ,
      (runObj o w ops).1.map (fun r => r.toBool) = (runProtocol o.isOpen ops).1 ∧
      (runObj o w ops).2.1.isOpen = (runProtocol o.isOpen ops).2 from h ops newObj ⟨[], 0⟩
  intro ops
  induction ops with
  | nil => intro o w; exact ⟨rfl, rfl⟩
  | cons op ops ih =>
    intro o w
    have hstep : (stepObj o w op).1.toBool = (protocol o.isOpen op).1 ∧
        (stepObj o w op).2.1.isOpen = (protocol o.isOpen op).2 := by
      cases op with
      | close => cases hf : o.fileObject <;> simp [stepObj, protocol, Obj.isOpen, hf, Except.toBool]
      | «open» s a p =>
        cases hf : o.fileObject <;> cases s <;> cases a <;> cases p <;>
          simp [stepObj, protocol, Obj.isOpen, hf, Except.toBool]
    have := ih (stepObj o w op).2.1 (stepObj o w op).2.2
    simp only [runObj, runProtocol, List.map_cons, hstep.1]
    rw [← hstep.2]
    exact ⟨by rw [this.1], this.2⟩

example : (runProtocol false [.close, .open true true none, .open true true none, .close, .close,
    .open true true (some .parseError), .open true true none]) =
    ([false, true, false, true, false, false, true], true) := by decide

/-- C05.  A refused call changes neither the object nor the set of live handles, unless it
is an `Open` whose parsing failed. -/
theorem C05_refused_call_changes_nothing (o : Obj) (w : World) (op : Op) (e : Err)
    (h : (stepObj o w op).1 = .error e)
    (hp : ∀ s a p, op = .open s a p → p = none ∨ o.isOpen = true ∨ (s && a) = false) :
    (stepObj o w op).2 = (o, w) := by
  cases op with
  | close => cases hf : o.fileObject <;> simp_all [stepObj]
  | «open» s a p =>
    have := hp s a p rfl
    cases hf : o.fileObject <;> cases s <;> cases a <;> cases p <;>
      simp_all [stepObj, Obj.isOpen]

example : (stepObj newObj ⟨[], 0⟩ .close).1 = .error .osError := by decide

/-- The claim of C05 about handles: whenever the object is closed, every handle it opened
has been closed. -/
def C05_handles_claim : Prop :=
  ∀ ops : List Op, (runObj newObj ⟨[], 0⟩ ops).2.1.isOpen = false →
    (runObj newObj ⟨[], 0⟩ ops).2.2.live = []

/-- C05 is false of the code: when parsing raises, the handle opened for it stays open and
nothing refers to it any more. -/
theorem C05_failed_open_leaks : ¬ C05_handles_claim := by
  intro h
  exact absurd (h [.open true true (some .parseError)] (by decide)) (by decide)

/-- C05, what holds instead: the number of live handles is one for an opened object plus
one for every `Open` whose parsing raised. -/
theorem C05_live_handles_partial (ops : List Op) :
    (runObj newObj ⟨[], 0⟩ ops).2.2.live.length =
      (if (runObj newObj ⟨[], 0⟩ ops).2.1.isOpen then 1 else 0) + failedParses false ops := by
  suffices h : ∀ (ops : List Op) (o : Obj) (w : World), ObjInv o w →
      (runObj o w ops).2.2.live.length + (if o.isOpen then 1 else 0) =
        w.live.length + ((if (runObj o w ops).2.1.isOpen then 1 else 0) +
          failedParses o.isOpen ops) by
    have := h ops newObj ⟨[], 0⟩ ObjInv.init
    simpa [newObj, Obj.isOpen] using this
  intro ops
  induction ops with
  | nil => intro o w _; cases h : o.isOpen <;> simp [runObj, failedParses, h]
  | cons op ops ih =>
    intro o w hinv
    have := ih _ _ (hinv.step op)
    simp only [runObj]
    cases op with
    | close =>
      cases hf : o.fileObject with
      | none =>
        simp only [stepObj, hf, Obj.isOpen, failedParses, Option.isSome_none, Bool.false_eq_true,
          if_false] at this ⊢
        exact this
      | some k =>
        obtain ⟨hk, hopen⟩ := hinv.held k hf
        have hlen := List.length_erase_of_mem hk
        have hpos : 0 < w.live.length := List.length_pos_of_mem hk
        simp only [stepObj, hf, Obj.isOpen, failedParses, Option.isSome_none, Option.isSome_some,
          Bool.false_eq_true, if_false, hopen, if_true, hlen] at this ⊢
        omega
    | «open» s a p =>
      cases hf : o.fileObject with
      | some k =>
        simp only [stepObj, hf, Obj.isOpen, failedParses, Option.isSome_some, if_true] at this ⊢
        exact this
      | none =>
        cases s <;> cases a <;> cases p <;>
          simp [stepObj, hf, Obj.isOpen, failedParses] at this ⊢ <;> omega

/-- C05.  Without failed parses nothing is left open once the object is closed. -/
theorem C05_no_leak_partial (ops : List Op) (hok : failedParses false ops = 0)
    (hclosed : (runObj newObj ⟨[], 0⟩ ops).2.1.isOpen = false) :
    (runObj newObj ⟨[], 0⟩ ops).2.2.live = [] := by
  have := C05_live_handles_partial ops
  simp only [hclosed, hok, Bool.false_eq_true, if_false] at this
  exact List.length_eq_zero_iff.mp this

example : failedParses false [.open true true none, .close, .open true false none] = 0 := by decide

/-- C07.  Reading a structure from bytes returns a structure exactly when there are bytes, there
is a map and the map maps all of them; missing bytes or a missing map are a `ValueError` and a map
that does not fit is a parse error. -/
theorem C07_from_byte_stream {σ : Type} (m : Option (DataTypeMap σ)) (bytes : Bytes) (r : Res σ)
    (h : readStructureFromByteStream m bytes = r) :
    (∀ v, r = .ok v ↔ bytes ≠ [] ∧ ∃ map, m = some map ∧ map.mapByteStream bytes = .mapped v) ∧
    (r = .error .valueError ↔ bytes = [] ∨ m = none) ∧
    (r = .error .parseError ↔ bytes ≠ [] ∧ ∃ map, m = some map ∧
      ∀ v, map.mapByteStream bytes ≠ .mapped v) := by
  subst h
  unfold readStructureFromByteStream
  by_cases hb : bytes = []
  · simp [hb]
  · cases m with
    | none => simp [hb]
    | some map => cases hm : map.mapByteStream bytes <;> simp [hb, hm]

example : readStructureFromByteStream (some (⟨1, fun b => if b = [1] then .mapped 5 else .tooSmall 1⟩ : DataTypeMap Nat)) [1] = .ok 5 := by
  decide

end Dtf.DataFormat
