import Verif.ChangeLog

/-!
# Opening, reading and closing files (C157, C158)

`BinaryDataFile` of dtformats/data_format.py.  The file system and what a class reads are parameters.
-/

namespace Dtf.Lifecycle
open Py DataFormat

/-! ## Model -/

/-- `GetFileSizeByPath` and `OpenFileByPath` (file_system.py 136-147 and 171-180, dfvfs_helpers.py 67-86 and 119-134): the size of a
file, and what is in the file object.  The helper of a storage media image gives no file object if there is no such file.  Simplified:
it gives no size then, which is 0 here. -/
structure Files (Path : Type) where
  size : Path → Res Nat
  content : Path → Res (Option Bytes)

/-- The attributes of the object (data_format.py 856-864), with the file objects that were opened and not closed, by number. -/
structure State (Path : Type) where
  fileObject : Option Nat
  openedInObject : Bool
  fileSize : Nat
  path : Option Path
  handles : List Nat
  next : Nat

/-- `__init__`. -/
def new {Path : Type} : State Path := ⟨none, false, 0, none, [], 0⟩

inductive Op (Path : Type)
  | open_ (path : Path)
  | close

/-- `ReadFileObject` of a class: what is read, by the size the object has and what is in the file object. -/
abbrev Reader (α : Type) := Nat → Option Bytes → Res α

/-- `Close` (data_format.py 866-879). -/
def close {Path : Type} (st : State Path) : Res Unit × State Path :=
  match st.fileObject with
  | none => (.error .osError, st)
  | some h =>
    let st := if st.openedInObject then { st with handles := st.handles.erase h, openedInObject := false } else st
    (.ok (), { st with fileObject := none, path := none })

/-- `Open` (data_format.py 881-900). -/
def open_ {Path α : Type} (files : Files Path) (read : Reader α) (st : State Path) (path : Path) : Res α × State Path :=
  if st.fileObject.isSome then (.error .osError, st)
  else
    match files.size path with
    | .error e => (.error e, st)
    | .ok size =>
      let st := { st with fileSize := size, path := some path }
      match files.content path with
      | .error e => (.error e, st)
      | .ok content =>
        let handle := if content.isSome then some st.next else none
        let st := { st with handles := handle.toList ++ st.handles, next := st.next + 1 }
        match read st.fileSize content with
        | .error e => (.error e, st)
        | .ok x => (.ok x, { st with fileObject := handle, openedInObject := true })

/-- `ReadFileObject` called with a file object. -/
def readFileObject {Path α : Type} (read : Reader α) (st : State Path) (content : Bytes) : Res α := read st.fileSize (some content)

def step {Path α : Type} (files : Files Path) (read : Reader α) (st : State Path) : Op Path → Res (Option α) × State Path
  | .open_ p => ((open_ files read st p).1.map some, (open_ files read st p).2)
  | .close => ((close st).1.map (fun _ => none), (close st).2)

/-- The state after calls. -/
def run {Path α : Type} (files : Files Path) (read : Reader α) (ops : List (Op Path)) : State Path :=
  ops.foldl (fun st op => (step files read st op).2) new

/-! ## Specification -/

/-- What a user knows of the object from the calls and what they gave: whether a file is open, and of which the size is known. -/
structure Known where
  isOpen : Bool
  size : Nat
  lost : Nat
deriving DecidableEq

/-- A call: a file is opened if none is, its size is known and it can be read.  A file that cannot be read is lost. -/
def Known.after {Path α : Type} (files : Files Path) (read : Reader α) (k : Known) : Op Path → Known
  | .close => { k with isOpen := false }
  | .open_ p =>
    if k.isOpen then k
    else
      match files.size p with
      | .error _ => k
      | .ok n =>
        match files.content p with
        | .error _ => { k with size := n }
        | .ok none => { k with size := n }
        | .ok (some b) =>
          match read n (some b) with
          | .error _ => { k with size := n, lost := k.lost + 1 }
          | .ok _ => { k with size := n, isOpen := true }

def known {Path α : Type} (files : Files Path) (read : Reader α) (ops : List (Op Path)) : Known :=
  ops.foldl (fun k op => k.after files read op) ⟨false, 0, 0⟩

/-- The object and what is known of it. -/
structure Agree {Path : Type} (st : State Path) (k : Known) : Prop where
  isOpen : st.fileObject.isSome = k.isOpen
  size : st.fileSize = k.size
  handles : st.handles.length = k.lost + (if k.isOpen then 1 else 0)
  mem : ∀ h, st.fileObject = some h → h ∈ st.handles ∧ st.openedInObject = true ∧ st.path.isSome
  nodup : st.handles.Nodup
  small : ∀ h ∈ st.handles, h < st.next

theorem agree_close {Path α : Type} (files : Files Path) (read : Reader α) (st : State Path) (k : Known) (h : Agree st k) :
    Agree (close st).2 (k.after files read (.close : Op Path)) := by
  unfold close Known.after
  cases hf : st.fileObject with
  | none =>
    have ho : k.isOpen = false := by rw [← h.isOpen, hf]; rfl
    refine ⟨by simp [hf], h.size, ?_, ?_, h.nodup, h.small⟩
    · have := h.handles
      rw [ho] at this
      simpa using this
    · intro x hx
      rw [hf] at hx
      cases hx
  | some x =>
    obtain ⟨hm, hi, hp⟩ := h.mem x hf
    have ho : k.isOpen = true := by rw [← h.isOpen, hf]; rfl
    dsimp only
    rw [if_pos hi]
    refine ⟨rfl, h.size, ?_, fun _ hx => (by cases hx), ?_, ?_⟩
    · have := h.handles
      rw [ho] at this
      simp only [if_true] at this
      simp [List.length_erase_of_mem hm, this]
    · exact h.nodup.erase _
    · intro y hy
      exact h.small y (List.mem_of_mem_erase hy)

theorem agree_open {Path α : Type} (files : Files Path) (read : Reader α) (st : State Path) (k : Known) (h : Agree st k) (p : Path) :
    Agree (open_ files read st p).2 (k.after files read (.open_ p)) := by
  unfold open_ Known.after
  by_cases ho : k.isOpen = true
  · rw [if_pos (by rw [h.isOpen]; exact ho)]
    dsimp only
    rw [if_pos ho]
    exact h
  · have hk : k.isOpen = false := by simpa using ho
    have hf : st.fileObject = none := by
      have := h.isOpen
      rw [hk] at this
      simpa using this
    rw [if_neg (by rw [h.isOpen]; exact ho)]
    dsimp only
    rw [if_neg ho]
    have hh : st.handles.length = k.lost := by simpa [hk] using h.handles
    have hnone : ∀ {P : Prop} x, st.fileObject = some x → P := fun x hx => by rw [hf] at hx; cases hx
    have hnew : st.next ∉ st.handles := fun hn => Nat.lt_irrefl _ (h.small _ hn)
    cases files.size p with
    | error e => exact h
    | ok n =>
      dsimp only
      cases files.content p with
      | error e => exact ⟨h.isOpen, rfl, h.handles, fun x hx => hnone x hx, h.nodup, h.small⟩
      | ok content =>
        dsimp only
        cases content with
        | none =>
          dsimp only [Option.isSome, Option.toList]
          cases read n none with
          | error e =>
            exact ⟨h.isOpen, rfl, h.handles, fun x hx => hnone x hx, h.nodup, fun x hx => Nat.lt_succ_of_lt (h.small x hx)⟩
          | ok x =>
            exact ⟨by simp [hk], rfl, by simpa using h.handles, fun x hx => (by simp at hx), by simpa using h.nodup,
              fun x hx => Nat.lt_succ_of_lt (h.small x (by simpa using hx))⟩
        | some b =>
          have hnd : (st.next :: st.handles).Nodup := List.nodup_cons.mpr ⟨hnew, h.nodup⟩
          have hsm : ∀ x ∈ st.next :: st.handles, x < st.next + 1 := by
            intro x hx
            rcases List.mem_cons.mp hx with rfl | hx
            · omega
            · have := h.small x hx; omega
          dsimp only [Option.isSome]
          cases read n (some b) with
          | error e =>
            refine ⟨h.isOpen, rfl, ?_, fun x hx => hnone x hx, hnd, hsm⟩
            simp [hk, hh]
          | ok x =>
            refine ⟨rfl, rfl, ?_, ?_, hnd, hsm⟩
            · simp [hh]
            · intro y hy
              simp only [if_true, Option.some.injEq] at hy
              subst hy
              exact ⟨by simp, rfl, rfl⟩

/-- C157.  After any calls, the object is open exactly if a file was opened and not closed since; it has the size of the file
whose size was asked for last; and the file objects that are open are that of the open file and those of the files that could not
be read. -/
theorem C157_state {Path α : Type} (files : Files Path) (read : Reader α) (ops : List (Op Path)) :
    Agree (run files read ops) (known files read ops) := by
  have key : ∀ (ops : List (Op Path)) st k, Agree st k →
      Agree (ops.foldl (fun st op => (step files read st op).2) st) (ops.foldl (fun k op => k.after files read op) k) := by
    intro ops
    induction ops with
    | nil => intro st k h; exact h
    | cons op ops ih =>
      intro st k h
      rw [List.foldl_cons, List.foldl_cons]
      refine ih _ _ ?_
      cases op with
      | open_ p => exact agree_open files read st k h p
      | close => exact agree_close files read st k h
  exact key ops _ _ ⟨rfl, rfl, rfl, fun _ hx => (by cases hx), List.nodup_nil, fun _ hx => (by cases hx)⟩

/-- C157.  An object that is open cannot be opened, and one that is not cannot be closed; nothing is changed then. -/
theorem C157_exclusive {Path α : Type} (files : Files Path) (read : Reader α) (ops : List (Op Path)) :
    ((known files read ops).isOpen = true → ∀ p, step files read (run files read ops) (.open_ p) =
      (.error .osError, run files read ops)) ∧
    ((known files read ops).isOpen = false → step files read (run files read ops) .close = (.error .osError, run files read ops)) := by
  have h := (C157_state files read ops).isOpen
  refine ⟨?_, ?_⟩
  · intro ho p
    rw [ho] at h
    simp only [step, open_]
    rw [if_pos h]
    rfl
  · intro ho
    rw [ho] at h
    have : (run files read ops).fileObject = none := by simpa using h
    simp only [step, close]
    rw [this]
    rfl

/-- C157.  What is opened can be closed, and then all is as before but for the size. -/
theorem C157_close {Path α : Type} (files : Files Path) (read : Reader α) (ops : List (Op Path)) (p : Path) (x : α)
    (b : Bytes) (hb : files.content p = .ok (some b)) (h : (open_ files read (run files read ops) p).1 = .ok x) :
    (step files read (run files read (ops ++ [.open_ p])) .close).1 = .ok none ∧
      (run files read (ops ++ [.open_ p, .close])).handles = (run files read ops).handles ∧
      (run files read (ops ++ [.open_ p, .close])).fileObject = none ∧
      (run files read (ops ++ [.open_ p, .close])).path = none := by
  have e1 : run files read (ops ++ [.open_ p]) = (open_ files read (run files read ops) p).2 := by
    simp [run, step]
  have e2 : run files read (ops ++ [.open_ p, .close]) = (close (open_ files read (run files read ops) p).2).2 := by
    simp [run, step]
  rw [e1, e2]
  generalize run files read ops = st at h ⊢
  unfold open_ at h ⊢
  split at h
  · cases h
  · rename_i ho
    rw [if_neg ho]
    cases hs : files.size p with
    | error e => rw [hs] at h; cases h
    | ok n =>
      rw [hs] at h
      rw [hb] at h ⊢
      dsimp only [Option.isSome] at h ⊢
      cases hr : read n (some b) with
      | error e => rw [hr] at h; cases h
      | ok y =>
        simp [step, close, Except.map]

/-- C157.  No file object that was opened by the object stays open when the object is not open. -/
def C157_handles_claim : Prop :=
  ∀ (Path α : Type) (files : Files Path) (read : Reader α) (ops : List (Op Path)),
    (run files read ops).fileObject = none → (run files read ops).handles = []

/-- C157.  That holds if every file that is opened can be read. -/
theorem C157_handles_partial {Path α : Type} (files : Files Path) (read : Reader α) (ops : List (Op Path))
    (h : ∀ p, .open_ p ∈ ops → ∀ n b, files.size p = .ok n → files.content p = .ok (some b) → ∃ x, read n (some b) = .ok x)
    (hc : (run files read ops).fileObject = none) : (run files read ops).handles = [] := by
  have ha := C157_state files read ops
  have hlost : (known files read ops).lost = 0 := by
    have key : ∀ (l : List (Op Path)) (k : Known), (∀ op ∈ l, op ∈ ops) → k.lost = 0 →
        (l.foldl (fun k op => k.after files read op) k).lost = 0 := by
      intro l
      induction l with
      | nil => intro k _ hk; exact hk
      | cons op l ih =>
        intro k hl hk
        rw [List.foldl_cons]
        refine ih _ (fun x hx => hl x (List.mem_cons_of_mem _ hx)) ?_
        cases op with
        | close => exact hk
        | open_ p =>
          unfold Known.after
          dsimp only
          by_cases ho : k.isOpen = true
          · rw [if_pos ho]
            exact hk
          · rw [if_neg ho]
            cases hs : files.size p with
            | error e => exact hk
            | ok n =>
              dsimp only
              cases hb : files.content p with
              | error e => exact hk
              | ok c =>
                cases c with
                | none => exact hk
                | some b =>
                  obtain ⟨x, hx⟩ := h p (hl _ List.mem_cons_self) n b hs hb
                  dsimp only
                  rw [hx]
                  exact hk
    exact key ops _ (fun _ hx => hx) rfl
  have hn := ha.handles
  have ho : (known files read ops).isOpen = false := by rw [← ha.isOpen, hc]; rfl
  rw [hlost, ho] at hn
  exact List.eq_nil_of_length_eq_zero (by simpa using hn)

/-- A file that cannot be read. -/
def damaged : Files Unit := ⟨fun _ => .ok 1, fun _ => .ok (some [0])⟩

/-- C157.  The claim is false: when a file cannot be read, its file object stays open. -/
theorem C157_handles_claim_false : ¬ C157_handles_claim := by
  intro h
  have := h Unit Unit damaged (fun _ _ => .error .parseError) [.open_ ()] rfl
  cases this

/-- Files by number: the first can be read, the second has a byte that cannot, the third is not there. -/
def three : Files (Fin 3) :=
  ⟨fun p => if p = 2 then .error .osError else .ok (p.val + 1), fun p => if p = 0 then .ok (some [7]) else .ok (some [7, 0])⟩

/-- A class that raises if there is a byte of 0. -/
def strict : Reader Bytes
  | _, none => .error .valueError
  | _, some b => if 0 ∈ b then .error .parseError else .ok b

example : known three strict [.open_ 1, .open_ 2, .open_ 1, .open_ 0, .open_ 1] = ⟨true, 1, 2⟩ := by decide
example : (run three strict [.open_ 1, .open_ 2, .open_ 1, .open_ 0, .open_ 1]).handles = [2, 1, 0] := by decide
example : (run three strict [.open_ 1, .open_ 0, .close, .close]).handles = [0] := by decide
example : (open_ three strict (run three strict [.open_ 1, .open_ 2]) 0).1 = .ok [7] := rfl
example : (run three strict [.open_ 0, .close, .open_ 2, .open_ 0, .close]).handles = [] :=
  C157_handles_partial three strict _ (by
    intro p hp n b hn hb
    have hb' : p = 0 ∨ p = 2 := by simpa [or_comm] using hp
    rcases hb' with rfl | rfl
    · simp only [three, if_true] at hb
      cases hb
      exact ⟨[7], rfl⟩
    · simp [three] at hn) rfl

/-! ## C158: reading does not depend on what the object was used for -/

/-- What is read from a file object is what is read from a file with these contents that is opened by its path, whatever the
object was used for before. -/
def C158_history_claim : Prop :=
  ∀ (Path α : Type) (files : Files Path) (read : Reader α) (ops : List (Op Path)) (content : Bytes),
    readFileObject read (run files read ops) content = read content.length (some content)

/-- C158, exactly: what is read depends on the size of the file that was opened last. -/
theorem C158_size {Path α : Type} (files : Files Path) (read : Reader α) (ops : List (Op Path)) (content : Bytes) :
    readFileObject read (run files read ops) content = read (known files read ops).size (some content) := by
  unfold readFileObject
  rw [(C157_state files read ops).size]

/-- C158, the part that holds: for a class that does not use the size, and for contents of the size of the last file. -/
theorem C158_history_partial {Path α : Type} (files : Files Path) (read : Reader α) (ops : List (Op Path)) (content : Bytes)
    (h : (∀ n m, read n (some content) = read m (some content)) ∨ (known files read ops).size = content.length) :
    readFileObject read (run files read ops) content = read content.length (some content) := by
  rw [C158_size]
  rcases h with h | h
  · exact h _ _
  · rw [h]

/-- A class that reads entries up to the size. -/
def walker {σ : Type} (step : Bytes → Nat → Res (σ × Nat)) (start : Nat) : Reader (Option (List σ))
  | _, none => .error .attributeError
  | size, some b =>
    match walk (step b) size (size + 1) start [] with
    | none => .ok none
    | some (.error e) => .error e
    | some (.ok l) => .ok (some l)

/-- C158.  An object that was never opened finds no entries in a file object, whatever is in it. -/
theorem C158_never_opened {Path σ : Type} (step : Bytes → Nat → Res (σ × Nat)) (start : Nat) (content : Bytes) :
    readFileObject (walker step start) (new : State Path) content = .ok (some []) := by
  show walker step start 0 (some content) = _
  unfold walker
  dsimp only
  rw [walk, if_neg (Nat.not_lt_zero _)]

/-- The entries read up to a smaller size are the first ones. -/
theorem walk_smaller {σ : Type} (step : Nat → Res (σ × Nat)) (small size : Nat) (hs : small ≤ size) :
    ∀ fuel off acc out, walk step size fuel off acc = some (.ok out) →
      ∃ out', walk step small fuel off acc = some (.ok out') ∧ out' <+: out := by
  have hpre : ∀ fuel off acc out, walk step size fuel off acc = some (.ok out) → acc <+: out := by
    intro fuel
    induction fuel with
    | zero => intro off acc out h; simp [walk] at h
    | succ fuel ih =>
      intro off acc out h
      rw [walk] at h
      split at h
      · cases hst : step off with
        | error e => rw [hst] at h; simp at h
        | ok r =>
          obtain ⟨x, next⟩ := r
          rw [hst] at h
          exact (List.prefix_append acc [x]).trans (ih _ _ _ h)
      · simp only [Option.some.injEq, Except.ok.injEq] at h
        rw [h]
        exact List.prefix_refl _
  intro fuel
  induction fuel with
  | zero => intro off acc out h; simp [walk] at h
  | succ fuel ih =>
    intro off acc out h
    by_cases ho : off < small
    · rw [walk, if_pos ho]
      rw [walk, if_pos (by omega)] at h
      cases hst : step off with
      | error e => rw [hst] at h; simp at h
      | ok r =>
        obtain ⟨x, next⟩ := r
        rw [hst] at h
        exact ih _ _ _ h
    · refine ⟨acc, by rw [walk, if_neg ho], hpre _ _ _ _ h⟩

/-- C158.  An object that was opened for a smaller file before finds only the first entries, without an error. -/
theorem C158_smaller {Path σ : Type} (files : Files Path) (stepOf : Bytes → Nat → Res (σ × Nat)) (start : Nat)
    (ops : List (Op Path)) (content : Bytes) (l : List σ)
    (h : walker stepOf start content.length (some content) = .ok (some l))
    (hs : (known files (walker stepOf start) ops).size ≤ content.length)
    (hterm : ∀ off x next, stepOf content off = .ok (x, next) → off < next) :
    ∃ l', readFileObject (walker stepOf start) (run files (walker stepOf start) ops) content = .ok (some l') ∧ l' <+: l := by
  rw [C158_size]
  generalize (known files (walker stepOf start) ops).size = size at hs
  unfold walker at h ⊢
  dsimp only at h ⊢
  cases hw : walk (stepOf content) content.length (content.length + 1) start [] with
  | none => rw [hw] at h; simp at h
  | some r =>
    rw [hw] at h
    cases r with
    | error e => simp at h
    | ok out =>
      simp only [Except.ok.injEq, Option.some.injEq] at h
      subst h
      obtain ⟨out', h1, h2⟩ := walk_smaller (stepOf content) size content.length hs _ _ _ _ hw
      refine ⟨out', ?_, h2⟩
      cases hw' : walk (stepOf content) size (size + 1) start [] with
      | none =>
        exfalso
        have := walk_terminates (stepOf content) size (fun off x next _ hx => hterm off x next hx) start []
        cases hw'' : walk (stepOf content) size (size - start + 1) start [] with
        | none => exact this hw''
        | some r =>
          have := walk_mono (stepOf content) size (size - start + 1) (size + 1 - (size - start + 1)) start [] r hw''
          rw [show size - start + 1 + (size + 1 - (size - start + 1)) = size + 1 by omega, hw'] at this
          cases this
      | some r =>
        have := walk_mono (stepOf content) size (size + 1) (content.length - size) start [] r hw'
        rw [show size + 1 + (content.length - size) = content.length + 1 by omega, h1] at this
        simp only [Option.some.injEq] at this
        subst this
        rfl

/-- The reader of change logs with a size. -/
def changeLog : Reader (Option (List ChangeLog.Entry))
  | _, none => .error .valueError
  | size, some b =>
    match ChangeLog.readHeader b with
    | .error e => .error e
    | .ok pos =>
      match walk (ChangeLog.readEntry b) size (size + 1) pos [] with
      | none => .ok none
      | some (.error e) => .error e
      | some (.ok l) => .ok (some l)

/-- With the size of the file it is the reader of C94. -/
theorem changeLog_size (b : Bytes) (l : List ChangeLog.Entry)
    (h : ChangeLog.readLog b (b.length + 1) = some (.ok l)) : changeLog b.length (some b) = .ok (some l) := by
  unfold ChangeLog.readLog at h
  unfold changeLog
  dsimp only
  cases hh : ChangeLog.readHeader b with
  | error e => rw [hh] at h; cases h
  | ok pos =>
    rw [hh] at h
    dsimp only at h ⊢
    rw [h]

/-- C158.  All entries of a change log are read from a file that is opened, but none from a file object. -/
theorem C158_change_log {Path : Type} (path : Bytes) (entries : List ChangeLog.StoredEntry) (hp : 28 + path.length < 2 ^ 32)
    (h : ∀ e ∈ entries, e.Ok) :
    changeLog (ChangeLog.logBytes path entries).length (some (ChangeLog.logBytes path entries)) =
      .ok (some (entries.map (·.value))) ∧
    readFileObject changeLog (new : State Path) (ChangeLog.logBytes path entries) = .ok (some []) := by
  refine ⟨changeLog_size _ _ (ChangeLog.C94_entries path entries hp h _ ?_), ?_⟩
  · have hl : ∀ l : List ChangeLog.StoredEntry, (∀ e ∈ l, e.Ok) → l.length ≤ (l.flatMap (·.bytes)).length := by
      intro l
      induction l with
      | nil => intro _; exact Nat.le_refl _
      | cons e l ih =>
        intro hl
        have h1 := ChangeLog.head_length e (hl e List.mem_cons_self)
        have h2 := ih (fun x hx => hl x (List.mem_cons_of_mem _ hx))
        simp only [List.flatMap_cons, List.length_append, List.length_cons, ChangeLog.StoredEntry.bytes] at h2 ⊢
        omega
    have := hl entries h
    simp only [ChangeLog.logBytes, List.length_append]
    omega
  · show changeLog 0 (some _) = _
    unfold changeLog ChangeLog.logBytes
    dsimp only
    rw [ChangeLog.readHeader_bytes path _ hp]
    dsimp only
    rw [walk, if_neg (Nat.not_lt_zero _)]

/-- C158.  The claim is false. -/
theorem C158_history_claim_false : ¬ C158_history_claim := by
  intro h
  have := h Unit (Option (List Nat)) damaged (walker (fun b off => .ok ((b.getD off 0).toNat, off + 1)) 0) [] [7]
  rw [show run damaged (walker (fun b off => Except.ok ((b.getD off 0).toNat, off + 1)) 0) [] = new from rfl, C158_never_opened] at this
  have e : walker (fun b off => .ok ((b.getD off 0).toNat, off + 1)) 0 [(7 : UInt8)].length (some [7]) = .ok (some [7]) := rfl
  rw [e] at this
  simp at this

/-- A class that reads a byte at a time. -/
def byByte : Bytes → Nat → Res (UInt8 × Nat) := fun b off => .ok (b.getD off 0, off + 1)

example : walker byByte 0 3 (some [5, 6, 7]) = .ok (some [5, 6, 7]) := rfl
example : (known three (walker byByte 0) [.open_ 1, .close]).size = 2 := by decide +kernel
example : readFileObject (walker byByte 0) (run three (walker byByte 0) [.open_ 1, .close]) [5, 6, 7] = .ok (some [5, 6]) := by
  rw [C158_size, show (known three (walker byByte 0) [.open_ 1, .close]).size = 2 by decide +kernel]
  rfl

end Dtf.Lifecycle
