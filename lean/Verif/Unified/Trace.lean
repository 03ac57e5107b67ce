import Verif.Sequence
import Verif.Formats.Props
import Mathlib.Tactic.NormNum
import Mathlib.Data.List.Forall2

/-!
# Trace identifiers, time synchronisation and directories of the unified logs (C33, C34, C74-C76)
-/

namespace Dtf.Unified
open Py DataFormat

/-! ## C33: trace identifiers -/

/-- The values of a firehose tracepoint that make its trace identifier (aul_tracev3.yaml: 32, 16, 8
and 8 bits). -/
structure Tracepoint where
  formatStringReference : Nat
  flags : Nat
  logType : Nat
  recordType : Nat
deriving DecidableEq, Repr

def Tracepoint.Ok (t : Tracepoint) : Prop :=
  t.formatStringReference < 2 ^ 32 ∧ t.flags < 2 ^ 16 ∧ t.logType < 2 ^ 8 ∧ t.recordType < 2 ^ 8

/-- `_GetTraceIdentifier` (unified_logging.py 3373-3391). -/
def traceIdentifier (t : Tracepoint) : Nat :=
  (t.formatStringReference <<< 32) ||| (t.flags <<< 16) ||| (t.logType <<< 8) ||| t.recordType

theorem traceIdentifier_eq (t : Tracepoint) (h : t.Ok) :
    traceIdentifier t = t.formatStringReference * 2 ^ 32 + t.flags * 2 ^ 16 + t.logType * 2 ^ 8 +
      t.recordType := by
  obtain ⟨h1, h2, h3, h4⟩ := h
  unfold traceIdentifier
  rw [← Nat.shiftLeft_add_eq_or_of_lt (i := 32) (by rw [Nat.shiftLeft_eq]; omega)]
  have e1 : t.formatStringReference <<< 32 + t.flags <<< 16 =
      (t.formatStringReference <<< 16 + t.flags) <<< 16 := by
    simp only [Nat.shiftLeft_eq]; omega
  rw [e1, ← Nat.shiftLeft_add_eq_or_of_lt (i := 16) (by rw [Nat.shiftLeft_eq]; omega)]
  have e2 : (t.formatStringReference <<< 16 + t.flags) <<< 16 + t.logType <<< 8 =
      ((t.formatStringReference <<< 16 + t.flags) <<< 8 + t.logType) <<< 8 := by
    simp only [Nat.shiftLeft_eq]; omega
  rw [e2, ← Nat.shiftLeft_add_eq_or_of_lt (i := 8) (by omega)]
  simp only [Nat.shiftLeft_eq]
  omega

/-- **C33**: a trace identifier has 64 bits and gives back the values of the tracepoint. -/
theorem C33_recovers (t : Tracepoint) (h : t.Ok) :
    traceIdentifier t < 2 ^ 64 ∧
      traceIdentifier t / 2 ^ 32 = t.formatStringReference ∧
      traceIdentifier t / 2 ^ 16 % 2 ^ 16 = t.flags ∧
      traceIdentifier t / 2 ^ 8 % 2 ^ 8 = t.logType ∧
      traceIdentifier t % 2 ^ 8 = t.recordType := by
  rw [traceIdentifier_eq t h]
  obtain ⟨h1, h2, h3, h4⟩ := h
  omega

/-- **C33**: different tracepoints have different trace identifiers. -/
theorem C33_injective (s t : Tracepoint) (hs : s.Ok) (ht : t.Ok)
    (h : traceIdentifier s = traceIdentifier t) : s = t := by
  obtain ⟨_, a1, a2, a3, a4⟩ := C33_recovers s hs
  obtain ⟨_, b1, b2, b3, b4⟩ := C33_recovers t ht
  rw [h] at a1 a2 a3 a4
  cases s
  cases t
  simp_all

example : traceIdentifier ⟨0x12345678, 0x0102, 0x11, 0x04⟩ = 0x1234567801021104 ∧
    Tracepoint.Ok ⟨0x12345678, 0x0102, 0x11, 0x04⟩ := by
  unfold Tracepoint.Ok
  decide

/-! ## Timesync databases: model -/

/-- A `timesync_boot_record` (aul_timesync.yaml), without the values that are only displayed. -/
structure Boot where
  recordSize : Nat
  ident : Bytes
  numerator : Nat
  denominator : Nat
  timestamp : Int
deriving DecidableEq, Repr

/-- A `timesync_sync_record`. -/
structure Sync where
  recordSize : Nat
  kernelTime : Nat
  timestamp : Int
deriving DecidableEq, Repr

inductive TimeRecord where
  | boot (b : Boot)
  | sync (s : Sync)
deriving DecidableEq, Repr

def TimeRecord.recordSize : TimeRecord → Nat
  | .boot b => b.recordSize
  | .sync s => s.recordSize

def bootMap : DataTypeMap TimeRecord :=
  (fixedMap 48 id).refine (fun b =>
    if b.take 2 = [0xb0, 0xbb] then
      some (.boot ⟨leNat (slice b 2 4), slice b 8 24, leNat (slice b 24 28), leNat (slice b 28 32),
        signed 8 (leNat (slice b 32 40))⟩)
    else none)

def syncMap : DataTypeMap TimeRecord :=
  (fixedMap 32 id).refine (fun b =>
    if b.take 2 = [0x54, 0x73] then
      some (.sync ⟨leNat (slice b 2 4), leNat (slice b 8 16), signed 8 (leNat (slice b 16 24))⟩)
    else none)

/-- `TimesyncDatabaseFile._ReadRecord` (unified_logging.py 2333-2369). -/
def readTimeRecord (data : Bytes) (off : Nat) : Res TimeRecord :=
  match dataAt data off 2 with
  | .error e => .error e
  | .ok signature =>
    if signature = [0xb0, 0xbb] then (structAt bootMap data off).map (·.1)
    else if signature = [0x54, 0x73] then (structAt syncMap data off).map (·.1)
    else .error .parseError

/-- One round of `ReadRecords` (unified_logging.py 2393-2397). -/
def timeStep (data : Bytes) (off : Nat) : Res (TimeRecord × Nat) :=
  match readTimeRecord data off with
  | .error e => .error e
  | .ok r => .ok (r, off + r.recordSize)

/-- `TimesyncDatabaseFile.ReadRecords` (unified_logging.py 2382-2397), all of its values. -/
def readTimeRecords (data : Bytes) (fuel : Nat) : Option (Res (List TimeRecord)) :=
  walk (timeStep data) data.length fuel 0 []

/-- What `_ReadTimesyncRecords` keeps about the boot. -/
structure TimeState where
  boot : Option Boot
  syncs : List Sync
  sorted : List Sync
  timebase : Nat × Nat
deriving DecidableEq, Repr

/-- The values of `TraceV3File.__init__` (unified_logging.py 2632-2636). -/
def newTimeState : TimeState := ⟨none, [], [], (1, 1)⟩

/-- The inner loop of `_ReadTimesyncRecords` (unified_logging.py 4879-4889).  The records are read
one by one, so that nothing is read after the `break`. -/
def collect (ident : Bytes) (data : Bytes) :
    Nat → Nat → Option Boot → List Sync → Option (Res (Option Boot × List Sync))
  | 0, _, _, _ => none
  | fuel + 1, off, boot, syncs =>
    if off < data.length then
      match timeStep data off with
      | .error e => some (.error e)
      | .ok (.boot b, next) =>
        if boot.isSome then some (.ok (boot, syncs))
        else if b.ident = ident then collect ident data fuel next (some b) syncs
        else collect ident data fuel next boot syncs
      | .ok (.sync s, next) =>
        if boot.isSome then collect ident data fuel next boot (syncs ++ [s])
        else collect ident data fuel next boot syncs
    else some (.ok (boot, syncs))

/-- The outer loop of `_ReadTimesyncRecords` (unified_logging.py 4867-4889): the directory entries
with whether the name ends with ".timesync". -/
def collectFiles (ident : Bytes) (fuel : Nat) :
    List (Bool × Bytes) → Option Boot → List Sync → Option (Res (Option Boot × List Sync))
  | [], boot, syncs => some (.ok (boot, syncs))
  | (isTimesync, data) :: files, boot, syncs =>
    if boot.isSome then some (.ok (boot, syncs))
    else if ¬ isTimesync then collectFiles ident fuel files boot syncs
    else
      match collect ident data fuel 0 boot syncs with
      | none => none
      | some (.error e) => some (.error e)
      | some (.ok (boot, syncs)) => collectFiles ident fuel files boot syncs

/-- `sorted(records, key=lambda record: record.kernel_time, reverse=True)`: equal elements keep their
order. -/
def sortDescending (l : List Sync) : List Sync :=
  l.mergeSort (fun a b => decide (b.kernelTime ≤ a.kernelTime))

/-- `_ReadTimesyncRecords` (unified_logging.py 4855-4901).  The timebase is kept as numerator and
denominator; the division raises if the latter is zero. -/
def readTimesync (st : TimeState) (directory : Option (List (Bool × Bytes))) (ident : Bytes)
    (fuel : Nat) : Option (Res TimeState) :=
  match directory with
  | none => some (.ok { st with boot := none, syncs := [] })
  | some files =>
    match collectFiles ident fuel files none [] with
    | none => none
    | some (.error e) => some (.error e)
    | some (.ok (none, syncs)) => some (.ok { st with boot := none, syncs := syncs })
    | some (.ok (some b, syncs)) =>
      if b.denominator = 0 then some (.error .zeroDivisionError)
      else
        some (.ok { boot := some b, syncs := syncs, sorted := sortDescending syncs,
                    timebase := (b.numerator, b.denominator) })

/-- `_GetTimesyncRecord` (unified_logging.py 3393-3406). -/
def timesyncRecord (st : TimeState) (continuousTime : Nat) : Option Sync :=
  st.sorted.find? (fun r => decide (r.kernelTime ≤ continuousTime))

/-- `_GetTimestamp` (unified_logging.py 3335-3371).  `scale timebase n` is `int(n * timebase)`: the
multiplication of floating-point numbers is a parameter. -/
def timestamp (scale : Nat × Nat → Nat → Int) (headerTimestamp : Int) (headerTimebase : Nat × Nat)
    (st : TimeState) (continuousTime : Nat) : Int :=
  match timesyncRecord st continuousTime with
  | some r => r.timestamp + scale st.timebase (continuousTime - r.kernelTime)
  | none =>
    match st.boot with
    | some b => b.timestamp + scale st.timebase continuousTime
    | none => headerTimestamp + scale headerTimebase continuousTime

/-! ## C34: the timesync record used -/

theorem sortDescending_perm (l : List Sync) : (sortDescending l).Perm l := List.mergeSort_perm l _

theorem sortDescending_sorted (l : List Sync) :
    (sortDescending l).Pairwise (fun a b => b.kernelTime ≤ a.kernelTime) := by
  have := List.pairwise_mergeSort (le := fun a b : Sync => decide (b.kernelTime ≤ a.kernelTime))
    (by intro a b c; simp only [decide_eq_true_eq]; omega)
    (by intro a b; simp only [Bool.or_eq_true, decide_eq_true_eq]; omega) l
  exact this.imp (by intro a b; simp)

/-- Records with the same kernel time keep their order. -/
theorem sortDescending_stable (l : List Sync) (k : Nat) :
    (sortDescending l).filter (fun r => decide (r.kernelTime = k)) =
      l.filter (fun r => decide (r.kernelTime = k)) := by
  have h1 : (l.filter (fun r => decide (r.kernelTime = k))).Sublist (sortDescending l) := by
    refine List.sublist_mergeSort (by intro a b c; simp only [decide_eq_true_eq]; omega)
      (by intro a b; simp only [Bool.or_eq_true, decide_eq_true_eq]; omega) ?_ List.filter_sublist
    rw [List.pairwise_filter]
    refine List.pairwise_iff_getElem.mpr ?_
    intro i j hi hj _ ha hb
    simp only [decide_eq_true_eq] at ha hb ⊢
    omega
  have h2 := h1.filter (fun r => decide (r.kernelTime = k))
  rw [List.filter_filter] at h2
  simp only [Bool.and_self] at h2
  have h3 := ((sortDescending_perm l).filter (fun r => decide (r.kernelTime = k))).length_eq
  exact (h2.eq_of_length h3.symm).symm

/-- What a state is after the records of a boot were found. -/
def Synchronised (st : TimeState) (b : Boot) (syncs : List Sync) : Prop :=
  st.boot = some b ∧ st.syncs = syncs ∧ st.sorted = sortDescending syncs ∧
    st.timebase = (b.numerator, b.denominator)

/-- **C34**: the timesync record used is one with the largest kernel time not exceeding the
continuous time, and of those the first in the file. -/
theorem C34_record_used (st : TimeState) (b : Boot) (syncs : List Sync)
    (hst : Synchronised st b syncs) (t : Nat) (r : Sync) (h : timesyncRecord st t = some r) :
    r ∈ syncs ∧ r.kernelTime ≤ t ∧ (∀ x ∈ syncs, x.kernelTime ≤ t → x.kernelTime ≤ r.kernelTime) ∧
      syncs.find? (fun x => decide (x.kernelTime = r.kernelTime)) = some r := by
  unfold timesyncRecord at h
  rw [hst.2.2.1] at h
  obtain ⟨hr, p, q, hpq, hp⟩ := List.find?_eq_some_iff_append.mp h
  simp only [decide_eq_true_eq] at hr
  have hs := sortDescending_sorted syncs
  have hmem : ∀ x, x ∈ syncs ↔ x ∈ sortDescending syncs :=
    fun x => ((sortDescending_perm syncs).mem_iff).symm
  refine ⟨?_, hr, ?_, ?_⟩
  · rw [hmem, hpq]; simp
  · intro x hx hxt
    rw [hmem, hpq] at hx
    rw [hpq, List.pairwise_append] at hs
    rcases List.mem_append.mp hx with hx | hx
    · have := hp x hx
      simp only [Bool.not_eq_eq_eq_not, Bool.not_true, decide_eq_false_iff_not] at this
      omega
    · rcases List.mem_cons.mp hx with rfl | hx
      · exact Nat.le_refl _
      · exact List.rel_of_pairwise_cons hs.2.1 hx
  · have hf := sortDescending_stable syncs r.kernelTime
    have hnil : p.filter (fun x => decide (x.kernelTime = r.kernelTime)) = [] := by
      rw [List.filter_eq_nil_iff]
      intro x hx
      have := hp x hx
      simp only [Bool.not_eq_eq_eq_not, Bool.not_true, decide_eq_false_iff_not] at this
      simp only [decide_eq_true_eq]
      omega
    rw [hpq, List.filter_append, hnil, List.nil_append,
      List.filter_cons_of_pos (by simp)] at hf
    rw [← List.head?_filter, ← hf]
    rfl

/-- **C34**: no timesync record is used exactly if all are later than the continuous time. -/
theorem C34_no_record (st : TimeState) (b : Boot) (syncs : List Sync)
    (hst : Synchronised st b syncs) (t : Nat) :
    timesyncRecord st t = none ↔ ∀ x ∈ syncs, t < x.kernelTime := by
  unfold timesyncRecord
  rw [hst.2.2.1, List.find?_eq_none]
  constructor
  · intro h x hx
    have := h x ((sortDescending_perm syncs).mem_iff.mpr hx)
    simp only [decide_eq_true_eq] at this
    omega
  · intro h x hx
    have := h x ((sortDescending_perm syncs).mem_iff.mp hx)
    simp only [decide_eq_true_eq]
    omega

/-- **C34**: the timestamp is that of the record used plus the time since it, and that of the boot
plus the time since boot if there is none. -/
theorem C34_timestamp (scale : Nat × Nat → Nat → Int) (ht : Int) (hb : Nat × Nat) (st : TimeState)
    (b : Boot) (syncs : List Sync) (hst : Synchronised st b syncs) (t : Nat) :
    (∃ r ∈ syncs, r.kernelTime ≤ t ∧
      (∀ x ∈ syncs, x.kernelTime ≤ t → x.kernelTime ≤ r.kernelTime) ∧
      timestamp scale ht hb st t =
        r.timestamp + scale (b.numerator, b.denominator) (t - r.kernelTime)) ∨
    ((∀ x ∈ syncs, t < x.kernelTime) ∧
      timestamp scale ht hb st t = b.timestamp + scale (b.numerator, b.denominator) t) := by
  cases h : timesyncRecord st t with
  | some r =>
    left
    obtain ⟨h1, h2, h3, _⟩ := C34_record_used st b syncs hst t r h
    refine ⟨r, h1, h2, h3, ?_⟩
    unfold timestamp
    rw [h, hst.2.2.2]
  | none =>
    right
    refine ⟨(C34_no_record st b syncs hst t).mp h, ?_⟩
    unfold timestamp
    rw [h, hst.1, hst.2.2.2]

/-! ## C74: the timesync records of a boot -/

/-- The bytes of a record of a timesync database.  The unknown and displayed values are arbitrary. -/
def TimeRecord.bytes (u v : Bytes) : TimeRecord → Bytes
  | .boot b => [[0xb0, 0xbb], leBytes 2 b.recordSize, u, b.ident, leBytes 4 b.numerator,
      leBytes 4 b.denominator, leBytes 8 (unsigned 8 b.timestamp), v].flatten
  | .sync s => [[0x54, 0x73], leBytes 2 s.recordSize, u, leBytes 8 s.kernelTime,
      leBytes 8 (unsigned 8 s.timestamp), v].flatten

/-- The values fit in their fields and the size is that of the record. -/
def TimeRecord.Ok : TimeRecord → Prop
  | .boot b => b.recordSize = 48 ∧ b.ident.length = 16 ∧ b.numerator < 2 ^ 32 ∧
      b.denominator < 2 ^ 32 ∧ -2 ^ 63 ≤ b.timestamp ∧ b.timestamp < 2 ^ 63
  | .sync s => s.recordSize = 32 ∧ s.kernelTime < 2 ^ 64 ∧ -2 ^ 63 ≤ s.timestamp ∧
      s.timestamp < 2 ^ 63

/-- A record with the bytes that do not matter. -/
structure StoredRecord where
  record : TimeRecord
  u : Bytes
  v : Bytes

def StoredRecord.bytes (s : StoredRecord) : Bytes := s.record.bytes s.u s.v

def StoredRecord.Ok (s : StoredRecord) : Prop :=
  s.record.Ok ∧ s.u.length = 4 ∧ s.v.length = 8

theorem stored_length (s : StoredRecord) (h : s.Ok) : s.bytes.length = s.record.recordSize := by
  obtain ⟨r, u, v⟩ := s
  obtain ⟨h1, h2, h3⟩ := h
  cases r with
  | boot b =>
    simp only [TimeRecord.Ok] at h1
    simp only [StoredRecord.bytes, TimeRecord.bytes, TimeRecord.recordSize, List.length_flatten]
    simp only [List.map_cons, List.map_nil, List.sum_cons, List.sum_nil, leBytes_length,
      List.length_cons, List.length_nil]
    simp only at h2 h3
    omega
  | sync b =>
    simp only [TimeRecord.Ok] at h1
    simp only [StoredRecord.bytes, TimeRecord.bytes, TimeRecord.recordSize, List.length_flatten]
    simp only [List.map_cons, List.map_nil, List.sum_cons, List.sum_nil, leBytes_length,
      List.length_cons, List.length_nil]
    simp only at h2 h3
    omega

theorem dataAt_prefix (pre s post : Bytes) (n : Nat) (h : n ≤ s.length) :
    dataAt (pre ++ s ++ post) pre.length n = .ok (s.take n) := by
  have := dataAt_append pre (s.take n) (s.drop n ++ post)
  rw [List.length_take, Nat.min_eq_left h] at this
  rw [← this]
  congr 1
  rw [List.append_assoc, List.append_assoc, ← List.append_assoc (s.take n), List.take_append_drop]

theorem timeStep_stored (s : StoredRecord) (h : s.Ok) (pre post : Bytes) :
    timeStep (pre ++ s.bytes ++ post) pre.length = .ok (s.record, (pre ++ s.bytes).length) := by
  have hl := stored_length s h
  have hread : readTimeRecord (pre ++ s.bytes ++ post) pre.length = .ok s.record := by
    obtain ⟨r, u, v⟩ := s
    obtain ⟨h1, h2, h3⟩ := h
    simp only at h2 h3
    unfold readTimeRecord
    cases r with
    | boot b =>
      obtain ⟨rs, ident, num, den, ts⟩ := b
      simp only [TimeRecord.Ok] at h1
      obtain ⟨a1, a2, a3, a4, a5, a6⟩ := h1
      simp only [StoredRecord.bytes, TimeRecord.bytes] at hl ⊢
      have hu := unsigned_lt 8 ts
      have q1 := leField [[0xb0, 0xbb]] 2 rs [u, ident, leBytes 4 num, leBytes 4 den,
        leBytes 8 (unsigned 8 ts), v] 2 4 (by simp) (by simp) (by norm_num; omega)
      have q2 := slice_fields [[0xb0, 0xbb], leBytes 2 rs, u] ident [leBytes 4 num, leBytes 4 den,
        leBytes 8 (unsigned 8 ts), v] 8 24 (by simp [h2]) (by simp [a2])
      have q3 := leField [[0xb0, 0xbb], leBytes 2 rs, u, ident] 4 num [leBytes 4 den,
        leBytes 8 (unsigned 8 ts), v] 24 28 (by simp [h2, a2]) (by simp) (by norm_num; omega)
      have q4 := leField [[0xb0, 0xbb], leBytes 2 rs, u, ident, leBytes 4 num] 4 den [
        leBytes 8 (unsigned 8 ts), v] 28 32 (by simp [h2, a2]) (by simp) (by norm_num; omega)
      have q5 := leField [[0xb0, 0xbb], leBytes 2 rs, u, ident, leBytes 4 num, leBytes 4 den] 8
        (unsigned 8 ts) [v] 32 40 (by simp [h2, a2]) (by simp) hu
      simp only [List.cons_append, List.nil_append] at q1 q2 q3 q4 q5
      have hsu := signed_unsigned 8 ts (by norm_num; omega) (by norm_num; omega)
      rw [dataAt_prefix _ _ _ 2 (by simp)]
      dsimp only
      rw [if_pos (by simp)]
      have e : Encodes bootMap _ _ := encodes_refine (fixedMap 48 id) _ _ _
        (.boot ⟨rs, ident, num, den, ts⟩) (encodes_fixed 48 id
        [[0xb0, 0xbb], leBytes 2 rs, u, ident, leBytes 4 num,
          leBytes 4 den, leBytes 8 (unsigned 8 ts), v].flatten (by decide)
          (by rw [hl]; exact a1)) (by
            simp only [id]
            rw [if_pos (by simp), q1, q2, q3, q4, q5, hsu])
      rw [e pre post]
      rfl
    | sync b =>
      obtain ⟨rs, kt, ts⟩ := b
      simp only [TimeRecord.Ok] at h1
      obtain ⟨a1, a3, a5, a6⟩ := h1
      simp only [StoredRecord.bytes, TimeRecord.bytes] at hl ⊢
      have hu := unsigned_lt 8 ts
      have q1 := leField [[0x54, 0x73]] 2 rs [u, leBytes 8 kt, leBytes 8 (unsigned 8 ts), v] 2 4
        (by simp) (by simp) (by norm_num; omega)
      have q3 := leField [[0x54, 0x73], leBytes 2 rs, u] 8 kt [leBytes 8 (unsigned 8 ts), v] 8 16
        (by simp [h2]) (by simp) (by norm_num; omega)
      have q5 := leField [[0x54, 0x73], leBytes 2 rs, u, leBytes 8 kt] 8 (unsigned 8 ts) [v] 16 24
        (by simp [h2]) (by simp) hu
      simp only [List.cons_append, List.nil_append] at q1 q3 q5
      have hsu := signed_unsigned 8 ts (by norm_num; omega) (by norm_num; omega)
      rw [dataAt_prefix _ _ _ 2 (by simp)]
      dsimp only
      rw [if_neg (by simp), if_pos (by simp)]
      have e : Encodes syncMap _ _ := encodes_refine (fixedMap 32 id) _ _ _
        (.sync ⟨rs, kt, ts⟩) (encodes_fixed 32 id
        [[0x54, 0x73], leBytes 2 rs, u, leBytes 8 kt, leBytes 8 (unsigned 8 ts), v].flatten
          (by decide) (by rw [hl]; exact a1)) (by
            simp only [id]
            rw [if_pos (by simp), q1, q3, q5, hsu])
      rw [e pre post]
      rfl
  unfold timeStep
  rw [hread, List.length_append, hl]

/-- The claim of C74, first part: reading the records of a timesync database ends. -/
def C74_terminates_claim : Prop :=
  ∀ data : Bytes, ∃ fuel r, readTimeRecords data fuel = some r

/-- A sync record with a size of 0. -/
def zeroRecord : Bytes := [0x54, 0x73, 0, 0] ++ List.replicate 28 0

/-- **C74** is false: a record with a size of 0 is read for ever. -/
theorem C74_record_size_0_loops : ¬ C74_terminates_claim := by
  intro h
  obtain ⟨fuel, r, hr⟩ := h zeroRecord
  unfold readTimeRecords at hr
  rw [walk_stuck (timeStep zeroRecord) zeroRecord.length 0 (.sync ⟨0, 0, 0⟩) (by decide)
    (by decide +kernel)] at hr
  simp at hr

/-- **C74** (partial): reading ends for all files without a record with a size of 0. -/
theorem C74_terminates_partial (data : Bytes)
    (h : ∀ off r, off < data.length → readTimeRecord data off = .ok r → 0 < r.recordSize) :
    readTimeRecords data (data.length + 1) ≠ none := by
  refine walk_terminates (timeStep data) data.length ?_ 0 []
  intro off x next hlt hx
  unfold timeStep at hx
  split at hx
  · simp at hx
  rename_i r hr
  simp only [Except.ok.injEq, Prod.mk.injEq] at hx
  have := h off r hlt hr
  omega

theorem rounds_stored (records : List StoredRecord) (h : ∀ s ∈ records, s.Ok) (pre post : Bytes) :
    Rounds (timeStep (pre ++ records.flatMap StoredRecord.bytes ++ post))
      (pre ++ records.flatMap StoredRecord.bytes ++ post).length pre.length
      (records.map (·.record)) (pre ++ records.flatMap StoredRecord.bytes).length := by
  induction records generalizing pre with
  | nil => simpa using Rounds.nil _
  | cons s rs ih =>
    have hs := timeStep_stored s (h s (by simp)) pre (rs.flatMap StoredRecord.bytes ++ post)
    have hi := ih (fun x hx => h x (List.mem_cons_of_mem _ hx)) (pre ++ s.bytes)
    have e : pre ++ (s :: rs).flatMap StoredRecord.bytes ++ post =
        pre ++ s.bytes ++ (rs.flatMap StoredRecord.bytes ++ post) := by simp
    have e2 : pre ++ s.bytes ++ rs.flatMap StoredRecord.bytes ++ post =
        pre ++ s.bytes ++ (rs.flatMap StoredRecord.bytes ++ post) := by simp
    have e3 : pre ++ (s :: rs).flatMap StoredRecord.bytes =
        pre ++ s.bytes ++ rs.flatMap StoredRecord.bytes := by simp
    rw [e2] at hi
    rw [e, e3, List.map_cons]
    refine .cons _ _ _ _ _ ?_ hs hi
    have hok := h s (by simp)
    have hl := stored_length s hok
    have : 0 < s.record.recordSize := by
      obtain ⟨r, u, v⟩ := s
      have h1 := hok.1
      cases r <;> simp only [TimeRecord.Ok] at h1 <;> simp only [TimeRecord.recordSize] <;> omega
    simp only [List.length_append]
    omega

/-- **C74**: all records of a timesync database are read, in order. -/
theorem C74_all_records (records : List StoredRecord) (h : ∀ s ∈ records, s.Ok) (fuel : Nat)
    (hf : records.length < fuel) :
    readTimeRecords (records.flatMap StoredRecord.bytes) fuel =
      some (.ok (records.map (·.record))) := by
  have := rounds_stored records h [] []
  simp only [List.nil_append, List.append_nil, List.length_nil] at this
  have h2 := walk_done _ _ _ _ _ [] (fuel - records.length - 1) this (Nat.le_refl _)
  rw [List.length_map, List.nil_append, show records.length + (fuel - records.length - 1) + 1 = fuel
    by omega] at h2
  exact h2

/-! ### Which records are used -/

/-- Following the rounds of the loop, as on a list of records. -/
def collectList (ident : Bytes) :
    List TimeRecord → Option Boot → List Sync → (Option Boot × List Sync) × Bool
  | [], boot, syncs => ((boot, syncs), false)
  | .boot b :: rs, boot, syncs =>
    if boot.isSome then ((boot, syncs), true)
    else if b.ident = ident then collectList ident rs (some b) syncs
    else collectList ident rs boot syncs
  | .sync s :: rs, boot, syncs =>
    if boot.isSome then collectList ident rs boot (syncs ++ [s])
    else collectList ident rs boot syncs

theorem collect_rounds (ident data : Bytes) (off off' : Nat) (rs : List TimeRecord)
    (boot : Option Boot) (syncs : List Sync) (fuel : Nat)
    (h : Rounds (timeStep data) data.length off rs off')
    (hend : data.length ≤ off' ∨ (collectList ident rs boot syncs).2 = true) :
    collect ident data (rs.length + fuel + 1) off boot syncs =
      some (.ok (collectList ident rs boot syncs).1) := by
  induction h generalizing boot syncs with
  | nil off =>
    rcases hend with hend | hend
    · rw [collect, if_neg (by omega)]
      rfl
    · simp [collectList] at hend
  | cons off next off' x xs hlt hs _ ih =>
    rw [List.length_cons, show xs.length + 1 + fuel + 1 = (xs.length + fuel + 1) + 1 by omega,
      collect, if_pos hlt, hs]
    cases x with
    | boot b =>
      dsimp only
      unfold collectList at hend ⊢
      by_cases h1 : boot.isSome
      · rw [if_pos h1, if_pos h1]
      · rw [if_neg h1] at hend
        rw [if_neg h1, if_neg h1]
        by_cases h2 : b.ident = ident
        · rw [if_pos h2] at hend
          rw [if_pos h2, if_pos h2]
          exact ih _ _ hend
        · rw [if_neg h2] at hend
          rw [if_neg h2, if_neg h2]
          exact ih _ _ hend
    | sync s =>
      dsimp only
      unfold collectList at hend ⊢
      by_cases h1 : boot.isSome
      · rw [if_pos h1] at hend
        rw [if_pos h1, if_pos h1]
        exact ih _ _ hend
      · rw [if_neg h1] at hend
        rw [if_neg h1, if_neg h1]
        exact ih _ _ hend

/-- There is no boot record with the identifier. -/
def NoBoot (ident : Bytes) (rs : List TimeRecord) : Prop :=
  ∀ b, TimeRecord.boot b ∈ rs → b.ident ≠ ident

theorem collectList_noBoot (ident : Bytes) (rs rest : List TimeRecord) (syncs : List Sync)
    (h : NoBoot ident rs) :
    collectList ident (rs ++ rest) none syncs = collectList ident rest none syncs := by
  induction rs with
  | nil => rfl
  | cons r rs ih =>
    have ih := ih (fun b hb => h b (List.mem_cons_of_mem _ hb))
    cases r with
    | boot b =>
      rw [List.cons_append, collectList, if_neg (by simp), if_neg (h b (by simp))]
      exact ih
    | sync s =>
      rw [List.cons_append, collectList, if_neg (by simp)]
      exact ih

theorem collectList_syncs (ident : Bytes) (b : Boot) (ss syncs : List Sync)
    (rest : List TimeRecord) :
    collectList ident (ss.map .sync ++ rest) (some b) syncs =
      collectList ident rest (some b) (syncs ++ ss) := by
  induction ss generalizing syncs with
  | nil => simp
  | cons s ss ih => rw [List.map_cons, List.cons_append, collectList, if_pos (by simp), ih]; simp

/-- A file of the directory that has nothing about the boot: it is no timesync database, or it has
no boot record with the identifier. -/
def Irrelevant (ident : Bytes) (fuel : Nat) (f : Bool × Bytes) : Prop :=
  f.1 = false ∨ ∃ records : List StoredRecord, (∀ s ∈ records, s.Ok) ∧ records.length < fuel ∧
    NoBoot ident (records.map (·.record)) ∧ f.2 = records.flatMap StoredRecord.bytes

/-- The records of a timesync database with a boot record, the sync records after it up to the next
boot record (if any), and others before and after. -/
structure BootFile (ident : Bytes) (fuel : Nat) (data : Bytes) (b : Boot) (ss : List Sync) : Prop where
  intro ::
  exists_records : ∃ (pre : List StoredRecord) (sb : StoredRecord) (mid post : List StoredRecord),
    data = (pre ++ sb :: mid ++ post).flatMap StoredRecord.bytes ∧
    (∀ s ∈ pre ++ sb :: mid ++ post, s.Ok) ∧ (pre ++ sb :: mid ++ post).length < fuel ∧
    NoBoot ident (pre.map (·.record)) ∧ sb.record = .boot b ∧ b.ident = ident ∧
    mid.map (·.record) = ss.map .sync ∧ (post = [] ∨ ∃ sb' t b', post = sb' :: t ∧ sb'.record = .boot b')

theorem collect_stored (ident : Bytes) (records : List StoredRecord) (h : ∀ s ∈ records, s.Ok)
    (fuel : Nat) (hf : records.length < fuel) :
    collect ident (records.flatMap StoredRecord.bytes) fuel 0 none [] =
      some (.ok (collectList ident (records.map (·.record)) none []).1) := by
  have hr := rounds_stored records h [] []
  simp only [List.nil_append, List.append_nil, List.length_nil] at hr
  have := collect_rounds ident _ _ _ _ none [] (fuel - records.length - 1) hr
    (.inl (Nat.le_refl _))
  rw [List.length_map, show records.length + (fuel - records.length - 1) + 1 = fuel by omega] at this
  exact this

/-- **C74**: the timesync records used are the boot record of the boot and the sync records between
it and the next boot record, for all directories in which the boot record is found; nothing that was
kept from another boot is used. -/
theorem C74_records_of_boot (st : TimeState) (ident : Bytes) (fuel : Nat)
    (before after : List (Bool × Bytes)) (data : Bytes) (b : Boot) (ss : List Sync)
    (hbefore : ∀ f ∈ before, Irrelevant ident fuel f) (hfile : BootFile ident fuel data b ss)
    (hden : b.denominator ≠ 0) :
    ∃ st', readTimesync st (some (before ++ (true, data) :: after)) ident fuel = some (.ok st') ∧
      Synchronised st' b ss := by
  have hskip : ∀ rest, collectFiles ident fuel (before ++ rest) none [] =
      collectFiles ident fuel rest none [] := by
    intro rest
    induction before with
    | nil => rfl
    | cons f fs ih =>
      have ih := ih (fun g hg => hbefore g (List.mem_cons_of_mem _ hg))
      obtain ⟨isT, d⟩ := f
      rw [List.cons_append, collectFiles, if_neg (by simp)]
      rcases hbefore (isT, d) (by simp) with hi | ⟨records, hok, hlen, hno, hd⟩
      · simp only at hi
        subst hi
        rw [if_pos (by simp)]
        exact ih
      · simp only at hd
        subst hd
        split
        · exact ih
        · rw [collect_stored ident records hok fuel hlen]
          have := collectList_noBoot ident _ [] [] hno
          rw [List.append_nil] at this
          rw [this]
          exact ih
  obtain ⟨pre, sb, mid, post, rfl, hok, hlen, hno, hsb, hid, hmid, hpost⟩ := hfile.exists_records
  have hcol := collect_stored ident _ hok fuel hlen
  have hl : (collectList ident ((pre ++ sb :: mid ++ post).map (·.record)) none []).1 =
      (some b, ss) := by
    rw [List.map_append, List.map_append, List.map_cons, hsb, hmid, List.append_assoc,
      collectList_noBoot ident _ _ _ hno, List.cons_append, collectList, if_neg (by simp),
      if_pos hid, collectList_syncs]
    rcases hpost with rfl | ⟨sb', t, b', rfl, hb'⟩
    · simp [collectList]
    · rw [List.map_cons, hb', collectList, if_pos (by simp)]
      simp
  rw [hl] at hcol
  refine ⟨{ boot := some b, syncs := ss, sorted := sortDescending ss,
            timebase := (b.numerator, b.denominator) }, ?_, rfl, rfl, rfl, rfl⟩
  unfold readTimesync
  dsimp only
  rw [hskip, collectFiles, if_neg (by simp), if_neg (by simp), hcol]
  dsimp only
  have hafter : collectFiles ident fuel after (some b) ss = some (.ok (some b, ss)) := by
    cases after with
    | nil => rfl
    | cons f fs => obtain ⟨x, y⟩ := f; rw [collectFiles, if_pos (by simp)]
  rw [hafter]
  dsimp only
  rw [if_neg hden]

/-! ## C75: a reader keeps nothing from the file before -/

/-- The claim of C75: the timestamps of a file do not depend on what the reader read before. -/
def C75_independent_claim : Prop :=
  ∀ (scale : Nat × Nat → Nat → Int) (ht : Int) (hb : Nat × Nat) (st st' : TimeState)
    (history : List (Option (List (Bool × Bytes)) × Bytes))
    (directory : Option (List (Bool × Bytes))) (ident : Bytes) (fuel t : Nat),
    history.foldlM (fun st f => match readTimesync st f.1 f.2 fuel with
      | some (.ok st) => some st
      | _ => none) newTimeState = some st →
    readTimesync st directory ident fuel = some (.ok st') →
    ∃ st₀, readTimesync newTimeState directory ident fuel = some (.ok st₀) ∧
      timestamp scale ht hb st' t = timestamp scale ht hb st₀ t

/-- A timesync database with one boot and one sync record. -/
def smallDatabase : List StoredRecord :=
  [⟨.boot ⟨48, List.replicate 16 1, 1, 1, 5⟩, List.replicate 4 0, List.replicate 8 0⟩,
   ⟨.sync ⟨32, 10, 1000⟩, List.replicate 4 0, List.replicate 8 0⟩]

/-- **C75** is false: the sorted sync records of the boot before are used for a boot without
timesync records. -/
theorem C75_stale_records : ¬ C75_independent_claim := by
  intro h
  have := h (fun _ n => n) 7 (1, 1)
    ⟨some ⟨48, List.replicate 16 1, 1, 1, 5⟩, [⟨32, 10, 1000⟩], [⟨32, 10, 1000⟩], (1, 1)⟩
    ⟨none, [], [⟨32, 10, 1000⟩], (1, 1)⟩
    [(some [(true, smallDatabase.flatMap StoredRecord.bytes)], List.replicate 16 1)] (some [])
    (List.replicate 16 2) 5 20 (by decide +kernel) (by decide +kernel)
  obtain ⟨st₀, h1, h2⟩ := this
  have e : readTimesync newTimeState (some []) (List.replicate 16 2) 5 =
      some (.ok newTimeState) := by decide +kernel
  rw [e] at h1
  simp only [Option.some.injEq, Except.ok.injEq] at h1
  subst h1
  revert h2
  decide +kernel

/-- **C75** (partial): the timestamps do not depend on what was read before if the boot record is
found. -/
theorem C75_independent_partial (scale : Nat × Nat → Nat → Int) (ht : Int) (hb : Nat × Nat)
    (st st₁ : TimeState) (directory : Option (List (Bool × Bytes))) (ident : Bytes) (fuel t : Nat)
    (h : readTimesync st directory ident fuel = some (.ok st₁)) (hboot : st₁.boot ≠ none) :
    ∃ st₀, readTimesync newTimeState directory ident fuel = some (.ok st₀) ∧
      timestamp scale ht hb st₁ t = timestamp scale ht hb st₀ t := by
  unfold readTimesync at h ⊢
  cases directory with
  | none =>
    simp only [Option.some.injEq, Except.ok.injEq] at h
    subst h
    simp at hboot
  | some files =>
    dsimp only at h ⊢
    cases hc : collectFiles ident fuel files none [] with
    | none => rw [hc] at h; simp at h
    | some r =>
      rw [hc] at h
      cases r with
      | error e => simp at h
      | ok p =>
        obtain ⟨b, syncs⟩ := p
        cases b with
        | none =>
          simp only [Option.some.injEq, Except.ok.injEq] at h
          subst h
          simp at hboot
        | some b =>
          dsimp only at h ⊢
          split at h
          · simp at h
          rename_i hd
          simp only [Option.some.injEq, Except.ok.injEq] at h
          rw [if_neg hd]
          exact ⟨_, rfl, by rw [h]⟩

/-- The hypotheses of C74 and C34 are met by the small database. -/
example : BootFile (List.replicate 16 1) 5 (smallDatabase.flatMap StoredRecord.bytes)
    ⟨48, List.replicate 16 1, 1, 1, 5⟩ [⟨32, 10, 1000⟩] :=
  ⟨[], ⟨.boot ⟨48, List.replicate 16 1, 1, 1, 5⟩, List.replicate 4 0, List.replicate 8 0⟩,
    [⟨.sync ⟨32, 10, 1000⟩, List.replicate 4 0, List.replicate 8 0⟩], [], rfl, by
      intro s hs
      simp only [List.nil_append, List.append_nil, List.mem_cons, List.not_mem_nil, or_false] at hs
      rcases hs with rfl | rfl
      · refine ⟨?_, by simp, by simp⟩
        simp [TimeRecord.Ok]
      · refine ⟨?_, by simp, by simp⟩
        simp [TimeRecord.Ok], by simp, by intro b hb; simp at hb, rfl, rfl, rfl, .inl rfl⟩

example : (readTimesync newTimeState (some [(false, [1]), (true, smallDatabase.flatMap StoredRecord.bytes)])
    (List.replicate 16 1) 5).map (fun r => r.map (fun st => (timesyncRecord st 20, timesyncRecord st 9))) =
    some (.ok (some ⟨32, 10, 1000⟩, none)) := by decide +kernel

/-! ## C76: the directories of strings and timesync files -/

/-- The state of `ReadFileObject` while it looks for the directories. -/
structure Paths where
  uuidtext : Option (List Char)
  timesync : Option (List Char)
deriving DecidableEq, Repr

/-- The beginning of `TraceV3File.ReadFileObject` (unified_logging.py 4933-4977).  `isArchive` tells
whether the name in lower case ends with ".logarchive", `present` is `CheckFileExistsByPath`. -/
def findDirectories (isArchive : List Char → Bool) (present : List Char → Bool) (path : List Char) :
    Res Paths :=
  let segments := Formats.splitPath '/' path
  if segments = [] then .error .indexError
  else
    let segments := segments.dropLast
    match segments.getLast? with
    | none => .error .indexError
    | some last =>
      let (segments, last) :=
        if isArchive last then (segments, last)
        else (segments.dropLast, segments.dropLast.getLast?.getD last)
      if ¬ isArchive last ∧ segments = [] then .error .indexError
      else
        let (segments, last) :=
          if isArchive last then (segments, last)
          else (segments.dropLast, segments.dropLast.getLast?.getD last)
        let uuidtext :=
          if isArchive last then
            if present (Formats.joinPath '/' (segments ++ ["dsc".toList])) then
              some (Formats.joinPath '/' segments)
            else none
          else
            if present (Formats.joinPath '/' (segments ++ ["uuidtext".toList])) then
              some (Formats.joinPath '/' (segments ++ ["uuidtext".toList]))
            else none
        -- The name "dsc" is not removed again if there is no such directory.
        let segments :=
          if isArchive last ∧ ¬ present (Formats.joinPath '/' (segments ++ ["dsc".toList])) then
            segments ++ ["dsc".toList]
          else segments
        let timesync :=
          if present (Formats.joinPath '/' (segments ++ ["timesync".toList])) then
            some (Formats.joinPath '/' (segments ++ ["timesync".toList]))
          else if present (Formats.joinPath '/' (segments ++ ["diagnostics".toList, "timesync".toList]))
          then some (Formats.joinPath '/' (segments ++ ["diagnostics".toList, "timesync".toList]))
          else none
        .ok ⟨uuidtext, timesync⟩

/-- The claim of C76: the directories of a log archive are found when they exist, for every path of
a trace file in the archive. -/
def C76_archive_claim : Prop :=
  ∀ (isArchive present : List Char → Bool) (directory x f : List Char),
    isArchive x = true → x ≠ [] → '/' ∉ x → f ≠ [] → '/' ∉ f →
    present (directory ++ x ++ "/timesync".toList) = true →
    ∃ u, findDirectories isArchive present (directory ++ x ++ ['/'] ++ f) =
      .ok ⟨u, some (directory ++ x ++ "/timesync".toList)⟩

/-- **C76** is false: without a directory of shared-cache strings the timesync files of an archive
are not found. -/
theorem C76_no_dsc_no_timesync : ¬ C76_archive_claim := by
  intro h
  obtain ⟨u, hu⟩ := h (fun s => s = "a.logarchive".toList)
    (fun p => p = "/a.logarchive/timesync".toList) ['/'] "a.logarchive".toList "x.tracev3".toList
    (by decide) (by decide) (by decide) (by decide) (by decide) (by decide)
  have e : findDirectories (fun s => s = "a.logarchive".toList)
    (fun p => p = "/a.logarchive/timesync".toList)
    (['/'] ++ "a.logarchive".toList ++ ['/'] ++ "x.tracev3".toList) = .ok ⟨none, none⟩ := by
    decide +kernel
  rw [e] at hu
  simp at hu

/-- **C76** is false: for a relative path the directories are looked for in the root directory. -/
theorem C76_relative_path : ¬ C76_archive_claim := by
  intro h
  obtain ⟨u, hu⟩ := h (fun s => s = "a.logarchive".toList)
    (fun p => p = "a.logarchive/timesync".toList ∨ p = "a.logarchive/dsc".toList) []
    "a.logarchive".toList "x.tracev3".toList
    (by decide) (by decide) (by decide) (by decide) (by decide) (by decide)
  have e : findDirectories (fun s => s = "a.logarchive".toList)
    (fun p => p = "a.logarchive/timesync".toList ∨ p = "a.logarchive/dsc".toList)
    ([] ++ "a.logarchive".toList ++ ['/'] ++ "x.tracev3".toList) = .ok ⟨none, none⟩ := by
    decide +kernel
  rw [e] at hu
  simp at hu

/-- **C76** is false: a file near the root directory cannot be read at all. -/
theorem C76_short_path (isArchive present : List Char → Bool) (f d : List Char) (hf : f ≠ [])
    (hf' : '/' ∉ f) (hd : d ≠ []) (hd' : '/' ∉ d) (ha : isArchive d = false) :
    findDirectories isArchive present (Formats.joinPath '/' [f]) = .error .indexError ∧
    findDirectories isArchive present (Formats.joinPath '/' [d, f]) = .error .indexError := by
  unfold findDirectories
  rw [Formats.C51_split_join '/' [f] (by simpa using ⟨hf, hf'⟩),
    Formats.C51_split_join '/' [d, f] (by simpa using ⟨⟨hd, hd'⟩, hf, hf'⟩)]
  simp [ha]

/-- A list of path segments. -/
def Segments (l : List (List Char)) : Prop := ∀ s ∈ l, s ≠ [] ∧ '/' ∉ s

/-- **C76** (partial): for an absolute path of a file in a log archive, or in a directory of it, the
strings are those of the archive and the timesync files those of its timesync directory, if the
archive has shared-cache strings. -/
theorem C76_archive_partial (isArchive present : List Char → Bool) (dirs sub : List (List Char))
    (x f : List Char) (hs : Segments (dirs ++ [x] ++ sub ++ [f])) (hx : isArchive x = true)
    (hsub : sub = [] ∨ ∃ s, sub = [s] ∧ isArchive s = false)
    (hdsc : present (Formats.joinPath '/' (dirs ++ [x, "dsc".toList])) = true)
    (hts : present (Formats.joinPath '/' (dirs ++ [x, "timesync".toList])) = true) :
    findDirectories isArchive present (Formats.joinPath '/' (dirs ++ [x] ++ sub ++ [f])) =
      .ok ⟨some (Formats.joinPath '/' (dirs ++ [x])),
        some (Formats.joinPath '/' (dirs ++ [x, "timesync".toList]))⟩ := by
  unfold findDirectories
  rw [Formats.C51_split_join '/' _ hs]
  rcases hsub with rfl | ⟨s, rfl, hsa⟩
  · simp [hx, List.append_assoc, hdsc, hts] at hdsc hts ⊢
  · have e : (dirs ++ [x] ++ [s] ++ [f]).dropLast = dirs ++ [x] ++ [s] := List.dropLast_concat
    have e2 : (dirs ++ [x] ++ [s]).dropLast = dirs ++ [x] := List.dropLast_concat
    simp only [e, e2, List.getLast?_concat, hsa]
    simp [hx] at hdsc hts ⊢
    simp [hdsc, hts]

/-- **C76** (partial): for an absolute path of a file in a directory of the diagnostics directory,
the strings are in the uuidtext directory beside the diagnostics directory, and the timesync files
in the diagnostics directory. -/
theorem C76_diagnostics_partial (isArchive present : List Char → Bool) (dirs : List (List Char))
    (s f : List Char) (hs : Segments (dirs ++ ["diagnostics".toList, s, f]))
    (h1 : isArchive "diagnostics".toList = false) (h2 : isArchive s = false)
    (h3 : ∀ d, dirs.getLast? = some d → isArchive d = false)
    (hu : present (Formats.joinPath '/' (dirs ++ ["uuidtext".toList])) = true)
    (hn : present (Formats.joinPath '/' (dirs ++ ["timesync".toList])) = false)
    (hts : present (Formats.joinPath '/' (dirs ++ ["diagnostics".toList, "timesync".toList])) = true) :
    findDirectories isArchive present (Formats.joinPath '/' (dirs ++ ["diagnostics".toList, s, f])) =
      .ok ⟨some (Formats.joinPath '/' (dirs ++ ["uuidtext".toList])),
        some (Formats.joinPath '/' (dirs ++ ["diagnostics".toList, "timesync".toList]))⟩ := by
  unfold findDirectories
  rw [Formats.C51_split_join '/' _ hs]
  have e0 : dirs ++ ["diagnostics".toList, s, f] = dirs ++ ["diagnostics".toList] ++ [s] ++ [f] := by
    simp
  have e1 : (dirs ++ ["diagnostics".toList] ++ [s] ++ [f]).dropLast =
      dirs ++ ["diagnostics".toList] ++ [s] := List.dropLast_concat
  have e2 : (dirs ++ ["diagnostics".toList] ++ [s]).dropLast = dirs ++ ["diagnostics".toList] :=
    List.dropLast_concat
  have e3 : (dirs ++ ["diagnostics".toList]).dropLast = dirs := List.dropLast_concat
  have h4 : isArchive (dirs.getLast?.getD "diagnostics".toList) = false := by
    cases hd : dirs.getLast? with
    | none => exact h1
    | some d => exact h3 d hd
  rw [e0]
  simp only [e1, e2, List.getLast?_concat, h2, Option.getD_some, h1, e3, h4, Bool.false_eq_true,
    if_false, hu, if_true, hn, hts, false_and, not_false_eq_true, true_and]
  simp

/-- The three layouts. -/
example : findDirectories (fun s => s = "a.logarchive".toList)
    (fun p => p = "/v/a.logarchive/timesync".toList ∨ p = "/v/a.logarchive/dsc".toList)
    "/v/a.logarchive/Persist/0.tracev3".toList =
    .ok ⟨some "/v/a.logarchive".toList, some "/v/a.logarchive/timesync".toList⟩ := by decide +kernel

example : findDirectories (fun _ => false)
    (fun p => p = "/db/uuidtext".toList ∨ p = "/db/diagnostics/timesync".toList)
    "/db/diagnostics/Persist/0.tracev3".toList =
    .ok ⟨some "/db/uuidtext".toList, some "/db/diagnostics/timesync".toList⟩ := by decide +kernel

end Dtf.Unified
