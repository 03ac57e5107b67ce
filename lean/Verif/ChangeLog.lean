import Verif.Slices

/-!
# Restore point change logs (C44, C94)
-/

namespace Dtf.ChangeLog
open Py DataFormat

/-! ## Model -/

/-- `read` of a file opened by `open(path, "rb")`: a size of -1 is everything up to the end and other negative
sizes are refused. -/
def fileRead (data : Bytes) (pos : Nat) (size : Int) : Res Bytes :=
  if size < -1 then .error .valueError else .ok (File.read ⟨data, pos⟩ size).1

/-- A UTF-16 string with a terminator: the part before the terminator. -/
def utf16z : Bytes → Option Bytes
  | a :: b :: l => if a = 0 ∧ b = 0 then some [] else (utf16z l).map (fun s => a :: b :: s)
  | _ => none

/-- `_ReadRecord` (rp_change_log.py 370-446): the size of the record and its type.  Whatever the type something
is read after the header: a string or, as the data type map is not replaced, another header. -/
def readRecord (b : Bytes) : Res (Nat × Nat) :=
  if b.length < 8 then .error .parseError
  else
    let type := leNat (slice b 4 8)
    if type = 4 ∨ type = 5 ∨ type = 9 then
      match utf16z (b.drop 8) with
      | none => .error .parseError
      | some _ => .ok (leNat (slice b 0 4), type)
    else if b.length < 16 then .error .parseError
    else .ok (leNat (slice b 0 4), type)

/-- One round of the loop over the records of an entry (rp_change_log.py 267-271).  A size of zero ends the
loop. -/
def recordStep (b : Bytes) (stop off : Nat) : Res (Nat × Nat) :=
  match readRecord (b.drop off) with
  | .error e => .error e
  | .ok (size, type) => .ok (type, if size = 0 then stop else off + size)

structure Entry where
  entryType : Nat
  entryFlags : Nat
  attributes : Nat
  sequence : Nat
  /-- The process name, without its terminator; the code removes a last character (rp_change_log.py 252), which
  is not modelled. -/
  name : Bytes
  /-- The types of the records. -/
  types : List Nat
deriving DecidableEq, Repr

/-- `rp_change_log_entry` (rp_change_log.yaml 139-165) with the checks of rp_change_log.py 202-209: the size and
the values. -/
def parseEntry (b : Bytes) : Option (Nat × Entry) :=
  if leNat (slice b 4 8) = 1 ∧ leNat (slice b 8 12) = 0xABCDEF12 then
    some (leNat (slice b 0 4), ⟨leNat (slice b 12 16), leNat (slice b 16 20), leNat (slice b 20 24),
      leNat (slice b 24 32), [], []⟩)
  else none

def entryMap : DataTypeMap (Nat × Entry) := (fixedMap 72 id).refine parseEntry

/-- The copy of the size at the end of the data of a record (rp_change_log.py 273-293 and 345-368). -/
def checkCopy (size : Nat) (b : Bytes) : Bool :=
  let last := b.drop (b.length - 4)
  last.length = 4 ∧ leNat last = size

/-- `_ReadChangeLogEntry` (rp_change_log.py 180-300): the entry and the position after it. -/
def readEntry (data : Bytes) (pos : Nat) : Res (Entry × Nat) :=
  match structAt entryMap data pos with
  | .error e => .error e
  | .ok ((size, entry), _) =>
    match fileRead data (pos + 72) ((size : Int) - 72) with
    | .error e => .error e
    | .ok b =>
      match utf16z b with
      | none => .error .parseError
      | some name =>
        let stop := ((size : Int) - 72 - 4).toNat
        match walk (recordStep b stop) stop (stop + 1) (name.length + 2) [] with
        | none => .error .runtimeError -- never the case, see `records_end`
        | some (.error e) => .error e
        | some (.ok types) =>
          if checkCopy size b then .ok ({ entry with name := name, types := types }, pos + 72 + b.length)
          else .error .parseError

/-- `rp_change_log_file_header` (rp_change_log.yaml 177-190) with the checks of rp_change_log.py 320-334. -/
def parseHeader (b : Bytes) : Option Nat :=
  if leNat (slice b 8 12) = 0xABCDEF12 ∧ leNat (slice b 4 8) = 0 ∧ leNat (slice b 12 16) = 2 then
    some (leNat (slice b 0 4))
  else none

def headerMap : DataTypeMap Nat := (fixedMap 16 id).refine parseHeader

/-- `_ReadVolumePath` (rp_change_log.py 448-480) with `rp_change_log_volume_path_record` (rp_change_log.yaml
202-218). -/
def checkVolumePath (b : Bytes) : Bool :=
  8 ≤ b.length ∧ 8 ≤ leNat (slice b 0 4) ∧ leNat (slice b 0 4) ≤ b.length ∧ leNat (slice b 4 8) = 2

/-- `_ReadFileHeader` (rp_change_log.py 302-368): the position after it. -/
def readHeader (data : Bytes) : Res Nat :=
  match structAt headerMap data 0 with
  | .error e => .error e
  | .ok (size, _) =>
    match fileRead data 16 ((size : Int) - 16) with
    | .error e => .error e
    | .ok b =>
      if checkVolumePath (b.take (b.length - 4)) ∧ checkCopy size b then .ok (16 + b.length) else .error .parseError

/-- `ReadFileObject` (rp_change_log.py 482-492) and `_ReadChangeLogEntries` (165-178); `none` is out of fuel. -/
def readLog (data : Bytes) (fuel : Nat) : Option (Res (List Entry)) :=
  match readHeader data with
  | .error e => some (.error e)
  | .ok pos => walk (readEntry data) data.length fuel pos []

/-! ## The specification -/

/-- A record of an entry: the type and what comes after the header. -/
structure StoredRecord where
  type : Nat
  content : Bytes

def StoredRecord.bytes (r : StoredRecord) : Bytes :=
  [leBytes 4 (8 + r.content.length), leBytes 4 r.type, r.content].flatten

/-- A string of UTF-16 characters none of which is zero. -/
inductive Utf16 : Bytes → Prop where
  | nil : Utf16 []
  | cons (a b : UInt8) (l : Bytes) : ¬ (a = 0 ∧ b = 0) → Utf16 l → Utf16 (a :: b :: l)

/-- The records of types 4, 5 and 9 have a string; others have at least four bytes. -/
def StoredRecord.Ok (r : StoredRecord) : Prop :=
  r.type < 2 ^ 32 ∧ 8 + r.content.length < 2 ^ 32 ∧
    if r.type = 4 ∨ r.type = 5 ∨ r.type = 9 then ∃ s rest, Utf16 s ∧ r.content = s ++ [0, 0] ++ rest
    else 4 ≤ r.content.length

structure StoredEntry where
  value : Entry
  unknown1 : Bytes
  nameSize : Nat
  unknown2 : Nat
  records : List StoredRecord

def StoredEntry.size (e : StoredEntry) : Nat :=
  72 + (e.value.name.length + 2) + (e.records.flatMap (·.bytes)).length + 4

def StoredEntry.head (e : StoredEntry) : Bytes :=
  [leBytes 4 e.size, leBytes 4 1, leBytes 4 0xABCDEF12, leBytes 4 e.value.entryType, leBytes 4 e.value.entryFlags,
    leBytes 4 e.value.attributes, leBytes 8 e.value.sequence, e.unknown1, leBytes 4 e.nameSize,
    leBytes 4 e.unknown2].flatten

def StoredEntry.tail (e : StoredEntry) : Bytes :=
  e.value.name ++ [0, 0] ++ e.records.flatMap (·.bytes) ++ leBytes 4 e.size

def StoredEntry.bytes (e : StoredEntry) : Bytes := e.head ++ e.tail

def StoredEntry.Ok (e : StoredEntry) : Prop :=
  e.size < 2 ^ 32 ∧ e.value.entryType < 2 ^ 32 ∧ e.value.entryFlags < 2 ^ 32 ∧ e.value.attributes < 2 ^ 32 ∧
    e.value.sequence < 2 ^ 64 ∧ e.unknown1.length = 32 ∧ Utf16 e.value.name ∧ (∀ r ∈ e.records, r.Ok) ∧
    e.value.types = e.records.map (·.type)

/-- The file header with the volume path. -/
def headerBytes (path : Bytes) : Bytes :=
  [leBytes 4 (28 + path.length), leBytes 4 0, leBytes 4 0xABCDEF12, leBytes 4 2].flatten ++
    ([leBytes 4 (8 + path.length), leBytes 4 2, path].flatten ++ leBytes 4 (28 + path.length))

def logBytes (path : Bytes) (entries : List StoredEntry) : Bytes :=
  headerBytes path ++ entries.flatMap (·.bytes)

/-! ## Proofs -/

theorem utf16z_append (s rest : Bytes) (h : Utf16 s) : utf16z (s ++ [0, 0] ++ rest) = some s := by
  induction h with
  | nil => simp [utf16z]
  | cons a b l hn _ ih =>
    simp only [List.cons_append]
    rw [utf16z, if_neg hn]
    simp only [List.append_assoc] at ih ⊢
    rw [ih]
    rfl

theorem recordStep_end (b : Bytes) (stop off x next : Nat) (h : off < stop)
    (hs : recordStep b stop off = .ok (x, next)) : off < next := by
  unfold recordStep at hs
  split at hs
  · cases hs
  · simp only [Except.ok.injEq, Prod.mk.injEq] at hs
    obtain ⟨_, rfl⟩ := hs
    split <;> omega

/-- The loop over the records of an entry always ends. -/
theorem records_end (b : Bytes) (stop off : Nat) : walk (recordStep b stop) stop (stop + 1) off [] ≠ none := by
  intro hc
  have h := walk_terminates (recordStep b stop) stop (fun o x n ho hs => recordStep_end b stop o x n ho hs) off []
  cases hw : walk (recordStep b stop) stop (stop - off + 1) off [] with
  | none => exact h hw
  | some r =>
    have := walk_mono (recordStep b stop) stop (stop - off + 1) (stop - (stop - off)) off [] r hw
    rw [show stop - off + 1 + (stop - (stop - off)) = stop + 1 by omega, hc] at this
    cases this

theorem fileRead_ok (pre s post : Bytes) : fileRead (pre ++ s ++ post) pre.length s.length = .ok s := by
  unfold fileRead File.read
  dsimp only
  rw [if_neg (by omega), if_neg (by omega), List.append_assoc, List.drop_left, Int.toNat_natCast, List.take_left]

theorem checkCopy_append (size : Nat) (s : Bytes) (h : size < 2 ^ 32) : checkCopy size (s ++ leBytes 4 size) = true := by
  unfold checkCopy
  dsimp only
  rw [List.length_append, leBytes_length, Nat.add_sub_cancel, List.drop_left,
    leNat_leBytes_of_lt _ _ (by simpa using h)]
  simp

theorem StoredRecord.length (r : StoredRecord) : r.bytes.length = 8 + r.content.length := by
  simp [StoredRecord.bytes]; omega

theorem readRecord_bytes (r : StoredRecord) (h : r.Ok) (post : Bytes) (hp : 4 ≤ post.length) :
    readRecord (r.bytes ++ post) = .ok (r.bytes.length, r.type) := by
  obtain ⟨h1, h2, h3⟩ := h
  have hl := r.length
  have e : r.bytes ++ post = [leBytes 4 (8 + r.content.length), leBytes 4 r.type, r.content, post].flatten := by
    simp [StoredRecord.bytes]
  have f0 : leNat (slice (r.bytes ++ post) 0 4) = 8 + r.content.length := by
    rw [e]; exact leField [] 4 _ _ 0 4 rfl rfl (by omega)
  have f1 : leNat (slice (r.bytes ++ post) 4 8) = r.type := by
    rw [e]; exact leField [leBytes 4 _] 4 _ _ 4 8 (by simp) rfl (by omega)
  have f2 : (r.bytes ++ post).drop 8 = r.content ++ post := by
    have : r.bytes ++ post = [leBytes 4 (8 + r.content.length), leBytes 4 r.type].flatten ++ (r.content ++ post) := by
      simp [StoredRecord.bytes]
    rw [this]
    exact List.drop_left' (by simp)
  unfold readRecord
  dsimp only
  rw [if_neg (by rw [List.length_append]; omega), f0, f1, f2, hl]
  split
  · rename_i ht
    rw [if_pos ht] at h3
    obtain ⟨s, rest, hs, hc⟩ := h3
    rw [hc, List.append_assoc, utf16z_append s _ hs]
  · rename_i ht
    rw [if_neg ht] at h3
    rw [if_neg (by rw [List.length_append]; omega)]

theorem walk_records (rs : List StoredRecord) (h : ∀ r ∈ rs, r.Ok) (stop : Nat) : ∀ (pre : Bytes) (acc : List Nat)
    (post : Bytes) (fuel : Nat), 4 ≤ post.length → stop = pre.length + (rs.flatMap (·.bytes)).length →
    walk (recordStep (pre ++ rs.flatMap (·.bytes) ++ post) stop) stop (rs.length + fuel + 1) pre.length acc =
      some (.ok (acc ++ rs.map (·.type))) := by
  induction rs with
  | nil =>
    intro pre acc post fuel _ hs
    rw [walk, if_neg (by simp at hs; omega)]
    simp
  | cons r rs ih =>
    intro pre acc post fuel hp hs
    have hr := h r (by simp)
    have hl := r.length
    rw [List.flatMap_cons, List.length_append] at hs
    rw [show (r :: rs).length + fuel + 1 = (rs.length + fuel + 1) + 1 by simp; omega, walk, if_pos (by omega)]
    have hstep : recordStep (pre ++ (r :: rs).flatMap (·.bytes) ++ post) stop pre.length =
        .ok (r.type, pre.length + r.bytes.length) := by
      unfold recordStep
      rw [List.append_assoc, List.drop_left, List.flatMap_cons, List.append_assoc,
        readRecord_bytes r hr _ (by rw [List.length_append]; omega)]
      dsimp only
      rw [if_neg (by omega)]
    rw [hstep]
    dsimp only
    have := ih (fun t ht => h t (by simp [ht])) (pre ++ r.bytes) (acc ++ [r.type]) post fuel hp
      (by rw [List.length_append]; omega)
    rw [show pre ++ (r :: rs).flatMap (·.bytes) ++ post = pre ++ r.bytes ++ rs.flatMap (·.bytes) ++ post by simp,
      ← List.length_append, this]
    simp

theorem head_length (e : StoredEntry) (h : e.Ok) : e.head.length = 72 := by
  have := h.2.2.2.2.2.1
  simp [StoredEntry.head, this]

theorem tail_length (e : StoredEntry) : e.tail.length = e.size - 72 := by
  simp [StoredEntry.tail, StoredEntry.size]
  omega

theorem entry_encodes (e : StoredEntry) (h : e.Ok) :
    Encodes entryMap e.head (e.size, { e.value with name := [], types := [] }) := by
  have hl := head_length e h
  obtain ⟨h1, h2, h3, h4, h5, h6, h7, h8, h9⟩ := h
  refine encodes_refine _ _ _ e.head _ (encodes_fixed 72 id e.head (by omega) hl) ?_
  have f0 : leNat (slice e.head 0 4) = e.size := leField [] 4 _ _ 0 4 rfl rfl (by omega)
  have f1 : leNat (slice e.head 4 8) = 1 := leField [leBytes 4 _] 4 _ _ 4 8 (by simp) rfl (by omega)
  have f2 : leNat (slice e.head 8 12) = 0xABCDEF12 :=
    leField [leBytes 4 _, leBytes 4 _] 4 _ _ 8 12 (by simp) rfl (by omega)
  have f3 : leNat (slice e.head 12 16) = e.value.entryType :=
    leField [leBytes 4 _, leBytes 4 _, leBytes 4 _] 4 _ _ 12 16 (by simp) rfl (by omega)
  have f4 : leNat (slice e.head 16 20) = e.value.entryFlags :=
    leField [leBytes 4 _, leBytes 4 _, leBytes 4 _, leBytes 4 _] 4 _ _ 16 20 (by simp) rfl (by omega)
  have f5 : leNat (slice e.head 20 24) = e.value.attributes :=
    leField [leBytes 4 _, leBytes 4 _, leBytes 4 _, leBytes 4 _, leBytes 4 _] 4 _ _ 20 24 (by simp) rfl (by omega)
  have f6 : leNat (slice e.head 24 32) = e.value.sequence :=
    leField [leBytes 4 _, leBytes 4 _, leBytes 4 _, leBytes 4 _, leBytes 4 _, leBytes 4 _] 8 _ _ 24 32 (by simp) rfl
      (by omega)
  unfold parseEntry
  rw [f0, f1, f2, f3, f4, f5, f6, if_pos ⟨rfl, rfl⟩]

theorem readEntry_bytes (e : StoredEntry) (h : e.Ok) (pre post : Bytes) :
    readEntry (pre ++ e.bytes ++ post) pre.length = .ok (e.value, pre.length + e.bytes.length) := by
  have hh := head_length e h
  have ht := tail_length e
  have hsz : 78 ≤ e.size := by unfold StoredEntry.size; omega
  unfold readEntry
  have e1 : pre ++ e.bytes ++ post = pre ++ e.head ++ (e.tail ++ post) := by simp [StoredEntry.bytes]
  have e2 : pre ++ e.bytes ++ post = (pre ++ e.head) ++ e.tail ++ post := by simp [StoredEntry.bytes]
  rw [e1, entry_encodes e h pre (e.tail ++ post), ← e1]
  dsimp only
  have hr := fileRead_ok (pre ++ e.head) e.tail post
  rw [← e2, List.length_append, hh, ht, show ((e.size - 72 : Nat) : Int) = (e.size : Int) - 72 by omega] at hr
  rw [hr]
  dsimp only
  obtain ⟨h1, h2, h3, h4, h5, h6, h7, h8, h9⟩ := h
  have hz : utf16z e.tail = some e.value.name := by
    rw [show e.tail = e.value.name ++ [0, 0] ++ (e.records.flatMap (·.bytes) ++ leBytes 4 e.size) by
      simp [StoredEntry.tail]]
    exact utf16z_append _ _ h7
  rw [hz]
  dsimp only
  have hs : ((e.size : Int) - 72 - 4).toNat = e.size - 76 := by omega
  have hcount : e.records.length ≤ e.size - 76 := by
    have : ∀ rs : List StoredRecord, rs.length ≤ (rs.flatMap (·.bytes)).length := by
      intro rs
      induction rs with
      | nil => simp
      | cons r rs ih =>
        have := r.length
        rw [List.flatMap_cons, List.length_append, List.length_cons]
        omega
    have := this e.records
    unfold StoredEntry.size
    omega
  have hw := walk_records e.records h8 (e.size - 76) (e.value.name ++ [0, 0]) [] (leBytes 4 e.size)
    (e.size - 76 - e.records.length) (by simp) (by
      rw [List.length_append]
      unfold StoredEntry.size
      simp
      omega)
  rw [show e.records.length + (e.size - 76 - e.records.length) + 1 = e.size - 76 + 1 by omega,
    List.length_append, List.nil_append] at hw
  rw [hs]
  unfold StoredEntry.tail
  simp only [List.length_cons, List.length_nil, Nat.zero_add, Nat.reduceAdd] at hw
  rw [hw]
  dsimp only
  rw [if_pos (checkCopy_append _ _ h1), ← h9]
  have hb : e.bytes.length = e.size := by rw [StoredEntry.bytes, List.length_append, hh, ht]; omega
  have hb2 : (e.value.name ++ ([0, 0] : Bytes) ++ e.records.flatMap (fun r => r.bytes) ++ leBytes 4 e.size).length = e.size - 72 := ht
  rw [hb, hb2, show pre.length + 72 + (e.size - 72) = pre.length + e.size by omega]

/-! ## C44 -/

theorem fileRead_length (data : Bytes) (pos : Nat) (size : Int) (b : Bytes) (h : fileRead data pos size = .ok b) :
    b = slice data pos (pos + b.length) ∧ pos + b.length ≤ max pos data.length := by
  unfold fileRead File.read at h
  split at h
  · cases h
  · dsimp only at h
    cases h
    rw [slice_eq_take_drop, Nat.add_sub_cancel_left]
    split
    · refine ⟨by rw [List.take_length], ?_⟩
      rw [List.length_drop]; omega
    · refine ⟨?_, ?_⟩
      · rw [List.length_take, ← List.take_take, List.take_length]
      · rw [List.length_take, List.length_drop]; omega

/-- An entry is accepted only if its last four bytes have the size that is in its first four. -/
theorem C44_copy (data : Bytes) (pos : Nat) (e : Entry) (next : Nat) (h : readEntry data pos = .ok (e, next)) :
    leNat (slice data (next - 4) next) = leNat (slice data pos (pos + 4)) ∧ pos + 76 ≤ next ∧ next ≤ data.length := by
  unfold readEntry at h
  split at h
  · cases h
  · rename_i size entry n hs
    split at h
    · cases h
    · rename_i b hb
      split at h
      · cases h
      · dsimp only at h
        split at h
        · cases h
        · cases h
        · split at h
          · rename_i hc
            cases h
            obtain ⟨hb1, hb2⟩ := fileRead_length _ _ _ _ hb
            unfold checkCopy at hc
            simp only [decide_eq_true_eq] at hc
            obtain ⟨hc1, hc2⟩ := hc
            rw [List.length_drop] at hc1
            have hpos : pos + 72 ≤ data.length := by omega
            refine ⟨?_, by omega, by omega⟩
            obtain ⟨_, hp, _⟩ := structAt_fixed_ok _ _ _ _ _ _ (by decide) hs
            have hsize : size = leNat (slice data pos (pos + 4)) := by
              unfold parseEntry at hp
              split at hp
              · cases hp
                rw [slice_slice _ _ _ _ _ (by omega)]
                rfl
              · cases hp
            rw [← hsize, ← hc2]
            congr 1
            have hd : b.drop (b.length - 4) = (slice data (pos + 72) (pos + 72 + b.length)).drop (b.length - 4) :=
              congrArg (List.drop (b.length - 4)) hb1
            rw [hd, slice_eq_take_drop, slice_eq_take_drop, List.drop_take, List.drop_drop]
            congr 1
            · omega
            · congr 1
              omega
          · cases h

/-- Entries follow one another: the next begins where the size says. -/
def C44_tiling_claim : Prop :=
  ∀ data pos e next, readEntry data pos = .ok (e, next) → next = pos + leNat (slice data pos (pos + 4))

/-- It is so for entries that have a size of at least that of their first part and that are completely in the
file.  What is missing are the other sizes, for which it is false. -/
theorem C44_tiling_partial (data : Bytes) (pos : Nat) (e : Entry) (next : Nat)
    (h : readEntry data pos = .ok (e, next)) (h1 : 72 ≤ leNat (slice data pos (pos + 4)))
    (h2 : pos + leNat (slice data pos (pos + 4)) ≤ data.length) :
    next = pos + leNat (slice data pos (pos + 4)) := by
  unfold readEntry at h
  split at h
  · cases h
  · rename_i size entry n hs
    obtain ⟨_, hp, _⟩ := structAt_fixed_ok _ _ _ _ _ _ (by decide) hs
    have hsize : size = leNat (slice data pos (pos + 4)) := by
      unfold parseEntry at hp
      split at hp
      · cases hp
        rw [slice_slice _ _ _ _ _ (by omega)]
        rfl
      · cases hp
    rw [← hsize] at h1 h2 ⊢
    split at h
    · cases h
    · rename_i b hb
      unfold fileRead File.read at hb
      rw [if_neg (by omega)] at hb
      dsimp only at hb
      rw [if_neg (by omega)] at hb
      split at h
      · cases h
      · dsimp only at h
        split at h
        · cases h
        · cases h
        · split at h
          · cases h
            cases hb
            rw [List.length_take, List.length_drop]
            omega
          · cases h

/-- An entry with a size that is one less than that of its first part takes all of the file. -/
def swallowing : Bytes :=
  [leBytes 4 71, leBytes 4 1, leBytes 4 0xABCDEF12, List.replicate 60 0, [0, 0], leBytes 4 71].flatten

theorem swallowing_read : readEntry swallowing 0 = .ok (⟨0, 0, 0, 0, [], []⟩, 78) := by decide +kernel

theorem C44_tiling_claim_false : ¬ C44_tiling_claim := by
  intro h
  exact absurd (h _ _ _ _ swallowing_read) (by decide +kernel)

/-- An entry that says it is larger than the file is accepted when the file ends with that size. -/
theorem C44_truncated :
    readEntry ([leBytes 4 1000, leBytes 4 1, leBytes 4 0xABCDEF12, List.replicate 60 0,
      [0, 0], leBytes 4 0, leBytes 4 9, [0, 0], leBytes 4 1000].flatten) 0 = .ok (⟨0, 0, 0, 0, [], [9]⟩, 88) := by
  decide +kernel

/-- Reading ends for every file. -/
theorem C44_terminates (data : Bytes) : readLog data (data.length + 1) ≠ none := by
  unfold readLog
  split
  · simp
  · rename_i pos _
    have h := walk_terminates (readEntry data) data.length
      (fun off x next _ hs => by have := C44_copy data off x next hs; omega) pos []
    cases hw : walk (readEntry data) data.length (data.length - pos + 1) pos [] with
    | none => exact absurd hw h
    | some r =>
      have := walk_mono _ _ _ (data.length - (data.length - pos)) _ _ _ hw
      rw [show data.length - pos + 1 + (data.length - (data.length - pos)) = data.length + 1 by omega] at this
      simp [this]

/-! ## C94 -/

theorem readHeader_bytes (path post : Bytes) (h : 28 + path.length < 2 ^ 32) :
    readHeader (headerBytes path ++ post) = .ok (headerBytes path).length := by
  have hl : (headerBytes path).length = 28 + path.length := by simp [headerBytes]; omega
  have hx : Encodes headerMap
      [leBytes 4 (28 + path.length), leBytes 4 0, leBytes 4 0xABCDEF12, leBytes 4 2].flatten (28 + path.length) := by
    refine encodes_refine _ _ _ _ _ (encodes_fixed 16 id _ (by omega) (by simp)) ?_
    have f0 := leField [] 4 (28 + path.length) [leBytes 4 0, leBytes 4 0xABCDEF12, leBytes 4 2] 0 4 rfl rfl (by omega)
    have f1 := leField [leBytes 4 (28 + path.length)] 4 0 [leBytes 4 0xABCDEF12, leBytes 4 2] 4 8 (by simp) rfl
      (by omega)
    have f2 := leField [leBytes 4 (28 + path.length), leBytes 4 0] 4 0xABCDEF12 [leBytes 4 2] 8 12 (by simp) rfl
      (by omega)
    have f3 := leField [leBytes 4 (28 + path.length), leBytes 4 0, leBytes 4 0xABCDEF12] 4 2 [] 12 16 (by simp) rfl
      (by omega)
    simp only [List.nil_append, List.cons_append] at f0 f1 f2 f3
    unfold parseHeader
    simp only [id]
    rw [f0, f1, f2, f3, if_pos ⟨rfl, rfl, rfl⟩]
  have hx' := hx [] ([leBytes 4 (8 + path.length), leBytes 4 2, path].flatten ++ leBytes 4 (28 + path.length) ++ post)
  have e : headerBytes path ++ post =
      [] ++ [leBytes 4 (28 + path.length), leBytes 4 0, leBytes 4 0xABCDEF12, leBytes 4 2].flatten ++
      ([leBytes 4 (8 + path.length), leBytes 4 2, path].flatten ++ leBytes 4 (28 + path.length) ++ post) := by
    simp only [headerBytes, List.nil_append, List.append_assoc]
  unfold readHeader
  rw [← e] at hx'
  simp only [List.length_nil, Int.natCast_zero] at hx'
  rw [hx']
  dsimp only
  have hr := fileRead_ok [leBytes 4 (28 + path.length), leBytes 4 0, leBytes 4 0xABCDEF12, leBytes 4 2].flatten
    ([leBytes 4 (8 + path.length), leBytes 4 2, path].flatten ++ leBytes 4 (28 + path.length)) post
  have e3 : [leBytes 4 (28 + path.length), leBytes 4 0, leBytes 4 0xABCDEF12, leBytes 4 2].flatten ++
      ([leBytes 4 (8 + path.length), leBytes 4 2, path].flatten ++ leBytes 4 (28 + path.length)) ++ post =
      headerBytes path ++ post := rfl
  rw [e3] at hr
  have l1 : [leBytes 4 (28 + path.length), leBytes 4 0, leBytes 4 0xABCDEF12, leBytes 4 2].flatten.length = 16 := by simp
  have l2 : ([leBytes 4 (8 + path.length), leBytes 4 2, path].flatten ++ leBytes 4 (28 + path.length)).length =
      12 + path.length := by simp; omega
  rw [l1, l2, show ((12 + path.length : Nat) : Int) = ((28 + path.length : Nat) : Int) - 16 by omega] at hr
  rw [hr]
  dsimp only
  rw [l2, show 12 + path.length - 4 = 8 + path.length by omega, List.take_left' (by simp; omega)]
  have hv : checkVolumePath [leBytes 4 (8 + path.length), leBytes 4 2, path].flatten = true := by
    have f0 := leField [] 4 (8 + path.length) [leBytes 4 2, path] 0 4 rfl rfl (by omega)
    have f1 := leField [leBytes 4 (8 + path.length)] 4 2 [path] 4 8 (by simp) rfl (by omega)
    simp only [List.nil_append, List.cons_append] at f0 f1
    unfold checkVolumePath
    rw [f0, f1]
    simp
    omega
  rw [if_pos ⟨hv, checkCopy_append _ _ h⟩, hl]
  congr 1
  omega

/-- All entries of a change log are read, in order, with the types of their records. -/
theorem C94_entries (path : Bytes) (entries : List StoredEntry) (hp : 28 + path.length < 2 ^ 32)
    (h : ∀ e ∈ entries, e.Ok) (fuel : Nat) (hf : entries.length < fuel) :
    readLog (logBytes path entries) fuel = some (.ok (entries.map (·.value))) := by
  unfold readLog logBytes
  rw [readHeader_bytes path _ hp]
  dsimp only
  have hw := walk_items readEntry (fun _ => True) (entries.map (fun e => (e.bytes, fun _ => e.value)))
    (by
      intro i hi pre post _
      simp only [List.mem_map] at hi
      obtain ⟨e, he, rfl⟩ := hi
      exact ⟨readEntry_bytes e (h e he) pre post, trivial⟩)
    (by
      intro i hi
      simp only [List.mem_map] at hi
      obtain ⟨e, he, rfl⟩ := hi
      intro hc
      have := head_length e (h e he)
      have hc : e.head ++ e.tail = [] := hc
      simp only [List.append_eq_nil_iff] at hc
      rw [hc.1] at this
      simp at this)
    (headerBytes path) [] trivial fuel (by simpa using hf) []
  rw [valuesFrom_map_const, List.append_nil, List.nil_append, List.flatMap_map] at hw
  exact hw

/-- Whatever its type a record may have no content. -/
def C94_empty_claim : Prop :=
  ∀ type : Nat, type < 2 ^ 32 → ¬ (type = 4 ∨ type = 5 ∨ type = 9) → ∀ post : Bytes, 4 ≤ post.length →
    readRecord ((⟨type, []⟩ : StoredRecord).bytes ++ post) = .ok (8, type)

theorem C94_empty_claim_false : ¬ C94_empty_claim := by
  intro h
  exact absurd (h 8 (by decide) (by decide) [84, 0, 0, 0] (by decide)) (by decide +kernel)

example : readLog (logBytes [67, 0, 58, 0] [⟨⟨16, 0, 32, 7, [97, 0, 98, 0], [9, 3]⟩, List.replicate 32 1, 6, 0,
    [⟨9, [65, 0, 0, 0]⟩, ⟨3, [66, 0, 0, 0]⟩]⟩]) 2 = some (.ok [⟨16, 0, 32, 7, [97, 0, 98, 0], [9, 3]⟩]) := by
  refine C94_entries _ _ (by decide) ?_ 2 (by decide)
  intro e he
  simp only [List.mem_singleton] at he
  subst he
  refine ⟨by decide, by decide, by decide, by decide, by decide, by decide,
    .cons _ _ _ (by decide) (.cons _ _ _ (by decide) .nil), ?_, rfl⟩
  intro r hr
  simp only [List.mem_cons, List.not_mem_nil, or_false] at hr
  rcases hr with rfl | rfl
  · exact ⟨by decide, by decide, [65, 0], [], .cons _ _ _ (by decide) .nil, rfl⟩
  · exact ⟨by decide, by decide, by simp⟩

end Dtf.ChangeLog
