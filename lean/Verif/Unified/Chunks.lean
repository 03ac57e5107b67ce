import Verif.Sequence
import Verif.Formats.Props
import Verif.LevelDB.Records

/-!
# Chunks of trace files (C35, C80-C83)

A trace file is a sequence of chunks; a chunk set has a block with chunks in it; a firehose chunk has
a sequence of trace points.
-/

namespace Dtf.Unified
open Py DataFormat

/-! ## Model -/

/-- The next multiple of eight (unified_logging.py 3732-3736, 4297-4301, 5086-5090). -/
def align8 (n : Nat) : Nat :=
  let alignment := n % 8
  n + (if 0 < alignment then 8 - alignment else alignment)

/-- `tracev3_chunk_header` (aul_tracev3.yaml 75-86): tag, sub tag and data size. -/
def chunkHeaderMap : DataTypeMap (Nat × Nat × Nat) :=
  fixedMap 16 (fun b => (leNat (slice b 0 4), leNat (slice b 4 8), leNat (slice b 8 16)))

/-- A chunk: where its data is, and the data that is there. -/
structure Chunk where
  tag : Nat
  subTag : Nat
  off : Nat
  size : Nat
  data : Bytes
  /-- The position of the file after the chunk was read. -/
  pos : Nat
deriving DecidableEq, Repr

/-- A round of the loop of `ReadLogEntries` (unified_logging.py 5061-5090).  `handle` reads a catalog
or a chunk set and gives the position of the file after that. -/
def fileStep (handle : Nat → Nat → Nat → Res Nat) (data : Bytes) (off : Nat) : Res (Chunk × Nat) :=
  match structAt chunkHeaderMap data off with
  | .error e => .error e
  | .ok ((tag, subTag, size), _) =>
    let off := off + 16
    if tag = 0x600B ∨ tag = 0x600D then
      match handle tag off size with
      | .error e => .error e
      | .ok pos =>
        .ok (⟨tag, subTag, off, size, slice data off (off + size), pos⟩, align8 (off + size))
    else .error .parseError

/-- The loop of `ReadLogEntries`, from the position of the file (unified_logging.py 5057-5090). -/
def readFileChunks (handle : Nat → Nat → Nat → Res Nat) (data : Bytes) (fuel pos : Nat) :
    Option (Res (List Chunk)) :=
  walk (fileStep handle data) data.length fuel pos []

/-- The position of the file after the chunks were read. -/
def positionAfter (pos : Nat) (chunks : List Chunk) : Nat :=
  (chunks.getLast?.map (·.pos)).getD pos

/-- `tracev3_lz4_block_header` (aul_tracev3.yaml 199-211). -/
def blockHeaderMap : DataTypeMap (Bytes × Nat × Nat) :=
  fixedMap 12 (fun b => (slice b 0 4, leNat (slice b 4 8), leNat (slice b 8 12)))

def markerCompressed : Bytes := [0x62, 0x76, 0x34, 0x31]
def markerStored : Bytes := [0x62, 0x76, 0x34, 0x2d]
def markerEnd : Bytes := [0x62, 0x76, 0x34, 0x24]

/-- The data of the block of a chunk set and its declared size (unified_logging.py 3634-3664).  The
header is read from the file, `chunkData` is the data of the chunk. -/
def unpackBlock (lz4 : Bytes → Nat → Res Bytes) (data : Bytes) (off : Nat) (chunkData : Bytes) :
    Res (Bytes × Nat) :=
  match structAt blockHeaderMap data off with
  | .error e => .error e
  | .ok ((signature, size, compressedSize), _) =>
    if signature = markerCompressed then
      match lz4 (slice chunkData 12 (12 + compressedSize)) size with
      | .error e => .error e
      | .ok u =>
        if slice chunkData (12 + compressedSize) (12 + compressedSize + 4) ≠ markerEnd then
          .error .parseError
        else .ok (u, size)
    else if signature = markerStored then
      if slice chunkData (8 + size) (8 + size + 4) ≠ markerEnd then .error .parseError
      else .ok (slice chunkData 8 (8 + size), size)
    else .error .parseError

/-- A round of the loop over the chunks of a chunk set (unified_logging.py 3669-3736).  `handle` reads
the data of the chunk. -/
def setStep (handle : Nat → Bytes → Res Unit) (block : Bytes) (off : Nat) : Res (Chunk × Nat) :=
  match readStructureFromByteStream (some chunkHeaderMap) (block.drop off) with
  | .error e => .error e
  | .ok (tag, subTag, size) =>
    let off := off + 16
    let chunkData := slice block off (off + size)
    match handle tag chunkData with
    | .error e => .error e
    | .ok () => .ok (⟨tag, subTag, off, size, chunkData, 0⟩, align8 (off + size))

/-- `_ReadChunkSet` (unified_logging.py 3617-3736): the chunks of a chunk set. -/
def readChunkSet (lz4 : Bytes → Nat → Res Bytes) (handle : Nat → Bytes → Res Unit) (data : Bytes)
    (off size fuel : Nat) : Option (Res (List Chunk)) :=
  match unpackBlock lz4 data off (slice data off (off + size)) with
  | .error e => some (.error e)
  | .ok (block, declared) => walk (setStep handle block) declared fuel 0 []

/-- A firehose trace point, with what `_ReadFirehoseChunkData` uses of it. -/
structure Record where
  recordType : Nat
  logType : Nat
  flags : Nat
  reference : Nat
  thread : Nat
  time : Nat
  data : Bytes
deriving DecidableEq, Repr

/-- `tracev3_firehose_tracepoint` (aul_tracev3.yaml 438-466), with its padding. -/
def tracepointMap : DataTypeMap Record :=
  sizedMap 24 (fun b => align8 (24 + leNat (slice b 22 24)) - 24) (fun b =>
    { recordType := leNat (slice b 0 1)
      logType := leNat (slice b 1 2)
      flags := leNat (slice b 2 4)
      reference := leNat (slice b 4 8)
      thread := leNat (slice b 8 16)
      time := leNat (slice b 16 20) ||| (leNat (slice b 20 22) <<< 32)
      data := slice b 24 (24 + leNat (slice b 22 24)) })

/-- The log types of the record types (unified_logging.py 3953-4046).  Unused records (0x00) have
any. -/
def supported (recordType logType : Nat) : Bool :=
  match recordType with
  | 0x00 => true
  | 0x02 => logType ∈ [0x01, 0x03]
  | 0x03 => logType ∈ [0x00]
  | 0x04 => logType ∈ [0x00, 0x01, 0x02, 0x10, 0x11]
  | 0x06 => logType ∈ [0x40, 0x41, 0x42, 0x80, 0x81, 0x82, 0xC0, 0xC1, 0xC2]
  | 0x07 => logType ∈ [0x00]
  | _ => false

/-- A round of the loop over trace points (unified_logging.py 3945-4301).  `handle` makes the log entry
of a record. -/
def recordStep (handle : Record → Res Unit) (chunkData : Bytes) (off : Nat) : Res (Record × Nat) :=
  match readStructureFromByteStream (some tracepointMap) (chunkData.drop off) with
  | .error e => .error e
  | .ok r =>
    if ¬ supported r.recordType r.logType then .error .parseError
    else if r.recordType = 0x00 then .ok (r, off + align8 (24 + r.data.length))
    else
      match handle r with
      | .error e => .error e
      | .ok () => .ok (r, align8 (off + 24 + r.data.length))

/-- `_ReadFirehoseChunkData` (unified_logging.py 3898-4311): the records a log entry is made of.  Line
4303 uses a variable that is only set for the record types 0x02, 0x04 and 0x06. -/
def readFirehose (handle : Record → Res Unit) (chunkData : Bytes) (fuel : Nat) :
    Option (Res (List Record)) :=
  match readStructureFromByteStream
      (some (fixedMap 32 (fun b => leNat (slice b 16 18)))) chunkData with
  | .error e => some (.error e)
  | .ok publicSize =>
    match walk (recordStep handle chunkData) publicSize fuel 32 [] with
    | none => none
    | some (.error e) => some (.error e)
    | some (.ok rs) =>
      if rs.any (fun r => decide (r.recordType ∈ [0x02, 0x04, 0x06])) then
        some (.ok (rs.filter (fun r => r.recordType ≠ 0x00)))
      else some (.error .unboundLocalError)

/-- The key of an oversize chunk (unified_logging.py 3708-3712, 3088, 3929-3931). -/
def oversizeKey (upper lower reference : Nat) : List Char :=
  Formats.dec upper ++ '@' :: (Formats.dec lower ++ ':' :: Formats.hexw 4 reference)

/-- The oversize chunks as a dictionary of Python. -/
def storeOversize {V : Type} (d : List (List Char × V)) (upper lower reference : Nat) (v : V) :
    List (List Char × V) :=
  (oversizeKey upper lower reference, v) :: d

def findOversize {V : Type} (d : List (List Char × V)) (upper lower reference : Nat) : Option V :=
  if reference = 0 then none else (d.find? (·.1 = oversizeKey upper lower reference)).map (·.2)

/-! ## Alignment -/

theorem align8_spec (n : Nat) : n ≤ align8 n ∧ align8 n < n + 8 ∧ align8 n % 8 = 0 := by
  unfold align8
  simp only
  split <;> omega

theorem align8_eq (n m : Nat) (h1 : n ≤ m) (h2 : m < n + 8) (h3 : m % 8 = 0) : align8 n = m := by
  have := align8_spec n
  omega

theorem align8_add (off n : Nat) (h : off % 8 = 0) : align8 (off + n) = off + align8 n := by
  have := align8_spec n
  exact align8_eq _ _ (by omega) (by omega) (by omega)

/-! ## C35: the loops end and stay aligned -/

theorem chunkHeader_ok (data : Bytes) (off : Nat) (x : Nat × Nat × Nat) (n : Int)
    (h : structAt chunkHeaderMap data off = .ok (x, n)) : off + 16 ≤ data.length := by
  unfold chunkHeaderMap at h
  rw [structAt_fixed _ _ _ _ (by omega)] at h
  split at h
  · simp at h
  · omega

theorem fileStep_ok (handle : Nat → Nat → Nat → Res Nat) (data : Bytes) (off : Nat) (c : Chunk)
    (next : Nat) (h : fileStep handle data off = .ok (c, next)) :
    c.off = off + 16 ∧ next = align8 (c.off + c.size) ∧ off + 16 ≤ data.length ∧
      c.data = slice data c.off (c.off + c.size) := by
  unfold fileStep at h
  split at h
  · simp at h
  · rename_i tag subTag size n hs
    have hl := chunkHeader_ok _ _ _ _ hs
    dsimp only at h
    split at h
    · split at h
      · simp at h
      · simp only [Except.ok.injEq, Prod.mk.injEq] at h
        obtain ⟨rfl, rfl⟩ := h
        exact ⟨rfl, rfl, hl, rfl⟩
    · simp at h

theorem setStep_ok (handle : Nat → Bytes → Res Unit) (block : Bytes) (off : Nat) (c : Chunk)
    (next : Nat) (h : setStep handle block off = .ok (c, next)) :
    c.off = off + 16 ∧ next = align8 (c.off + c.size) := by
  unfold setStep at h
  split at h
  · simp at h
  · dsimp only at h
    split at h
    · simp at h
    · simp only [Except.ok.injEq, Prod.mk.injEq] at h
      obtain ⟨rfl, rfl⟩ := h
      exact ⟨rfl, rfl⟩

theorem recordStep_ok (handle : Record → Res Unit) (chunkData : Bytes) (off : Nat) (r : Record)
    (next : Nat) (h : recordStep handle chunkData off = .ok (r, next)) :
    off + 24 + r.data.length ≤ next := by
  unfold recordStep at h
  split at h
  · simp at h
  · rename_i r' hr
    split at h
    · simp at h
    · split at h
      · simp only [Except.ok.injEq, Prod.mk.injEq] at h
        obtain ⟨rfl, rfl⟩ := h
        have := (align8_spec (24 + r'.data.length)).1
        omega
      · split at h
        · simp at h
        · simp only [Except.ok.injEq, Prod.mk.injEq] at h
          obtain ⟨rfl, rfl⟩ := h
          have := (align8_spec (off + 24 + r'.data.length)).1
          omega

/-- **C35**: reading the chunks of a file ends, for every contents and from every position. -/
theorem C35_file_terminates (handle : Nat → Nat → Nat → Res Nat) (data : Bytes) (pos : Nat) :
    readFileChunks handle data (data.length - pos + 1) pos ≠ none := by
  apply walk_terminates
  intro off c next _ h
  obtain ⟨h1, h2, _⟩ := fileStep_ok handle data off c next h
  have := (align8_spec (c.off + c.size)).1
  omega

/-- **C35**: reading a chunk set ends, for every contents; the number of rounds is bounded by the
declared size of the data. -/
theorem C35_chunk_set_terminates (lz4 : Bytes → Nat → Res Bytes) (handle : Nat → Bytes → Res Unit)
    (data : Bytes) (off size : Nat) : ∃ fuel, readChunkSet lz4 handle data off size fuel ≠ none := by
  unfold readChunkSet
  split
  · exact ⟨0, by simp⟩
  · rename_i block declared _
    refine ⟨declared - 0 + 1, walk_terminates _ _ ?_ 0 []⟩
    intro off c next _ h
    obtain ⟨h1, h2⟩ := setStep_ok handle block off c next h
    have := (align8_spec (c.off + c.size)).1
    omega

/-- **C35**: reading a firehose chunk ends, within 65536 rounds. -/
theorem C35_firehose_terminates (handle : Record → Res Unit) (chunkData : Bytes) :
    ∃ fuel, readFirehose handle chunkData fuel ≠ none := by
  unfold readFirehose
  split
  · exact ⟨0, by simp⟩
  · rename_i publicSize _
    refine ⟨publicSize - 32 + 1, ?_⟩
    have := walk_terminates (recordStep handle chunkData) publicSize (by
      intro off r next _ h
      have := recordStep_ok handle chunkData off r next h
      omega) 32 []
    split
    · contradiction
    · simp
    · split <;> simp

/-- The places of the chunks of a list, each at most seven bytes after the end of the one before it,
at multiples of eight.  Specification. -/
inductive Placed : Nat → List Chunk → Prop
  | nil (off : Nat) : Placed off []
  | cons (off next : Nat) (c : Chunk) (cs : List Chunk) (h0 : c.off = off + 16)
      (h1 : c.off + c.size ≤ next) (h2 : next < c.off + c.size + 8) (h3 : next % 8 = 0)
      (t : Placed next cs) : Placed off (c :: cs)

theorem placed_of_rounds (step : Nat → Res (Chunk × Nat)) (stop off off' : Nat) (cs : List Chunk)
    (hs : ∀ off c next, step off = .ok (c, next) → c.off = off + 16 ∧ next = align8 (c.off + c.size))
    (h : Rounds step stop off cs off') : Placed off cs := by
  induction h with
  | nil off => exact .nil off
  | cons off next off' c cs hlt h _ ih =>
    obtain ⟨h1, h2⟩ := hs off c next h
    have := align8_spec (c.off + c.size)
    exact .cons off next c cs h1 (by omega) (by omega) (by omega) ih

/-- **C35**: the chunks of a file follow each other without overlap, at multiples of eight, each header
is within the file, and the data of each is what is stored after its header. -/
theorem C35_file_chunks_placed (handle : Nat → Nat → Nat → Res Nat) (data : Bytes) (fuel pos : Nat)
    (cs : List Chunk) (h : readFileChunks handle data fuel pos = some (.ok cs)) :
    Placed pos cs ∧ ∀ c ∈ cs, c.off ≤ data.length ∧ c.data = slice data c.off (c.off + c.size) := by
  obtain ⟨xs, off', e, hr, hstop⟩ := walk_ok _ _ _ _ _ _ h
  simp only [List.nil_append] at e
  subst e
  refine ⟨placed_of_rounds _ _ _ _ _ (fun off c next hs => ?_) hr, ?_⟩
  · obtain ⟨h1, h2, _⟩ := fileStep_ok handle data off c next hs
    exact ⟨h1, h2⟩
  · clear h
    clear hstop
    induction hr with
    | nil => simp
    | cons off next off' c cs hlt h _ ih =>
      intro x hx
      rcases List.mem_cons.mp hx with rfl | hx
      · obtain ⟨h1, _, h3, h4⟩ := fileStep_ok handle data off x next h
        exact ⟨by omega, h4⟩
      · exact ih x hx

/-- **C35**: the chunks of a chunk set follow each other without overlap, at multiples of eight. -/
theorem C35_set_chunks_placed (lz4 : Bytes → Nat → Res Bytes) (handle : Nat → Bytes → Res Unit)
    (data : Bytes) (off size fuel : Nat) (cs : List Chunk)
    (h : readChunkSet lz4 handle data off size fuel = some (.ok cs)) : Placed 0 cs := by
  unfold readChunkSet at h
  split at h
  · simp at h
  · rename_i block declared _
    obtain ⟨xs, off', e, hr, _⟩ := walk_ok _ _ _ _ _ _ h
    simp only [List.nil_append] at e
    subst e
    exact placed_of_rounds _ _ _ _ _ (fun off c next hs => setStep_ok handle block off c next hs) hr

/-! ## C80: oversize data -/

theorem oversizeKey_injective (a b c a' b' c' : Nat)
    (h : oversizeKey a b c = oversizeKey a' b' c') : a = a' ∧ b = b' ∧ c = c' := by
  unfold oversizeKey at h
  have h1 := Formats.append_sep_inj '@' _ _ _ _ (Formats.dec_notMem a '@' (by decide))
    (Formats.dec_notMem a' '@' (by decide)) h
  have h2 := Formats.append_sep_inj ':' _ _ _ _ (Formats.dec_notMem b ':' (by decide))
    (Formats.dec_notMem b' ':' (by decide)) h1.2
  exact ⟨Formats.dec_injective _ _ h1.1, Formats.dec_injective _ _ h2.1,
    Formats.hexw_injective _ _ _ h2.2⟩

/-- An oversize chunk. -/
structure Oversize (V : Type) where
  upper : Nat
  lower : Nat
  reference : Nat
  value : V

/-- **C80**: after any number of oversize chunks, the data that is found for a process and a reference is
that of the last chunk for that process and that reference, and nothing is found if there is none. -/
theorem C80_oversize {V : Type} (chunks : List (Oversize V)) (upper lower reference : Nat)
    (hr : reference ≠ 0) :
    findOversize (chunks.foldl (fun d c => storeOversize d c.upper c.lower c.reference c.value) [])
        upper lower reference =
      ((chunks.filter (fun c => decide (c.upper = upper ∧ c.lower = lower ∧ c.reference = reference))).getLast?).map
        (·.value) := by
  have key : ∀ (chunks : List (Oversize V)) (d : List (List Char × V)),
      findOversize (chunks.foldl (fun d c => storeOversize d c.upper c.lower c.reference c.value) d)
        upper lower reference =
      (((chunks.filter (fun c => decide (c.upper = upper ∧ c.lower = lower ∧ c.reference = reference))).getLast?).map
        (·.value)).or (findOversize d upper lower reference) := by
    intro chunks
    induction chunks with
    | nil => intro d; simp
    | cons c chunks ih =>
      intro d
      rw [List.foldl_cons, ih]
      by_cases h : c.upper = upper ∧ c.lower = lower ∧ c.reference = reference
      · rw [List.filter_cons_of_pos (by simpa using h)]
        obtain ⟨rfl, rfl, rfl⟩ := h
        have e : findOversize (storeOversize d c.upper c.lower c.reference c.value) c.upper c.lower
            c.reference = some c.value := by
          simp [findOversize, storeOversize, hr]
        rw [e, List.getLast?_cons]
        cases (chunks.filter _).getLast? <;> simp
      · rw [List.filter_cons_of_neg (by simpa using h)]
        congr 1
        have hne : oversizeKey c.upper c.lower c.reference ≠ oversizeKey upper lower reference := by
          intro he
          obtain ⟨h1, h2, h3⟩ := oversizeKey_injective _ _ _ _ _ _ he
          exact h ⟨h1, h2, h3⟩
        simp [findOversize, storeOversize, hr, hne]
  rw [key chunks []]
  simp [findOversize]

/-- **C80**: there is no data for reference zero, whatever was stored. -/
theorem C80_no_reference {V : Type} (d : List (List Char × V)) (upper lower : Nat) :
    findOversize d upper lower 0 = none := by
  simp [findOversize]

/-- Two chunks for a reference, and one whose numbers have the same digits. -/
example : findOversize ([(⟨1, 12, 3, 7⟩ : Oversize Nat), ⟨11, 2, 3, 8⟩, ⟨1, 12, 3, 9⟩].foldl
    (fun d c => storeOversize d c.upper c.lower c.reference c.value) []) 1 12 3 = some 9 := by
  rw [C80_oversize _ _ _ _ (by decide)]
  decide

/-! ## C82: all chunks are delivered -/

/-- A chunk as it is stored. -/
structure StoredChunk where
  tag : Nat
  subTag : Nat
  data : Bytes
  padding : Bytes

def StoredChunk.bytes (c : StoredChunk) : Bytes :=
  [leBytes 4 c.tag, leBytes 4 c.subTag, leBytes 8 c.data.length, c.data, c.padding].flatten

/-- A chunk is padded to a multiple of eight. -/
def StoredChunk.Ok (c : StoredChunk) : Prop :=
  c.tag < 2 ^ 32 ∧ c.subTag < 2 ^ 32 ∧ c.data.length < 2 ^ 64 ∧ c.padding.length < 8 ∧
    (c.data.length + c.padding.length) % 8 = 0

theorem StoredChunk.length (c : StoredChunk) :
    c.bytes.length = 16 + c.data.length + c.padding.length := by
  simp [StoredChunk.bytes]; omega

theorem chunk_header (c : StoredChunk) (h : c.Ok) (post : Bytes) :
    chunkHeaderMap.mapByteStream (c.bytes ++ post) = .mapped (c.tag, c.subTag, c.data.length) := by
  obtain ⟨h1, h2, h3, h4, h5⟩ := h
  have hl := c.length
  have ht : (c.bytes ++ post).take 16 =
      [leBytes 4 c.tag, leBytes 4 c.subTag, leBytes 8 c.data.length].flatten := by
    have e : c.bytes ++ post = [leBytes 4 c.tag, leBytes 4 c.subTag, leBytes 8 c.data.length].flatten
        ++ (c.data ++ c.padding ++ post) := by simp [StoredChunk.bytes]
    rw [e, List.take_left' (by simp)]
  unfold chunkHeaderMap fixedMap sizedMap
  simp only [List.length_append, Nat.add_zero]
  rw [if_neg (by omega), if_neg (by omega), ht]
  congr 1
  refine Prod.ext ?_ (Prod.ext ?_ ?_)
  · exact leField [] 4 c.tag _ 0 4 rfl rfl (by omega)
  · exact leField [leBytes 4 c.tag] 4 c.subTag _ 4 8 (by simp) rfl (by omega)
  · exact leField [leBytes 4 c.tag, leBytes 4 c.subTag] 8 _ [] 8 16 (by simp) rfl (by omega)

theorem chunk_data (c : StoredChunk) (pre post : Bytes) :
    slice (pre ++ c.bytes ++ post) (pre.length + 16) (pre.length + 16 + c.data.length) = c.data := by
  have e : pre ++ c.bytes ++ post =
      (pre ++ [leBytes 4 c.tag, leBytes 4 c.subTag, leBytes 8 c.data.length].flatten) ++ c.data ++
        (c.padding ++ post) := by simp [StoredChunk.bytes]
  rw [e]
  exact LevelDB.slice_mid _ _ _ _ _ (by simp) (by simp)

theorem chunk_next (c : StoredChunk) (h : c.Ok) (off : Nat) (ho : off % 8 = 0) :
    align8 (off + 16 + c.data.length) = off + c.bytes.length := by
  obtain ⟨_, _, _, h4, h5⟩ := h
  have hl := c.length
  exact align8_eq _ _ (by omega) (by omega) (by omega)

/-- The chunk at a place. -/
def StoredChunk.at (c : StoredChunk) (pos : Nat → Nat) (off : Nat) : Chunk :=
  ⟨c.tag, c.subTag, off + 16, c.data.length, c.data, pos (off + 16)⟩

/-- **C82**: if a file has catalogs and chunk sets that can be read, from a multiple of eight on, all
of them are read in order, with their data. -/
theorem C82_file_chunks (handle : Nat → Nat → Nat → Res Nat) (pos : Nat → Nat)
    (chunks : List StoredChunk) (hok : ∀ c ∈ chunks, c.Ok)
    (htag : ∀ c ∈ chunks, c.tag = 0x600B ∨ c.tag = 0x600D)
    (hh : ∀ tag off size, handle tag off size = .ok (pos off)) (pre : Bytes)
    (hpre : pre.length % 8 = 0) (fuel : Nat) (hf : chunks.length < fuel) :
    readFileChunks handle (pre ++ chunks.flatMap (·.bytes)) fuel pre.length =
      some (.ok (valuesFrom pre.length (chunks.map (fun c => (c.bytes, c.at pos))))) := by
  have hb : ∀ b, b = (chunks.map (fun c => (c.bytes, c.at pos))).flatMap (·.1) →
      chunks.flatMap (·.bytes) = b := by
    rintro _ rfl
    rw [List.flatMap_map]
  have hw := walk_items (fileStep handle) (fun n => n % 8 = 0)
    (chunks.map (fun c => (c.bytes, c.at pos))) (by
      intro i hi pre post hpre
      obtain ⟨c, hc, rfl⟩ := List.mem_map.mp hi
      have hcok := hok c hc
      dsimp only
      refine ⟨?_, ?_⟩
      · have hs : structAt chunkHeaderMap (pre ++ c.bytes ++ post) pre.length =
            .ok ((c.tag, c.subTag, c.data.length), 16) := by
          have hm := chunk_header c hcok post
          unfold chunkHeaderMap at hm ⊢
          rw [structAt_fixed _ _ _ _ (by omega)]
          have hl := c.length
          rw [if_neg (by simp only [List.length_append]; omega)]
          unfold fixedMap sizedMap at hm
          simp only [List.length_append, Nat.add_zero] at hm
          rw [if_neg (by omega), if_neg (by omega)] at hm
          rw [List.append_assoc, List.drop_left]
          simp only [MapOutcome.mapped.injEq] at hm
          rw [hm]
          rfl
        unfold fileStep
        rw [hs]
        dsimp only
        rw [if_pos (htag c hc), hh, chunk_data, chunk_next c hcok _ hpre]
        rfl
      · have := hcok.2.2.2.2
        have hl := c.length
        omega)
    (by
      intro i hi
      obtain ⟨c, hc, rfl⟩ := List.mem_map.mp hi
      have hl := c.length
      intro h
      dsimp only at h
      rw [h] at hl
      simp at hl
      omega)
    pre [] hpre fuel (by simpa using hf) []
  unfold readFileChunks
  rw [hb _ rfl]
  simpa using hw

/-- **C82**: all chunks of the data of a chunk set are delivered in order, with their data. -/
theorem C82_set_chunks (handle : Nat → Bytes → Res Unit) (chunks : List StoredChunk)
    (hok : ∀ c ∈ chunks, c.Ok) (hh : ∀ c ∈ chunks, handle c.tag c.data = .ok ()) (fuel : Nat)
    (hf : chunks.length < fuel) :
    walk (setStep handle (chunks.flatMap (·.bytes))) (chunks.flatMap (·.bytes)).length fuel 0 [] =
      some (.ok (valuesFrom 0 (chunks.map (fun c => (c.bytes, c.at (fun _ => 0)))))) := by
  have hb : ∀ b, b = (chunks.map (fun c => (c.bytes, c.at (fun _ => 0)))).flatMap (·.1) →
      chunks.flatMap (·.bytes) = b := by
    rintro _ rfl
    rw [List.flatMap_map]
  have hw := walk_items (setStep handle) (fun n => n % 8 = 0)
    (chunks.map (fun c => (c.bytes, c.at (fun _ => 0)))) (by
      intro i hi pre post hpre
      obtain ⟨c, hc, rfl⟩ := List.mem_map.mp hi
      have hcok := hok c hc
      have hl := c.length
      dsimp only
      refine ⟨?_, ?_⟩
      · have hs : readStructureFromByteStream (some chunkHeaderMap)
            ((pre ++ c.bytes ++ post).drop pre.length) = .ok (c.tag, c.subTag, c.data.length) := by
          have hm := chunk_header c hcok post
          unfold readStructureFromByteStream
          rw [List.append_assoc, List.drop_left, if_neg]
          · dsimp only
            rw [hm]
          intro h
          have := congrArg List.length h
          simp only [List.length_append, List.length_nil] at this
          omega
        unfold setStep
        rw [hs]
        dsimp only
        rw [chunk_data, hh c hc, chunk_next c hcok _ hpre]
        rfl
      · have := hcok.2.2.2.2
        omega)
    (by
      intro i hi
      obtain ⟨c, hc, rfl⟩ := List.mem_map.mp hi
      have hl := c.length
      intro h
      dsimp only at h
      rw [h] at hl
      simp at hl
      omega)
    [] [] (by simp) fuel (by simpa using hf) []
  rw [hb _ rfl]
  simpa using hw

/-- A block as it is stored: with its data as it is, or compressed. -/
def storedBlock (data : Bytes) : Bytes :=
  [markerStored, leBytes 4 data.length, data, markerEnd].flatten

def compressedBlock (data compressed : Bytes) : Bytes :=
  [markerCompressed, leBytes 4 data.length, leBytes 4 compressed.length, compressed,
    markerEnd].flatten

theorem slice_take {α : Type} (l : List α) (n a b : Nat) (h : b ≤ n) :
    slice (l.take n) a b = slice l a b := by
  unfold slice
  rw [List.take_take, Nat.min_eq_left h]

/-- **C82**: the data of a block that is stored as it is. -/
theorem C82_stored_block (lz4 : Bytes → Nat → Res Bytes) (data pre post rest : Bytes)
    (h : data.length < 2 ^ 32) :
    unpackBlock lz4 (pre ++ storedBlock data ++ post) pre.length (storedBlock data ++ rest) =
      .ok (data, data.length) := by
  have hl : (storedBlock data).length = 12 + data.length := by
    simp [storedBlock, markerStored, markerEnd]; omega
  have e : ∀ rest, storedBlock data ++ rest =
      [markerStored, leBytes 4 data.length, data, markerEnd, rest].flatten := by
    intro rest; simp [storedBlock]
  have hs : ∃ n : Nat, structAt blockHeaderMap (pre ++ storedBlock data ++ post) pre.length =
      .ok ((markerStored, data.length, n), 12) := by
    unfold blockHeaderMap
    rw [structAt_fixed _ _ _ _ (by omega), if_neg (by simp only [List.length_append]; omega),
      List.append_assoc, List.drop_left]
    refine ⟨leNat (slice ((storedBlock data ++ post).take 12) 8 12), ?_⟩
    congr 2
    refine Prod.ext ?_ (Prod.ext ?_ rfl)
    · dsimp only
      rw [slice_take _ _ _ _ (by omega), e]
      exact slice_fields [] markerStored _ 0 4 rfl rfl
    · dsimp only
      rw [slice_take _ _ _ _ (by omega), e]
      exact leField [markerStored] 4 _ _ 4 8 rfl rfl (by omega)
  obtain ⟨n, hs⟩ := hs
  have h1 : slice (storedBlock data ++ rest) (8 + data.length) (8 + data.length + 4) = markerEnd := by
    rw [e]
    exact slice_fields [markerStored, leBytes 4 data.length, data] markerEnd [rest] _ _
      (by simp [markerStored]; omega) rfl
  have h2 : slice (storedBlock data ++ rest) 8 (8 + data.length) = data := by
    rw [e]
    exact slice_fields [markerStored, leBytes 4 data.length] data _ _ _ (by simp [markerStored]) rfl
  unfold unpackBlock
  rw [hs]
  dsimp only
  rw [if_neg (by decide), if_pos rfl, h1, h2]
  simp

/-- **C82**: the data of a block that is compressed, if it can be decompressed. -/
theorem C82_compressed_block (lz4 : Bytes → Nat → Res Bytes) (data compressed pre post rest : Bytes)
    (h : data.length < 2 ^ 32) (hc : compressed.length < 2 ^ 32)
    (hz : lz4 compressed data.length = .ok data) :
    unpackBlock lz4 (pre ++ compressedBlock data compressed ++ post) pre.length
      (compressedBlock data compressed ++ rest) = .ok (data, data.length) := by
  have hl : (compressedBlock data compressed).length = 16 + compressed.length := by
    simp [compressedBlock, markerCompressed, markerEnd]; omega
  have e : ∀ rest, compressedBlock data compressed ++ rest =
      [markerCompressed, leBytes 4 data.length, leBytes 4 compressed.length, compressed, markerEnd,
        rest].flatten := by
    intro rest; simp [compressedBlock]
  have hs : structAt blockHeaderMap (pre ++ compressedBlock data compressed ++ post) pre.length =
      .ok ((markerCompressed, data.length, compressed.length), 12) := by
    unfold blockHeaderMap
    rw [structAt_fixed _ _ _ _ (by omega), if_neg (by simp only [List.length_append]; omega),
      List.append_assoc, List.drop_left]
    congr 2
    refine Prod.ext ?_ (Prod.ext ?_ ?_)
    · dsimp only
      rw [slice_take _ _ _ _ (by omega), e]
      exact slice_fields [] markerCompressed _ 0 4 rfl rfl
    · dsimp only
      rw [slice_take _ _ _ _ (by omega), e]
      exact leField [markerCompressed] 4 _ _ 4 8 rfl rfl (by omega)
    · dsimp only
      rw [slice_take _ _ _ _ (by omega), e]
      exact leField [markerCompressed, leBytes 4 data.length] 4 _ _ 8 12 rfl rfl (by omega)
  have h1 : slice (compressedBlock data compressed ++ rest) (12 + compressed.length)
      (12 + compressed.length + 4) = markerEnd := by
    rw [e]
    exact slice_fields [markerCompressed, leBytes 4 data.length, leBytes 4 compressed.length,
      compressed] markerEnd [rest] _ _ (by simp [markerCompressed]; omega) rfl
  have h2 : slice (compressedBlock data compressed ++ rest) 12 (12 + compressed.length) =
      compressed := by
    rw [e]
    exact slice_fields [markerCompressed, leBytes 4 data.length, leBytes 4 compressed.length]
      compressed _ _ _ (by simp [markerCompressed]) rfl
  unfold unpackBlock
  rw [hs]
  dsimp only
  rw [if_pos rfl, h2, hz]
  dsimp only
  rw [h1]
  simp

/-- **C82**: a chunk set with a block that is stored as it is: the chunks that were put in it come out in
order. -/
theorem C82_chunk_set (lz4 : Bytes → Nat → Res Bytes) (handle : Nat → Bytes → Res Unit)
    (chunks : List StoredChunk) (hok : ∀ c ∈ chunks, c.Ok)
    (hh : ∀ c ∈ chunks, handle c.tag c.data = .ok ()) (pre post : Bytes)
    (hsize : (chunks.flatMap (·.bytes)).length < 2 ^ 32) (fuel : Nat) (hf : chunks.length < fuel) :
    (readChunkSet lz4 handle (pre ++ storedBlock (chunks.flatMap (·.bytes)) ++ post) pre.length
        (storedBlock (chunks.flatMap (·.bytes))).length fuel).map
        (fun r => r.map (fun cs => cs.map (fun c => (c.tag, c.subTag, c.data)))) =
      some (.ok (chunks.map (fun c => (c.tag, c.subTag, c.data)))) := by
  unfold readChunkSet
  have e : slice (pre ++ storedBlock (chunks.flatMap (·.bytes)) ++ post) pre.length
      (pre.length + (storedBlock (chunks.flatMap (·.bytes))).length) =
      storedBlock (chunks.flatMap (·.bytes)) := LevelDB.slice_mid _ _ _ _ _ rfl rfl
  have hb := C82_stored_block lz4 (chunks.flatMap (·.bytes)) pre post [] hsize
  rw [List.append_nil] at hb
  rw [e, hb]
  dsimp only
  rw [C82_set_chunks handle chunks hok hh fuel hf]
  simp only [Option.map_some, Except.map, Option.some.injEq, Except.ok.injEq]
  clear hok hh hsize hf e hb
  have key : ∀ off, (valuesFrom off (chunks.map (fun c => (c.bytes, c.at (fun _ => 0))))).map
      (fun c => (c.tag, c.subTag, c.data)) = chunks.map (fun c => (c.tag, c.subTag, c.data)) := by
    induction chunks with
    | nil => intro off; rfl
    | cons c cs ih =>
      intro off
      rw [List.map_cons, valuesFrom, List.map_cons, ih]
      rfl
  exact key 0

/-- Two chunks in a block. -/
example : readChunkSet (fun _ _ => .error .libraryError) (fun _ _ => .ok ())
    (storedBlock ((⟨0x6001, 1, [7, 8, 9], [0, 0, 0, 0, 0]⟩ : StoredChunk).bytes ++
      (⟨0x6002, 0, [], []⟩ : StoredChunk).bytes)) 0 100 5 =
    some (.ok [⟨0x6001, 1, 16, 3, [7, 8, 9], 0⟩, ⟨0x6002, 0, 40, 0, [], 0⟩]) := by
  decide +kernel

/-! ## C81: log entries can be read again -/

/-- The claim of C81: reading the log entries again, from where the file is then, gives the same
chunks. -/
def C81_again_claim : Prop :=
  ∀ (handle : Nat → Nat → Nat → Res Nat) (data : Bytes) (pos : Nat) (fuel : Nat) (cs : List Chunk),
    readFileChunks handle data fuel pos = some (.ok cs) →
    readFileChunks handle data fuel (positionAfter pos cs) = some (.ok cs)

/-- A trace file with an empty header and an empty chunk set. -/
def smallTrace : Bytes :=
  List.replicate 224 0 ++
    (⟨0x600D, 0, storedBlock [] , [0, 0, 0, 0]⟩ : StoredChunk).bytes

/-- **C81** is false: the position is after the header of the last block then, and what is there is not
the header of a chunk. -/
theorem C81_not_again : ¬ C81_again_claim := by
  intro h
  have := h (fun _ off _ => .ok (off + 12)) smallTrace 224 100
    [⟨0x600D, 0, 240, 12, storedBlock [], 252⟩] (by decide +kernel)
  revert this
  decide +kernel

/-! ## C83: trace points -/

/-- The kinds of trace points there are: unused, activities (create, user action), traces, log entries
(default, information, debug, error, fault), signposts (event, begin and end, for a process, a thread or the
system) and losses. -/
def Known (recordType logType : Nat) : Prop :=
  recordType = 0 ∨ (recordType, logType) ∈
    [(2, 1), (2, 3), (3, 0), (4, 0), (4, 1), (4, 2), (4, 16), (4, 17),
     (6, 0x40), (6, 0x41), (6, 0x42), (6, 0x80), (6, 0x81), (6, 0x82), (6, 0xC0), (6, 0xC1), (6, 0xC2), (7, 0)]

/-- **C83**: the trace points that are not refused are those of a kind there is. -/
theorem C83_supported (recordType logType : Nat) :
    supported recordType logType = true ↔ Known recordType logType := by
  unfold supported Known
  split <;> simp_all

/-- A trace point as it is stored. -/
structure StoredPoint where
  recordType : Nat
  logType : Nat
  flags : Nat
  reference : Nat
  thread : Nat
  timeLower : Nat
  timeUpper : Nat
  data : Bytes
  padding : Bytes

def StoredPoint.bytes (r : StoredPoint) : Bytes :=
  [leBytes 1 r.recordType, leBytes 1 r.logType, leBytes 2 r.flags, leBytes 4 r.reference,
    leBytes 8 r.thread, leBytes 4 r.timeLower, leBytes 2 r.timeUpper, leBytes 2 r.data.length,
    r.data, r.padding].flatten

def StoredPoint.Ok (r : StoredPoint) : Prop :=
  r.recordType < 2 ^ 8 ∧ r.logType < 2 ^ 8 ∧ r.flags < 2 ^ 16 ∧ r.reference < 2 ^ 32 ∧
    r.thread < 2 ^ 64 ∧ r.timeLower < 2 ^ 32 ∧ r.timeUpper < 2 ^ 16 ∧ r.data.length < 2 ^ 16 ∧
    r.padding.length < 8 ∧ (r.data.length + r.padding.length) % 8 = 0 ∧
    Known r.recordType r.logType

/-- What a trace point says. -/
def StoredPoint.value (r : StoredPoint) : Record :=
  ⟨r.recordType, r.logType, r.flags, r.reference, r.thread, r.timeLower + 2 ^ 32 * r.timeUpper,
    r.data⟩

theorem StoredPoint.length (r : StoredPoint) :
    r.bytes.length = 24 + r.data.length + r.padding.length := by
  simp [StoredPoint.bytes]; omega

theorem tracepoint_read (r : StoredPoint) (h : r.Ok) (post : Bytes) :
    tracepointMap.mapByteStream (r.bytes ++ post) = .mapped r.value := by
  obtain ⟨h1, h2, h3, h4, h5, h6, h7, h8, h9, h10, h11⟩ := h
  have hl := r.length
  have e : ∀ post, r.bytes ++ post =
      [leBytes 1 r.recordType, leBytes 1 r.logType, leBytes 2 r.flags, leBytes 4 r.reference,
        leBytes 8 r.thread, leBytes 4 r.timeLower, leBytes 2 r.timeUpper, leBytes 2 r.data.length,
        r.data, r.padding, post].flatten := by
    intro post; simp [StoredPoint.bytes]
  have hsize : leNat (slice (r.bytes ++ post) 22 24) = r.data.length := by
    rw [e]
    exact leField [leBytes 1 r.recordType, leBytes 1 r.logType, leBytes 2 r.flags,
      leBytes 4 r.reference, leBytes 8 r.thread, leBytes 4 r.timeLower, leBytes 2 r.timeUpper] 2 _ _
      22 24 (by simp) rfl (by omega)
  have htotal : 24 + (align8 (24 + r.data.length) - 24) = r.bytes.length := by
    rw [align8_eq (24 + r.data.length) (24 + r.data.length + r.padding.length) (by omega) (by omega)
      (by omega)]
    omega
  unfold tracepointMap sizedMap
  dsimp only
  rw [slice_take _ _ _ _ (by omega), hsize, htotal, if_neg (by simp only [List.length_append]; omega),
    if_neg (by simp only [List.length_append]; omega), List.take_left]
  have hsize' : leNat (slice r.bytes 22 24) = r.data.length := by
    have := e []
    rw [List.append_nil] at this
    rw [this]
    exact leField [leBytes 1 r.recordType, leBytes 1 r.logType, leBytes 2 r.flags,
      leBytes 4 r.reference, leBytes 8 r.thread, leBytes 4 r.timeLower, leBytes 2 r.timeUpper] 2 _ _
      22 24 (by simp) rfl (by omega)
  have f1 : leNat (slice r.bytes 0 1) = r.recordType :=
    leField [] 1 _ _ 0 1 rfl rfl (by omega)
  have f2 : leNat (slice r.bytes 1 2) = r.logType :=
    leField [leBytes 1 r.recordType] 1 _ _ 1 2 (by simp) rfl (by omega)
  have f3 : leNat (slice r.bytes 2 4) = r.flags :=
    leField [leBytes 1 r.recordType, leBytes 1 r.logType] 2 _ _ 2 4 (by simp) rfl (by omega)
  have f4 : leNat (slice r.bytes 4 8) = r.reference :=
    leField [leBytes 1 r.recordType, leBytes 1 r.logType, leBytes 2 r.flags] 4 _ _ 4 8 (by simp) rfl
      (by omega)
  have f5 : leNat (slice r.bytes 8 16) = r.thread :=
    leField [leBytes 1 r.recordType, leBytes 1 r.logType, leBytes 2 r.flags, leBytes 4 r.reference] 8
      _ _ 8 16 (by simp) rfl (by omega)
  have f6 : leNat (slice r.bytes 16 20) = r.timeLower :=
    leField [leBytes 1 r.recordType, leBytes 1 r.logType, leBytes 2 r.flags, leBytes 4 r.reference,
      leBytes 8 r.thread] 4 _ _ 16 20 (by simp) rfl (by omega)
  have f7 : leNat (slice r.bytes 20 22) = r.timeUpper :=
    leField [leBytes 1 r.recordType, leBytes 1 r.logType, leBytes 2 r.flags, leBytes 4 r.reference,
      leBytes 8 r.thread, leBytes 4 r.timeLower] 2 _ _ 20 22 (by simp) rfl (by omega)
  have f8 : slice r.bytes 24 (24 + r.data.length) = r.data :=
    slice_fields [leBytes 1 r.recordType, leBytes 1 r.logType, leBytes 2 r.flags,
      leBytes 4 r.reference, leBytes 8 r.thread, leBytes 4 r.timeLower, leBytes 2 r.timeUpper,
      leBytes 2 r.data.length] r.data [r.padding] 24 _ (by simp) rfl
  rw [hsize', f1, f2, f3, f4, f5, f6, f7, f8, Nat.or_comm,
    ← Nat.shiftLeft_add_eq_or_of_lt (by omega), Nat.shiftLeft_eq, Nat.add_comm, Nat.mul_comm]
  rfl

/-- A firehose chunk with the given trace points. -/
def firehoseBytes (header private_ : Bytes) (rs : List StoredPoint) : Bytes :=
  header ++ rs.flatMap (·.bytes) ++ private_

/-- The size of the public data that is stored, for trace points of the given size.  It counts the header
of the chunk with or without its first sixteen bytes. -/
def PublicSize (declared size : Nat) : Prop := 16 + size ≤ declared ∧ declared ≤ 32 + size

/-- The claim of C83: the log entries of a firehose chunk are made of its trace points, in order, other
than the unused ones. -/
def C83_records_claim : Prop :=
  ∀ (handle : Record → Res Unit) (header private_ : Bytes) (rs : List StoredPoint) (fuel : Nat),
    header.length = 32 → PublicSize (leNat (slice header 16 18)) (rs.flatMap (·.bytes)).length →
    (∀ r ∈ rs, r.Ok) → (∀ r ∈ rs, handle r.value = .ok ()) → rs.length < fuel →
    readFirehose handle (firehoseBytes header private_ rs) fuel =
      some (.ok ((rs.map (·.value)).filter (fun r => r.recordType ≠ 0x00)))

/-- **C83** is false: a chunk with a loss record only cannot be read. -/
theorem C83_loss_only : ¬ C83_records_claim := by
  intro h
  have := h (fun _ => .ok ()) (List.replicate 16 0 ++ [56, 0] ++ List.replicate 14 0) []
    [⟨0x07, 0, 0, 0, 0, 0, 0, [], []⟩] 5 (by decide) (by unfold PublicSize; decide +kernel)
    (by intro r hr; simp at hr; subst hr; unfold StoredPoint.Ok Known; decide) (by simp) (by decide)
  revert this
  decide +kernel

/-- **C83** is false: a chunk without trace points cannot be read. -/
theorem C83_empty : ¬ C83_records_claim := by
  intro h
  have := h (fun _ => .ok ()) (List.replicate 16 0 ++ [32, 0] ++ List.replicate 14 0) []
    [] 5 (by decide) (by unfold PublicSize; decide +kernel) (by simp) (by simp) (by decide)
  revert this
  decide +kernel

/-- **C83** (partial): the claim holds of chunks with an activity, a log or a signpost record. -/
theorem C83_records_partial (handle : Record → Res Unit) (header private_ : Bytes)
    (rs : List StoredPoint) (fuel : Nat) (hl : header.length = 32)
    (hp : PublicSize (leNat (slice header 16 18)) (rs.flatMap (·.bytes)).length) (hok : ∀ r ∈ rs, r.Ok)
    (hh : ∀ r ∈ rs, handle r.value = .ok ()) (hf : rs.length < fuel)
    (hsome : ∃ r ∈ rs, r.recordType ∈ [0x02, 0x04, 0x06]) :
    readFirehose handle (firehoseBytes header private_ rs) fuel =
      some (.ok ((rs.map (·.value)).filter (fun r => r.recordType ≠ 0x00))) := by
  have hb : (rs.map (fun r => (r.bytes, fun _ : Nat => r.value))).flatMap (·.1) =
      rs.flatMap (·.bytes) := by rw [List.flatMap_map]
  obtain ⟨hp1, hp2⟩ := hp
  have hw := walk_items_stop (recordStep handle) (fun n => n % 8 = 0)
    (rs.map (fun r => (r.bytes, fun _ : Nat => r.value))) (by
      intro i hi pre post hpre
      obtain ⟨r, hr, rfl⟩ := List.mem_map.mp hi
      have hrok := hok r hr
      have hlen := r.length
      obtain ⟨_, _, _, _, _, _, _, _, h9, h10, h11⟩ := hok r hr
      dsimp only
      refine ⟨?_, by omega⟩
      have hs : readStructureFromByteStream (some tracepointMap)
          ((pre ++ r.bytes ++ post).drop pre.length) = .ok r.value := by
        unfold readStructureFromByteStream
        rw [List.append_assoc, List.drop_left, if_neg]
        · dsimp only
          rw [tracepoint_read r hrok post]
        intro h
        have := congrArg List.length h
        simp only [List.length_append, List.length_nil] at this
        omega
      have hnext : align8 (pre.length + 24 + r.data.length) = pre.length + r.bytes.length :=
        align8_eq _ _ (by omega) (by omega) (by omega)
      have hnext' : pre.length + align8 (24 + r.data.length) = pre.length + r.bytes.length := by
        rw [align8_eq (24 + r.data.length) r.bytes.length (by omega) (by omega) (by omega)]
      unfold recordStep
      rw [hs]
      dsimp only
      rw [if_neg (by simpa [StoredPoint.value] using (C83_supported _ _).mpr h11)]
      have hd : r.value.data = r.data := rfl
      split
      · rw [hd, hnext']
      · rw [hh r hr]
        dsimp only
        rw [hd, hnext])
    24 (by
      intro i hi
      obtain ⟨r, hr, rfl⟩ := List.mem_map.mp hi
      have hlen := r.length
      dsimp only
      omega)
    header private_ (leNat (slice header 16 18)) (by simp [hl]) (by rw [hb]; omega)
    (by rw [hb]; omega) fuel (by simpa using hf) []
  rw [valuesFrom_map_const, hb, hl, List.nil_append] at hw
  unfold readFirehose
  have hhead : readStructureFromByteStream (some (fixedMap 32 (fun b => leNat (slice b 16 18))))
      (firehoseBytes header private_ rs) = .ok (leNat (slice header 16 18)) := by
    unfold readStructureFromByteStream firehoseBytes
    rw [List.append_assoc, if_neg]
    · dsimp only [fixedMap, sizedMap]
      rw [if_neg (by simp only [List.length_append]; omega),
        if_neg (by simp only [List.length_append]; omega)]
      simp only [Nat.add_zero]
      rw [List.take_left' hl]
    · intro h
      have := congrArg List.length h
      simp only [List.length_append, List.length_nil] at this
      omega
  rw [hhead]
  dsimp only
  unfold firehoseBytes
  rw [hw]
  dsimp only
  rw [if_pos]
  rw [List.any_eq_true]
  obtain ⟨r, hr, ht⟩ := hsome
  exact ⟨r.value, List.mem_map_of_mem hr, by simpa [StoredPoint.value] using ht⟩

/-- A log record, an unused record and a loss record. -/
example : (readFirehose (fun _ => .ok ()) (firehoseBytes
      (List.replicate 16 0 ++ [112, 0] ++ List.replicate 14 0) []
      [⟨0x04, 0x01, 0, 5, 6, 7, 1, [1, 2], [0, 0, 0, 0, 0, 0]⟩, ⟨0, 0, 0, 0, 0, 0, 0, [], []⟩,
        ⟨0x07, 0, 0, 0, 0, 0, 0, [], []⟩]) 10) =
    some (.ok [⟨0x04, 0x01, 0, 5, 6, 2 ^ 32 + 7, [1, 2]⟩, ⟨0x07, 0, 0, 0, 0, 0, []⟩]) := by
  decide +kernel

end Dtf.Unified
