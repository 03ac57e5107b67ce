import Verif.Unified.Entries
import Verif.Unified.Trace
import Verif.Unified.Decoders

/-!
# All log entries of a trace file (C147, C148)

`ReadLogEntries` of dtformats/unified_logging.py is a generator: it yields log entries while it reads, so that an error
ends it after what was yielded before.  This file puts together the models of chunks (C82), catalogs (C121, C122),
oversize chunks (C80, C123), dumps (C124), firehose chunks (C127) and timesync records (C74).
-/

namespace Dtf.Unified
open Py Formats Text DataFormat

/-! ## Model: loops that yield -/

/-- `while offset < end` in a generator: a round yields entries and gives the next state and offset, or an error after
what it yielded.  `none` is out of fuel. -/
def run {σ ε : Type} (step : σ → Nat → Option (List ε × Res (σ × Nat))) (stop : Nat) :
    Nat → Nat → σ → Option (List ε × Res σ)
  | 0, _, _ => none
  | fuel + 1, off, s =>
    if off < stop then
      match step s off with
      | none => none
      | some (es, .error e) => some (es, .error e)
      | some (es, .ok (s, next)) => (run step stop fuel next s).map (fun r => (es ++ r.1, r.2))
    else some ([], .ok s)

/-! ## Model: the reader -/

/-- A log entry: of the boot, of an adjustment of the clock, of a trace point or of a dump. -/
inductive ReadEntry
  | boot (message : List Char) (machTime : Nat) (timestamp : Int)
  | adjusted (message : List Char) (machTime : Nat) (timestamp : Int)
  | point (e : LogEntry)
  | dump (e : DumpEntry) (timestamp : Int)
deriving DecidableEq, Repr

/-- What is not read from the trace file: UTF-8, LZ4, the strings and paths of images, the decoders of values and of
states, the formatting of messages, the timestamps, and whether warnings are errors. -/
structure Reader where
  utf8 : Bytes → Option (List Char)
  lz4 : Bytes → Nat → Res Bytes
  strings : Bytes → Nat → Nat → Place → Nat → Bool → Res ImageText
  path : Bytes → Option (List Char)
  decode : Option (Option (List Char)) → Nat → Option Bytes → Res (List Char)
  format : Option (List Char) → List (List Char) → Res (List Char)
  time : Nat → Int
  decoders : List Char → Option (Bytes → Res (List Char))
  strict : Bool

/-- What is kept between chunks: `_catalog`, `_catalog_process_information_entries` and `oversize_chunks`. -/
structure FileState where
  catalog : Option Catalog
  table : List (List Char × ProcessInfo)
  oversize : List (List Char × (OversizeChunk × Bytes × Bytes))
deriving DecidableEq, Repr

/-- The values of `TraceV3File.__init__` (unified_logging.py 2625-2627) and line 5059. -/
def newFileState : FileState := ⟨none, [], []⟩

/-- What is used of `tracev3_firehose_header` (aul_tracev3.yaml 409-436). -/
structure FirehoseHead where
  upper : Nat
  lower : Nat
  public_ : Nat
  virtual : Nat
  base : Nat
deriving DecidableEq, Repr

def firehoseHeadMap : DataTypeMap FirehoseHead :=
  fixedMap 32 (fun b => ⟨leNat (slice b 0 8), leNat (slice b 8 12), leNat (slice b 16 18), leNat (slice b 18 20),
    leNat (slice b 24 32)⟩)

/-- What the entries of a firehose chunk are made with. -/
def Reader.env (rd : Reader) (s : FileState) (h : FirehoseHead) (process : Option ProcessInfo) (chunk : Bytes) : Env where
  process := process
  uuids := (s.catalog.map (·.uuids)).getD []
  catalogStrings := (s.catalog.map (fun c => stringMap 0 c.strings)).getD []
  strings := rd.strings
  path := rd.path
  decode := rd.decode
  format := rd.format
  time := rd.time
  oversize := s.oversize
  upper := h.upper
  lower := h.lower
  base := h.base
  virtual := h.virtual
  chunk := chunk

/-- A round of the loop over trace points (unified_logging.py 3945-4301), with what it yields.  The state is whether
`private_data` was set, which line 4303 uses. -/
def pointStep (env : Env) (seen : Bool) (off : Nat) : Option (List ReadEntry × Res (Bool × Nat)) :=
  match recordStep (fun r => (makeEntry env r).map (fun _ => ())) env.chunk off with
  | .error e => some ([], .error e)
  | .ok (r, next) =>
    if r.recordType = 0x00 then some ([], .ok (seen, next))
    else match makeEntry env r with
      | .error e => some ([], .error e)
      | .ok e => some ([.point e], .ok (seen || decide (r.recordType ∈ [0x02, 0x04, 0x06]), next))

/-- The process of a firehose chunk (unified_logging.py 3929-3942). -/
def firehoseProcess (s : FileState) (h : FirehoseHead) : Res (Option ProcessInfo) :=
  match s.catalog with
  | none => .ok none
  | some _ =>
    match s.table.lookup (processKey h.upper h.lower) with
    | none => .error .parseError
    | some p => .ok (some p)

/-- `_ReadFirehoseChunkData` (unified_logging.py 3898-4311). -/
def runFirehose (rd : Reader) (s : FileState) (chunk : Bytes) : Option (List ReadEntry × Res Unit) :=
  match readStructureFromByteStream (some firehoseHeadMap) chunk with
  | .error e => some ([], .error e)
  | .ok h =>
    match firehoseProcess s h with
    | .error e => some ([], .error e)
    | .ok process =>
      match run (pointStep (rd.env s h process chunk)) h.public_ (h.public_ + 1) 32 false with
      | none => none
      | some (es, .error e) => some (es, .error e)
      | some (es, .ok seen) => some (es, if seen then .ok () else .error .unboundLocalError)

/-- A dump yields one entry, with the timestamp of its time. -/
def dumped (rd : Reader) (s : FileState) (r : Res DumpEntry) : Option (List ReadEntry × Res FileState) :=
  match r with
  | .error e => some ([], .error e)
  | .ok e => some ([.dump e (rd.time e.machTime)], .ok s)

/-- A chunk of a chunk set is read by its tag (unified_logging.py 3699-3728); other tags are passed over. -/
def readInner (rd : Reader) (s : FileState) (tag : Nat) (chunk : Bytes) : Option (List ReadEntry × Res FileState) :=
  if tag = 0x6001 then
    match runFirehose rd s chunk with
    | none => none
    | some (es, .error e) => some (es, .error e)
    | some (es, .ok ()) => some (es, .ok s)
  else if tag = 0x6002 then
    match readOversize chunk with
    | .error e => some ([], .error e)
    | .ok o => some ([], .ok { s with oversize := storeOversize s.oversize o.1.upper o.1.lower o.1.reference o })
  else if tag = 0x6003 then dumped rd s (readState rd.utf8 rd.decoders rd.path rd.strict s.table chunk)
  else if tag = 0x6004 then dumped rd s (readSimple rd.utf8 rd.path rd.strict s.table chunk)
  else some ([], .ok s)

/-- A round of the loop over the chunks of a chunk set (unified_logging.py 3669-3736). -/
def innerStep (rd : Reader) (block : Bytes) (s : FileState) (off : Nat) : Option (List ReadEntry × Res (FileState × Nat)) :=
  match readStructureFromByteStream (some chunkHeaderMap) (block.drop off) with
  | .error e => some ([], .error e)
  | .ok (tag, _, size) =>
    match readInner rd s tag (slice block (off + 16) (off + 16 + size)) with
    | none => none
    | some (es, .error e) => some (es, .error e)
    | some (es, .ok s) => some (es, .ok (s, align8 (off + 16 + size)))

/-- `_ReadChunkSet` (unified_logging.py 3617-3736). -/
def runSet (rd : Reader) (s : FileState) (data : Bytes) (off size : Nat) : Option (List ReadEntry × Res FileState) :=
  match unpackBlock rd.lz4 data off (slice data off (off + size)) with
  | .error e => some ([], .error e)
  | .ok (block, declared) => run (innerStep rd block) declared (declared + 1) 0 s

/-- A catalog is read and replaces the one before it (unified_logging.py 5069-5073, 2639-2687). -/
def useCatalog (rd : Reader) (s : FileState) (b : Bytes) : Res FileState :=
  match readCatalog rd.utf8 b with
  | .error e => .error e
  | .ok (c, _) =>
    match buildProcesses c.uuids [] c.processes with
    | .error e => .error e
    | .ok table => .ok { s with catalog := some c, table := table }

/-- A chunk of the file is read by its tag (unified_logging.py 5069-5082). -/
def readOuter (rd : Reader) (data : Bytes) (s : FileState) (tag off size : Nat) : Option (List ReadEntry × Res FileState) :=
  if tag = 0x600B then some ([], useCatalog rd s (data.drop off))
  else if tag = 0x600D then runSet rd s data off size
  else some ([], .error .parseError)

/-- A round of the loop of `ReadLogEntries` (unified_logging.py 5061-5090). -/
def outerStep (rd : Reader) (data : Bytes) (s : FileState) (off : Nat) : Option (List ReadEntry × Res (FileState × Nat)) :=
  match structAt chunkHeaderMap data off with
  | .error e => some ([], .error e)
  | .ok ((tag, _, size), _) =>
    match readOuter rd data s tag (off + 16) size with
    | none => none
    | some (es, .error e) => some (es, .error e)
    | some (es, .ok s) => some (es, .ok (s, align8 (off + 16 + size)))

/-- The log entries of the timesync records (unified_logging.py 5022-5055).  `bootText` is
`str(self._boot_identifier).upper()`. -/
def timeEntries (st : TimeState) (bootText : List Char) : List ReadEntry :=
  (match st.boot with
    | some b => [.boot ("=== system boot: ".toList ++ bootText) 0 b.timestamp]
    | none => []) ++
  st.syncs.map (fun r => .adjusted "=== system wallclock time adjusted".toList r.kernelTime r.timestamp)

/-- `ReadLogEntries` (unified_logging.py 5013-5090), from the position of the file on, for an object in the given
state.  The oversize chunks are those of this call. -/
def readLogEntries (rd : Reader) (st : TimeState) (bootText : List Char) (s : FileState) (data : Bytes) (pos : Nat) :
    Option (List ReadEntry × Res FileState) :=
  (run (outerStep rd data) data.length (data.length + 1) pos { s with oversize := [] }).map
    (fun r => (timeEntries st bootText ++ r.1, r.2))

/-! ## Specification -/

/-- Things one after the other, each of which yields entries and changes the state. -/
inductive Chain {σ ι ε : Type} (R : σ → ι → List ε → σ → Prop) : σ → List ι → List ε → σ → Prop
  | nil (s : σ) : Chain R s [] [] s
  | cons {s s' s'' : σ} {i : ι} {is : List ι} {es fs : List ε} (h : R s i es s') (t : Chain R s' is fs s'') :
      Chain R s (i :: is) (es ++ fs) s''

/-- The header of a firehose chunk as it is stored. -/
structure StoredHead where
  head : FirehoseHead
  ttl : Nat
  collapsed : Nat
  unknown1 : Nat
  unknown2 : Nat
  stream : Nat
  unknown3 : Nat

def StoredHead.bytes (h : StoredHead) : Bytes :=
  [leBytes 8 h.head.upper, leBytes 4 h.head.lower, leBytes 1 h.ttl, leBytes 1 h.collapsed, leBytes 2 h.unknown1,
    leBytes 2 h.head.public_, leBytes 2 h.head.virtual, leBytes 2 h.unknown2, leBytes 1 h.stream, leBytes 1 h.unknown3,
    leBytes 8 h.head.base].flatten

def StoredHead.Ok (h : StoredHead) : Prop :=
  h.head.upper < 2 ^ 64 ∧ h.head.lower < 2 ^ 32 ∧ h.head.public_ < 2 ^ 16 ∧ h.head.virtual < 2 ^ 16 ∧
    h.head.base < 2 ^ 64

/-- A trace point and the entry that is made of it, if it is not an unused one. -/
inductive PointRead (env : Env) : StoredPoint → List ReadEntry → Prop
  | unused (r : StoredPoint) (h : r.Ok) (h0 : r.recordType = 0) : PointRead env r []
  | used (r : StoredPoint) (h : r.Ok) (h0 : r.recordType ≠ 0) (e : LogEntry) (he : makeEntry env r.value = .ok e) :
      PointRead env r [.point e]

/-- The entry of a simple dump of a known process. -/
def simpleEntry (d : SimpleDump) (p : ProcessInfo) (main : Bytes) (text : List Char) : DumpEntry where
  eventType := "logEvent".toList
  message := d.message
  frames := [(d.sender, d.load)]
  machTime := d.time
  messageType := logTypes.lookup d.logType
  activity := none
  pid := p.entry.pid
  processImage := some main
  processPath := some text
  subSystem := some d.subSystem
  sender := d.sender
  counter := some d.load
  thread := some d.thread

/-- The entry of a custom state of a known process. -/
def stateEntry (d : StateDump) (value : List Char) (p : ProcessInfo) (main : Bytes) (text : List Char) : DumpEntry where
  eventType := "stateEvent".toList
  message := d.title ++ '\n' :: value
  frames := [(d.sender, 0)]
  machTime := d.time
  messageType := none
  activity := some (d.activity % 2 ^ 63)
  pid := p.entry.pid
  processImage := some main
  processPath := some text
  subSystem := none
  sender := d.sender
  counter := none
  thread := none

/-- Where the image of a process is. -/
structure InTable (rd : Reader) (s : FileState) (upper lower : Nat) (p : ProcessInfo) (main : Bytes) (text : List Char) :
    Prop where
  entry : s.table.lookup (processKey upper lower) = some p
  image : p.main = some main
  file : rd.path main = some text

/-- What the chunks of a chunk set yield and how they change the state.  `strong` asks for a trace point with private
data in each firehose chunk. -/
inductive InnerRead (rd : Reader) (strong : Bool) : FileState → StoredChunk → List ReadEntry → FileState → Prop
  | firehose (s : FileState) (c : StoredChunk) (h : StoredHead) (private_ : Bytes) (rs : List (StoredPoint × List ReadEntry))
      (p : ProcessInfo) (hc : c.Ok) (tag : c.tag = 0x6001) (hh : h.Ok)
      (data : c.data = h.bytes ++ (rs.map (·.1)).flatMap (·.bytes) ++ private_)
      (size : PublicSize h.head.public_ ((rs.map (·.1)).flatMap (·.bytes)).length)
      (catalog : s.catalog.isSome) (process : s.table.lookup (processKey h.head.upper h.head.lower) = some p)
      (points : ∀ r ∈ rs, PointRead (rd.env s h.head (some p) c.data) r.1 r.2)
      (some_ : strong → ∃ r ∈ rs, r.1.recordType ∈ [0x02, 0x04, 0x06]) :
      InnerRead rd strong s c (rs.flatMap (·.2)) s
  | oversize (s : FileState) (c : StoredChunk) (o : StoredOversize) (hc : c.Ok) (tag : c.tag = 0x6002) (ho : o.Ok)
      (data : c.data = o.bytes) :
      InnerRead rd strong s c [] { s with
        oversize := storeOversize s.oversize o.upper o.lower o.reference
          (o.chunk, o.values ++ o.private_.take (o.data.length - o.values.length),
            o.private_.drop (o.data.length - o.values.length)) }
  | state (s : FileState) (c : StoredChunk) (d : StateDump) (title rest : Bytes) (library decoder value : List Char)
      (f : Bytes → Res (List Char)) (p : ProcessInfo) (main : Bytes) (text : List Char) (hc : c.Ok) (tag : c.tag = 0x6003)
      (hd : d.Ok) (htl : title.length = 64) (ht : StoredString rd.utf8 title d.title) (type : d.type = 3)
      (hlib : StoredString rd.utf8 d.library library) (hdec : StoredString rd.utf8 d.decoder decoder)
      (hf : rd.decoders (library ++ ':' :: decoder) = some f) (hv : f d.data = .ok value)
      (known : InTable rd s d.upper d.lower p main text) (data : c.data = d.bytes title ++ rest) :
      InnerRead rd strong s c [.dump (stateEntry d value p main text) (rd.time d.time)] s
  | simple (s : FileState) (c : StoredChunk) (d : SimpleDump) (sub message rest : Bytes) (p : ProcessInfo) (main : Bytes)
      (text : List Char) (hc : c.Ok) (tag : c.tag = 0x6004) (hd : d.Ok) (hs : StoredString rd.utf8 sub d.subSystem)
      (hm : StoredString rd.utf8 message d.message) (hsl : sub.length < 2 ^ 32) (hml : message.length < 2 ^ 32)
      (known : InTable rd s d.upper d.lower p main text) (data : c.data = d.bytes sub message ++ rest) :
      InnerRead rd strong s c [.dump (simpleEntry d p main text) (rd.time d.time)] s
  | other (s : FileState) (c : StoredChunk) (hc : c.Ok) (tag : c.tag ∉ [0x6001, 0x6002, 0x6003, 0x6004]) :
      InnerRead rd strong s c [] s

/-- A catalog as it is stored. -/
structure StoredCatalog where
  uuids : List Bytes
  strings : List (Bytes × List Char)
  processes : List (Bytes × Process)
  subChunks : List (Bytes × SubChunk)
  subOffset : Nat
  time : Nat
  reserved : Bytes

def StoredCatalog.bytes (c : StoredCatalog) : Bytes :=
  headerBytes c.uuids (c.strings.map (·.1)) c.processes.length c.subChunks.length c.subOffset c.time c.reserved ++
    ((c.processes.map (·.1)).flatten ++ (c.subChunks.map (·.1)).flatten)

def StoredCatalog.value (c : StoredCatalog) : Catalog := ⟨c.uuids, c.strings.map (·.2), c.processes.map (·.2)⟩

structure StoredCatalog.Ok (utf8 : Bytes → Option (List Char)) (c : StoredCatalog) : Prop where
  uuids : ∀ u ∈ c.uuids, u.length = 16
  strings : ∀ s ∈ c.strings, 0 ∉ s.1 ∧ utf8 s.1 = some s.2
  processes : ∀ p ∈ c.processes, p.2.Ok ∧ Filled p.2.members p.1
  subChunks : ∀ x ∈ c.subChunks, x.2.Ok ∧ Filled x.2.members x.1
  size : 16 * c.uuids.length + (stringArea (c.strings.map (·.1))).length < 2 ^ 16
  processCount : c.processes.length < 2 ^ 16
  subChunkCount : c.subChunks.length < 2 ^ 16
  subOffset : c.subOffset < 2 ^ 16
  time : c.time < 2 ^ 64
  reserved : c.reserved.length = 6

/-- What the chunks of a file yield and how they change the state. -/
inductive OuterRead (rd : Reader) (strong : Bool) : FileState → StoredChunk → List ReadEntry → FileState → Prop
  | catalog (s : FileState) (c : StoredChunk) (k : StoredCatalog) (table : List (List Char × ProcessInfo)) (rest : Bytes)
      (hc : c.Ok) (tag : c.tag = 0x600B) (hk : k.Ok rd.utf8) (data : c.data = k.bytes ++ rest)
      (ht : buildProcesses k.uuids [] (k.processes.map (·.2)) = .ok table) :
      OuterRead rd strong s c [] { s with catalog := some k.value, table := table }
  | stored (s s' : FileState) (c : StoredChunk) (inner : List StoredChunk) (es : List ReadEntry) (rest : Bytes)
      (hc : c.Ok) (tag : c.tag = 0x600D) (size : (inner.flatMap (·.bytes)).length < 2 ^ 32)
      (data : c.data = storedBlock (inner.flatMap (·.bytes)) ++ rest)
      (chain : Chain (InnerRead rd strong) s inner es s') : OuterRead rd strong s c es s'
  | compressed (s s' : FileState) (c : StoredChunk) (inner : List StoredChunk) (es : List ReadEntry)
      (compressed rest : Bytes) (hc : c.Ok) (tag : c.tag = 0x600D) (size : (inner.flatMap (·.bytes)).length < 2 ^ 32)
      (size' : compressed.length < 2 ^ 32)
      (lz4 : rd.lz4 compressed (inner.flatMap (·.bytes)).length = .ok (inner.flatMap (·.bytes)))
      (data : c.data = compressedBlock (inner.flatMap (·.bytes)) compressed ++ rest)
      (chain : Chain (InnerRead rd strong) s inner es s') : OuterRead rd strong s c es s'

/-- The claim of C147: all entries of a file are delivered, in order. -/
def C147_all_claim : Prop := ∀ (rd : Reader) (st : TimeState) (bootText : List Char) (s s' : FileState) (pre : Bytes)
  (chunks : List StoredChunk) (es : List ReadEntry), pre.length % 8 = 0 →
  Chain (OuterRead rd false) { s with oversize := [] } chunks es s' →
  readLogEntries rd st bootText s (pre ++ chunks.flatMap (·.bytes)) pre.length = some (timeEntries st bootText ++ es, .ok s')

/-! ## Proofs: loops that yield -/

theorem run_terminates {σ ε : Type} (step : σ → Nat → Option (List ε × Res (σ × Nat))) (stop : Nat)
    (hn : ∀ s off, step s off ≠ none)
    (h : ∀ s off es s' next, step s off = some (es, .ok (s', next)) → off < next) (fuel off : Nat) (s : σ)
    (hf : stop - off < fuel) : run step stop fuel off s ≠ none := by
  induction fuel generalizing off s with
  | zero => omega
  | succ fuel ih =>
    rw [run]
    split
    · rename_i hlt
      split
      · rename_i hs
        exact absurd hs (hn s off)
      · simp
      · rename_i es s' next hs
        have := h s off es s' next hs
        simpa using ih next s' (by omega)
    · simp

theorem run_end {σ ε : Type} (step : σ → Nat → Option (List ε × Res (σ × Nat))) (stop fuel off : Nat) (s : σ)
    (h : stop ≤ off) (hf : 0 < fuel) : run step stop fuel off s = some ([], .ok s) := by
  cases fuel with
  | zero => omega
  | succ fuel => rw [run, if_neg (by omega)]

/-- Things one after the other are read before what follows them. -/
theorem run_chain {σ ι ε : Type} (R : σ → ι → List ε → σ → Prop) (bytes : ι → Bytes) (I : Nat → Prop) (m : Nat)
    (step : σ → Nat → Option (List ε × Res (σ × Nat))) (data : Bytes)
    (h : ∀ s i es s', R s i es s' → ∀ pre post : Bytes, I pre.length → data = pre ++ bytes i ++ post →
      step s pre.length = some (es, .ok (s', pre.length + (bytes i).length)) ∧ I (pre.length + (bytes i).length))
    (hm : ∀ s i es s', R s i es s' → m ≤ (bytes i).length) (s s' : σ) (is : List ι) (es : List ε)
    (hc : Chain R s is es s') (pre post : Bytes) (hi : I pre.length) (hd : data = pre ++ is.flatMap bytes ++ post)
    (stop : Nat) (hs : is = [] ∨ pre.length + (is.flatMap bytes).length < stop + m) (fuel : Nat) :
    run step stop (is.length + fuel) pre.length s =
      (run step stop fuel (pre.length + (is.flatMap bytes).length) s').map (fun r => (es ++ r.1, r.2)) := by
  induction hc generalizing pre with
  | nil s => simp
  | @cons s s1 s2 i is es fs hr hc ih =>
    have hs' : pre.length + ((i :: is).flatMap bytes).length < stop + m := by
      rcases hs with hs | hs
      · cases hs
      · exact hs
    have hmi := hm _ _ _ _ hr
    have hl : ((i :: is).flatMap bytes).length = (bytes i).length + (is.flatMap bytes).length := by simp
    obtain ⟨h1, h2⟩ := h _ _ _ _ hr pre (is.flatMap bytes ++ post) hi (by rw [hd]; simp)
    rw [show (i :: is).length + fuel = (is.length + fuel) + 1 by simp; omega, run, if_pos (by omega), h1]
    dsimp only
    have hlen : (pre ++ bytes i).length = pre.length + (bytes i).length := by simp
    have := ih (pre ++ bytes i) (by rw [hlen]; exact h2) (by rw [hd]; simp) (Or.inr (by rw [hlen]; omega))
    rw [← hlen, this, Option.map_map]
    rw [show (pre ++ bytes i).length + (is.flatMap bytes).length = pre.length + ((i :: is).flatMap bytes).length by
      rw [hlen, hl]; omega]
    congr 1
    funext r
    simp

/-- Things up to the end. -/
theorem run_chain_end {σ ι ε : Type} (R : σ → ι → List ε → σ → Prop) (bytes : ι → Bytes) (I : Nat → Prop) (m : Nat)
    (step : σ → Nat → Option (List ε × Res (σ × Nat))) (data : Bytes)
    (h : ∀ s i es s', R s i es s' → ∀ pre post : Bytes, I pre.length → data = pre ++ bytes i ++ post →
      step s pre.length = some (es, .ok (s', pre.length + (bytes i).length)) ∧ I (pre.length + (bytes i).length))
    (hm : ∀ s i es s', R s i es s' → m ≤ (bytes i).length) (s s' : σ) (is : List ι) (es : List ε)
    (hc : Chain R s is es s') (pre post : Bytes) (hi : I pre.length) (hd : data = pre ++ is.flatMap bytes ++ post)
    (stop : Nat) (hs : is = [] ∨ pre.length + (is.flatMap bytes).length < stop + m)
    (hs' : stop ≤ pre.length + (is.flatMap bytes).length) (fuel : Nat) (hf : is.length < fuel) :
    run step stop fuel pre.length s = some (es, .ok s') := by
  have := run_chain R bytes I m step data h hm s s' is es hc pre post hi hd stop hs (fuel - is.length)
  rw [show is.length + (fuel - is.length) = fuel by omega, run_end _ _ _ _ _ hs' (by omega)] at this
  rw [this]
  simp

/-- The number of things is at most the number of their bytes. -/
theorem chain_length {σ ι ε : Type} (R : σ → ι → List ε → σ → Prop) (bytes : ι → Bytes)
    (hm : ∀ s i es s', R s i es s' → 1 ≤ (bytes i).length) (s s' : σ) (is : List ι) (es : List ε)
    (hc : Chain R s is es s') : is.length ≤ (is.flatMap bytes).length := by
  induction hc with
  | nil => simp
  | cons hr _ ih =>
    have := hm _ _ _ _ hr
    simp only [List.length_cons, List.flatMap_cons, List.length_append]
    omega

/-! ## Proofs: firehose chunks -/

theorem StoredHead.length (h : StoredHead) : h.bytes.length = 32 := by simp [StoredHead.bytes]

theorem firehoseHead_read (h : StoredHead) (ok : h.Ok) (rest : Bytes) :
    readStructureFromByteStream (some firehoseHeadMap) (h.bytes ++ rest) = .ok h.head := by
  obtain ⟨h1, h2, h3, h4, h5⟩ := ok
  have hl := h.length
  unfold readStructureFromByteStream
  rw [if_neg (by
    intro hh
    have := congrArg List.length hh
    simp only [List.length_append, List.length_nil] at this
    omega)]
  dsimp only [firehoseHeadMap, fixedMap, sizedMap]
  simp only [List.length_append, Nat.add_zero]
  rw [if_neg (by omega), if_neg (by omega), List.take_left' hl]
  dsimp only
  have f1 : leNat (slice h.bytes 0 8) = h.head.upper := leField [] 8 _ _ 0 8 rfl rfl (by omega)
  have f2 : leNat (slice h.bytes 8 12) = h.head.lower :=
    leField [leBytes 8 h.head.upper] 4 _ _ 8 12 (by simp) rfl (by omega)
  have f3 : leNat (slice h.bytes 16 18) = h.head.public_ :=
    leField [leBytes 8 h.head.upper, leBytes 4 h.head.lower, leBytes 1 h.ttl, leBytes 1 h.collapsed, leBytes 2 h.unknown1] 2
      _ _ 16 18 (by simp) rfl (by omega)
  have f4 : leNat (slice h.bytes 18 20) = h.head.virtual :=
    leField [leBytes 8 h.head.upper, leBytes 4 h.head.lower, leBytes 1 h.ttl, leBytes 1 h.collapsed, leBytes 2 h.unknown1,
      leBytes 2 h.head.public_] 2 _ _ 18 20 (by simp) rfl (by omega)
  have f5 : leNat (slice h.bytes 24 32) = h.head.base :=
    leField [leBytes 8 h.head.upper, leBytes 4 h.head.lower, leBytes 1 h.ttl, leBytes 1 h.collapsed, leBytes 2 h.unknown1,
      leBytes 2 h.head.public_, leBytes 2 h.head.virtual, leBytes 2 h.unknown2, leBytes 1 h.stream, leBytes 1 h.unknown3] 8
      _ [] 24 32 (by simp) rfl (by omega)
  rw [f1, f2, f3, f4, f5]

/-- A trace point with what it yields, and whether a trace point with private data was seen. -/
def PointStep (env : Env) (seen : Bool) (r : StoredPoint × List ReadEntry) (es : List ReadEntry) (seen' : Bool) : Prop :=
  PointRead env r.1 r.2 ∧ es = r.2 ∧ seen' = (seen || decide (r.1.recordType ∈ [0x02, 0x04, 0x06]))

theorem pointStep_read (env : Env) (seen seen' : Bool) (r : StoredPoint × List ReadEntry) (es : List ReadEntry)
    (h : PointStep env seen r es seen') (pre post : Bytes) (hpre : pre.length % 8 = 0)
    (hc : env.chunk = pre ++ r.1.bytes ++ post) :
    pointStep env seen pre.length = some (es, .ok (seen', pre.length + r.1.bytes.length)) ∧
      (pre.length + r.1.bytes.length) % 8 = 0 := by
  obtain ⟨hp, rfl, rfl⟩ := h
  have hrok : r.1.Ok := by
    generalize r.2 = es at hp
    cases hp <;> assumption
  have hlen := r.1.length
  obtain ⟨_, _, _, _, _, _, _, _, h9, h10, h11⟩ := id hrok
  refine ⟨?_, by omega⟩
  have hs : readStructureFromByteStream (some tracepointMap) (env.chunk.drop pre.length) = .ok r.1.value := by
    unfold readStructureFromByteStream
    rw [hc, List.append_assoc, List.drop_left, if_neg]
    · dsimp only
      rw [tracepoint_read r.1 hrok post]
    intro h
    have := congrArg List.length h
    simp only [List.length_append, List.length_nil] at this
    omega
  have hnext : align8 (pre.length + 24 + r.1.data.length) = pre.length + r.1.bytes.length :=
    align8_eq _ _ (by omega) (by omega) (by omega)
  have hnext' : pre.length + align8 (24 + r.1.data.length) = pre.length + r.1.bytes.length := by
    rw [align8_eq (24 + r.1.data.length) r.1.bytes.length (by omega) (by omega) (by omega)]
  have ht : r.1.value.recordType = r.1.recordType := rfl
  have hd : r.1.value.data = r.1.data := rfl
  unfold pointStep recordStep
  rw [hs]
  dsimp only
  rw [if_neg (by simpa [StoredPoint.value] using (C83_supported _ _).mpr h11)]
  generalize r.2 = es at hp ⊢
  cases hp with
  | unused _ h0 =>
    rw [if_pos (by rw [ht]; exact h0)]
    dsimp only
    rw [if_pos (by rw [ht]; exact h0), hd, hnext', h0]
    simp
  | used _ h0 e he =>
    rw [if_neg (by rw [ht]; exact h0), he]
    simp only [Except.map]
    rw [if_neg (by rw [ht]; exact h0), hd, hnext, ht]
    rw [he]

theorem chain_points (env : Env) (rs : List (StoredPoint × List ReadEntry)) (h : ∀ r ∈ rs, PointRead env r.1 r.2) (seen : Bool) :
    Chain (PointStep env) seen rs (rs.flatMap (·.2))
      (seen || rs.any (fun r => decide (r.1.recordType ∈ [0x02, 0x04, 0x06]))) := by
  induction rs generalizing seen with
  | nil => simpa using Chain.nil seen
  | cons r rs ih =>
    rw [List.flatMap_cons, List.any_cons, ← Bool.or_assoc]
    exact .cons ⟨h r (by simp), rfl, rfl⟩ (ih (fun x hx => h x (by simp [hx])) _)

/-- The entries of a firehose chunk, and whether its end can be read. -/
theorem runFirehose_read (rd : Reader) (s : FileState) (h : StoredHead) (private_ : Bytes)
    (rs : List (StoredPoint × List ReadEntry)) (p : ProcessInfo) (chunk : Bytes) (hh : h.Ok)
    (data : chunk = h.bytes ++ (rs.map (·.1)).flatMap (·.bytes) ++ private_)
    (size : PublicSize h.head.public_ ((rs.map (·.1)).flatMap (·.bytes)).length)
    (catalog : s.catalog.isSome) (process : s.table.lookup (processKey h.head.upper h.head.lower) = some p)
    (points : ∀ r ∈ rs, PointRead (rd.env s h.head (some p) chunk) r.1 r.2) :
    runFirehose rd s chunk = some (rs.flatMap (·.2),
      if rs.any (fun r => decide (r.1.recordType ∈ [0x02, 0x04, 0x06])) then .ok () else .error .unboundLocalError) := by
  have hf : (rs.map (·.1)).flatMap (·.bytes) = rs.flatMap (fun r => r.1.bytes) := by rw [List.flatMap_map]
  rw [hf] at data size
  obtain ⟨s1, s2⟩ := size
  have hl := h.length
  have hp : firehoseProcess s h.head = .ok (some p) := by
    unfold firehoseProcess
    obtain ⟨c, hc⟩ := Option.isSome_iff_exists.1 catalog
    rw [hc, process]
  have hlen : ∀ r ∈ rs, 24 ≤ r.1.bytes.length := by
    intro r _
    have := r.1.length
    omega
  have hn : rs.length ≤ (rs.flatMap (fun r => r.1.bytes)).length := by
    clear hf data s1 s2 points
    induction rs with
    | nil => simp
    | cons r rs ih =>
      have := hlen r (by simp)
      have := ih (fun x hx => hlen x (by simp [hx]))
      simp only [List.length_cons, List.flatMap_cons, List.length_append]
      omega
  have hr := run_chain_end (PointStep (rd.env s h.head (some p) chunk)) (fun r => r.1.bytes) (fun n => n % 8 = 0) 24
    (pointStep (rd.env s h.head (some p) chunk)) chunk (by
      intro seen r es seen' hr pre post hpre hd
      exact pointStep_read _ seen seen' r es hr pre post hpre hd) (by
      intro _ r _ _ _
      have := r.1.length
      omega) false _ rs _ (chain_points _ rs points false) h.bytes private_ (by rw [hl]) data h.head.public_
      (Or.inr (by omega)) (by omega) (h.head.public_ + 1) (by omega)
  unfold runFirehose
  have hhead := firehoseHead_read h hh (rs.flatMap (fun r => r.1.bytes) ++ private_)
  rw [← List.append_assoc, ← data] at hhead
  rw [hhead]
  dsimp only
  rw [hp]
  dsimp only
  rw [hl] at hr
  rw [hr]
  rfl

/-! ## Proofs: chunk sets -/

theorem readSimple_is (rd : Reader) (s : FileState) (d : SimpleDump) (sub message rest : Bytes) (p : ProcessInfo)
    (main : Bytes) (text : List Char) (hd : d.Ok) (hs : StoredString rd.utf8 sub d.subSystem)
    (hm : StoredString rd.utf8 message d.message) (hsl : sub.length < 2 ^ 32) (hml : message.length < 2 ^ 32)
    (known : InTable rd s d.upper d.lower p main text) :
    readSimple rd.utf8 rd.path rd.strict s.table (d.bytes sub message ++ rest) = .ok (simpleEntry d p main text) := by
  have hne : d.bytes sub message ++ rest ≠ [] := by
    unfold SimpleDump.bytes
    rw [List.append_assoc]
    exact leBytes_ne_nil 7 _ _
  have hp : dumpProcess rd.path rd.strict s.table d.upper d.lower = .ok (p.entry.pid, some main, some text) := by
    unfold dumpProcess
    rw [known.entry]
    simp only [processImage, known.image, known.file]
  unfold readSimple fromStream
  rw [if_neg hne, parseSimple_bytes rd.utf8 d sub message hd hs hm hsl hml rest]
  simp only
  rw [hp]
  rfl

theorem readState_is (rd : Reader) (s : FileState) (d : StateDump) (title rest : Bytes) (library decoder value : List Char)
    (f : Bytes → Res (List Char)) (p : ProcessInfo) (main : Bytes) (text : List Char)
    (hd : d.Ok) (htl : title.length = 64) (ht : StoredString rd.utf8 title d.title) (type : d.type = 3)
    (hlib : StoredString rd.utf8 d.library library) (hdec : StoredString rd.utf8 d.decoder decoder)
    (hf : rd.decoders (library ++ ':' :: decoder) = some f) (hv : f d.data = .ok value)
    (known : InTable rd s d.upper d.lower p main text) :
    readState rd.utf8 rd.decoders rd.path rd.strict s.table (d.bytes title ++ rest) =
      .ok (stateEntry d value p main text) := by
  have hp : dumpProcess rd.path rd.strict s.table d.upper d.lower = .ok (p.entry.pid, some main, some text) := by
    unfold dumpProcess
    rw [known.entry]
    simp only [processImage, known.image, known.file]
  have hm : stateMessage rd.utf8 rd.decoders d = .ok (d.title ++ '\n' :: value) := by
    obtain ⟨l, lr, hl, hl0, hlu⟩ := hlib
    obtain ⟨c, cr, hc, hc0, hcu⟩ := hdec
    unfold stateMessage
    rw [if_pos type, hl, takeWhile_text l lr hl0, hlu]
    simp only
    rw [hc, takeWhile_text c cr hc0, hcu]
    simp only
    rw [hf]
    simp only
    rw [hv]
    rfl
  unfold readState fromStream
  rw [if_neg (d.bytes_ne_nil title rest), parseState_bytes rd.utf8 d title hd htl ht rest]
  simp only
  rw [if_neg (by rw [known.entry]; simp), hm]
  simp only
  rw [hp]
  simp only
  rw [Nat.and_two_pow_sub_one_eq_mod d.activity 63]
  rfl

theorem InnerRead.ok {rd : Reader} {strong : Bool} {s s' : FileState} {c : StoredChunk} {es : List ReadEntry}
    (h : InnerRead rd strong s c es s') : c.Ok := by
  cases h <;> assumption

theorem OuterRead.ok {rd : Reader} {strong : Bool} {s s' : FileState} {c : StoredChunk} {es : List ReadEntry}
    (h : OuterRead rd strong s c es s') : c.Ok := by
  cases h <;> assumption

theorem readInner_read (rd : Reader) (s s' : FileState) (c : StoredChunk) (es : List ReadEntry)
    (h : InnerRead rd true s c es s') : readInner rd s c.tag c.data = some (es, .ok s') := by
  unfold readInner
  cases h with
  | firehose h private_ rs p hc tag hh data size catalog process points some_ =>
    rw [if_pos tag, runFirehose_read rd s h private_ rs p c.data hh data size catalog process points, if_pos]
    obtain ⟨r, hr, ht⟩ := some_ rfl
    rw [List.any_eq_true]
    exact ⟨r, hr, by simpa using ht⟩
  | oversize o hc tag ho data =>
    rw [if_neg (by omega), if_pos tag, data, C123_oversize_is o ho]
    rfl
  | state d title rest library decoder value f p main text hc tag hd htl ht type hlib hdec hf hv known data =>
    rw [if_neg (by omega), if_neg (by omega), if_pos tag, data,
      readState_is rd s d title rest library decoder value f p main text hd htl ht type hlib hdec hf hv known]
    rfl
  | simple d sub message rest p main text hc tag hd hs hm hsl hml known data =>
    rw [if_neg (by omega), if_neg (by omega), if_neg (by omega), if_pos tag, data,
      readSimple_is rd s d sub message rest p main text hd hs hm hsl hml known]
    rfl
  | other hc tag =>
    simp only [List.mem_cons, List.not_mem_nil, or_false, not_or] at tag
    rw [if_neg tag.1, if_neg tag.2.1, if_neg tag.2.2.1, if_neg tag.2.2.2]

theorem innerStep_read (rd : Reader) (s s' : FileState) (c : StoredChunk) (es : List ReadEntry)
    (h : InnerRead rd true s c es s') (block pre post : Bytes) (hpre : pre.length % 8 = 0)
    (hb : block = pre ++ c.bytes ++ post) :
    innerStep rd block s pre.length = some (es, .ok (s', pre.length + c.bytes.length)) ∧
      (pre.length + c.bytes.length) % 8 = 0 := by
  have hcok := h.ok
  have hl := c.length
  have hpad := hcok.2.2.2.2
  refine ⟨?_, by omega⟩
  have hs : readStructureFromByteStream (some chunkHeaderMap) (block.drop pre.length) =
      .ok (c.tag, c.subTag, c.data.length) := by
    have hm := chunk_header c hcok post
    unfold readStructureFromByteStream
    rw [hb, List.append_assoc, List.drop_left, if_neg]
    · dsimp only
      rw [hm]
    intro h
    have := congrArg List.length h
    simp only [List.length_append, List.length_nil] at this
    omega
  unfold innerStep
  rw [hs]
  dsimp only
  rw [hb, chunk_data, readInner_read rd s s' c es h, chunk_next c hcok _ hpre]

theorem runSet_read (rd : Reader) (s s' : FileState) (inner : List StoredChunk) (es : List ReadEntry) (data : Bytes)
    (off size : Nat) (chain : Chain (InnerRead rd true) s inner es s')
    (hb : unpackBlock rd.lz4 data off (slice data off (off + size)) =
      .ok (inner.flatMap (·.bytes), (inner.flatMap (·.bytes)).length)) :
    runSet rd s data off size = some (es, .ok s') := by
  have hm : ∀ (s : FileState) (c : StoredChunk) (es : List ReadEntry) (s' : FileState),
      InnerRead rd true s c es s' → 1 ≤ c.bytes.length := by
    intro _ c _ _ _
    have := c.length
    omega
  have hn := chain_length _ (fun c : StoredChunk => c.bytes) hm _ _ _ _ chain
  unfold runSet
  rw [hb]
  dsimp only
  exact run_chain_end (InnerRead rd true) (fun c => c.bytes) (fun n => n % 8 = 0) 1 (innerStep rd (inner.flatMap (·.bytes)))
    (inner.flatMap (·.bytes)) (fun s c es s' h pre post hpre hd => innerStep_read rd s s' c es h _ pre post hpre hd) hm s s'
    inner es chain [] [] rfl (by simp) (inner.flatMap (·.bytes)).length (Or.inr (by simp)) (by simp) _
    (Nat.lt_succ_of_le hn)

/-! ## Proofs: files -/

theorem useCatalog_read (rd : Reader) (s : FileState) (k : StoredCatalog) (table : List (List Char × ProcessInfo))
    (rest : Bytes) (hk : k.Ok rd.utf8) (ht : buildProcesses k.uuids [] (k.processes.map (·.2)) = .ok table) :
    useCatalog rd s (k.bytes ++ rest) = .ok { s with catalog := some k.value, table := table } := by
  unfold useCatalog StoredCatalog.bytes
  rw [List.append_assoc, List.append_assoc, C121_catalog rd.utf8 k.uuids k.strings k.processes k.subChunks k.subOffset k.time
    k.reserved rest hk.uuids hk.strings hk.processes hk.subChunks hk.size hk.processCount hk.subChunkCount hk.subOffset
    hk.time hk.reserved]
  dsimp only
  rw [ht]
  rfl

theorem readOuter_read (rd : Reader) (s s' : FileState) (c : StoredChunk) (es : List ReadEntry)
    (h : OuterRead rd true s c es s') (pre post : Bytes) :
    readOuter rd (pre ++ c.bytes ++ post) s c.tag (pre.length + 16) c.data.length = some (es, .ok s') := by
  have e : pre ++ c.bytes ++ post = (pre ++ [leBytes 4 c.tag, leBytes 4 c.subTag, leBytes 8 c.data.length].flatten) ++
      (c.data ++ (c.padding ++ post)) := by simp [StoredChunk.bytes]
  have hl : (pre ++ [leBytes 4 c.tag, leBytes 4 c.subTag, leBytes 8 c.data.length].flatten).length = pre.length + 16 := by
    simp
  unfold readOuter
  cases h with
  | catalog _ k table rest hc tag hk data ht =>
    rw [if_pos tag, e, List.drop_left' hl, data, List.append_assoc, useCatalog_read rd s k table _ hk ht]
  | stored _ _ inner _ rest hc tag size data chain =>
    rw [if_neg (by omega), if_pos tag]
    refine runSet_read rd s s' inner es _ _ _ chain ?_
    rw [chunk_data, e, data]
    have := C82_stored_block rd.lz4 (inner.flatMap (·.bytes))
      (pre ++ [leBytes 4 c.tag, leBytes 4 c.subTag, leBytes 8 c.data.length].flatten) (rest ++ (c.padding ++ post)) rest size
    rw [hl] at this
    rw [← this, data]
    simp
  | compressed _ _ inner _ compressed rest hc tag size size' lz4 data chain =>
    rw [if_neg (by omega), if_pos tag]
    refine runSet_read rd s s' inner es _ _ _ chain ?_
    rw [chunk_data, e, data]
    have := C82_compressed_block rd.lz4 (inner.flatMap (·.bytes)) compressed
      (pre ++ [leBytes 4 c.tag, leBytes 4 c.subTag, leBytes 8 c.data.length].flatten) (rest ++ (c.padding ++ post)) rest size
      size' lz4
    rw [hl] at this
    rw [← this, data]
    simp

theorem chunkHeader_at (c : StoredChunk) (h : c.Ok) (pre post : Bytes) :
    structAt chunkHeaderMap (pre ++ c.bytes ++ post) pre.length = .ok ((c.tag, c.subTag, c.data.length), 16) := by
  have hm := chunk_header c h post
  unfold chunkHeaderMap at hm ⊢
  rw [structAt_fixed _ _ _ _ (by omega)]
  have hl := c.length
  rw [if_neg (by simp only [List.length_append]; omega)]
  unfold fixedMap sizedMap at hm
  simp only [List.length_append, Nat.add_zero] at hm
  rw [if_neg (by omega), if_neg (by omega)] at hm
  rw [List.append_assoc, List.drop_left]
  simp only [MapOutcome.mapped.injEq] at hm
  rw [hm]
  rfl

theorem outerStep_read (rd : Reader) (s s' : FileState) (c : StoredChunk) (es : List ReadEntry)
    (h : OuterRead rd true s c es s') (data pre post : Bytes) (hpre : pre.length % 8 = 0)
    (hd : data = pre ++ c.bytes ++ post) :
    outerStep rd data s pre.length = some (es, .ok (s', pre.length + c.bytes.length)) ∧
      (pre.length + c.bytes.length) % 8 = 0 := by
  have hcok := h.ok
  have hl := c.length
  have hpad := hcok.2.2.2.2
  refine ⟨?_, by omega⟩
  unfold outerStep
  rw [hd, chunkHeader_at c hcok pre post]
  dsimp only
  rw [readOuter_read rd s s' c es h pre post, chunk_next c hcok _ hpre]

/-! ## C147: all entries of a file -/

theorem outer_length (rd : Reader) (strong : Bool) : ∀ (s : FileState) (c : StoredChunk) (es : List ReadEntry) (s' : FileState),
    OuterRead rd strong s c es s' → 1 ≤ c.bytes.length := by
  intro _ c _ _ _
  have := c.length
  omega

/-- **C147** (partial): all entries of a file are delivered in order: first those of the timesync records, then those of the
chunks.  Every chunk is read with the last catalog before it and with the oversize chunks before it.  Each firehose
chunk has an activity, a log or a signpost. -/
theorem C147_all_partial (rd : Reader) (st : TimeState) (bootText : List Char) (s s' : FileState) (pre : Bytes)
    (chunks : List StoredChunk) (es : List ReadEntry) (hpre : pre.length % 8 = 0)
    (chain : Chain (OuterRead rd true) { s with oversize := [] } chunks es s') :
    readLogEntries rd st bootText s (pre ++ chunks.flatMap (·.bytes)) pre.length = some (timeEntries st bootText ++ es, .ok s') := by
  have hn := chain_length _ (fun c : StoredChunk => c.bytes) (outer_length rd true) _ _ _ _ chain
  have hr := run_chain_end (OuterRead rd true) (fun c => c.bytes) (fun n => n % 8 = 0) 1
    (outerStep rd (pre ++ chunks.flatMap (·.bytes))) (pre ++ chunks.flatMap (·.bytes))
    (fun s c es s' h pre post hpre hd => outerStep_read rd s s' c es h _ pre post hpre hd) (outer_length rd true) _ s'
    chunks es chain pre [] hpre (by simp) (pre ++ chunks.flatMap (·.bytes)).length (Or.inr (by simp)) (by simp)
    ((pre ++ chunks.flatMap (·.bytes)).length + 1) (by rw [List.length_append]; omega)
  unfold readLogEntries
  rw [hr]
  rfl

/-- **C147**: the entries of the timesync records: the boot with its UUID, then the adjustments of the clock in the order of
the database. -/
theorem C147_times (rd : Reader) (st : TimeState) (b : Boot) (syncs : List Sync) (bootText : List Char) (s : FileState)
    (data : Bytes) (pos : Nat) (hst : Synchronised st b syncs) (hb : uuidText b.ident = .ok bootText)
    (es : List ReadEntry) (r : Res FileState) (h : readLogEntries rd st bootText s data pos = some (es, r)) :
    ∃ more, es = .boot ("=== system boot: ".toList ++ bootText) 0 b.timestamp ::
      (syncs.map (fun r => .adjusted "=== system wallclock time adjusted".toList r.kernelTime r.timestamp) ++ more) := by
  unfold readLogEntries timeEntries at h
  rw [hst.1, hst.2.1] at h
  obtain ⟨⟨es', r'⟩, _, h⟩ := Option.map_eq_some_iff.1 h
  cases h
  exact ⟨es', by simp⟩

theorem recordStep_next (handle : Record → Res Unit) (chunk : Bytes) (off : Nat) (r : Record) (next : Nat)
    (h : recordStep handle chunk off = .ok (r, next)) : off < next := by
  have := recordStep_ok handle chunk off r next h
  omega

theorem pointStep_ne (env : Env) (seen : Bool) (off : Nat) : pointStep env seen off ≠ none := by
  unfold pointStep
  split
  · simp
  · split
    · simp
    · split <;> simp

theorem pointStep_next (env : Env) (seen : Bool) (off : Nat) (es : List ReadEntry) (seen' : Bool) (next : Nat)
    (h : pointStep env seen off = some (es, .ok (seen', next))) : off < next := by
  unfold pointStep at h
  split at h
  · simp at h
  · rename_i r n hr
    have := recordStep_next _ _ _ _ _ hr
    split at h
    · cases h
      exact this
    · split at h
      · simp at h
      · cases h
        exact this

theorem runFirehose_ne (rd : Reader) (s : FileState) (chunk : Bytes) : runFirehose rd s chunk ≠ none := by
  unfold runFirehose
  split
  · simp
  · split
    · simp
    · rename_i h _ _ p _
      have := run_terminates (pointStep (rd.env s h p chunk)) h.public_ (pointStep_ne _)
        (fun s off es s' next hs => pointStep_next _ s off es s' next hs) (h.public_ + 1) 32 false (by omega)
      split
      · contradiction
      · simp
      · simp

theorem readInner_ne (rd : Reader) (s : FileState) (tag : Nat) (chunk : Bytes) : readInner rd s tag chunk ≠ none := by
  have := runFirehose_ne rd s chunk
  unfold readInner dumped
  split
  · split
    · contradiction
    · simp
    · simp
  · split
    · split <;> simp
    · split
      · split <;> simp
      · split
        · split <;> simp
        · simp

theorem innerStep_ne (rd : Reader) (block : Bytes) (s : FileState) (off : Nat) : innerStep rd block s off ≠ none := by
  unfold innerStep
  split
  · simp
  · split
    · rename_i h
      exact absurd h (readInner_ne _ _ _ _)
    · simp
    · simp

theorem innerStep_next (rd : Reader) (block : Bytes) (s : FileState) (off : Nat) (es : List ReadEntry) (s' : FileState)
    (next : Nat) (h : innerStep rd block s off = some (es, .ok (s', next))) : off < next := by
  unfold innerStep at h
  split at h
  · simp at h
  · split at h
    · simp at h
    · simp at h
    · rename_i size _ _ _ _ _
      cases h
      have := (align8_spec (off + 16 + size)).1
      omega

theorem runSet_ne (rd : Reader) (s : FileState) (data : Bytes) (off size : Nat) : runSet rd s data off size ≠ none := by
  unfold runSet
  split
  · simp
  · exact run_terminates _ _ (innerStep_ne rd _) (fun s off es s' next hs => innerStep_next rd _ s off es s' next hs) _ _ _
      (by omega)

theorem outerStep_ne (rd : Reader) (data : Bytes) (s : FileState) (off : Nat) : outerStep rd data s off ≠ none := by
  unfold outerStep
  split
  · simp
  · split
    · rename_i h
      unfold readOuter at h
      split at h
      · simp at h
      · split at h
        · exact absurd h (runSet_ne _ _ _ _ _)
        · simp at h
    · simp
    · simp

theorem outerStep_next (rd : Reader) (data : Bytes) (s : FileState) (off : Nat) (es : List ReadEntry) (s' : FileState)
    (next : Nat) (h : outerStep rd data s off = some (es, .ok (s', next))) : off < next := by
  unfold outerStep at h
  split at h
  · simp at h
  · split at h
    · simp at h
    · simp at h
    · rename_i size _ _ _ _ _ _
      cases h
      have := (align8_spec (off + 16 + size)).1
      omega

/-- **C147**: reading the log entries ends, for every contents of the file, from every position. -/
theorem C147_terminates (rd : Reader) (st : TimeState) (bootText : List Char) (s : FileState) (data : Bytes) (pos : Nat) :
    readLogEntries rd st bootText s data pos ≠ none := by
  unfold readLogEntries
  have := run_terminates (outerStep rd data) data.length (outerStep_ne rd data)
    (fun s off es s' next hs => outerStep_next rd data s off es s' next hs) (data.length + 1) pos { s with oversize := [] }
    (by omega)
  simpa using this

/-! ## C148: what comes before an error is delivered -/

/-- **C148**: whatever follows the chunks of a file, their entries are delivered, and before anything else. -/
theorem C148_before (rd : Reader) (st : TimeState) (bootText : List Char) (s s' : FileState) (pre post : Bytes)
    (chunks : List StoredChunk) (es : List ReadEntry) (hpre : pre.length % 8 = 0)
    (chain : Chain (OuterRead rd true) { s with oversize := [] } chunks es s') :
    ∃ more r, readLogEntries rd st bootText s (pre ++ chunks.flatMap (·.bytes) ++ post) pre.length =
      some (timeEntries st bootText ++ (es ++ more), r) := by
  have hn := chain_length _ (fun c : StoredChunk => c.bytes) (outer_length rd true) _ _ _ _ chain
  generalize hd : pre ++ chunks.flatMap (·.bytes) ++ post = data
  have hl : data.length = pre.length + (chunks.flatMap (·.bytes)).length + post.length := by
    rw [← hd]; simp only [List.length_append]
  have hr := run_chain (OuterRead rd true) (fun c => c.bytes) (fun n => n % 8 = 0) 1 (outerStep rd data) data
    (fun s c es s' h pre post hpre hd => outerStep_read rd s s' c es h _ pre post hpre hd) (outer_length rd true) _ s'
    chunks es chain pre post hpre hd.symm data.length (Or.inr (by omega)) (data.length + 1 - chunks.length)
  rw [show chunks.length + (data.length + 1 - chunks.length) = data.length + 1 by omega] at hr
  have ht := run_terminates (outerStep rd data) data.length (outerStep_ne rd data)
    (fun s off es s' next hs => outerStep_next rd data s off es s' next hs) (data.length + 1 - chunks.length)
    (pre.length + (chunks.flatMap (·.bytes)).length) s' (by omega)
  obtain ⟨⟨more, r⟩, hx⟩ := Option.ne_none_iff_exists'.1 ht
  refine ⟨more, r, ?_⟩
  unfold readLogEntries
  rw [hr, hx]
  rfl

/-- **C148**: whatever follows the chunks of a chunk set in its block, their entries are delivered, after those of the chunks
before the chunk set. -/
theorem C148_in_set (rd : Reader) (st : TimeState) (bootText : List Char) (s s' s'' : FileState) (pre post : Bytes)
    (chunks : List StoredChunk) (es fs : List ReadEntry) (c : StoredChunk) (inner : List StoredChunk) (junk rest : Bytes)
    (hpre : pre.length % 8 = 0) (chain : Chain (OuterRead rd true) { s with oversize := [] } chunks es s')
    (hc : c.Ok) (tag : c.tag = 0x600D) (size : (inner.flatMap (·.bytes) ++ junk).length < 2 ^ 32)
    (data : c.data = storedBlock (inner.flatMap (·.bytes) ++ junk) ++ rest)
    (chain' : Chain (InnerRead rd true) s' inner fs s'') :
    ∃ more r, readLogEntries rd st bootText s (pre ++ chunks.flatMap (·.bytes) ++ c.bytes ++ post) pre.length =
      some (timeEntries st bootText ++ (es ++ (fs ++ more)), r) := by
  have hn := chain_length _ (fun c : StoredChunk => c.bytes) (outer_length rd true) _ _ _ _ chain
  have hcl := c.length
  have hni : inner.length ≤ (inner.flatMap (·.bytes)).length := by
    refine chain_length _ (fun c : StoredChunk => c.bytes) ?_ _ _ _ _ chain'
    intro _ c _ _ _
    have := c.length
    omega
  have hset : ∃ more r, runSet rd s' (pre ++ chunks.flatMap (·.bytes) ++ c.bytes ++ post)
      ((pre ++ chunks.flatMap (·.bytes)).length + 16) c.data.length = some (fs ++ more, r) := by
    unfold runSet
    have e : pre ++ chunks.flatMap (·.bytes) ++ c.bytes ++ post =
      ((pre ++ chunks.flatMap (·.bytes)) ++ [leBytes 4 c.tag, leBytes 4 c.subTag, leBytes 8 c.data.length].flatten) ++
        (c.data ++ (c.padding ++ post)) := by simp [StoredChunk.bytes]
    have hl : ((pre ++ chunks.flatMap (·.bytes)) ++
        [leBytes 4 c.tag, leBytes 4 c.subTag, leBytes 8 c.data.length].flatten).length =
          (pre ++ chunks.flatMap (·.bytes)).length + 16 := by
      rw [List.length_append]
      simp
    have hb := C82_stored_block rd.lz4 (inner.flatMap (·.bytes) ++ junk)
      ((pre ++ chunks.flatMap (·.bytes)) ++ [leBytes 4 c.tag, leBytes 4 c.subTag, leBytes 8 c.data.length].flatten)
      (rest ++ (c.padding ++ post)) rest size
    rw [hl] at hb
    rw [chunk_data, e, data]
    rw [show storedBlock (inner.flatMap (·.bytes) ++ junk) ++ rest ++ (c.padding ++ post) =
      storedBlock (inner.flatMap (·.bytes) ++ junk) ++ (rest ++ (c.padding ++ post)) by simp, ← List.append_assoc]
    rw [data] at hb
    rw [hb]
    dsimp only
    generalize hblock : inner.flatMap (·.bytes) ++ junk = block
    have hbl : block.length = (inner.flatMap (·.bytes)).length + junk.length := by rw [← hblock]; simp
    have hr := run_chain (InnerRead rd true) (fun c => c.bytes) (fun n => n % 8 = 0) 1 (innerStep rd block) block
      (fun s c es s' h pre post hpre hd => innerStep_read rd s s' c es h _ pre post hpre hd)
      (by
        intro _ c _ _ _
        have := c.length
        omega) s' s'' inner fs chain' [] junk rfl (by rw [← hblock]; simp) block.length
      (Or.inr (by rw [List.length_nil]; omega)) (block.length + 1 - inner.length)
    rw [show inner.length + (block.length + 1 - inner.length) = block.length + 1 by omega] at hr
    have ht := run_terminates (innerStep rd block) block.length (innerStep_ne rd block)
      (fun s off es s' next hs => innerStep_next rd block s off es s' next hs) (block.length + 1 - inner.length)
      (([] : Bytes).length + (inner.flatMap (·.bytes)).length) s'' (by omega)
    obtain ⟨⟨more, r⟩, hx⟩ := Option.ne_none_iff_exists'.1 ht
    refine ⟨more, r, ?_⟩
    rw [show run (innerStep rd block) block.length (block.length + 1) 0 s' = _ from hr, hx]
    rfl
  generalize hd : pre ++ chunks.flatMap (·.bytes) ++ c.bytes ++ post = data at hset
  have hl : data.length = pre.length + (chunks.flatMap (·.bytes)).length + c.bytes.length + post.length := by
    rw [← hd]; simp only [List.length_append]
  have hr := run_chain (OuterRead rd true) (fun c => c.bytes) (fun n => n % 8 = 0) 1 (outerStep rd data) data
    (fun s c es s' h pre post hpre hd => outerStep_read rd s s' c es h _ pre post hpre hd) (outer_length rd true) _ s'
    chunks es chain pre (c.bytes ++ post) hpre (by rw [← hd]; simp) data.length (Or.inr (by omega))
    (data.length + 1 - chunks.length)
  rw [show chunks.length + (data.length + 1 - chunks.length) = data.length + 1 by omega] at hr
  obtain ⟨more, r, hset⟩ := hset
  have hrest : ∃ more r, run (outerStep rd data) data.length (data.length + 1 - chunks.length)
      (pre.length + (chunks.flatMap (·.bytes)).length) s' = some (fs ++ more, r) := by
    rw [show data.length + 1 - chunks.length = (data.length - chunks.length) + 1 by omega, run, if_pos (by omega)]
    have hstep : outerStep rd data s' (pre.length + (chunks.flatMap (·.bytes)).length) =
        match (some (fs ++ more, r) : Option (List ReadEntry × Res FileState)) with
        | none => none
        | some (es, .error e) => some (es, .error e)
        | some (es, .ok s) => some (es, .ok (s, align8 (pre.length + (chunks.flatMap (·.bytes)).length + 16 + c.data.length)))
        := by
      unfold outerStep
      have := chunkHeader_at c hc (pre ++ chunks.flatMap (·.bytes)) post
      rw [hd, List.length_append] at this
      rw [this]
      dsimp only
      have h2 : readOuter rd data s' c.tag (pre.length + (chunks.flatMap (·.bytes)).length + 16) c.data.length =
          some (fs ++ more, r) := by
        unfold readOuter
        rw [if_neg (by omega), if_pos tag, ← hset, List.length_append]
      rw [h2]
    rw [hstep]
    cases r with
    | error e => exact ⟨more, .error e, rfl⟩
    | ok s3 =>
      dsimp only
      have ht := run_terminates (outerStep rd data) data.length (outerStep_ne rd data)
        (fun s off es s' next hs => outerStep_next rd data s off es s' next hs) (data.length - chunks.length)
        (align8 (pre.length + (chunks.flatMap (·.bytes)).length + 16 + c.data.length)) s3 (by
          have := (align8_spec (pre.length + (chunks.flatMap (·.bytes)).length + 16 + c.data.length)).1
          omega)
      obtain ⟨⟨more', r⟩, hx⟩ := Option.ne_none_iff_exists'.1 ht
      refine ⟨more ++ more', r, ?_⟩
      rw [hx]
      simp
  obtain ⟨more, r, hrest⟩ := hrest
  refine ⟨more, r, ?_⟩
  unfold readLogEntries
  rw [hr, hrest]
  rfl

/-! ## C147: oversize chunks stay -/

/-- Not an oversize chunk with the given key. -/
def AddsNot (key : List Char) (c : StoredChunk) : Prop :=
  ∀ o : StoredOversize, c.tag = 0x6002 → o.Ok → c.data = o.bytes → oversizeKey o.upper o.lower o.reference ≠ key

/-- Not a chunk set with such a chunk. -/
def HoldsNot (rd : Reader) (key : List Char) (c : StoredChunk) : Prop :=
  ∀ (inner : List StoredChunk) (rest : Bytes), (c.data = storedBlock (inner.flatMap (·.bytes)) ++ rest ∨
    ∃ z, rd.lz4 z (inner.flatMap (·.bytes)).length = .ok (inner.flatMap (·.bytes)) ∧
      c.data = compressedBlock (inner.flatMap (·.bytes)) z ++ rest) → ∀ x ∈ inner, AddsNot key x

theorem inner_keeps (rd : Reader) (strong : Bool) (upper lower reference : Nat) (s s' : FileState) (inner : List StoredChunk)
    (es : List ReadEntry) (chain : Chain (InnerRead rd strong) s inner es s')
    (h : ∀ c ∈ inner, AddsNot (oversizeKey upper lower reference) c) :
    findOversize s'.oversize upper lower reference = findOversize s.oversize upper lower reference := by
  induction chain with
  | nil => rfl
  | @cons s s1 s2 c cs es fs hr _ ih =>
    rw [ih (fun x hx => h x (by simp [hx]))]
    cases hr with
    | oversize o hc tag ho data =>
      have := h c (by simp) o tag ho data
      unfold findOversize storeOversize
      split
      · rfl
      · rw [List.find?_cons_of_neg (by simpa using this)]
    | _ => rfl

/-- **C147**: an oversize chunk is found until another one for the same process and reference is read: neither catalogs
nor other chunks, of the same or of other chunk sets, change what is found. -/
theorem C147_oversize_kept (rd : Reader) (strong : Bool) (upper lower reference : Nat) (s s' : FileState)
    (chunks : List StoredChunk) (es : List ReadEntry) (chain : Chain (OuterRead rd strong) s chunks es s')
    (h : ∀ c ∈ chunks, c.tag = 0x600D → HoldsNot rd (oversizeKey upper lower reference) c) :
    findOversize s'.oversize upper lower reference = findOversize s.oversize upper lower reference := by
  induction chain with
  | nil => rfl
  | @cons s s1 s2 c cs es fs hr _ ih =>
    rw [ih (fun x hx => h x (by simp [hx]))]
    cases hr with
    | catalog => rfl
    | stored _ _ inner _ rest hc tag size data chain =>
      exact inner_keeps rd strong upper lower reference _ _ inner _ chain (h c (by simp) tag inner rest (Or.inl data))
    | compressed _ _ inner _ z rest hc tag size size' lz4 data chain =>
      exact inner_keeps rd strong upper lower reference _ _ inner _ chain
        (h c (by simp) tag inner rest (Or.inr ⟨z, lz4, data⟩))

/-- **C147**: what is found after an oversize chunk with a reference was read is that chunk. -/
theorem C147_oversize_found (rd : Reader) (strong : Bool) (s s' : FileState) (c : StoredChunk) (o : StoredOversize)
    (es : List ReadEntry) (h : InnerRead rd strong s c es s') (tag : c.tag = 0x6002) (ho : o.Ok) (data : c.data = o.bytes)
    (hr : o.reference ≠ 0) :
    ∃ values private_, findOversize s'.oversize o.upper o.lower o.reference = some (o.chunk, values, private_) ∧
      o.values <+: values := by
  have hd := C123_oversize_is o ho
  cases h with
  | oversize o' hc tag' ho' data' =>
    have hd' := C123_oversize_is o' ho'
    rw [← data', data, hd] at hd'
    simp only [Except.ok.injEq, Prod.mk.injEq] at hd'
    obtain ⟨h1, h2, h3⟩ := hd'
    have e1 : o'.upper = o.upper := (congrArg OversizeChunk.upper h1).symm
    have e2 : o'.lower = o.lower := (congrArg OversizeChunk.lower h1).symm
    have e3 : o'.reference = o.reference := (congrArg OversizeChunk.reference h1).symm
    refine ⟨o.values ++ o.private_.take (o.data.length - o.values.length), o.private_.drop (o.data.length - o.values.length),
      ?_, ⟨_, rfl⟩⟩
    unfold findOversize storeOversize
    rw [if_neg hr, e1, e2, e3, List.find?_cons_of_pos (by simp), ← h1, ← h2, ← h3]
    rfl
  | _ => first | omega | (simp [tag] at *)

theorem readCatalog_stored (utf8 : Bytes → Option (List Char)) (k : StoredCatalog) (rest : Bytes) (hk : k.Ok utf8) :
    readCatalog utf8 (k.bytes ++ rest) = .ok (k.value, rest) := by
  unfold StoredCatalog.bytes
  rw [List.append_assoc, List.append_assoc, C121_catalog utf8 k.uuids k.strings k.processes k.subChunks k.subOffset k.time
    k.reserved rest hk.uuids hk.strings hk.processes hk.subChunks hk.size hk.processCount hk.subChunkCount hk.subOffset
    hk.time hk.reserved]
  rfl

/-- **C147**: after a catalog the processes are those of that catalog, whatever catalogs came before. -/
theorem C147_last_catalog (rd : Reader) (strong : Bool) (s s' : FileState) (c : StoredChunk) (es : List ReadEntry)
    (k : StoredCatalog) (rest : Bytes) (h : OuterRead rd strong s c es s') (tag : c.tag = 0x600B) (hk : k.Ok rd.utf8)
    (data : c.data = k.bytes ++ rest) (upper lower : Nat) :
    s'.catalog = some k.value ∧
    (∀ p ∈ k.processes.map (·.2), p.upper = upper ∧ p.lower = lower →
      ∃ info, Entered k.uuids p info ∧ s'.table.lookup (processKey upper lower) = some info) ∧
    ((∀ p ∈ k.processes.map (·.2), ¬ (p.upper = upper ∧ p.lower = lower)) →
      s'.table.lookup (processKey upper lower) = none) := by
  cases h with
  | catalog _ k' table rest' hc tag' hk' data' ht =>
    have h1 := readCatalog_stored rd.utf8 k rest hk
    have h2 := readCatalog_stored rd.utf8 k' rest' hk'
    rw [← data, data', h2] at h1
    simp only [Except.ok.injEq, Prod.mk.injEq] at h1
    have hv := h1.1
    have e1 : k'.uuids = k.uuids := congrArg Catalog.uuids hv
    have e2 : k'.processes.map (·.2) = k.processes.map (·.2) := congrArg Catalog.processes hv
    rw [e1, e2] at ht
    exact ⟨congrArg some hv, C122_processes k.uuids _ table ht upper lower⟩
  | stored _ _ _ _ _ _ tag' => omega
  | compressed _ _ _ _ _ _ _ tag' => omega

/-! ## C147: an example -/

def sampleReader : Reader where
  utf8 := fun b => some (b.map (fun x => Char.ofNat x.toNat))
  lz4 := fun _ _ => .error .libraryError
  strings := fun u t _ _ _ _ => .ok ⟨u, none, some "text".toList, t⟩
  path := fun _ => some ['p']
  decode := fun _ _ _ => .ok ['v']
  format := fun s vs => .ok (s.getD [] ++ vs.flatten)
  time := fun t => t
  decoders := fun _ => none
  strict := true

def sampleCatalog : StoredCatalog where
  uuids := [List.replicate 16 1]
  strings := []
  processes := [(sampleProcess.members ++ [0, 0, 0, 0], sampleProcess)]
  subChunks := []
  subOffset := 0
  time := 0
  reserved := [0, 0, 0, 0, 0, 0]

theorem sampleCatalog_ok : sampleCatalog.Ok sampleReader.utf8 where
  uuids := by simp [sampleCatalog]
  strings := by simp [sampleCatalog]
  processes := by
    intro p hp
    have : p = (sampleProcess.members ++ [0, 0, 0, 0], sampleProcess) := by simpa [sampleCatalog] using hp
    subst this
    exact ⟨sampleProcess_ok, [0, 0, 0, 0], rfl, by decide, by decide +kernel⟩
  subChunks := by simp [sampleCatalog]
  size := by decide
  processCount := by decide
  subChunkCount := by decide
  subOffset := by decide
  time := by decide
  reserved := rfl

def sampleLoss : StoredPoint := ⟨7, 0, 0, 0, 5, 22, 0, leBytes 8 1 ++ leBytes 8 2 ++ leBytes 8 3, []⟩

def sampleLogPoint : StoredPoint := ⟨4, 0x10, 0x0802, 0x77, 5, 23, 0, leBytes 4 0x40 ++ [1, 0, 0], [0]⟩

/-- A loss, a log that refers to the oversize chunk, and an unused trace point. -/
def samplePoints : List StoredPoint :=
  [sampleLoss, sampleLogPoint, ⟨0, 0, 0, 0, 0, 0, 0, [], []⟩]

def pad (b : Bytes) : Bytes := List.replicate (align8 b.length - b.length) 0

def chunkOf (tag : Nat) (data : Bytes) : StoredChunk := ⟨tag, 0, data, pad data⟩

def sampleHead (n : Nat) : StoredHead := ⟨⟨17, 4, n, 0, 1000⟩, 0, 0, 0, 0, 0, 0⟩

/-- A firehose chunk with the given trace points. -/
def sampleFirehose (rs : List StoredPoint) : StoredChunk :=
  chunkOf 0x6001 ((sampleHead (32 + (rs.flatMap (·.bytes)).length)).bytes ++ rs.flatMap (·.bytes))

def sampleSet (inner : List StoredChunk) : StoredChunk := chunkOf 0x600D (storedBlock (inner.flatMap (·.bytes)))

/-- A catalog, a chunk set with an oversize chunk, and a chunk set with a firehose chunk. -/
def sampleFile : List StoredChunk :=
  [chunkOf 0x600B sampleCatalog.bytes, sampleSet [chunkOf 0x6002 sampleOversize.bytes, chunkOf 0x6005 [1]],
    sampleSet [sampleFirehose samplePoints]]

def ReadEntry.text : ReadEntry → List Char
  | .boot m _ _ => m
  | .adjusted m _ _ => m
  | .point e => e.message
  | .dump e _ => e.message

/-- The log has the value of the oversize chunk, which is taken for a value that is not there (C123). -/
example : (readLogEntries sampleReader ⟨some ⟨48, [], 1, 1, 7⟩, [⟨32, 5, 8⟩], [], (1, 1)⟩ "B".toList newFileState
    (sampleFile.flatMap (·.bytes)) 0).map (fun r => (r.1.map (·.text), r.2.isOk)) =
      some (["=== system boot: B".toList, "=== system wallclock time adjusted".toList,
        "lost >=3 unreliable messages from 1-2 (Mach continuous exact start-approx. end)".toList,
        "text<private>".toList], true) := by
  decide +kernel

/-- A chunk set with a loss only, before one with a log. -/
def lossFile : List StoredChunk :=
  [chunkOf 0x600B sampleCatalog.bytes, sampleSet [sampleFirehose (samplePoints.take 1)],
    sampleSet [sampleFirehose samplePoints]]

theorem chunkOf_ok (tag : Nat) (data : Bytes) (ht : tag < 2 ^ 32) (hd : data.length < 2 ^ 64) : (chunkOf tag data).Ok := by
  have := align8_spec data.length
  have hp : (pad data).length = align8 data.length - data.length := by simp [pad]
  refine ⟨ht, (by decide : (0 : Nat) < 2 ^ 32), hd, ?_, ?_⟩
  · show (pad data).length < 8
    omega
  · show (data.length + (pad data).length) % 8 = 0
    omega

def sampleTable : List (List Char × ProcessInfo) :=
  [(processKey 17 4, ⟨sampleProcess, some (List.replicate 16 1), none⟩)]

theorem isOk_exists {α : Type} (r : Res α) (h : r.isOk = true) : ∃ x, r = .ok x := by
  cases r with
  | error e => cases h
  | ok x => exact ⟨x, rfl⟩

/-- The state after the catalog. -/
def sampleAfter : FileState := ⟨some sampleCatalog.value, sampleTable, []⟩

theorem sample_catalog (strong : Bool) :
    OuterRead sampleReader strong newFileState (chunkOf 0x600B sampleCatalog.bytes) [] sampleAfter :=
  .catalog newFileState _ sampleCatalog sampleTable [] (chunkOf_ok _ _ (by decide) (by decide +kernel)) rfl sampleCatalog_ok
    (by simp [chunkOf]) (by decide +kernel)

theorem sample_loss : ∃ e, makeEntry (sampleReader.env sampleAfter (sampleHead 80).head
    (some ⟨sampleProcess, some (List.replicate 16 1), none⟩) (sampleFirehose (samplePoints.take 1)).data)
    sampleLoss.value = .ok e :=
  isOk_exists _ (by decide +kernel)

/-- **C147** is false of the code: a firehose chunk with a loss only ends the reading of the file. -/
theorem C147_all_claim_false : ¬ C147_all_claim := by
  intro h
  obtain ⟨e, he⟩ := sample_loss
  have hinner : InnerRead sampleReader false sampleAfter (sampleFirehose (samplePoints.take 1))
      [.point e] sampleAfter := by
    refine .firehose sampleAfter _ (sampleHead 80) []
      [(sampleLoss, [.point e])] _
      (chunkOf_ok _ _ (by decide) (by decide +kernel)) rfl (by unfold StoredHead.Ok; decide)
      (by simp only [List.map_cons, List.map_nil]; decide +kernel)
      (by simp only [List.map_cons, List.map_nil]; unfold PublicSize; decide +kernel) rfl
      (by decide +kernel : _ = some ⟨sampleProcess, some (List.replicate 16 1), none⟩) ?_ (by simp)
    intro r hr
    simp only [List.mem_cons, List.not_mem_nil, or_false] at hr
    subst hr
    exact .used sampleLoss (by unfold StoredPoint.Ok Known; decide +kernel) (by decide) e he
  have hset : OuterRead sampleReader false sampleAfter (sampleSet [sampleFirehose (samplePoints.take 1)]) _ sampleAfter :=
    .stored sampleAfter sampleAfter _ [sampleFirehose (samplePoints.take 1)] _ []
      (chunkOf_ok _ _ (by decide) (by decide +kernel)) rfl (by decide +kernel) (by simp [sampleSet, chunkOf])
      (.cons hinner (.nil _))
  have := h sampleReader newTimeState [] newFileState sampleAfter []
    [chunkOf 0x600B sampleCatalog.bytes, sampleSet [sampleFirehose (samplePoints.take 1)]] _ rfl
    (.cons (sample_catalog false) (.cons hset (.nil _)))
  have h2 : (readLogEntries sampleReader newTimeState [] newFileState
    ([] ++ [chunkOf 0x600B sampleCatalog.bytes, sampleSet [sampleFirehose (samplePoints.take 1)]].flatMap (·.bytes))
      ([] : Bytes).length).map (fun r => r.2.isOk) = some false := by decide +kernel
  rw [this] at h2
  cases h2

/-- What is delivered of a file with a loss only in the first of two chunk sets: the loss, and nothing of the second. -/
example : (readLogEntries sampleReader newTimeState [] newFileState (lossFile.flatMap (·.bytes)) 0).map
    (fun r => (r.1.map (·.text), match r.2 with | .error e => some e | .ok _ => none)) =
      some (["lost >=3 unreliable messages from 1-2 (Mach continuous exact start-approx. end)".toList],
        some .unboundLocalError) := by
  decide +kernel

/-- The sample file is one of those of the theorem. -/
example : ∃ es s', Chain (OuterRead sampleReader true) newFileState sampleFile es s' ∧ es.length = 2 := by
  have ho : InnerRead sampleReader true sampleAfter (chunkOf 0x6002 sampleOversize.bytes) [] _ :=
    .oversize sampleAfter _ sampleOversize (chunkOf_ok _ _ (by decide) (by decide +kernel)) rfl sampleOversize_ok rfl
  have hx : ∀ s, InnerRead sampleReader true s (chunkOf 0x6005 [1]) [] s := fun s =>
    .other s _ (chunkOf_ok _ _ (by decide) (by decide)) (by decide)
  obtain ⟨e1, h1⟩ := isOk_exists (makeEntry (sampleReader.env { sampleAfter with
    oversize := storeOversize [] 17 4 1 (sampleOversize.chunk, [115, 101, 99, 114, 101, 116, 115, 0], []) } (sampleHead 136).head
    (some ⟨sampleProcess, some (List.replicate 16 1), none⟩) (sampleFirehose samplePoints).data) sampleLoss.value)
    (by decide +kernel)
  obtain ⟨e2, h2⟩ := isOk_exists (makeEntry (sampleReader.env { sampleAfter with
    oversize := storeOversize [] 17 4 1 (sampleOversize.chunk, [115, 101, 99, 114, 101, 116, 115, 0], []) } (sampleHead 136).head
    (some ⟨sampleProcess, some (List.replicate 16 1), none⟩) (sampleFirehose samplePoints).data) sampleLogPoint.value)
    (by decide +kernel)
  refine ⟨_, _, .cons (sample_catalog true) (.cons (.stored _ _ _ [chunkOf 0x6002 sampleOversize.bytes, chunkOf 0x6005 [1]] _ []
    (chunkOf_ok _ _ (by decide) (by decide +kernel)) rfl (by decide +kernel) (by simp [sampleSet, chunkOf])
    (.cons ho (.cons (hx _) (.nil _)))) (.cons (.stored _ _ _ [sampleFirehose samplePoints] _ []
    (chunkOf_ok _ _ (by decide) (by decide +kernel)) rfl (by decide +kernel) (by simp [sampleSet, chunkOf])
    (.cons (.firehose _ _ (sampleHead 136) [] [(sampleLoss, [.point e1]), (sampleLogPoint, [.point e2]),
      (⟨0, 0, 0, 0, 0, 0, 0, [], []⟩, [])] ⟨sampleProcess, some (List.replicate 16 1), none⟩
      (chunkOf_ok _ _ (by decide) (by decide +kernel)) rfl (by unfold StoredHead.Ok; decide)
      (by simp only [List.map_cons, List.map_nil]; decide +kernel)
      (by simp only [List.map_cons, List.map_nil]; unfold PublicSize; decide +kernel) rfl (by decide +kernel) ?_ ?_)
      (.nil _))) (.nil _))), rfl⟩
  · intro r hr
    simp only [List.mem_cons, List.not_mem_nil, or_false] at hr
    rcases hr with rfl | rfl | rfl
    · exact .used sampleLoss (by unfold StoredPoint.Ok Known; decide +kernel) (by decide) e1 h1
    · exact .used sampleLogPoint (by unfold StoredPoint.Ok Known; decide +kernel) (by decide) e2 h2
    · exact .unused _ (by unfold StoredPoint.Ok Known; decide +kernel) rfl
  · intro _
    exact ⟨(sampleLogPoint, [.point e2]), by simp, by show sampleLogPoint.recordType ∈ _; decide⟩

end Dtf.Unified
