import Verif.Unified.Scale
import Verif.Unified.Caches
import Verif.Unified.Chunks

/-!
# Log entries of trace points (C127, C128)

The rest of `_ReadFirehoseChunkData` (dtformats/unified_logging.py 3898-4311): what a log entry is made of.
-/

namespace Dtf.Unified
open Py Formats Text DataFormat

/-! ## Model -/

/-- `ImageValues` (unified_logging.py 68-104). -/
structure ImageText where
  identifier : Bytes
  path : Option (List Char)
  string : Option (List Char)
  text : Nat
deriving DecidableEq, Repr

/-- The data of a trace point. -/
inductive Point
  | activity (a : Activity)
  | trace (load count : Nat)
  | log (p : LogPoint)
  | signpost (p : Signpost)
  | loss (start stop count : Nat)
deriving DecidableEq, Repr

/-- The data is read by the type of the record (unified_logging.py 3975-4054). -/
def readPointData (r : Record) : Res (Point × Bytes) :=
  match r.recordType with
  | 0x02 => (readActivity r.logType r.flags r.data).map (fun x => (.activity x.1, x.2))
  | 0x03 => (readTrace r.flags r.data).map (fun x => (.trace x.1.1 x.1.2, x.2))
  | 0x04 => (readLog r.flags r.data).map (fun x => (.log x.1, x.2))
  | 0x06 => (readSignpost r.flags r.data).map (fun x => (.signpost x.1, x.2))
  | 0x07 => (readLoss r.flags r.data).map (fun x => (.loss x.1.1 x.1.2.1 x.1.2.2, x.2))
  | _ => .error .parseError

/-- The members that say where the strings are; a trace has the lower load address only. -/
def Point.place : Point → Place
  | .activity a => a.place
  | .trace load _ => ⟨load, none, none, none, none⟩
  | .log p => p.place
  | .signpost p => p.place
  | .loss .. => ⟨0, none, none, none, none⟩

def Point.items : Point → Option (List Item)
  | .log p => some p.items
  | .signpost p => some p.items
  | _ => none

def Point.reference : Point → Option Nat
  | .log p => p.reference
  | .signpost p => p.reference
  | _ => none

def Point.range : Point → Option (Nat × Nat)
  | .log p => p.range
  | .signpost p => p.range
  | _ => none

def Point.subSystem : Point → Option Nat
  | .log p => p.subSystem
  | .signpost p => p.subSystem
  | _ => none

def Point.ttl : Point → Option Nat
  | .log p => p.ttl
  | .signpost p => p.ttl
  | _ => none

def Point.current : Point → Option Nat
  | .activity a => a.current
  | .log p => p.current
  | .signpost p => p.current
  | _ => none

/-- What the entries of a chunk are made with: the process of the catalog, the identifiers and strings of the catalog,
the values of images (`strings`, C30-C32), the paths of images, the decoders of values (C85, C109-C115) and the
formatting of messages (C27) with the format string of an image, the timestamps (C34, C126), the oversize chunks
(C80), and the members of the header of the chunk. -/
structure Env where
  process : Option ProcessInfo
  uuids : List Bytes
  catalogStrings : List (Nat × List Char)
  strings : Bytes → Nat → Nat → Place → Nat → Bool → Res ImageText
  path : Bytes → Option (List Char)
  decode : Option (Option (List Char)) → Nat → Option Bytes → Res (List Char)
  format : Option (List Char) → List (List Char) → Res (List Char)
  time : Nat → Int
  oversize : List (List Char × (OversizeChunk × Bytes × Bytes))
  upper : Nat
  lower : Nat
  base : Nat
  virtual : Nat
  chunk : Bytes

/-- The identifier of the image and the offset of its text (unified_logging.py 3148-3196). -/
def imageFile (env : Env) (flags : Nat) (place : Place) : Res (Option (Bytes × Nat)) :=
  stringsFile flags (env.process.bind (·.main)) (env.process.bind (·.dsc)) place.file
    (match env.process with
    | none => .error .attributeError
    | some p => absoluteImage env.uuids (place.upper.getD 0) place.lower
        (p.entry.images.map (fun i => ⟨i.upper, i.lower, i.size, i.index⟩)))

/-- `_GetImageValues` (unified_logging.py 3124-3272) without its cache. -/
def imageValues (env : Env) (flags : Nat) (place : Place) (reference : Nat) (dynamic : Bool) : Res (Option ImageText) :=
  match imageFile env flags place with
  | .error e => .error e
  | .ok none => .ok none
  | .ok (some (identifier, text)) => (env.strings identifier text flags place reference dynamic).map some

/-- `_GetDataItemsAndValuesData` (unified_logging.py 3061-3099). -/
def itemsAndData (env : Env) (point : Point) (values private_ : Bytes) : Option (List Item) × Bytes × Bytes :=
  if point.reference.getD 0 = 0 then (point.items, values, private_)
  else match findOversize env.oversize env.upper env.lower (point.reference.getD 0) with
    | some (o, values, private_) => (some o.items, values, private_)
    | none => (none, values, private_)

/-- The frames and the values of a trace point (unified_logging.py 4118-4172). -/
def framesAndValues (env : Env) (r : Record) (point : Point) (values : Bytes) (formatter : Option (Option (List Char))) :
    Res (List (Bytes × Nat) × List (List Char)) :=
  match point with
  | .trace _ count => (traceValues (fun i b => env.decode formatter i (some b)) count values).map (fun vs => ([], vs))
  | _ =>
    let (items, values, private_) := itemsAndData env point values (privateData env.virtual env.chunk)
    match readBacktrace r.flags values with
    | .error e => .error e
    | .ok frames =>
      match items with
      | none => .ok (frames, [])
      | some items =>
        (readDataItems (env.decode formatter) ⟨values, private_, privateOffset point.range env.virtual⟩ 0 items).map
          (fun vs => (frames, vs))

/-- The event type (unified_logging.py 2437-2447, 4072-4079). -/
def eventType (recordType logType : Nat) : Option (List Char) :=
  if recordType = 0x02 then
    [(0x01, "activityCreateEvent".toList), (0x03, "userActionEvent".toList)].lookup logType
  else [(0x04, "logEvent".toList), (0x07, "lossEvent".toList), (0x06, "signpostEvent".toList),
    (0x03, "traceEvent".toList)].lookup recordType

/-- The scope of a signpost (unified_logging.py 2515, 4279-4281). -/
def signpostScope (logType : Nat) : Option (List Char) :=
  [(0x04, "thread".toList), (0x08, "process".toList), (0x0C, "system".toList)].lookup (logType >>> 4)

/-- The type of a signpost (unified_logging.py 2517, 4282-4284). -/
def signpostType (logType : Nat) : Option (List Char) :=
  [(0x00, "event".toList), (0x01, "begin".toList), (0x02, "end".toList)].lookup (logType &&& 0x0F)

/-- `LogEntry` (unified_logging.py 124-213), with what `_ReadFirehoseChunkData` sets. -/
structure LogEntry where
  eventType : Option (List Char)
  machTime : Nat
  timestamp : Int
  thread : Nat
  traceIdentifier : Nat
  processImage : Option Bytes
  processPath : Option (List Char) := none
  pid : Option Nat := none
  message : List Char := []
  messageType : Option (List Char) := none
  formatString : Option (List Char) := none
  frames : List (Bytes × Int) := []
  category : Option (List Char) := none
  subSystem : Option (List Char) := none
  sender : Option Bytes := none
  senderPath : Option (List Char) := none
  counter : Int := 0
  ttl : Nat := 0
  activity : Option Nat := none
  creator : Option Nat := none
  parent : Option Nat := none
  signpost : Option (Nat × Option (List Char) × Option (List Char) × Option (List Char)) := none
  loss : Option (Nat × Nat × Nat) := none
deriving DecidableEq, Repr

/-- What all entries have (unified_logging.py 4056-4079). -/
def commonEntry (env : Env) (r : Record) (image : Option Bytes) : LogEntry :=
  { eventType := eventType r.recordType r.logType
    machTime := r.time + env.base
    timestamp := env.time (r.time + env.base)
    thread := r.thread
    traceIdentifier := traceIdentifier ⟨r.reference, r.flags, r.logType, r.recordType⟩
    processImage := image }

/-- The message of a loss (unified_logging.py 4082-4090). -/
def lossMessage (start stop count : Nat) : List Char :=
  "lost >=".toList ++ (dec count ++ (" unreliable messages from ".toList ++ (dec start ++ ('-' :: (dec stop ++
    " (Mach continuous exact start-approx. end)".toList)))))

/-- The name of a signpost (unified_logging.py 4259-4273).  Without image values it is an `AttributeError`. -/
def signpostName (env : Env) (r : Record) (p : Signpost) : Res (Option (List Char)) :=
  let (reference, dynamic) := nameReference p.nameLower p.nameUpper
  if reference = 0 then .ok none
  else match imageValues env r.flags p.place reference dynamic with
    | .error e => .error e
    | .ok none => .error .attributeError
    | .ok (some v) => .ok v.string

def activityMask (n : Nat) : Nat := n &&& (2 ^ 63 - 1)

/-- The members that depend on the type of the record (unified_logging.py 4208-4284). -/
def special (env : Env) (r : Record) (point : Point) (e : LogEntry) : Res LogEntry :=
  match point with
  | .activity a => .ok
      { e with
        messageType := logTypes.lookup r.logType
        activity := some (activityMask (a.new.getD 0))
        creator := if r.logType = 0x01 then some (a.current.getD 0) else none
        parent := some (activityMask (a.other.getD 0)) }
  | .signpost p =>
    match signpostName env r p with
    | .error err => .error err
    | .ok name => .ok
        { e with
          activity := some (activityMask (p.current.getD 0))
          signpost := some (p.identifier, name, signpostScope r.logType, signpostType r.logType) }
  | _ => .ok
      { e with
        messageType := logTypes.lookup r.logType
        activity := some (activityMask (point.current.getD 0)) }

/-- The message (unified_logging.py 4286-4291). -/
def entryMessage (env : Env) (image : Option ImageText) (values : List (List Char)) : Res (List Char) :=
  match image with
  | some v => env.format v.string values
  | none => .ok "<compose failure [missing precomposed log]>".toList

/-- The entry of a trace point that is not a loss (unified_logging.py 4099-4291). -/
def otherEntry (env : Env) (r : Record) (point : Point) (values : Bytes) (image : Option Bytes)
    (path : Option (List Char)) : Res LogEntry :=
  match imageValues env r.flags point.place (formatReference point.place r.reference).1
      (formatReference point.place r.reference).2 with
  | .error e => .error e
  | .ok v =>
    match framesAndValues env r point values (v.map (·.string)) with
    | .error e => .error e
    | .ok (frames, texts) =>
      let counter := programCounter point.place ((v.map (·.text)).getD 0)
      let strings := subSystemStrings env.catalogStrings env.process point.subSystem
      match special env r point { commonEntry env r image with
          processPath := path
          pid := some ((env.process.map (·.entry.pid)).getD 0)
          formatString := v.bind (·.string)
          frames :=
            if frames = [] then (v.map (fun v => (v.identifier, counter))).toList
            else frames.map (fun f => (f.1, (f.2 : Int)))
          category := strings.1
          subSystem := strings.2
          sender := v.map (·.identifier)
          senderPath := v.bind (·.path)
          counter := counter
          ttl := point.ttl.getD 0 } with
      | .error e => .error e
      | .ok e =>
        match entryMessage env v texts with
        | .error err => .error err
        | .ok message => .ok { e with message := message }

/-- The entry of a trace point (unified_logging.py 3975-4293). -/
def makeEntry (env : Env) (r : Record) : Res LogEntry :=
  match readPointData r with
  | .error e => .error e
  | .ok (point, values) =>
    match processImage env.path env.process with
    | .error e => .error e
    | .ok (image, path) =>
      match point with
      | .loss start stop count => .ok { commonEntry env r image with
          message := lossMessage start stop count
          loss := some (count, start, stop) }
      | _ => otherEntry env r point values image path

/-- `_ReadFirehoseChunkData` (unified_logging.py 3898-4311): the log entries of a chunk. -/
def readEntries (env : Env) (fuel : Nat) : Option (Res (List LogEntry)) :=
  match readFirehose (fun r => (makeEntry env r).map (fun _ => ())) env.chunk fuel with
  | none => none
  | some (.error e) => some (.error e)
  | some (.ok rs) => some (rs.mapM (makeEntry env))

/-! ## Specification -/

/-- Event type and message type of the trace points, by record and log type (documentation, sections on the record type
and the log type). -/
inductive DocumentedEvent : Nat → Nat → String → Option String → Prop
  | create : DocumentedEvent 2 1 "activityCreateEvent" (some "Info")
  | userAction : DocumentedEvent 2 3 "userActionEvent" (some "Useraction")
  | trace : DocumentedEvent 3 0 "traceEvent" (some "Default")
  | default_ : DocumentedEvent 4 0 "logEvent" (some "Default")
  | info : DocumentedEvent 4 1 "logEvent" (some "Info")
  | debug : DocumentedEvent 4 2 "logEvent" (some "Debug")
  | error : DocumentedEvent 4 0x10 "logEvent" (some "Error")
  | fault : DocumentedEvent 4 0x11 "logEvent" (some "Fault")
  | signpost (scope kind : Nat) : scope ∈ [4, 8, 12] → kind ∈ [0, 1, 2] →
      DocumentedEvent 6 (16 * scope + kind) "signpostEvent" none
  | loss : DocumentedEvent 7 0 "lossEvent" none

/-- Scope and type of a signpost by its log type. -/
inductive DocumentedSignpost : Nat → String → String → Prop
  | threadEvent : DocumentedSignpost 0x40 "thread" "event"
  | threadBegin : DocumentedSignpost 0x41 "thread" "begin"
  | threadEnd : DocumentedSignpost 0x42 "thread" "end"
  | processEvent : DocumentedSignpost 0x80 "process" "event"
  | processBegin : DocumentedSignpost 0x81 "process" "begin"
  | processEnd : DocumentedSignpost 0x82 "process" "end"
  | systemEvent : DocumentedSignpost 0xC0 "system" "event"
  | systemBegin : DocumentedSignpost 0xC1 "system" "begin"
  | systemEnd : DocumentedSignpost 0xC2 "system" "end"

/-! ## Proofs -/

theorem activityMask_mod (n : Nat) : activityMask n = n % 2 ^ 63 := Nat.and_two_pow_sub_one_eq_mod n 63

theorem itemsAndData_own (env : Env) (point : Point) (values private_ : Bytes) (h : point.reference.getD 0 = 0) :
    itemsAndData env point values private_ = (point.items, values, private_) := by
  unfold itemsAndData
  rw [if_pos h]

theorem special_common (env : Env) (r : Record) (point : Point) (e e' : LogEntry) (h : special env r point e = .ok e') :
    e'.eventType = e.eventType ∧ e'.machTime = e.machTime ∧ e'.timestamp = e.timestamp ∧ e'.thread = e.thread ∧
      e'.traceIdentifier = e.traceIdentifier := by
  unfold special at h
  cases point with
  | activity a =>
    cases h
    exact ⟨rfl, rfl, rfl, rfl, rfl⟩
  | signpost p =>
    simp only at h
    cases hn : signpostName env r p with
    | error err =>
      rw [hn] at h
      cases h
    | ok name =>
      rw [hn] at h
      cases h
      exact ⟨rfl, rfl, rfl, rfl, rfl⟩
  | trace a b =>
    cases h
    exact ⟨rfl, rfl, rfl, rfl, rfl⟩
  | log p =>
    cases h
    exact ⟨rfl, rfl, rfl, rfl, rfl⟩
  | loss a b c =>
    cases h
    exact ⟨rfl, rfl, rfl, rfl, rfl⟩

theorem otherEntry_common (env : Env) (r : Record) (point : Point) (values : Bytes) (image : Option Bytes)
    (path : Option (List Char)) (e : LogEntry) (h : otherEntry env r point values image path = .ok e) :
    e.eventType = eventType r.recordType r.logType ∧ e.machTime = r.time + env.base ∧
      e.timestamp = env.time (r.time + env.base) ∧ e.thread = r.thread ∧
      e.traceIdentifier = traceIdentifier ⟨r.reference, r.flags, r.logType, r.recordType⟩ := by
  unfold otherEntry at h
  cases hi : imageValues env r.flags point.place (formatReference point.place r.reference).1
      (formatReference point.place r.reference).2 with
  | error err =>
    rw [hi] at h
    cases h
  | ok v =>
    rw [hi] at h
    simp only at h
    cases hf : framesAndValues env r point values (v.map (·.string)) with
    | error err =>
      rw [hf] at h
      cases h
    | ok x =>
      obtain ⟨frames, texts⟩ := x
      rw [hf] at h
      simp only at h
      split at h
      · cases h
      · rename_i e1 hs
        have := special_common _ _ _ _ _ hs
        cases hm : entryMessage env v texts with
        | error err =>
          rw [hm] at h
          cases h
        | ok m =>
          rw [hm] at h
          cases h
          exact this

/-- **C127**: every entry has the time of its trace point, relative to the time of its chunk, its thread, its trace
identifier and the event type of its kind. -/
theorem C127_common (env : Env) (r : Record) (e : LogEntry) (h : makeEntry env r = .ok e) :
    e.eventType = eventType r.recordType r.logType ∧ e.machTime = r.time + env.base ∧
      e.timestamp = env.time (r.time + env.base) ∧ e.thread = r.thread ∧
      e.traceIdentifier = traceIdentifier ⟨r.reference, r.flags, r.logType, r.recordType⟩ := by
  unfold makeEntry at h
  cases hr : readPointData r with
  | error err =>
    rw [hr] at h
    cases h
  | ok x =>
    obtain ⟨point, values⟩ := x
    rw [hr] at h
    simp only at h
    cases hp : processImage env.path env.process with
    | error err =>
      rw [hp] at h
      cases h
    | ok y =>
      obtain ⟨image, path⟩ := y
      rw [hp] at h
      simp only at h
      cases point with
      | loss a b c =>
        cases h
        exact ⟨rfl, rfl, rfl, rfl, rfl⟩
      | activity a => exact otherEntry_common _ _ _ _ _ _ _ h
      | trace a b => exact otherEntry_common _ _ _ _ _ _ _ h
      | log p => exact otherEntry_common _ _ _ _ _ _ _ h
      | signpost p => exact otherEntry_common _ _ _ _ _ _ _ h

/-- **C127**: event types are as documented, and every kind of trace point there is has one. -/
theorem C127_events (recordType logType : Nat) (h : Known recordType logType) (h0 : recordType ≠ 0) :
    ∃ name message, DocumentedEvent recordType logType name message ∧
      eventType recordType logType = some name.toList ∧
      (recordType ≠ 6 → recordType ≠ 7 → logTypes.lookup logType = message.map String.toList) := by
  unfold Known at h
  rcases h with h | h
  · exact absurd h h0
  · simp only [List.mem_cons, Prod.mk.injEq, List.not_mem_nil, or_false] at h
    rcases h with ⟨rfl, rfl⟩ | ⟨rfl, rfl⟩ | ⟨rfl, rfl⟩ | ⟨rfl, rfl⟩ | ⟨rfl, rfl⟩ | ⟨rfl, rfl⟩ | ⟨rfl, rfl⟩ | ⟨rfl, rfl⟩ |
      ⟨rfl, rfl⟩ | ⟨rfl, rfl⟩ | ⟨rfl, rfl⟩ | ⟨rfl, rfl⟩ | ⟨rfl, rfl⟩ | ⟨rfl, rfl⟩ | ⟨rfl, rfl⟩ | ⟨rfl, rfl⟩ | ⟨rfl, rfl⟩ |
      ⟨rfl, rfl⟩
    · exact ⟨_, _, .create, rfl, fun _ _ => rfl⟩
    · exact ⟨_, _, .userAction, rfl, fun _ _ => rfl⟩
    · exact ⟨_, _, .trace, rfl, fun _ _ => rfl⟩
    · exact ⟨_, _, .default_, rfl, fun _ _ => rfl⟩
    · exact ⟨_, _, .info, rfl, fun _ _ => rfl⟩
    · exact ⟨_, _, .debug, rfl, fun _ _ => rfl⟩
    · exact ⟨_, _, .error, rfl, fun _ _ => rfl⟩
    · exact ⟨_, _, .fault, rfl, fun _ _ => rfl⟩
    · exact ⟨_, _, .signpost 4 0 (by decide) (by decide), rfl, fun x => absurd rfl x⟩
    · exact ⟨_, _, .signpost 4 1 (by decide) (by decide), rfl, fun x => absurd rfl x⟩
    · exact ⟨_, _, .signpost 4 2 (by decide) (by decide), rfl, fun x => absurd rfl x⟩
    · exact ⟨_, _, .signpost 8 0 (by decide) (by decide), rfl, fun x => absurd rfl x⟩
    · exact ⟨_, _, .signpost 8 1 (by decide) (by decide), rfl, fun x => absurd rfl x⟩
    · exact ⟨_, _, .signpost 8 2 (by decide) (by decide), rfl, fun x => absurd rfl x⟩
    · exact ⟨_, _, .signpost 12 0 (by decide) (by decide), rfl, fun x => absurd rfl x⟩
    · exact ⟨_, _, .signpost 12 1 (by decide) (by decide), rfl, fun x => absurd rfl x⟩
    · exact ⟨_, _, .signpost 12 2 (by decide) (by decide), rfl, fun x => absurd rfl x⟩
    · exact ⟨_, _, .loss, rfl, fun _ x => absurd rfl x⟩

/-- **C127**: scope and type of signposts are as documented. -/
theorem C127_scopes (logType : Nat) (scope kind : String) (h : DocumentedSignpost logType scope kind) :
    signpostScope logType = some scope.toList ∧ signpostType logType = some kind.toList := by
  cases h <;> exact ⟨rfl, rfl⟩

/-- The process of the chunk has an image. -/
structure Env.HasProcess (env : Env) (p : ProcessInfo) (main : Bytes) (text : List Char) : Prop where
  process : env.process = some p
  main_eq : p.main = some main
  path_eq : env.path main = some text

theorem Env.HasProcess.image {env : Env} {p : ProcessInfo} {main : Bytes} {text : List Char}
    (h : env.HasProcess p main text) : processImage env.path env.process = .ok (some main, some text) := by
  unfold processImage
  rw [h.process]
  simp only [h.main_eq, h.path_eq]

/-- **C127** (partial): the entry of a log record that is stored with its values, without oversize data: the message is
the format string of its image with the values of its items, and everything else is what was stored. -/
theorem C127_log_partial (env : Env) (pi : ProcessInfo) (main : Bytes) (text : List Char) (hp : env.HasProcess pi main text)
    (p : LogPoint) (r : Record) (values : Bytes) (hr : r.recordType = 4) (hok : p.OkOf 1 r.flags)
    (hf : Among [0, 1, 2, 3, 5, 8, 9, 10, 11, 12] r.flags) (hd : r.data = p.bytesOf 1 ++ values)
    (href : p.reference.getD 0 = 0) (v : ImageText)
    (hv : imageValues env r.flags p.place (formatReference p.place r.reference).1 (formatReference p.place r.reference).2 =
      .ok (some v)) (frames : List (Bytes × Nat)) (hb : readBacktrace r.flags values = .ok frames)
    (out : List (List Char)) (hout : readDataItems (env.decode (some v.string))
      ⟨values, privateData env.virtual env.chunk, privateOffset p.range env.virtual⟩ 0 p.items = .ok out)
    (message : List Char) (hm : env.format v.string out = .ok message) :
    ∃ e, makeEntry env r = .ok e ∧ e.message = message ∧ e.formatString = v.string ∧ e.pid = some pi.entry.pid ∧
      e.processImage = some main ∧ e.processPath = some text ∧ e.sender = some v.identifier ∧ e.senderPath = v.path ∧
      e.counter = programCounter p.place v.text ∧ e.activity = some (p.current.getD 0 % 2 ^ 63) ∧
      e.ttl = p.ttl.getD 0 ∧ (e.category, e.subSystem) = subSystemStrings env.catalogStrings (some pi) p.subSystem ∧
      e.messageType = logTypes.lookup r.logType ∧
      (frames ≠ [] → e.frames = frames.map (fun f => (f.1, (f.2 : Int)))) ∧
      (frames = [] → e.frames = [(v.identifier, programCounter p.place v.text)]) := by
  have h1 : readPointData r = .ok (.log p, values) := by
    unfold readPointData
    rw [hr]
    simp only
    rw [hd, C117_log_partial p r.flags values hok hf]
    rfl
  have h2 : framesAndValues env r (.log p) values (some v.string) = .ok (frames, out) := by
    unfold framesAndValues
    simp only
    rw [itemsAndData_own env (.log p) _ _ href]
    simp only [Point.items, Point.range]
    rw [hb]
    simp only
    rw [hout]
    rfl
  unfold makeEntry
  rw [h1]
  simp only
  rw [hp.image]
  simp only
  unfold otherEntry
  simp only [Point.place]
  rw [hv]
  simp only [Option.map_some]
  rw [h2]
  simp only [special, entryMessage, Option.getD_some]
  rw [hm]
  refine ⟨_, rfl, rfl, rfl, ?_, rfl, rfl, rfl, rfl, rfl, ?_, rfl, ?_, rfl, ?_, ?_⟩
  · simp [hp.process]
  · simp only [Point.current]
    rw [activityMask_mod]
  · simp only [Point.subSystem]
    rw [hp.process]
  · intro h
    simp only
    rw [if_neg h]
  · intro h
    simp only
    rw [if_pos h]
    rfl

/-- **C127** (partial): the values of a log record with oversize data are those of the last oversize chunk of its
process and reference. -/
theorem C127_oversize_partial (env : Env) (pi : ProcessInfo) (main : Bytes) (text : List Char)
    (hp : env.HasProcess pi main text) (chunks : List (Oversize (OversizeChunk × Bytes × Bytes)))
    (htable : env.oversize = chunks.foldl (fun d c => storeOversize d c.upper c.lower c.reference c.value) [])
    (p : LogPoint) (r : Record) (values : Bytes) (hr : r.recordType = 4) (hok : p.OkOf 1 r.flags)
    (hf : Among [0, 1, 2, 3, 5, 8, 9, 10, 11, 12] r.flags) (hd : r.data = p.bytesOf 1 ++ values)
    (reference : Nat) (hreference : p.reference = some reference) (h0 : reference ≠ 0)
    (c : Oversize (OversizeChunk × Bytes × Bytes))
    (hc : (chunks.filter (fun c => decide (c.upper = env.upper ∧ c.lower = env.lower ∧ c.reference = reference))).getLast? =
      some c) (v : ImageText)
    (hv : imageValues env r.flags p.place (formatReference p.place r.reference).1 (formatReference p.place r.reference).2 =
      .ok (some v)) (frames : List (Bytes × Nat)) (hb : readBacktrace r.flags c.value.2.1 = .ok frames)
    (out : List (List Char)) (hout : readDataItems (env.decode (some v.string))
      ⟨c.value.2.1, c.value.2.2, privateOffset p.range env.virtual⟩ 0 c.value.1.items = .ok out)
    (message : List Char) (hm : env.format v.string out = .ok message) :
    ∃ e, makeEntry env r = .ok e ∧ e.message = message ∧ (frames ≠ [] → e.frames = frames.map (fun f => (f.1, (f.2 : Int)))) := by
  have h1 : readPointData r = .ok (.log p, values) := by
    unfold readPointData
    rw [hr]
    simp only
    rw [hd, C117_log_partial p r.flags values hok hf]
    rfl
  have h3 : itemsAndData env (.log p) values (privateData env.virtual env.chunk) =
      (some c.value.1.items, c.value.2.1, c.value.2.2) := by
    have hg : (Point.log p).reference.getD 0 = reference := by
      simp [Point.reference, hreference]
    unfold itemsAndData
    rw [hg, if_neg h0, htable, C80_oversize _ _ _ _ h0, hc]
    rfl
  have h2 : framesAndValues env r (.log p) values (some v.string) = .ok (frames, out) := by
    unfold framesAndValues
    simp only
    rw [h3]
    simp only [Point.range]
    rw [hb]
    simp only
    rw [hout]
    rfl
  unfold makeEntry
  rw [h1]
  simp only
  rw [hp.image]
  simp only
  unfold otherEntry
  simp only [Point.place]
  rw [hv]
  simp only [Option.map_some]
  rw [h2]
  simp only [special, entryMessage]
  rw [hm]
  refine ⟨_, rfl, rfl, ?_⟩
  intro h
  simp only
  rw [if_neg h]

/-- **C127** (partial): a log record whose oversize data is not there has the frames of its own data and its message has
no values. -/
theorem C127_missing_partial (env : Env) (pi : ProcessInfo) (main : Bytes) (text : List Char)
    (hp : env.HasProcess pi main text) (chunks : List (Oversize (OversizeChunk × Bytes × Bytes)))
    (htable : env.oversize = chunks.foldl (fun d c => storeOversize d c.upper c.lower c.reference c.value) [])
    (p : LogPoint) (r : Record) (values : Bytes) (hr : r.recordType = 4) (hok : p.OkOf 1 r.flags)
    (hf : Among [0, 1, 2, 3, 5, 8, 9, 10, 11, 12] r.flags) (hd : r.data = p.bytesOf 1 ++ values)
    (reference : Nat) (hreference : p.reference = some reference) (h0 : reference ≠ 0)
    (hc : ∀ c ∈ chunks, ¬ (c.upper = env.upper ∧ c.lower = env.lower ∧ c.reference = reference)) (v : ImageText)
    (hv : imageValues env r.flags p.place (formatReference p.place r.reference).1 (formatReference p.place r.reference).2 =
      .ok (some v)) (frames : List (Bytes × Nat)) (hb : readBacktrace r.flags values = .ok frames)
    (message : List Char) (hm : env.format v.string [] = .ok message) :
    ∃ e, makeEntry env r = .ok e ∧ e.message = message ∧ (frames ≠ [] → e.frames = frames.map (fun f => (f.1, (f.2 : Int)))) := by
  have h1 : readPointData r = .ok (.log p, values) := by
    unfold readPointData
    rw [hr]
    simp only
    rw [hd, C117_log_partial p r.flags values hok hf]
    rfl
  have hnone : (chunks.filter
      (fun c => decide (c.upper = env.upper ∧ c.lower = env.lower ∧ c.reference = reference))).getLast? = none := by
    rw [List.getLast?_eq_none_iff, List.filter_eq_nil_iff]
    intro c hcm h
    exact hc c hcm (of_decide_eq_true h)
  have h3 : itemsAndData env (.log p) values (privateData env.virtual env.chunk) =
      (none, values, privateData env.virtual env.chunk) := by
    have hg : (Point.log p).reference.getD 0 = reference := by
      simp [Point.reference, hreference]
    unfold itemsAndData
    rw [hg, if_neg h0, htable, C80_oversize _ _ _ _ h0, hnone]
    rfl
  have h2 : framesAndValues env r (.log p) values (some v.string) = .ok (frames, []) := by
    unfold framesAndValues
    simp only
    rw [h3]
    simp only
    rw [hb]
  unfold makeEntry
  rw [h1]
  simp only
  rw [hp.image]
  simp only
  unfold otherEntry
  simp only [Point.place]
  rw [hv]
  simp only [Option.map_some]
  rw [h2]
  simp only [special, entryMessage]
  rw [hm]
  refine ⟨_, rfl, rfl, ?_⟩
  intro h
  simp only
  rw [if_neg h]

/-- **C127**: the entry of an activity has the identifiers that were stored, without the highest bit for the new and
the other one, and the creator of an activity as it was stored. -/
theorem C127_activity (env : Env) (pi : ProcessInfo) (main : Bytes) (text : List Char) (hp : env.HasProcess pi main text)
    (a : Activity) (r : Record) (values : Bytes) (hr : r.recordType = 2) (hok : a.Ok r.logType r.flags)
    (hf : Among [0, 1, 2, 3, 4, 5, 8, 9] r.flags) (hd : r.data = a.bytes ++ values) (v : ImageText)
    (hv : imageValues env r.flags a.place (formatReference a.place r.reference).1 (formatReference a.place r.reference).2 =
      .ok (some v)) (message : List Char) (hm : env.format v.string [] = .ok message) :
    ∃ e, makeEntry env r = .ok e ∧ e.message = message ∧ e.pid = some pi.entry.pid ∧ e.processImage = some main ∧
      e.activity = some (a.new.getD 0 % 2 ^ 63) ∧ e.parent = some (a.other.getD 0 % 2 ^ 63) ∧
      (r.logType = 1 → e.creator = some (a.current.getD 0)) ∧ (r.logType ≠ 1 → e.creator = none) ∧
      e.frames = [(v.identifier, programCounter a.place v.text)] := by
  have h1 : readPointData r = .ok (.activity a, values) := by
    unfold readPointData
    rw [hr]
    simp only
    rw [hd, C117_activity a r.logType r.flags values hok hf]
    rfl
  have h12 : r.flags.testBit 12 = false := by
    cases h : r.flags.testBit 12 with
    | false => rfl
    | true =>
      have := hf 12 h
      revert this
      decide
  have h2 : framesAndValues env r (.activity a) values (some v.string) = .ok ([], []) := by
    unfold framesAndValues
    simp only
    rw [itemsAndData_own _ _ _ _ rfl]
    simp only [Point.items]
    rw [C119_no_flag r.flags h12]
  unfold makeEntry
  rw [h1]
  simp only
  rw [hp.image]
  simp only
  unfold otherEntry
  simp only [Point.place]
  rw [hv]
  simp only [Option.map_some]
  rw [h2]
  simp only [special, entryMessage, Option.getD_some]
  rw [hm]
  refine ⟨_, rfl, rfl, ?_, rfl, ?_, ?_, ?_, ?_, ?_⟩
  · simp [hp.process]
  · simp only
    rw [activityMask_mod]
  · simp only
    rw [activityMask_mod]
  · intro h
    simp only
    rw [if_pos h]
  · intro h
    simp only
    rw [if_neg h]
  · simp only
    rw [if_pos trivial]
    rfl

/-- **C127** (partial): the entry of a signpost has its identifier, its scope and type, and its name, if the strings of
the name are found. -/
theorem C127_signpost_partial (env : Env) (pi : ProcessInfo) (main : Bytes) (text : List Char)
    (hp : env.HasProcess pi main text) (p : Signpost) (r : Record) (values : Bytes) (hr : r.recordType = 6)
    (hok : p.OkOf 1 r.flags) (hf : Among [0, 1, 2, 3, 5, 8, 9, 10, 11, 15] r.flags) (hd : r.data = p.bytesOf 1 ++ values)
    (href : p.reference.getD 0 = 0) (v n : ImageText)
    (hv : imageValues env r.flags p.place (formatReference p.place r.reference).1 (formatReference p.place r.reference).2 =
      .ok (some v)) (out : List (List Char)) (hout : readDataItems (env.decode (some v.string))
      ⟨values, privateData env.virtual env.chunk, privateOffset p.range env.virtual⟩ 0 p.items = .ok out)
    (message : List Char) (hm : env.format v.string out = .ok message)
    (hn : imageValues env r.flags p.place (nameReference p.nameLower p.nameUpper).1
      (nameReference p.nameLower p.nameUpper).2 = .ok (some n))
    (scope kind : String) (hs : DocumentedSignpost r.logType scope kind) :
    ∃ e, makeEntry env r = .ok e ∧ e.message = message ∧ e.pid = some pi.entry.pid ∧
      e.activity = some (p.current.getD 0 % 2 ^ 63) ∧
      ((nameReference p.nameLower p.nameUpper).1 ≠ 0 →
        e.signpost = some (p.identifier, n.string, some scope.toList, some kind.toList)) ∧
      ((nameReference p.nameLower p.nameUpper).1 = 0 →
        e.signpost = some (p.identifier, none, some scope.toList, some kind.toList)) := by
  have h1 : readPointData r = .ok (.signpost p, values) := by
    unfold readPointData
    rw [hr]
    simp only
    rw [hd, C117_signpost_partial p r.flags values hok hf]
    rfl
  have h12 : r.flags.testBit 12 = false := by
    cases h : r.flags.testBit 12 with
    | false => rfl
    | true =>
      have := hf 12 h
      revert this
      decide
  have h2 : framesAndValues env r (.signpost p) values (some v.string) = .ok ([], out) := by
    unfold framesAndValues
    simp only
    rw [itemsAndData_own env (.signpost p) _ _ href]
    simp only [Point.items, Point.range]
    rw [C119_no_flag r.flags h12]
    simp only
    rw [hout]
    rfl
  obtain ⟨hs1, hs2⟩ := C127_scopes _ _ _ hs
  have h3 : signpostName env r p = .ok (if (nameReference p.nameLower p.nameUpper).1 = 0 then none else n.string) := by
    unfold signpostName
    simp only
    split
    · rfl
    · rw [hn]
  unfold makeEntry
  rw [h1]
  simp only
  rw [hp.image]
  simp only
  unfold otherEntry
  simp only [Point.place]
  rw [hv]
  simp only [Option.map_some]
  rw [h2]
  simp only [special, entryMessage, Option.getD_some]
  rw [h3]
  simp only
  rw [hm]
  refine ⟨_, rfl, rfl, ?_, ?_, ?_, ?_⟩
  · simp [hp.process]
  · simp only
    rw [activityMask_mod]
  · intro h
    simp only
    rw [if_neg h, hs1, hs2]
  · intro h
    simp only
    rw [if_pos h, hs1, hs2]

/-- **C127**: the entry of a loss has the times and the number of messages that were stored, and its message says
so. -/
theorem C127_loss (env : Env) (pi : ProcessInfo) (main : Bytes) (text : List Char) (hp : env.HasProcess pi main text)
    (r : Record) (start stop count : Nat) (values : Bytes) (hr : r.recordType = 7) (hflags : r.flags = 0)
    (h1 : start < 2 ^ 64) (h2 : stop < 2 ^ 64) (h3 : count < 2 ^ 64)
    (hd : r.data = leBytes 8 start ++ (leBytes 8 stop ++ (leBytes 8 count ++ values))) :
    ∃ e, makeEntry env r = .ok e ∧ e.loss = some (count, start, stop) ∧ e.message = lossMessage start stop count := by
  have h : readPointData r = .ok (.loss start stop count, values) := by
    unfold readPointData
    rw [hr]
    simp only
    rw [hflags, hd, C117_loss start stop count h1 h2 h3 values]
    rfl
  unfold makeEntry
  rw [h]
  simp only
  rw [hp.image]
  exact ⟨_, rfl, rfl, rfl⟩

/-- **C127**: the message of a loss says when and how many: different losses have different messages. -/
theorem C127_loss_message (s1 t1 c1 s2 t2 c2 : Nat) (h : lossMessage s1 t1 c1 = lossMessage s2 t2 c2) :
    s1 = s2 ∧ t1 = t2 ∧ c1 = c2 := by
  unfold lossMessage at h
  have h := List.append_cancel_left h
  have space : ∀ n, ' ' ∉ dec n := fun n hn => absurd (dec_digits n _ hn) (by decide)
  have dash : ∀ n, '-' ∉ dec n := fun n hn => absurd (dec_digits n _ hn) (by decide)
  have e1 : " unreliable messages from ".toList = ' ' :: "unreliable messages from ".toList := rfl
  have e2 : " (Mach continuous exact start-approx. end)".toList =
      ' ' :: "(Mach continuous exact start-approx. end)".toList := rfl
  rw [e1, e2] at h
  simp only [List.cons_append] at h
  obtain ⟨hc, h⟩ := append_sep_inj _ _ _ _ _ (space c1) (space c2) h
  have h := List.append_cancel_left h
  obtain ⟨hs, h⟩ := append_sep_inj _ _ _ _ _ (dash s1) (dash s2) h
  obtain ⟨ht, _⟩ := append_sep_inj _ _ _ _ _ (space t1) (space t2) h
  exact ⟨dec_injective _ _ hs, dec_injective _ _ ht, dec_injective _ _ hc⟩

theorem mapM_entries (env : Env) (rs : List Record) (es : Record → LogEntry) (h : ∀ r ∈ rs, makeEntry env r = .ok (es r)) :
    rs.mapM (makeEntry env) = .ok (rs.map es) := by
  induction rs with
  | nil => rfl
  | cons r rs ih =>
    rw [List.mapM_cons, h r (by simp), ih (fun x hx => h x (by simp [hx]))]
    rfl

/-- **C127** (partial): the entries of a chunk are those of its trace points, in their order, if it has an activity, a log
or a signpost record. -/
theorem C127_chunk_partial (env : Env) (header private_ : Bytes) (rs : List StoredPoint) (es : Record → LogEntry) (fuel : Nat)
    (hc : env.chunk = firehoseBytes header private_ rs) (hl : header.length = 32)
    (hp : PublicSize (leNat (slice header 16 18)) (rs.flatMap (·.bytes)).length) (hok : ∀ r ∈ rs, r.Ok)
    (hu : ∀ r ∈ rs, r.recordType ≠ 0) (he : ∀ r ∈ rs, makeEntry env r.value = .ok (es r.value)) (hf : rs.length < fuel)
    (hsome : ∃ r ∈ rs, r.recordType ∈ [0x02, 0x04, 0x06]) :
    readEntries env fuel = some (.ok (rs.map (fun r => es r.value))) := by
  unfold readEntries
  rw [hc, C83_records_partial _ header private_ rs fuel hl hp hok (by
    intro r hr
    rw [he r hr]
    rfl) hf hsome]
  simp only
  rw [List.filter_eq_self.2 (by
    intro r hr
    obtain ⟨s, hs, rfl⟩ := List.mem_map.1 hr
    exact decide_eq_true (hu s hs))]
  rw [mapM_entries env _ es (by
    intro r hr
    obtain ⟨s, hs, rfl⟩ := List.mem_map.1 hr
    exact he s hs), List.map_map]
  rfl

/-! ## C128: strings that cannot be found -/

/-- **C128**: a trace point whose image is not found makes an entry nevertheless, which says so. -/
theorem C128_no_image (env : Env) (r : Record) (p : LogPoint) (values : Bytes) (e : LogEntry)
    (h1 : readPointData r = .ok (.log p, values))
    (hv : imageValues env r.flags p.place (formatReference p.place r.reference).1 (formatReference p.place r.reference).2 =
      .ok none) (h : makeEntry env r = .ok e) :
    e.message = "<compose failure [missing precomposed log]>".toList ∧ e.sender = none ∧ e.formatString = none := by
  unfold makeEntry at h
  rw [h1] at h
  simp only at h
  cases hp : processImage env.path env.process with
  | error err =>
    rw [hp] at h
    cases h
  | ok x =>
    rw [hp] at h
    simp only at h
    unfold otherEntry at h
    simp only [Point.place] at h
    rw [hv] at h
    simp only [Option.map_none] at h
    cases hf : framesAndValues env r (.log p) values none with
    | error err =>
      rw [hf] at h
      cases h
    | ok y =>
      rw [hf] at h
      simp only [special, entryMessage] at h
      cases h
      exact ⟨rfl, rfl, rfl⟩

/-- Values, messages and image values can be made, the process has its identifiers and its images are in the
catalog. -/
structure Env.Makes (env : Env) : Prop where
  decode : ∀ f i b, ∃ t, env.decode f i b = .ok t
  format : ∀ f vs, ∃ t, env.format f vs = .ok t
  strings : ∀ u t f p n d, ∃ v, env.strings u t f p n d = .ok v
  process : ∀ p, env.process = some p → p.main.isSome ∧ p.dsc.isSome ∧ ∀ i ∈ p.entry.images, i.index < env.uuids.length

/-- The claim of C128: a trace point of a process whose strings are not there is a parse error or makes an entry. -/
def C128_name_claim : Prop := ∀ (env : Env) (r : Record) (e : Err), env.Makes → env.process.isSome →
  r.recordType = 6 → r.data ≠ [] → r.flags.testBit 12 = false → makeEntry env r = .error e → e = .parseError

/-- The claim of C128: a trace point without a process is a parse error or makes an entry. -/
def C128_process_claim : Prop := ∀ (env : Env) (r : Record) (e : Err), env.Makes → env.process = none →
  r.recordType = 4 → r.data ≠ [] → r.flags.testBit 12 = false → makeEntry env r = .error e → e = .parseError

/-- An environment in which everything that can be made is. -/
def sampleEnv (process : Option ProcessInfo) : Env :=
  { process := process, uuids := [List.replicate 16 1], catalogStrings := [(3, "kernel".toList), (0, "com".toList)],
    strings := fun u t _ _ _ _ => .ok ⟨u, none, some "text".toList, t⟩, path := fun _ => some ['p'],
    decode := fun _ _ _ => .ok ['v'], format := fun s vs => .ok (s.getD [] ++ vs.flatten), time := fun t => t, oversize := [],
    upper := 17, lower := 4, base := 1000, virtual := 0, chunk := [] }

def sampleInfo : ProcessInfo := ⟨sampleProcess, some (List.replicate 16 1), some (List.replicate 16 2)⟩

theorem sampleEnv_makes : (sampleEnv (some sampleInfo)).Makes where
  decode := fun _ _ _ => ⟨_, rfl⟩
  format := fun _ _ => ⟨_, rfl⟩
  strings := fun _ _ _ _ _ _ => ⟨_, rfl⟩
  process := by
    intro p hp
    have : p = sampleInfo := (Option.some.inj hp).symm
    subst this
    decide

/-- **C128** is false of the code: a signpost whose image is not in the catalog and that has a name is an
`AttributeError`. -/
theorem C128_name_claim_false : ¬ C128_name_claim := by
  intro h
  have := h (sampleEnv (some sampleInfo)) ⟨6, 0x80, 0x8008, 0, 0, 0,
    leBytes 4 7 ++ leBytes 2 9 ++ leBytes 8 1 ++ leBytes 4 5 ++ [0, 0]⟩ .attributeError sampleEnv_makes rfl rfl
    (by decide) (by decide) (by decide +kernel)
  exact absurd this (by decide)

/-- **C128** is false of the code: a trace point of a chunk that has no catalog is an `AttributeError`. -/
theorem C128_process_claim_false : ¬ C128_process_claim := by
  intro h
  have := h (sampleEnv none) ⟨4, 0, 0x0002, 0, 0, 0, leBytes 4 7 ++ [0, 0]⟩ .attributeError
    ⟨fun _ _ _ => ⟨_, rfl⟩, fun _ _ => ⟨_, rfl⟩, fun _ _ _ _ _ _ => ⟨_, rfl⟩, by rintro p ⟨⟩⟩ rfl rfl
    (by decide) (by decide) (by decide +kernel)
  exact absurd this (by decide)

theorem absoluteImage_exists (uuids : List Bytes) (upper lower : Nat) (es : List UuidEntry)
    (h : ∀ e ∈ es, e.uuidIndex < uuids.length) : ∃ x, absoluteImage uuids upper lower es = .ok x := by
  induction es with
  | nil => exact ⟨_, rfl⟩
  | cons e es ih =>
    have ih := ih (fun x hx => h x (by simp [hx]))
    unfold absoluteImage
    split
    · exact ih
    · split
      · rw [List.getElem?_eq_getElem (h e (by simp))]
        exact ⟨_, rfl⟩
      · exact ih

theorem imageFile_error (env : Env) (h : env.Makes) (hp : env.process.isSome) (flags : Nat) (place : Place)
    (hfile : flags &&& 0x000E = 0x000A → place.file.isSome) (e : Err) (he : imageFile env flags place = .error e) :
    e = .parseError := by
  obtain ⟨p, hp⟩ := Option.isSome_iff_exists.1 hp
  obtain ⟨h1, h2, h3⟩ := h.process p hp
  obtain ⟨m, hm⟩ := Option.isSome_iff_exists.1 h1
  obtain ⟨d, hd⟩ := Option.isSome_iff_exists.1 h2
  obtain ⟨x, hx⟩ := absoluteImage_exists env.uuids (place.upper.getD 0) place.lower
    (p.entry.images.map (fun i => ⟨i.upper, i.lower, i.size, i.index⟩)) (by
      intro e he
      obtain ⟨i, hi, rfl⟩ := List.mem_map.1 he
      exact h3 i hi)
  unfold imageFile at he
  rw [hp] at he
  simp only [Option.bind_some, hm, hd, hx] at he
  unfold stringsFile at he
  simp only at he
  by_cases k1 : flags &&& 0x000E = 0x0002
  · rw [if_pos k1] at he
    cases he
  · rw [if_neg k1] at he
    by_cases k2 : flags &&& 0x000E = 0x0004 ∨ flags &&& 0x000E = 0x000C
    · rw [if_pos k2] at he
      cases he
    · rw [if_neg k2] at he
      by_cases k3 : flags &&& 0x000E = 0x0008
      · rw [if_pos k3] at he
        cases he
      · rw [if_neg k3] at he
        by_cases k4 : flags &&& 0x000E = 0x000A
        · rw [if_pos k4] at he
          obtain ⟨f, hf⟩ := Option.isSome_iff_exists.1 (hfile k4)
          rw [hf] at he
          cases he
        · rw [if_neg k4] at he
          cases he
          rfl

theorem imageValues_error (env : Env) (h : env.Makes) (hp : env.process.isSome) (flags : Nat) (place : Place)
    (reference : Nat) (dynamic : Bool) (hfile : flags &&& 0x000E = 0x000A → place.file.isSome) (e : Err)
    (he : imageValues env flags place reference dynamic = .error e) : e = .parseError := by
  unfold imageValues at he
  cases hx : imageFile env flags place with
  | error e' =>
    rw [hx] at he
    cases he
    exact imageFile_error env h hp flags place hfile _ hx
  | ok x =>
    rw [hx] at he
    cases x with
    | none => cases he
    | some x =>
      obtain ⟨i, t⟩ := x
      obtain ⟨v, hv⟩ := h.strings i t flags place reference dynamic
      simp only [hv] at he
      cases he

theorem readPlace_file (flags : Nat) (b rest : Bytes) (p : Place) (h : readPlace flags b = some (p, rest))
    (hf : flags &&& 0x000E = 0x000A) : p.file.isSome := by
  unfold readPlace at h
  simp only [Option.bind_eq_bind, Option.bind_eq_some_iff] at h
  obtain ⟨x1, _, x2, _, x3, _, x4, h4, x5, _, h⟩ := h
  cases h
  simp only
  unfold onlyIf at h4
  rw [if_pos (decide_eq_true hf)] at h4
  cases hr : raw 16 x3.2 with
  | none =>
    rw [hr] at h4
    cases h4
  | some y =>
    rw [hr] at h4
    cases h4
    rfl

theorem readPoint_parse {α : Type} {s flags : Nat} {parse : Bytes → Option (α × Bytes)} {b : Bytes} {x : α × Bytes}
    (h : readPoint s flags parse b = .ok x) : parse b = some x := by
  unfold readPoint at h
  split at h
  · cases h
  · split at h
    · cases h
    · cases hp : parse b with
      | none =>
        rw [hp] at h
        cases h
      | some y =>
        rw [hp] at h
        cases h
        rfl

theorem readPointData_file (r : Record) (point : Point) (values : Bytes) (hr : r.recordType ∈ [2, 4, 6])
    (h : readPointData r = .ok (point, values)) (hf : r.flags &&& 0x000E = 0x000A) : point.place.file.isSome := by
  unfold readPointData at h
  simp only [List.mem_cons, List.not_mem_nil, or_false] at hr
  rcases hr with hr | hr | hr
  all_goals
    rw [hr] at h
    simp only at h
  · cases hx : readActivity r.logType r.flags r.data with
    | error e =>
      rw [hx] at h
      cases h
    | ok x =>
      rw [hx] at h
      cases h
      have := readPoint_parse hx
      unfold parseActivity at this
      simp only [Option.bind_eq_bind, Option.bind_eq_some_iff] at this
      obtain ⟨x1, _, x2, _, x3, _, x4, _, x5, h5, hz⟩ := this
      cases hz
      exact readPlace_file _ _ _ _ h5 hf
  · cases hx : readLog r.flags r.data with
    | error e =>
      rw [hx] at h
      cases h
    | ok x =>
      rw [hx] at h
      cases h
      have := readPoint_parse hx
      unfold parseLog at this
      simp only [Option.bind_eq_bind, Option.bind_eq_some_iff] at this
      obtain ⟨x1, _, x2, _, x3, h3, x4, _, x5, _, x6, _, x7, _, x8, _, x9, _, hz⟩ := this
      cases hz
      exact readPlace_file _ _ _ _ h3 hf
  · cases hx : readSignpost r.flags r.data with
    | error e =>
      rw [hx] at h
      cases h
    | ok x =>
      rw [hx] at h
      cases h
      have := readPoint_parse hx
      unfold parseSignpost at this
      rw [Option.bind_eq_bind] at this
      obtain ⟨x1, h1, this⟩ := Option.bind_eq_some_iff.1 this
      obtain ⟨x2, h2, this⟩ := Option.bind_eq_some_iff.1 this
      obtain ⟨x3, h3, this⟩ := Option.bind_eq_some_iff.1 this
      obtain ⟨x4, h4, this⟩ := Option.bind_eq_some_iff.1 this
      obtain ⟨x5, h5, this⟩ := Option.bind_eq_some_iff.1 this
      obtain ⟨x6, h6, this⟩ := Option.bind_eq_some_iff.1 this
      obtain ⟨x7, h7, this⟩ := Option.bind_eq_some_iff.1 this
      obtain ⟨x8, h8, this⟩ := Option.bind_eq_some_iff.1 this
      obtain ⟨x9, h9, this⟩ := Option.bind_eq_some_iff.1 this
      obtain ⟨x10, h10, this⟩ := Option.bind_eq_some_iff.1 this
      obtain ⟨x11, h11, this⟩ := Option.bind_eq_some_iff.1 this
      obtain ⟨x12, h12, this⟩ := Option.bind_eq_some_iff.1 this
      cases this
      exact readPlace_file _ _ _ _ h3 hf

theorem readPointData_error (r : Record) (e : Err) (hr : r.recordType ∈ [2, 4, 6, 7]) (hd : r.data ≠ [])
    (h : readPointData r = .error e) : e = .parseError := by
  obtain ⟨h1, h2, h3, h4⟩ := C117_errors_partial r.logType r.flags r.data e hd
  unfold readPointData at h
  simp only [List.mem_cons, List.not_mem_nil, or_false] at hr
  rcases hr with hr | hr | hr | hr
  all_goals
    rw [hr] at h
    simp only at h
  · cases hx : readActivity r.logType r.flags r.data with
    | error e' =>
      rw [hx] at h
      cases h
      exact h1 hx
    | ok x =>
      rw [hx] at h
      cases h
  · cases hx : readLog r.flags r.data with
    | error e' =>
      rw [hx] at h
      cases h
      exact h2 hx
    | ok x =>
      rw [hx] at h
      cases h
  · cases hx : readSignpost r.flags r.data with
    | error e' =>
      rw [hx] at h
      cases h
      exact h3 hx
    | ok x =>
      rw [hx] at h
      cases h
  · cases hx : readLoss r.flags r.data with
    | error e' =>
      rw [hx] at h
      cases h
      exact h4 hx
    | ok x =>
      rw [hx] at h
      cases h

theorem entryMessage_exists (env : Env) (h : env.Makes) (v : Option ImageText) (vs : List (List Char)) :
    ∃ m, entryMessage env v vs = .ok m := by
  unfold entryMessage
  cases v with
  | none => exact ⟨_, rfl⟩
  | some v => exact h.format _ _

/-- **C128** (partial): a trace point of a process makes an entry or is a parse error, if its values can be read
(C118, C119) and its image is found if it is a signpost. -/
theorem C128_errors_partial (env : Env) (r : Record) (e : Err) (h : env.Makes) (hp : env.process.isSome)
    (hr : r.recordType ∈ [2, 4, 6, 7]) (hd : r.data ≠ [])
    (hvalues : ∀ point values, readPointData r = .ok (point, values) → ∀ f, ∃ x, framesAndValues env r point values f = .ok x)
    (himage : r.recordType = 6 → ∀ place, imageFile env r.flags place ≠ .ok none)
    (he : makeEntry env r = .error e) : e = .parseError := by
  unfold makeEntry at he
  cases hx : readPointData r with
  | error e' =>
    rw [hx] at he
    cases he
    exact readPointData_error r _ hr hd hx
  | ok x =>
    obtain ⟨point, values⟩ := x
    rw [hx] at he
    simp only at he
    have himg : ∃ y, processImage env.path env.process = .ok y := by
      obtain ⟨p, hp⟩ := Option.isSome_iff_exists.1 hp
      obtain ⟨m, hm⟩ := Option.isSome_iff_exists.1 (h.process p hp).1
      unfold processImage
      rw [hp]
      simp only [hm]
      split <;> exact ⟨_, rfl⟩
    obtain ⟨⟨image, path⟩, himg⟩ := himg
    rw [himg] at he
    simp only at he
    have hfile : (∀ a b c, point ≠ .loss a b c) → r.flags &&& 0x000E = 0x000A → point.place.file.isSome := by
      intro hn hf
      refine readPointData_file r point values ?_ hx hf
      simp only [List.mem_cons, List.not_mem_nil, or_false] at hr ⊢
      rcases hr with hr | hr | hr | hr
      · exact .inl hr
      · exact .inr (.inl hr)
      · exact .inr (.inr hr)
      · exfalso
        unfold readPointData at hx
        rw [hr] at hx
        simp only at hx
        cases hl : readLoss r.flags r.data with
        | error e' =>
          rw [hl] at hx
          cases hx
        | ok l =>
          rw [hl] at hx
          cases hx
          exact hn _ _ _ rfl
    have other : (∀ a b c, point ≠ .loss a b c) → otherEntry env r point values image path = .error e → e = .parseError := by
      intro hn ho
      unfold otherEntry at ho
      cases hi : imageValues env r.flags point.place (formatReference point.place r.reference).1
          (formatReference point.place r.reference).2 with
      | error e' =>
        rw [hi] at ho
        cases ho
        exact imageValues_error env h hp _ _ _ _ (hfile hn) _ hi
      | ok v =>
        rw [hi] at ho
        simp only at ho
        obtain ⟨⟨frames, texts⟩, hfr⟩ := hvalues point values hx (v.map (·.string))
        rw [hfr] at ho
        simp only at ho
        obtain ⟨m, hm⟩ := entryMessage_exists env h v texts
        split at ho
        · rename_i e' hs
          cases ho
          unfold special at hs
          cases point with
          | activity a => cases hs
          | trace a b => cases hs
          | log p => cases hs
          | loss a b c => cases hs
          | signpost p =>
            simp only at hs
            cases hname : signpostName env r p with
            | ok n =>
              rw [hname] at hs
              cases hs
            | error e' =>
              rw [hname] at hs
              cases hs
              unfold signpostName at hname
              simp only at hname
              split at hname
              · cases hname
              · have h6 : r.recordType = 6 := by
                  simp only [List.mem_cons, List.not_mem_nil, or_false] at hr
                  unfold readPointData at hx
                  rcases hr with hr | hr | hr | hr
                  all_goals
                    rw [hr] at hx
                    simp only at hx
                  · cases hq : readActivity r.logType r.flags r.data <;> rw [hq] at hx <;> cases hx
                  · cases hq : readLog r.flags r.data <;> rw [hq] at hx <;> cases hx
                  · exact hr
                  · cases hq : readLoss r.flags r.data <;> rw [hq] at hx <;> cases hx
                cases hq : imageValues env r.flags p.place (nameReference p.nameLower p.nameUpper).1
                    (nameReference p.nameLower p.nameUpper).2 with
                | error e' =>
                  rw [hq] at hname
                  cases hname
                  exact imageValues_error env h hp _ _ _ _ (hfile hn) _ hq
                | ok n =>
                  rw [hq] at hname
                  cases n with
                  | some n => cases hname
                  | none =>
                    exfalso
                    unfold imageValues at hq
                    cases hz : imageFile env r.flags p.place with
                    | error e' =>
                      rw [hz] at hq
                      cases hq
                    | ok z =>
                      rw [hz] at hq
                      cases z with
                      | none => exact himage h6 _ hz
                      | some z =>
                        obtain ⟨i, t⟩ := z
                        obtain ⟨w, hw⟩ := h.strings i t r.flags p.place (nameReference p.nameLower p.nameUpper).1
                          (nameReference p.nameLower p.nameUpper).2
                        simp only [hw] at hq
                        cases hq
        · rw [hm] at ho
          cases ho
    cases point with
    | loss a b c => cases he
    | activity a => exact other (by rintro a b c ⟨⟩) he
    | trace a b => exact other (by rintro a b c ⟨⟩) he
    | log p => exact other (by rintro a b c ⟨⟩) he
    | signpost p => exact other (by rintro a b c ⟨⟩) he

/-- **C128**: an activity of a process makes an entry or is a parse error, whatever it has in it. -/
theorem C128_activity (env : Env) (r : Record) (e : Err) (h : env.Makes) (hp : env.process.isSome)
    (hr : r.recordType = 2) (hd : r.data ≠ []) (he : makeEntry env r = .error e) : e = .parseError := by
  refine C128_errors_partial env r e h hp (by simp [hr]) hd ?_ (by intro h6; omega) he
  intro point values hx f
  unfold readPointData at hx
  rw [hr] at hx
  simp only at hx
  cases hq : readActivity r.logType r.flags r.data with
  | error e' =>
    rw [hq] at hx
    cases hx
  | ok x =>
    rw [hq] at hx
    cases hx
    have hf : Among [0, 1, 2, 3, 4, 5, 8, 9] r.flags := by
      by_cases hf : Among [0, 1, 2, 3, 4, 5, 8, 9] r.flags
      · exact hf
      · rw [(C117_flags r.logType r.flags r.data).1 hf] at hq
        cases hq
    have h12 : r.flags.testBit 12 = false := by
      cases h : r.flags.testBit 12 with
      | false => rfl
      | true =>
        have := hf 12 h
        revert this
        decide
    unfold framesAndValues
    simp only
    rw [itemsAndData_own _ _ _ _ rfl]
    simp only [Point.items]
    rw [C119_no_flag r.flags h12]
    exact ⟨_, rfl⟩

/-! ## Examples -/

/-- A log record of the main image with a number, and its entry. -/
example : makeEntry (sampleEnv (some sampleInfo)) ⟨4, 0x10, 0x0202, 0x77, 5, 23,
    leBytes 4 0x40 ++ leBytes 2 1 ++ [0, 1, 0, 2, 1, 0]⟩ = .ok
      { eventType := some "logEvent".toList, machTime := 1023, timestamp := 1023, thread := 5,
        traceIdentifier := traceIdentifier ⟨0x77, 0x0202, 0x10, 4⟩, processImage := some (List.replicate 16 1),
        processPath := some ['p'], pid := some 99, message := "textv".toList, messageType := some "Error".toList,
        formatString := some "text".toList, frames := [(List.replicate 16 1, 0x40)], category := some "kernel".toList,
        subSystem := some "com".toList, sender := some (List.replicate 16 1), counter := 0x40, activity := some 0 } := by
  decide +kernel

/-- A log record that refers to oversize data which is not there. -/
example : (makeEntry (sampleEnv (some sampleInfo)) ⟨4, 0x10, 0x0802, 0x77, 5, 23,
    leBytes 4 0x40 ++ [7] ++ [0, 0]⟩).toOption.map (·.message) = some "text".toList := by
  decide +kernel

/-- A signpost with a name. -/
example : (makeEntry (sampleEnv (some sampleInfo)) ⟨6, 0x81, 0x8002, 0x77, 5, 23,
    leBytes 4 0x40 ++ leBytes 8 6 ++ leBytes 4 9 ++ [0, 0]⟩).toOption.bind (·.signpost) =
      some (6, some "text".toList, some "process".toList, some "begin".toList) := by
  decide +kernel

end Dtf.Unified
