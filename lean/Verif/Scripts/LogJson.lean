import Verif.Scripts.Json
import Verif.Scripts.Heap

/-!
# Log entries as JSON (C150)

scripts/unified_logging.py writes log entries as JSON by putting lines together.  The model has these lines, the
specification is the reader of `Verif.Scripts.Json`.
-/

namespace Dtf.LogJson
open Text Json

/-! ## Model -/

/-- A frame: `str(image_identifier).upper()` and the offset. -/
structure Frame where
  image : List Char
  offset : Int

/-- What the script uses of a log entry.  Identifiers are the texts of `str(...).upper()`.  A loss has its count, the Mach
times of start and end and the timestamps of start and end. -/
structure Entry where
  activity : Option Nat := none
  frames : List Frame := []
  boot : List Char
  category : Option (List Char) := none
  creator : Option Nat := none
  message : Option (List Char) := none
  eventType : Option (List Char)
  formatString : Option (List Char) := none
  loss : Option (Nat × Nat × Nat × Int × Int) := none
  mach : Nat
  messageType : Option (List Char) := none
  parent : Option Nat := none
  process : Option Nat := none
  processImage : Option (List Char) := none
  processPath : Option (List Char) := none
  sender : Option (List Char) := none
  senderPath : Option (List Char) := none
  counter : Option Int := none
  signpost : Option Nat := none
  signpostName : Option (List Char) := none
  signpostScope : Option (List Char) := none
  signpostType : Option (List Char) := none
  subSystem : Option (List Char) := none
  thread : Option Nat := none
  time : Int
  trace : Nat

/-- What is not modelled: which characters are white space and the ISO 8601 text of a timestamp, with nanoseconds and a
time zone, by dfdatetime. -/
structure Env where
  space : Char → Bool
  iso : Int → List Char

/-- `escape_regex.sub(r"\\\1", s)` (scripts/unified_logging.py 244). -/
def escapeSpecial (s : List Char) : List Char := s.flatMap (fun c => if c ∈ ['\\', '/', '"'] then ['\\', c] else [c])

/-- `s.replace(c, t)` for a single character. -/
def replaceChar (c : Char) (t s : List Char) : List Char := s.flatMap (fun d => if d = c then t else [d])

/-- `s.rstrip()`. -/
def rstrip (space : Char → Bool) (s : List Char) : List Char := (s.reverse.dropWhile space).reverse

/-- A message that is too long is cut (scripts/unified_logging.py 275-278). -/
def cutMessage (env : Env) (m : Option (List Char)) : List Char :=
  let m := rstrip env.space (m.getD [])
  if 1085 ≤ m.length then m.take 1087 ++ "<…>".toList else m

/-- The escapes of messages and format strings (scripts/unified_logging.py 280-282, 292-294). -/
def escapeText (s : List Char) : List Char :=
  replaceChar '\t' ['\\', 't'] (replaceChar '\n' ['\\', 'n'] (escapeSpecial s))

/-- The escapes of the path of the sender (scripts/unified_logging.py 312-313). -/
def escapeSender (s : List Char) : List Char := replaceChar '/' ['\\', '/'] (replaceChar '"' ['\\', '"'] s)

/-- `GetDateTimeString` (scripts/unified_logging.py 62-85); a timestamp is never missing. -/
def dateText (env : Env) (t : Int) : List Char :=
  let s := env.iso t
  s.take 10 ++ [' '] ++ Py.slice s 11 26 ++ Py.slice s 29 32 ++ Py.slice s 33 35

/-- `f'  "{name}" : {value},'`. -/
def line (name value : List Char) : List Char := "  \"".toList ++ (name ++ ("\" : ".toList ++ (value ++ [','])))

/-- The same without the comma. -/
def lastLine (name value : List Char) : List Char := "  \"".toList ++ (name ++ ("\" : ".toList ++ value))

def quoted (s : List Char) : List Char := '"' :: (s ++ ['"'])

/-- The lines of frames (scripts/unified_logging.py 403-424). -/
def frameLines : List Frame → List (List Char)
  | [] => []
  | [f] => ["        \"imageOffset\" : ".toList ++ (intText f.offset ++ [',']),
      "        \"imageUUID\" : ".toList ++ quoted f.image]
  | f :: fs => ["        \"imageOffset\" : ".toList ++ (intText f.offset ++ [',']),
      "        \"imageUUID\" : ".toList ++ quoted f.image] ++ ("      },".toList :: "      {".toList :: frameLines fs)

/-- The lines of a backtrace, put together (scripts/unified_logging.py 399-426). -/
def backtrace (fs : List Frame) : List Char :=
  join ['\n'] (["  \"backtrace\" : {".toList, "    \"frames\" : [".toList, "      {".toList] ++ frameLines fs ++
    ["      }".toList, "    ]".toList, "  },".toList])

def activityBits : Nat := 2 ^ 63

/-- The event types that have their message near the end (scripts/unified_logging.py 344-349, 467-472). -/
def lateTypes : List (List Char) :=
  ["activityCreateEvent".toList, "lossEvent".toList, "signpostEvent".toList, "userActionEvent".toList]

/-- The event types without a source (scripts/unified_logging.py 373-377). -/
def sourceless : List (List Char) := ["activityCreateEvent".toList, "lossEvent".toList, "userActionEvent".toList]

/-- The format string of an entry (scripts/unified_logging.py 286-294). -/
def formatText (e : Entry) : List Char :=
  if e.eventType.getD [] ∈ ["activityCreateEvent".toList, "userActionEvent".toList] then []
  else e.formatString.getD []

/-- The lines of a time synchronisation (scripts/unified_logging.py 316-338). -/
def timesyncLines (env : Env) (e : Entry) : List (List Char) :=
  [line "bootUUID".toList (quoted e.boot),
    line "category".toList (quoted (e.category.getD [])),
    line "processImageUUID".toList (quoted (e.processImage.getD [])),
    line "eventType".toList (quoted (e.eventType.getD [])),
    line "threadID".toList (intText (e.thread.getD 0)),
    line "timestamp".toList (quoted (dateText env e.time)),
    line "activityIdentifier".toList (intText (e.activity.getD 0)),
    line "senderProgramCounter".toList (intText (e.counter.getD 0)),
    line "parentActivityIdentifier".toList "0".toList,
    line "machTimestamp".toList (intText e.mach),
    line "processID".toList (intText (e.process.getD 0)),
    line "subsystem".toList (quoted (e.subSystem.getD [])),
    line "timezoneName".toList (quoted []),
    line "traceID".toList (intText e.trace),
    line "eventMessage".toList (quoted (escapeText (cutMessage env e.message))),
    line "formatString".toList (quoted (escapeText (formatText e))),
    line "processImagePath".toList (quoted (escapeSpecial (e.processPath.getD []))),
    line "senderImageUUID".toList (quoted (e.sender.getD [])),
    lastLine "senderImagePath".toList (quoted (escapeSender (e.senderPath.getD [])))]

/-- The parent that is shown (scripts/unified_logging.py 478-492), with the parents that are known so far. -/
def parentShown (parents : List (Nat × Nat)) (e : Entry) : Nat :=
  let p := if e.parent.getD 0 ≠ 0 then e.parent.getD 0 else (parents.lookup (e.activity.getD 0)).getD 0
  if some p = e.creator then 0 else p

/-- `parent_per_activity_identifier` after an entry (scripts/unified_logging.py 433-437). -/
def nextParents (parents : List (Nat × Nat)) (e : Entry) : List (Nat × Nat) :=
  if e.eventType.getD [] = "timesyncEvent".toList then parents
  else match e.creator with
    | some c => (e.activity.getD 0, c % activityBits) :: parents
    | none => parents

/-- The lines of another entry (scripts/unified_logging.py 340-510). -/
def otherLines (env : Env) (parents : List (Nat × Nat)) (e : Entry) : List (List Char) :=
  let type := e.eventType.getD []
  let message := line "eventMessage".toList (quoted (escapeText (cutMessage env e.message)))
  [line "traceID".toList (intText e.trace)] ++
  (if type ∉ lateTypes then [message] else []) ++
  [line "eventType".toList (quoted type)] ++
  (match e.loss with
    | some l => [line "lossCount".toList (intText l.1), line "lossCountSaturated".toList "true".toList]
    | none => []) ++
  (match e.signpost with
    | some i => [line "signpostID".toList (intText i), line "signpostScope".toList (quoted (e.signpostScope.getD []))]
    | none => []) ++
  (if type ∉ sourceless then [line "source".toList "null".toList] else []) ++
  [line "formatString".toList (quoted (escapeText (formatText e)))] ++
  (match e.loss with
    | some l => [line "lossEndMachContinuousTimestamp".toList (intText l.2.2.1)]
    | none => []) ++
  [line "activityIdentifier".toList (intText (e.activity.getD 0)),
    line "subsystem".toList (quoted (e.subSystem.getD [])),
    line "category".toList (quoted (e.category.getD [])),
    line "threadID".toList (intText (e.thread.getD 0)),
    line "senderImageUUID".toList (quoted (e.sender.getD []))] ++
  (match e.signpost with
    | some _ => [line "signpostType".toList (quoted (e.signpostType.getD []))]
    | none => []) ++
  (if e.frames ≠ [] then [backtrace e.frames] else []) ++
  [line "bootUUID".toList (quoted e.boot),
    line "processImagePath".toList (quoted (escapeSpecial (e.processPath.getD []))),
    line "timestamp".toList (quoted (dateText env e.time)),
    line "senderImagePath".toList (quoted (escapeSender (e.senderPath.getD [])))] ++
  (match e.creator with
    | some c => [line "creatorActivityID".toList (intText c)]
    | none =>
      match e.loss with
      | some l => [line "lossStartMachContinuousTimestamp".toList (intText l.2.1),
          line "lossEndTimestamp".toList (quoted (dateText env l.2.2.2.2)),
          line "lossStartTimestamp".toList (quoted (dateText env l.2.2.2.1))]
      | none =>
        match e.signpost with
        | some _ => [line "signpostName".toList (quoted (e.signpostName.getD []))]
        | none => []) ++
  [line "machTimestamp".toList (intText e.mach)] ++
  (if type ∈ lateTypes then [message] else [line "messageType".toList (quoted (e.messageType.getD []))]) ++
  [line "processImageUUID".toList (quoted (e.processImage.getD [])),
    line "processID".toList (intText (e.process.getD 0)),
    line "senderProgramCounter".toList (intText (e.counter.getD 0)),
    line "parentActivityIdentifier".toList (intText (parentShown (nextParents parents e) e)),
    lastLine "timezoneName".toList (quoted [])]

/-- The lines of an entry (scripts/unified_logging.py 316-512). -/
def entryLines (env : Env) (parents : List (Nat × Nat)) (e : Entry) : List (List Char) :=
  if e.eventType.getD [] = "timesyncEvent".toList then timesyncLines env e else otherLines env parents e

/-- The loop over entries (scripts/unified_logging.py 255-512): what it prints, with `first` for index 0. -/
def entriesText (env : Env) : Bool → List (Nat × Nat) → List Entry → List Char
  | _, _, [] => []
  | first, parents, e :: es =>
    (if first then [] else "},{\n".toList) ++ (join ['\n'] (entryLines env parents e) ++ ('\n' ::
      entriesText env false (nextParents parents e) es))

/-- What is printed for the entries in the order they are shown (scripts/unified_logging.py 246-533). -/
def document (env : Env) (es : List Entry) : List Char := "[{\n".toList ++ (entriesText env true [] es ++ "}]".toList)

def heading : List Char := "Apple Unified Logging and Activity Tracing information:\n".toList

/-- The standard output of the script for a trace file: the heading is written before the format is looked at
(scripts/unified_logging.py 193). -/
def standardOutput (env : Env) (es : List Entry) : List Char := heading ++ document env es

/-! ## Specification -/

/-- The object of a frame. -/
def frameValue (f : Frame) : J := .obj [("imageOffset".toList, .num f.offset), ("imageUUID".toList, .str f.image)]

/-- A text that may be missing. -/
def text (s : Option (List Char)) : J := .str (s.getD [])

/-- A number that may be missing. -/
def number (n : Option Nat) : J := .num ((n.getD 0 : Nat) : Int)

/-- What the object of an entry has: each attribute under its name, as it is. -/
def members (env : Env) (parents : List (Nat × Nat)) (e : Entry) : List (List Char × J) :=
  let type := e.eventType.getD []
  if type = "timesyncEvent".toList then
    [("bootUUID".toList, .str e.boot), ("category".toList, text e.category), ("processImageUUID".toList, text e.processImage),
      ("eventType".toList, .str type), ("threadID".toList, number e.thread), ("timestamp".toList, .str (dateText env e.time)),
      ("activityIdentifier".toList, number e.activity), ("senderProgramCounter".toList, .num (e.counter.getD 0)),
      ("parentActivityIdentifier".toList, .num 0), ("machTimestamp".toList, .num e.mach), ("processID".toList, number e.process),
      ("subsystem".toList, text e.subSystem), ("timezoneName".toList, .str []), ("traceID".toList, .num e.trace),
      ("eventMessage".toList, .str (cutMessage env e.message)), ("formatString".toList, .str (formatText e)),
      ("processImagePath".toList, text e.processPath), ("senderImageUUID".toList, text e.sender),
      ("senderImagePath".toList, text e.senderPath)]
  else
    [("traceID".toList, .num e.trace)] ++
    (if type ∉ lateTypes then [("eventMessage".toList, .str (cutMessage env e.message))] else []) ++
    [("eventType".toList, .str type)] ++
    (match e.loss with
      | some l => [("lossCount".toList, .num l.1), ("lossCountSaturated".toList, .bool true)]
      | none => []) ++
    (match e.signpost with
      | some i => [("signpostID".toList, .num i), ("signpostScope".toList, text e.signpostScope)]
      | none => []) ++
    (if type ∉ sourceless then [("source".toList, .null)] else []) ++
    [("formatString".toList, .str (formatText e))] ++
    (match e.loss with
      | some l => [("lossEndMachContinuousTimestamp".toList, .num l.2.2.1)]
      | none => []) ++
    [("activityIdentifier".toList, number e.activity), ("subsystem".toList, text e.subSystem),
      ("category".toList, text e.category), ("threadID".toList, number e.thread), ("senderImageUUID".toList, text e.sender)] ++
    (match e.signpost with
      | some _ => [("signpostType".toList, text e.signpostType)]
      | none => []) ++
    (if e.frames ≠ [] then [("backtrace".toList, .obj [("frames".toList, .arr (e.frames.map frameValue))])] else []) ++
    [("bootUUID".toList, .str e.boot), ("processImagePath".toList, text e.processPath),
      ("timestamp".toList, .str (dateText env e.time)), ("senderImagePath".toList, text e.senderPath)] ++
    (match e.creator with
      | some c => [("creatorActivityID".toList, .num c)]
      | none =>
        match e.loss with
        | some l => [("lossStartMachContinuousTimestamp".toList, .num l.2.1),
            ("lossEndTimestamp".toList, .str (dateText env l.2.2.2.2)),
            ("lossStartTimestamp".toList, .str (dateText env l.2.2.2.1))]
        | none =>
          match e.signpost with
          | some _ => [("signpostName".toList, text e.signpostName)]
          | none => []) ++
    [("machTimestamp".toList, .num e.mach)] ++
    (if type ∈ lateTypes then [("eventMessage".toList, .str (cutMessage env e.message))]
      else [("messageType".toList, text e.messageType)]) ++
    [("processImageUUID".toList, text e.processImage), ("processID".toList, number e.process),
      ("senderProgramCounter".toList, .num (e.counter.getD 0)),
      ("parentActivityIdentifier".toList, .num (parentShown (nextParents parents e) e)), ("timezoneName".toList, .str [])]

/-- The objects of entries: the parents that are known grow with each entry. -/
def objects (env : Env) : List (Nat × Nat) → List Entry → List J
  | _, [] => []
  | parents, e :: es => .obj (members env parents e) :: objects env (nextParents parents e) es

/-- A character that needs no escape. -/
def Plain (s : List Char) : Prop := ∀ c ∈ s, c ≠ '"' ∧ c ≠ '\\' ∧ 32 ≤ c.toNat

/-- The texts of an entry that can be written. -/
structure Entry.Clean (env : Env) (e : Entry) : Prop where
  message : ∀ c ∈ e.message.getD [], 32 ≤ c.toNat ∨ c = '\n' ∨ c = '\t'
  format : ∀ c ∈ e.formatString.getD [], 32 ≤ c.toNat ∨ c = '\n' ∨ c = '\t'
  process : ∀ c ∈ e.processPath.getD [], 32 ≤ c.toNat
  sender : ∀ c ∈ e.senderPath.getD [], 32 ≤ c.toNat ∧ c ≠ '\\'
  boot : Plain e.boot
  category : Plain (e.category.getD [])
  subSystem : Plain (e.subSystem.getD [])
  type : Plain (e.eventType.getD [])
  messageType : Plain (e.messageType.getD [])
  name : Plain (e.signpostName.getD [])
  scope : Plain (e.signpostScope.getD [])
  kind : Plain (e.signpostType.getD [])
  processImage : Plain (e.processImage.getD [])
  senderImage : Plain (e.sender.getD [])
  frames : ∀ f ∈ e.frames, Plain f.image
  times : ∀ t, Plain (env.iso t)

/-- The claim of C150: the output is JSON with an object for each entry. -/
def C150_document_claim : Prop := ∀ (env : Env) (es : List Entry), parse (document env es) = some (.arr (objects env [] es))

/-! ## Proofs: texts -/

theorem quoted_flatMap (f : Char → List Char) (s : List Char)
    (h : ∀ c ∈ s, ∀ rest, readString (f c ++ rest) = (readString rest).map (fun x => (c :: x.1, x.2))) :
    Quoted s (s.flatMap f) := by
  induction s with
  | nil => exact quoted_nil
  | cons c s ih =>
    rw [List.flatMap_cons]
    exact quoted_append [c] s (f c) _ (h c (by simp)) (ih (fun c hc => h c (by simp [hc])))

theorem quoted_plain (s : List Char) (h : Plain s) : Quoted s s := by
  have := quoted_flatMap (fun c => [c]) s (fun c hc rest => readString_plain c rest (h c hc).1 (h c hc).2.1 (h c hc).2.2)
  simpa using this

theorem flatMap_twice (f g : Char → List Char) (s : List Char) : (s.flatMap f).flatMap g = s.flatMap (fun c => (f c).flatMap g) := by
  rw [List.flatMap_assoc]

theorem quoted_special (s : List Char) (h : ∀ c ∈ s, 32 ≤ c.toNat) : Quoted s (escapeSpecial s) := by
  refine quoted_flatMap _ s (fun c hc rest => ?_)
  split
  · rename_i hm
    simp only [List.mem_cons, List.not_mem_nil, or_false] at hm
    rcases hm with rfl | rfl | rfl
    all_goals exact readString_escape _ _ _ rfl
  · rename_i hm
    simp only [List.mem_cons, List.not_mem_nil, or_false, not_or] at hm
    exact readString_plain c rest hm.2.2 hm.1 (h c hc)

theorem quoted_text (s : List Char) (h : ∀ c ∈ s, 32 ≤ c.toNat ∨ c = '\n' ∨ c = '\t') : Quoted s (escapeText s) := by
  rw [escapeText, replaceChar, replaceChar, escapeSpecial, flatMap_twice, flatMap_twice]
  refine quoted_flatMap _ s (fun c hc rest => ?_)
  by_cases hm : c ∈ ['\\', '/', '"']
  · simp only [List.mem_cons, List.not_mem_nil, or_false] at hm
    rcases hm with rfl | rfl | rfl
    all_goals exact readString_escape _ _ _ rfl
  · rw [if_neg hm]
    simp only [List.mem_cons, List.not_mem_nil, or_false, not_or] at hm
    by_cases hn : c = '\n'
    · subst hn
      exact readString_escape _ _ _ rfl
    · by_cases ht : c = '\t'
      · subst ht
        exact readString_escape _ _ _ rfl
      · have h32 : 32 ≤ c.toNat := by
          rcases h c hc with h | h | h
          · exact h
          · exact absurd h hn
          · exact absurd h ht
        simp only [List.flatMap_cons, List.flatMap_nil, List.append_nil, if_neg hn, if_neg ht]
        exact readString_plain c rest hm.2.2 hm.1 h32

theorem quoted_sender (s : List Char) (h : ∀ c ∈ s, 32 ≤ c.toNat ∧ c ≠ '\\') : Quoted s (escapeSender s) := by
  rw [escapeSender, replaceChar, replaceChar, flatMap_twice]
  refine quoted_flatMap _ s (fun c hc rest => ?_)
  by_cases hq : c = '"'
  · subst hq
    exact readString_escape _ _ _ rfl
  · by_cases hs : c = '/'
    · subst hs
      exact readString_escape _ _ _ rfl
    · simp only [if_neg hq, List.flatMap_cons, List.flatMap_nil, List.append_nil, if_neg hs]
      exact readString_plain c rest hq (h c hc).2 (h c hc).1

theorem mem_rstrip (space : Char → Bool) (s : List Char) (c : Char) (h : c ∈ rstrip space s) : c ∈ s := by
  rw [rstrip, List.mem_reverse] at h
  exact List.mem_reverse.mp ((List.dropWhile_sublist space).subset h)

theorem cut_clean (env : Env) (m : Option (List Char)) (h : ∀ c ∈ m.getD [], 32 ≤ c.toNat ∨ c = '\n' ∨ c = '\t') :
    ∀ c ∈ cutMessage env m, 32 ≤ c.toNat ∨ c = '\n' ∨ c = '\t' := by
  intro c hc
  rw [cutMessage] at hc
  split at hc
  · rw [List.mem_append] at hc
    rcases hc with hc | hc
    · exact h c (mem_rstrip _ _ _ (List.mem_of_mem_take hc))
    · refine .inl ?_
      have : ∀ c ∈ "<…>".toList, 32 ≤ c.toNat := by decide
      exact this c hc
  · exact h c (mem_rstrip _ _ _ hc)

theorem plain_date (env : Env) (t : Int) (h : Plain (env.iso t)) : Plain (dateText env t) := by
  intro c hc
  rw [dateText] at hc
  simp only [List.mem_append, Py.slice, List.mem_cons, List.not_mem_nil, or_false] at hc
  rcases hc with (((hc | rfl) | hc) | hc) | hc
  · exact h c (List.mem_of_mem_take hc)
  · decide
  all_goals exact h c (List.mem_of_mem_take (List.mem_of_mem_drop hc))

/-! ## Proofs: lines -/

theorem reads_quoted (s t : List Char) (h : Quoted s t) : Reads (.str s) (quoted t) := reads_str s t h

/-- A line of a member, with its comma. -/
def LineText (m : List Char × J) (l : List Char) : Prop := ∃ p, l = p ++ [','] ∧ MemberText m p

theorem plain_name (s : List Char) (h : (s.all (fun c => decide (c ≠ '"' ∧ c ≠ '\\' ∧ 32 ≤ c.toNat))) = true) : Quoted s s :=
  quoted_plain s (fun c hc => by simpa using List.all_eq_true.mp h c hc)

theorem lastLine_member (name value : List Char) (j : J)
    (hn : (name.all (fun c => decide (c ≠ '"' ∧ c ≠ '\\' ∧ 32 ≤ c.toNat))) = true) (h : Reads j value) :
    MemberText (name, j) (lastLine name value) :=
  ⟨[' ', ' '], name, [' '], [' '], value, by decide, plain_name name hn, by decide, by decide, h, rfl⟩

theorem line_member (name value : List Char) (j : J)
    (hn : (name.all (fun c => decide (c ≠ '"' ∧ c ≠ '\\' ∧ 32 ≤ c.toNat))) = true) (h : Reads j value) :
    LineText (name, j) (line name value) := by
  refine ⟨lastLine name value, ?_, lastLine_member name value j hn h⟩
  simp [line, lastLine]

theorem memberText_ws (m : List Char × J) (p : List Char) (h : MemberText m p) : MemberText m ('\n' :: p) := by
  obtain ⟨w, name, space, gap, t, hw, hq, hs, hg, hr, rfl⟩ := h
  refine ⟨'\n' :: w, name, space, gap, t, ?_, hq, hs, hg, hr, rfl⟩
  intro c hc
  rcases List.mem_cons.mp hc with rfl | hc
  · rfl
  · exact hw c hc

theorem join_cons_ne (sep x : List Char) (l : List (List Char)) (h : l ≠ []) : join sep (x :: l) = x ++ sep ++ join sep l := by
  cases l with
  | nil => exact absurd rfl h
  | cons y l => rfl

/-- Lines put together are members with commas between them. -/
theorem lines_commas (ms : List (List Char × J)) (ls : List (List Char)) (m : List Char × J) (last : List Char)
    (h : List.Forall₂ LineText ms ls) (hl : MemberText m last) :
    ∃ ps, List.Forall₂ MemberText (ms ++ [m]) ps ∧ join ['\n'] (ls ++ [last]) = commas ps := by
  suffices key : ∀ lead : List Char, (∀ c ∈ lead, isWs c = true) → ∃ ps, List.Forall₂ MemberText (ms ++ [m]) ps ∧
      lead ++ join ['\n'] (ls ++ [last]) = commas ps by
    simpa using key [] (by simp)
  have lead_member : ∀ (lead : List Char) (m : List Char × J) (p : List Char), (∀ c ∈ lead, isWs c = true) →
      MemberText m p → MemberText m (lead ++ p) := by
    rintro lead m p hlead ⟨w, name, space, gap, t, hw, hq, hs, hg, hr, rfl⟩
    refine ⟨lead ++ w, name, space, gap, t, ?_, hq, hs, hg, hr, by simp⟩
    intro c hc
    rcases List.mem_append.mp hc with hc | hc
    · exact hlead c hc
    · exact hw c hc
  induction h with
  | nil => exact fun lead hlead => ⟨[lead ++ last], .cons (lead_member lead m last hlead hl) .nil, rfl⟩
  | @cons m' l ms ls hm hs ih =>
    intro lead hlead
    obtain ⟨ps, hps, he⟩ := ih ['\n'] (by decide)
    obtain ⟨p, rfl, hp⟩ := hm
    refine ⟨(lead ++ p) :: ps, .cons (lead_member lead m' p hlead hp) hps, ?_⟩
    rw [commas_cons _ _ (by
      rintro rfl
      cases ms <;> cases hps), ← he, List.cons_append, join_cons_ne _ _ _ (by simp)]
    simp

theorem rel_if {α β : Type} (R : α → β → Prop) (c : Prop) [Decidable c] (a : List α) (b : List β)
    (h : c → List.Forall₂ R a b) : List.Forall₂ R (if c then a else []) (if c then b else []) := by
  split
  · rename_i hc
    exact h hc
  · exact .nil

/-! ## Proofs: frames -/

theorem member_of (p w name : List Char) (value : List Char) (j : J)
    (he : p = w ++ ('"' :: (name ++ ['"', ' ', ':', ' ']))) (hw : (w.all isWs) = true)
    (hn : (name.all (fun c => decide (c ≠ '"' ∧ c ≠ '\\' ∧ 32 ≤ c.toNat))) = true) (h : Reads j value) :
    MemberText (name, j) (p ++ value) := by
  refine ⟨w, name, [' '], [' '], value, fun c hc => List.all_eq_true.mp hw c hc, plain_name name hn, by decide, by decide, h, ?_⟩
  rw [he]
  simp

theorem glue_frame (w a b c o n q t u : List Char) (ha : a = ['{', '\n']) (hb : b = t ++ ['}']) (hc : c = ',' :: u) :
    w ++ (a ++ ((o ++ (n ++ (c ++ q))) ++ b)) = w ++ ('{' :: (['\n'] ++ (commas [o ++ n, u ++ q] ++ (t ++ ['}'])))) := by
  subst ha hb hc
  simp [commas]

theorem glue_last (lead a b c d e f n o q : List Char) (ha : a = b ++ c) (hd : d = [','] ++ (['\n'] ++ e)) :
    lead ++ (a ++ (join ['\n'] [o ++ (n ++ [',']), e ++ q] ++ f)) = lead ++ b ++ (c ++ ((o ++ (n ++ (d ++ q))) ++ f)) := by
  subst ha hd
  simp [join]

theorem glue_next (lead a b c d e f g i k n o q tail : List Char) (ha : a = b ++ c) (hd : d = [','] ++ (['\n'] ++ e))
    (hg : g = k ++ [',']) (hf : f = ['\n'] ++ k) (hi : a = i ++ ['\n']) :
    lead ++ (a ++ ((join ['\n'] [o ++ (n ++ [',']), e ++ q, g, i] ++ ['\n'] ++ tail) ++ f)) =
      lead ++ b ++ (c ++ ((o ++ (n ++ (d ++ q))) ++ f)) ++ (',' :: (['\n'] ++ (a ++ (tail ++ f)))) := by
  have h : b ++ c = i ++ ['\n'] := by rw [← ha, hi]
  subst ha hd hg hf
  have h2 : ∀ x : List Char, b ++ (c ++ x) = i ++ ('\n' :: x) := by
    intro x
    rw [← List.append_assoc, h]
    simp
  simp [join, h2]

theorem glue_back (a b c d e f g i k m n o tail : List Char) (ha : a = k ++ ['{']) (hb : b = m ++ ['['])
    (hc : g = c ++ ['\n']) (hd : i = ['\n'] ++ d) (he : ['\n'] ++ e = n ++ [']']) (hf : f = "  }".toList ++ [','])
    (ho : o ++ ['}'] = ['\n'] ++ "  }".toList) :
    join ['\n'] [a, b, c] ++ ['\n'] ++ tail ++ ['\n'] ++ join ['\n'] [d, e, f] =
      k ++ ('{' :: (['\n'] ++ ((m ++ ('[' :: ([] ++ (['\n'] ++ (g ++ (tail ++ i)) ++ (n ++ [']']))))) ++ (o ++ ['}'])))) ++ [','] := by
  rw [ho, ← he]
  subst ha hb hc hd hf
  generalize "  }".toList = z
  simp [join]

theorem frame_element (f : Frame) (h : Plain f.image) (w : List Char) (hw : ∀ c ∈ w, isWs c = true) :
    ElementText (frameValue f) (w ++ ("{\n".toList ++
      (("        \"imageOffset\" : ".toList ++ (intText f.offset ++ (",\n        \"imageUUID\" : ".toList ++ quoted f.image))) ++
        "\n      }".toList))) := by
  have h1 : MemberText ("imageOffset".toList, .num f.offset) ("        \"imageOffset\" : ".toList ++ intText f.offset) :=
    member_of _ (List.replicate 8 ' ') "imageOffset".toList _ _ (by decide +kernel) (by decide) (by decide) (reads_num _)
  have h2 : MemberText ("imageUUID".toList, .str f.image) ("\n        \"imageUUID\" : ".toList ++ quoted f.image) :=
    member_of _ ('\n' :: List.replicate 8 ' ') "imageUUID".toList _ _ (by decide +kernel) (by decide) (by decide)
      (reads_quoted _ _ (quoted_plain _ h))
  have := reads_obj _ _ (.cons h1 (.cons h2 .nil)) (by simp) ['\n'] "\n      ".toList (by decide) (by decide)
  rw [show frameValue f = .obj [("imageOffset".toList, .num f.offset), ("imageUUID".toList, .str f.image)] from rfl]
  rw [ElementText]
  refine ⟨w, _, '{', _, hw, this, rfl, by decide, by decide, ?_⟩
  exact glue_frame _ _ _ _ _ _ _ _ _ (by decide +kernel) (by decide +kernel) (by decide +kernel)

theorem join_append (sep : List Char) (a b : List (List Char)) (ha : a ≠ []) (hb : b ≠ []) :
    join sep (a ++ b) = join sep a ++ sep ++ join sep b := by
  induction a with
  | nil => exact absurd rfl ha
  | cons x a ih =>
    by_cases h : a = []
    · subst h
      exact join_cons_ne sep x b hb
    · rw [List.cons_append, join_cons_ne sep x (a ++ b) (by simp [h]), ih h, join_cons_ne sep x a h]
      simp

theorem frames_elements (f : Frame) (fs : List Frame) (h : ∀ g ∈ f :: fs, Plain g.image) (lead : List Char)
    (hl : ∀ c ∈ lead, isWs c = true) :
    ∃ ps, List.Forall₂ ElementText ((f :: fs).map frameValue) ps ∧
      lead ++ ("      {\n".toList ++ (join ['\n'] (frameLines (f :: fs)) ++ "\n      }".toList)) = commas ps := by
  have hws : ∀ w : List Char, (∀ c ∈ w, isWs c = true) → ∀ c ∈ w ++ "      ".toList, isWs c = true := by
    intro w hw c hc
    rcases List.mem_append.mp hc with hc | hc
    · exact hw c hc
    · have : ∀ c ∈ "      ".toList, isWs c = true := by decide
      exact this c hc
  induction fs generalizing f lead with
  | nil =>
    refine ⟨[_], .cons (frame_element f (h f (by simp)) (lead ++ "      ".toList) (hws lead hl)) .nil, ?_⟩
    rewrite [show ∀ p, commas [p] = p from fun p => rfl, show frameLines [f] = ["        \"imageOffset\" : ".toList ++ (intText f.offset ++ [',']),
      "        \"imageUUID\" : ".toList ++ quoted f.image] from rfl]
    exact glue_last _ _ _ _ _ _ _ _ _ _ (by decide +kernel) (by decide +kernel)
  | cons g fs ih =>
    obtain ⟨ps, hps, he⟩ := ih g (fun x hx => h x (by simp [hx])) ['\n'] (by decide)
    refine ⟨_, .cons (frame_element f (h f (by simp)) (lead ++ "      ".toList) (hws lead hl)) hps, ?_⟩
    rw [commas_cons _ _ (by
      rintro rfl
      cases hps), ← he]
    rw [show frameLines (f :: g :: fs) = ["        \"imageOffset\" : ".toList ++ (intText f.offset ++ [',']),
      "        \"imageUUID\" : ".toList ++ quoted f.image, "      },".toList, "      {".toList] ++ frameLines (g :: fs) from rfl,
      join_append _ _ _ (by simp) (by cases fs <;> simp [frameLines])]
    exact glue_next _ _ _ _ _ _ _ _ _ "      }".toList _ _ _ _ (by decide +kernel) (by decide +kernel) (by decide +kernel)
      (by decide +kernel) (by decide +kernel)

theorem backtrace_line (fs : List Frame) (hne : fs ≠ []) (h : ∀ f ∈ fs, Plain f.image) :
    LineText ("backtrace".toList, .obj [("frames".toList, .arr (fs.map frameValue))]) (backtrace fs) := by
  obtain ⟨f, fs, rfl⟩ : ∃ f fs', fs = f :: fs' := by
    cases fs with
    | nil => exact absurd rfl hne
    | cons f fs => exact ⟨f, fs, rfl⟩
  obtain ⟨ps, hps, he⟩ := frames_elements f fs h ['\n'] (by decide)
  have harr := reads_arr _ _ hps (by simp) [] "\n    ".toList (by simp) (by decide)
  have hm : MemberText ("frames".toList, .arr ((f :: fs).map frameValue))
      ("    \"frames\" : ".toList ++ ('[' :: ([] ++ (commas ps ++ ("\n    ".toList ++ [']']))))) :=
    member_of _ (List.replicate 4 ' ') "frames".toList _ _ (by decide +kernel) (by decide) (by decide) harr
  have hobj := reads_obj _ _ (.cons hm .nil) (by simp) ['\n'] "\n  ".toList (by decide) (by decide)
  refine ⟨_, ?_, member_of "  \"backtrace\" : ".toList [' ', ' '] "backtrace".toList _ _ (by decide +kernel) (by decide)
    (by decide) hobj⟩
  rw [backtrace, join_append _ _ _ (by simp) (by simp), join_append _ _ _ (by simp) (by cases fs <;> simp [frameLines]),
    show ∀ p, commas [p] = p from fun p => rfl, ← he]
  exact glue_back _ _ _ _ _ _ _ _ _ _ _ _ _ (by decide +kernel) (by decide +kernel) (by decide +kernel) (by decide +kernel)
    (by decide +kernel) (by decide +kernel) (by decide +kernel)

/-! ## Proofs: entries -/

theorem timesync_members (env : Env) (parents : List (Nat × Nat)) (e : Entry) (h : e.Clean env)
    (ht : e.eventType.getD [] = "timesyncEvent".toList) :
    ∃ ps, List.Forall₂ MemberText (members env parents e) ps ∧ join ['\n'] (entryLines env parents e) = commas ps := by
  have hformat : ∀ c ∈ formatText e, 32 ≤ c.toNat ∨ c = '\n' ∨ c = '\t' := by
    rw [formatText]
    split
    · simp
    · exact h.format
  have str : ∀ s : List Char, Plain s → Reads (.str s) (quoted s) := fun s hs => reads_quoted _ _ (quoted_plain _ hs)
  have hlast : MemberText ("senderImagePath".toList, text e.senderPath)
      (lastLine "senderImagePath".toList (quoted (escapeSender (e.senderPath.getD [])))) :=
    lastLine_member _ _ _ (by decide) (reads_quoted _ _ (quoted_sender _ h.sender))
  have h0 : Reads (.num 0) "0".toList := reads_num 0
  obtain ⟨ps, h1, h2⟩ := lines_commas _ _ _ _ (.cons (line_member "bootUUID".toList _ _ (by decide) (str _ h.boot))
    (.cons (line_member "category".toList _ _ (by decide) (str _ h.category))
    (.cons (line_member "processImageUUID".toList _ _ (by decide) (str _ h.processImage))
    (.cons (line_member "eventType".toList _ _ (by decide) (str _ h.type))
    (.cons (line_member "threadID".toList _ _ (by decide) (reads_num (e.thread.getD 0 : Nat)))
    (.cons (line_member "timestamp".toList _ _ (by decide) (str _ (plain_date env e.time (h.times _))))
    (.cons (line_member "activityIdentifier".toList _ _ (by decide) (reads_num (e.activity.getD 0 : Nat)))
    (.cons (line_member "senderProgramCounter".toList _ _ (by decide) (reads_num (e.counter.getD 0)))
    (.cons (line_member "parentActivityIdentifier".toList _ _ (by decide) h0)
    (.cons (line_member "machTimestamp".toList _ _ (by decide) (reads_num e.mach))
    (.cons (line_member "processID".toList _ _ (by decide) (reads_num (e.process.getD 0 : Nat)))
    (.cons (line_member "subsystem".toList _ _ (by decide) (str _ h.subSystem))
    (.cons (line_member "timezoneName".toList _ _ (by decide) (str [] (by simp [Plain])))
    (.cons (line_member "traceID".toList _ _ (by decide) (reads_num e.trace))
    (.cons (line_member "eventMessage".toList _ _ (by decide) (reads_quoted _ _ (quoted_text _ (cut_clean env e.message h.message))))
    (.cons (line_member "formatString".toList _ _ (by decide) (reads_quoted _ _ (quoted_text _ hformat)))
    (.cons (line_member "processImagePath".toList _ _ (by decide) (reads_quoted _ _ (quoted_special _ h.process)))
    (.cons (line_member "senderImageUUID".toList _ _ (by decide) (str _ h.senderImage)) .nil)))))))))))))))))) hlast
  refine ⟨ps, ?_, ?_⟩
  · simp only [members, if_pos ht]
    exact h1
  · rw [entryLines, if_pos ht, ← h2]
    rfl

theorem rel_app {α β : Type} {R : α → β → Prop} {a c : List α} {b d : List β} (h : List.Forall₂ R a b) (h' : List.Forall₂ R c d) :
    List.Forall₂ R (a ++ c) (b ++ d) := by
  induction h with
  | nil => exact h'
  | cons hx _ ih => exact .cons hx ih

theorem lines_tail (ms : List (List Char × J)) (ls : List (List Char)) (ms' : List (List Char × J)) (ls' : List (List Char))
    (m : List Char × J) (last : List Char) (h : List.Forall₂ LineText ms ls) (h' : List.Forall₂ LineText ms' ls')
    (hl : MemberText m last) :
    ∃ ps, List.Forall₂ MemberText (ms ++ (ms' ++ [m])) ps ∧ join ['\n'] (ls ++ (ls' ++ [last])) = commas ps := by
  obtain ⟨ps, h1, h2⟩ := lines_commas _ _ m last (rel_app h h') hl
  exact ⟨ps, by rw [← List.append_assoc]; exact h1, by rw [← List.append_assoc]; exact h2⟩

theorem other_members (env : Env) (parents : List (Nat × Nat)) (e : Entry) (h : e.Clean env)
    (ht : e.eventType.getD [] ≠ "timesyncEvent".toList) :
    ∃ ps, List.Forall₂ MemberText (members env parents e) ps ∧ join ['\n'] (entryLines env parents e) = commas ps := by
  have hformat : ∀ c ∈ formatText e, 32 ≤ c.toNat ∨ c = '\n' ∨ c = '\t' := by
    rw [formatText]
    split
    · simp
    · exact h.format
  have str : ∀ s : List Char, Plain s → Reads (.str s) (quoted s) := fun s hs => reads_quoted _ _ (quoted_plain _ hs)
  have one : ∀ name value j, (name.all (fun c => decide (c ≠ '"' ∧ c ≠ '\\' ∧ 32 ≤ c.toNat))) = true → Reads j value →
      List.Forall₂ LineText [(name, j)] [line name value] := fun name value j hn hr => .cons (line_member name value j hn hr) .nil
  have hmessage : Reads (.str (cutMessage env e.message)) (quoted (escapeText (cutMessage env e.message))) :=
    reads_quoted _ _ (quoted_text _ (cut_clean env e.message h.message))
  have hdate : ∀ t, Reads (.str (dateText env t)) (quoted (dateText env t)) := fun t => str _ (plain_date env t (h.times _))
  have p1 := one "traceID".toList _ _ (by decide) (reads_num e.trace)
  have p2 := rel_if LineText (e.eventType.getD [] ∉ lateTypes) _ _ (fun _ => one "eventMessage".toList _ _ (by decide) hmessage)
  have p3 := one "eventType".toList _ _ (by decide) (str _ h.type)
  have p4 : List.Forall₂ LineText
      (match e.loss with
        | some l => [("lossCount".toList, J.num l.1), ("lossCountSaturated".toList, .bool true)]
        | none => [])
      (match e.loss with
        | some l => [line "lossCount".toList (intText l.1), line "lossCountSaturated".toList "true".toList]
        | none => []) := by
    cases e.loss with
    | none => exact .nil
    | some l => exact rel_app (one _ _ _ (by decide) (reads_num _)) (one _ _ _ (by decide) reads_true)
  have p5 : List.Forall₂ LineText
      (match e.signpost with
        | some i => [("signpostID".toList, .num i), ("signpostScope".toList, text e.signpostScope)]
        | none => [])
      (match e.signpost with
        | some i => [line "signpostID".toList (intText i), line "signpostScope".toList (quoted (e.signpostScope.getD []))]
        | none => []) := by
    cases e.signpost with
    | none => exact .nil
    | some l => exact rel_app (one _ _ _ (by decide) (reads_num _)) (one _ _ _ (by decide) (str _ h.scope))
  have p6 := rel_if LineText (e.eventType.getD [] ∉ sourceless) _ _ (fun _ => one "source".toList _ _ (by decide) reads_null)
  have p7 := one "formatString".toList _ _ (by decide) (reads_quoted _ _ (quoted_text _ hformat))
  have p8 : List.Forall₂ LineText
      (match e.loss with
        | some l => [("lossEndMachContinuousTimestamp".toList, J.num l.2.2.1)]
        | none => [])
      (match e.loss with
        | some l => [line "lossEndMachContinuousTimestamp".toList (intText l.2.2.1)]
        | none => []) := by
    cases e.loss with
    | none => exact .nil
    | some l => exact one _ _ _ (by decide) (reads_num _)
  have p9 := rel_app (one "activityIdentifier".toList _ _ (by decide) (reads_num (e.activity.getD 0 : Nat)))
    (rel_app (one "subsystem".toList _ _ (by decide) (str _ h.subSystem))
    (rel_app (one "category".toList _ _ (by decide) (str _ h.category))
    (rel_app (one "threadID".toList _ _ (by decide) (reads_num (e.thread.getD 0 : Nat)))
    (one "senderImageUUID".toList _ _ (by decide) (str _ h.senderImage)))))
  have p10 : List.Forall₂ LineText
      (match e.signpost with
        | some _ => [("signpostType".toList, text e.signpostType)]
        | none => [])
      (match e.signpost with
        | some _ => [line "signpostType".toList (quoted (e.signpostType.getD []))]
        | none => []) := by
    cases e.signpost with
    | none => exact .nil
    | some l => exact one _ _ _ (by decide) (str _ h.kind)
  have p11 := rel_if LineText (e.frames ≠ []) _ _ (fun hf => .cons (backtrace_line e.frames hf h.frames) .nil)
  have p12 := rel_app (one "bootUUID".toList _ _ (by decide) (str _ h.boot))
    (rel_app (one "processImagePath".toList _ _ (by decide) (reads_quoted _ _ (quoted_special _ h.process)))
    (rel_app (one "timestamp".toList _ _ (by decide) (hdate e.time))
    (one "senderImagePath".toList _ _ (by decide) (reads_quoted _ _ (quoted_sender _ h.sender)))))
  have p13 : List.Forall₂ LineText
      (match e.creator with
        | some c => [("creatorActivityID".toList, J.num c)]
        | none =>
          match e.loss with
          | some l => [("lossStartMachContinuousTimestamp".toList, .num l.2.1),
              ("lossEndTimestamp".toList, .str (dateText env l.2.2.2.2)),
              ("lossStartTimestamp".toList, .str (dateText env l.2.2.2.1))]
          | none =>
            match e.signpost with
            | some _ => [("signpostName".toList, text e.signpostName)]
            | none => [])
      (match e.creator with
        | some c => [line "creatorActivityID".toList (intText c)]
        | none =>
          match e.loss with
          | some l => [line "lossStartMachContinuousTimestamp".toList (intText l.2.1),
              line "lossEndTimestamp".toList (quoted (dateText env l.2.2.2.2)),
              line "lossStartTimestamp".toList (quoted (dateText env l.2.2.2.1))]
          | none =>
            match e.signpost with
            | some _ => [line "signpostName".toList (quoted (e.signpostName.getD []))]
            | none => []) := by
    cases e.creator with
    | some c => exact one _ _ _ (by decide) (reads_num _)
    | none =>
      cases e.loss with
      | some l =>
        exact rel_app (one _ _ _ (by decide) (reads_num _)) (rel_app (one _ _ _ (by decide) (hdate _)) (one _ _ _ (by decide) (hdate _)))
      | none =>
        cases e.signpost with
        | some _ => exact one _ _ _ (by decide) (str _ h.name)
        | none => exact .nil
  have p14 := one "machTimestamp".toList _ _ (by decide) (reads_num e.mach)
  have p15 : List.Forall₂ LineText
      (if e.eventType.getD [] ∈ lateTypes then [("eventMessage".toList, .str (cutMessage env e.message))]
        else [("messageType".toList, text e.messageType)])
      (if e.eventType.getD [] ∈ lateTypes then [line "eventMessage".toList (quoted (escapeText (cutMessage env e.message)))]
        else [line "messageType".toList (quoted (e.messageType.getD []))]) := by
    split
    · exact one _ _ _ (by decide) hmessage
    · exact one _ _ _ (by decide) (str _ h.messageType)
  have p16 := rel_app (one "processImageUUID".toList _ _ (by decide) (str _ h.processImage))
    (rel_app (one "processID".toList _ _ (by decide) (reads_num (e.process.getD 0 : Nat)))
    (rel_app (one "senderProgramCounter".toList _ _ (by decide) (reads_num (e.counter.getD 0)))
    (one "parentActivityIdentifier".toList _ _ (by decide) (reads_num (parentShown (nextParents parents e) e : Nat)))))
  have hlast : MemberText ("timezoneName".toList, .str []) (lastLine "timezoneName".toList (quoted [])) :=
    lastLine_member _ _ _ (by decide) (str [] (by simp [Plain]))
  obtain ⟨ps, h1, h2⟩ := lines_tail _ _ _ _ _ _ (rel_app (rel_app (rel_app (rel_app (rel_app (rel_app (rel_app (rel_app (rel_app
    (rel_app (rel_app (rel_app (rel_app (rel_app p1 p2) p3) p4) p5) p6) p7) p8) p9) p10) p11) p12) p13) p14) p15) p16 hlast
  refine ⟨ps, ?_, ?_⟩
  · simp only [members, if_neg ht]
    exact h1
  · rw [entryLines, if_neg ht, ← h2]
    rfl

theorem entry_element (env : Env) (parents : List (Nat × Nat)) (e : Entry) (h : e.Clean env) :
    ElementText (.obj (members env parents e)) ('{' :: '\n' :: (join ['\n'] (entryLines env parents e) ++ ['\n', '}'])) := by
  obtain ⟨ps, h1, h2⟩ : ∃ ps, List.Forall₂ MemberText (members env parents e) ps ∧
      join ['\n'] (entryLines env parents e) = commas ps := by
    by_cases ht : e.eventType.getD [] = "timesyncEvent".toList
    · exact timesync_members env parents e h ht
    · exact other_members env parents e h ht
  have hne : members env parents e ≠ [] := by
    by_cases ht : e.eventType.getD [] = "timesyncEvent".toList
    · simp only [members, if_pos ht]
      exact List.cons_ne_nil _ _
    · simp only [members, if_neg ht]
      exact List.append_ne_nil_of_right_ne_nil _ (List.cons_ne_nil _ _)
  refine ⟨[], _, '{', _, by simp, reads_obj _ _ h1 hne ['\n'] ['\n'] (by decide) (by decide), rfl, by decide, by decide, ?_⟩
  rw [h2]
  simp

theorem entriesText_next (env : Env) (parents : List (Nat × Nat)) (e : Entry) (es : List Entry) :
    entriesText env false parents (e :: es) = '}' :: ',' :: '{' :: '\n' :: entriesText env true parents (e :: es) := by
  have : "},{\n".toList = ['}', ',', '{', '\n'] := by decide +kernel
  rw [entriesText, entriesText, this]
  simp

theorem entries_elements (env : Env) (parents : List (Nat × Nat)) (e : Entry) (es : List Entry)
    (h : ∀ x ∈ e :: es, Entry.Clean env x) :
    ∃ ps, List.Forall₂ ElementText (objects env parents (e :: es)) ps ∧
      '{' :: '\n' :: (entriesText env true parents (e :: es) ++ ['}']) = commas ps := by
  induction es generalizing parents e with
  | nil =>
    refine ⟨[_], .cons (entry_element env parents e (h e (by simp))) .nil, ?_⟩
    rw [entriesText, entriesText]
    simp [commas]
  | cons e' es ih =>
    obtain ⟨ps, h1, h2⟩ := ih (nextParents parents e) e' (fun x hx => h x (by simp [hx]))
    refine ⟨_, .cons (entry_element env parents e (h e (by simp))) h1, ?_⟩
    rw [commas_cons _ _ (by rintro rfl; cases h1), ← h2, entriesText, entriesText_next]
    simp

/-! ## C150 -/

/-- **C150** (partial): the JSON of entries, at least one, whose texts can be written is read as one object for each entry, in
their order, with each attribute under its name.  What is missing: texts with other characters, and no entries at all. -/
theorem C150_document_partial (env : Env) (es : List Entry) (hne : es ≠ []) (h : ∀ e ∈ es, Entry.Clean env e) :
    parse (document env es) = some (.arr (objects env [] es)) := by
  obtain ⟨e, es, rfl⟩ : ∃ e es', es = e :: es' := by
    cases es with
    | nil => exact absurd rfl hne
    | cons e es => exact ⟨e, es, rfl⟩
  obtain ⟨ps, h1, h2⟩ := entries_elements env [] e es h
  have := parse_reads _ _ (reads_arr _ _ h1 (by simp [objects]) [] [] (by simp) (by simp))
  rw [document, show "[{\n".toList = ['[', '{', '\n'] by decide +kernel, show "}]".toList = ['}', ']'] by decide +kernel]
  rw [← this, ← h2]
  simp

theorem objects_length (env : Env) (parents : List (Nat × Nat)) (es : List Entry) :
    (objects env parents es).length = es.length := by
  induction es generalizing parents with
  | nil => rfl
  | cons e es ih => simp [objects, ih]

/-- The names of the members of an entry, by what it has. -/
def names (time late early frames loss signpost creator : Bool) : List (List Char) :=
  if time then
    ["bootUUID".toList, "category".toList, "processImageUUID".toList, "eventType".toList, "threadID".toList, "timestamp".toList,
      "activityIdentifier".toList, "senderProgramCounter".toList, "parentActivityIdentifier".toList, "machTimestamp".toList,
      "processID".toList, "subsystem".toList, "timezoneName".toList, "traceID".toList, "eventMessage".toList,
      "formatString".toList, "processImagePath".toList, "senderImageUUID".toList, "senderImagePath".toList]
  else
    ["traceID".toList] ++ (bif late then [] else ["eventMessage".toList]) ++ ["eventType".toList] ++
    (bif loss then ["lossCount".toList, "lossCountSaturated".toList] else []) ++
    (bif signpost then ["signpostID".toList, "signpostScope".toList] else []) ++ (bif early then [] else ["source".toList]) ++
    ["formatString".toList] ++ (bif loss then ["lossEndMachContinuousTimestamp".toList] else []) ++
    ["activityIdentifier".toList, "subsystem".toList, "category".toList, "threadID".toList, "senderImageUUID".toList] ++
    (bif signpost then ["signpostType".toList] else []) ++ (bif frames then ["backtrace".toList] else []) ++
    ["bootUUID".toList, "processImagePath".toList, "timestamp".toList, "senderImagePath".toList] ++
    (bif creator then ["creatorActivityID".toList] else bif loss then ["lossStartMachContinuousTimestamp".toList,
      "lossEndTimestamp".toList, "lossStartTimestamp".toList] else bif signpost then ["signpostName".toList] else []) ++
    ["machTimestamp".toList] ++ (bif late then ["eventMessage".toList] else ["messageType".toList]) ++
    ["processImageUUID".toList, "processID".toList, "senderProgramCounter".toList, "parentActivityIdentifier".toList,
      "timezoneName".toList]

theorem names_nodup : ∀ a b c d e f g : Bool, (names a b c d e f g).Nodup := by decide +kernel

theorem members_names (env : Env) (parents : List (Nat × Nat)) (e : Entry) : (members env parents e).map Prod.fst =
    names (decide (e.eventType.getD [] = "timesyncEvent".toList)) (decide (e.eventType.getD [] ∈ lateTypes))
      (decide (e.eventType.getD [] ∈ sourceless)) (decide (e.frames ≠ [])) e.loss.isSome e.signpost.isSome e.creator.isSome := by
  by_cases ht : e.eventType.getD [] = "timesyncEvent".toList
  · simp only [members, if_pos ht, names, List.map_cons, List.map_nil]
    exact (if_pos (decide_eq_true ht)).symm
  · simp only [members, if_neg ht, names, decide_eq_true_eq, List.map_append]
    have app : ∀ {a b c d : List (List Char)}, a = b → c = d → a ++ c = b ++ d := fun h h' => h ▸ h' ▸ rfl
    refine app (app (app (app (app (app (app (app (app (app (app (app (app (app (app rfl ?_) rfl) ?_) ?_) ?_) rfl) ?_) rfl) ?_) ?_) rfl)
      ?_) rfl) ?_) rfl
    · by_cases h : e.eventType.getD [] ∈ lateTypes
      · simp only [h, not_true_eq_false, if_false, decide_true, cond_true, List.map_nil]
      · simp only [h, not_false_eq_true, if_true, decide_false, cond_false, List.map_cons, List.map_nil]
    · cases e.loss <;> rfl
    · cases e.signpost <;> rfl
    · by_cases h : e.eventType.getD [] ∈ sourceless
      · simp only [h, not_true_eq_false, if_false, decide_true, cond_true, List.map_nil]
      · simp only [h, not_false_eq_true, if_true, decide_false, cond_false, List.map_cons, List.map_nil]
    · cases e.loss <;> rfl
    · cases e.signpost <;> rfl
    · cases e.frames <;> rfl
    · cases e.creator <;> cases e.loss <;> cases e.signpost <;> rfl
    · by_cases h : e.eventType.getD [] ∈ lateTypes
      · simp only [h, if_true, decide_true, cond_true, List.map_cons, List.map_nil]
      · simp only [h, if_false, decide_false, cond_false, List.map_cons, List.map_nil]

/-- The names of the members of an object are distinct: none hides another. -/
theorem C150_names (env : Env) (parents : List (Nat × Nat)) (e : Entry) : ((members env parents e).map Prod.fst).Nodup := by
  rw [members_names]
  exact names_nodup _ _ _ _ _ _ _

/-- Without entries the script writes an array with one object that has no members. -/
theorem C150_no_entries (env : Env) : parse (document env []) = some (.arr [.obj []]) := by
  have h : parse "[{\n}]".toList = some (.arr [.obj []]) := by
    rw [show "[{\n}]".toList = ['[', '{', '\n', '}', ']'] by decide +kernel]
    rfl
  rw [document, entriesText, ← h]
  congr 1

/-- What the script prints is never JSON: there is a heading in front of it. -/
theorem C150_heading (env : Env) (es : List Entry) : parse (standardOutput env es) = none := by
  have : heading = 'A' :: heading.tail := by decide +kernel
  rw [standardOutput, this, parse, List.cons_append, readValue, expect_cons _ _ _ (by decide), expect_cons _ _ _ (by decide),
    expect_cons _ _ _ (by decide), dropWhile_head _ _ (by decide)]
  simp [readWord, readNumber, readUnsigned, readNat, isDigit, parseDigits]

/-- Messages are cut at 1087 characters but marked from 1085 characters on: a message of 1085 to 1087 characters is shown whole
and marked as cut. -/
theorem C150_cut (env : Env) (m : List Char) (hm : rstrip env.space m = m) :
    (m.length < 1085 → cutMessage env (some m) = m) ∧
    (1085 ≤ m.length → m.length ≤ 1087 → cutMessage env (some m) = m ++ ['<', '…', '>']) ∧
    (1087 < m.length → cutMessage env (some m) = m.take 1087 ++ ['<', '…', '>']) := by
  have hl : "<…>".toList = ['<', '…', '>'] := by decide +kernel
  rw [cutMessage, Option.getD_some, hm, hl]
  refine ⟨fun h => if_neg (by omega), fun h h' => ?_, fun h => if_pos (by omega)⟩
  rw [if_pos h, List.take_of_length_le h']

/-- The parents that are known after entries. -/
def parentsAfter (es : List Entry) : List (Nat × Nat) := es.foldl nextParents []

/-- An entry, not of time synchronisation, of the activity that has a creator. -/
def creates (a : Nat) (e : Entry) : Bool :=
  decide (e.eventType.getD [] ≠ "timesyncEvent".toList) && (e.creator.isSome && decide (e.activity.getD 0 = a))

theorem lookup_next (parents : List (Nat × Nat)) (e : Entry) (a : Nat) : (nextParents parents e).lookup a =
    if creates a e then some (e.creator.getD 0 % 2 ^ 63) else parents.lookup a := by
  by_cases ht : e.eventType.getD [] = "timesyncEvent".toList
  · rw [nextParents, if_pos ht, creates, decide_eq_false (not_not_intro ht), Bool.false_and]
    exact (if_neg Bool.false_ne_true).symm
  · rw [nextParents, if_neg ht, creates, decide_eq_true ht, Bool.true_and]
    cases hc : e.creator with
    | none => simp
    | some c =>
      by_cases ha : e.activity.getD 0 = a
      · subst ha
        simp [activityBits]
      · have : (a == e.activity.getD 0) = false := by simpa using fun h : a = e.activity.getD 0 => ha h.symm
        simp [ha, List.lookup_cons, this]

theorem parents_foldl (parents : List (Nat × Nat)) (es : List Entry) (a : Nat) :
    (es.foldl nextParents parents).lookup a =
      ((es.filter (creates a)).getLast?.map (fun e => e.creator.getD 0 % 2 ^ 63)).or (parents.lookup a) := by
  induction es generalizing parents with
  | nil => simp
  | cons e es ih =>
    rw [List.foldl_cons, ih, List.filter_cons, lookup_next]
    cases hc : creates a e with
    | false => simp
    | true =>
      simp only [if_true, List.getLast?_cons]
      cases (es.filter (creates a)).getLast? with
      | none => simp
      | some x => simp

/-- The parent that is known for an activity is the creator of the last entry, before it, of that activity that has one. -/
theorem C150_parents (es : List Entry) (a : Nat) : (parentsAfter es).lookup a =
    (es.filter (creates a)).getLast?.map (fun e => e.creator.getD 0 % 2 ^ 63) := by
  rw [parentsAfter, parents_foldl]
  simp

/-! ## Witnesses -/

/-- White space is a blank, and each timestamp has the same date. -/
def sampleEnv : Env := { space := fun c => c = ' ', iso := fun _ => "2023-01-12T01:36:31.338000000+00:00".toList }

def sampleEntry : Entry :=
  { boot := "0DEB7BEF".toList, eventType := some "logEvent".toList, mach := 5, time := 7, trace := 9,
    message := some "a \"b\"\n".toList, frames := [⟨"AA".toList, 16⟩, ⟨"BB".toList, -1⟩], processPath := some "/bin/x".toList }

theorem sampleEntry_clean : sampleEntry.Clean sampleEnv := by
  have plain : ∀ s : List Char, (s.all (fun c => decide (c ≠ '"' ∧ c ≠ '\\' ∧ 32 ≤ c.toNat))) = true → Plain s :=
    fun s h c hc => by simpa using List.all_eq_true.mp h c hc
  constructor
  · decide +kernel
  · decide +kernel
  · decide +kernel
  · decide +kernel
  all_goals first | exact plain _ (by decide +kernel) | skip
  · intro f hf
    simp only [sampleEntry, List.mem_cons, List.not_mem_nil, or_false] at hf
    rcases hf with rfl | rfl <;> exact plain _ (by decide +kernel)
  · intro t
    rw [show sampleEnv.iso t = sampleEnv.iso 0 from rfl]
    exact plain _ (by decide +kernel)

/-- C150 is about entries that exist. -/
example : ([sampleEntry, sampleEntry] ≠ []) ∧ ∀ e ∈ [sampleEntry, sampleEntry], e.Clean sampleEnv := by
  refine ⟨by simp, fun e he => ?_⟩
  simp only [List.mem_cons, List.not_mem_nil, or_false, or_self] at he
  subst he
  exact sampleEntry_clean

/-- A message with an escape character, as the messages of tools that write colours have. -/
theorem C150_control : (parse (document sampleEnv [{ sampleEntry with message := some ['\x1b'] }])).isNone := by decide +kernel

/-- A category with a quote. -/
theorem C150_quote : (parse (document sampleEnv [{ sampleEntry with category := some ['"'] }])).isNone := by decide +kernel

/-- The path of a sender that ends in a backslash. -/
theorem C150_backslash : (parse (document sampleEnv [{ sampleEntry with senderPath := some ['\\'] }])).isNone := by decide +kernel

/-- A category can add members of its own: this one adds a second trace identifier. -/
theorem C150_forged : (match parse (document sampleEnv [{ sampleEntry with category := some "a\", \"traceID\" : \"7".toList }]) with
    | some (.arr [.obj ms]) => (ms.filter (fun m => m.1 = "traceID".toList)).length
    | _ => 0) = 2 := by decide +kernel

/-- **C150** is false: what is written for some entries is not JSON. -/
theorem C150_document_claim_false : ¬ C150_document_claim := by
  intro h
  have h1 := C150_control
  rw [h sampleEnv _] at h1
  exact absurd h1 (by simp)

end Dtf.LogJson
