import Verif.Scripts.LogJson
import Verif.Unified.Reader
import Verif.Unified.Strings
import Verif.Spotlight.VarInt

/-!
# Log entries and shared-cache strings as text (C170)

What scripts/unified_logging.py writes in the text format, from the log entries that are read (C147), and what it writes
of a shared-cache strings file (C73).
-/

namespace Dtf.LogText
open Py Text DataFormat

abbrev Str := List Char

/-! ## Model: log entries -/

/-- What the text format uses of a log entry. -/
structure Entry where
  activity : Option Nat := none
  category : Option Str := none
  message : Option Str
  process : Option Nat := none
  processPath : Option Str := none
  senderPath : Option Str := none
  subSystem : Option Str := none
  thread : Option Nat := none
  time : Int
  ttl : Option Nat := none
  type : Option Str
deriving DecidableEq

instance : Inhabited Entry := ⟨{ message := none, time := 0, type := none }⟩

/-- The attributes of an entry that is read (unified_logging.py 4056-4290, 4740-4760, 4836-4854, 5022-5055). -/
def ofRead : Unified.ReadEntry → Entry
  | .boot m _ t => { message := some m, thread := some 0, time := t, type := some "timesyncEvent".toList }
  | .adjusted m _ t => { message := some m, thread := some 0, time := t, type := some "timesyncEvent".toList }
  | .point e =>
    { activity := e.activity, category := e.category, message := some e.message, process := e.pid,
      processPath := e.processPath, senderPath := e.senderPath, subSystem := e.subSystem, thread := some e.thread,
      time := e.timestamp, ttl := some e.ttl, type := e.eventType }
  | .dump e t =>
    { activity := e.activity, message := some e.message, process := some e.pid, processPath := e.processPath,
      subSystem := e.subSystem, thread := e.thread, time := t, type := some e.eventType }

/-- The last item of `s.rpartition("/")`. -/
def baseName (s : Str) : Str := (s.reverse.takeWhile (fun c => c ≠ '/')).reverse

/-- `event_message_parts` before the message (scripts/unified_logging.py 516-529). -/
def prefixes (e : Entry) : List Str :=
  (match e.processPath with
    | some (c :: s) => [baseName (c :: s) ++ [':']]
    | _ => []) ++
  (match e.senderPath with
    | some (c :: s) => [['('] ++ baseName (c :: s) ++ [')']]
    | _ => []) ++
  (match e.subSystem, e.category with
    | some (c :: s), some (d :: t) => [['['] ++ (c :: s) ++ [':'] ++ (d :: t) ++ [']']]
    | _, _ => [])

/-- `" ".join(event_message_parts)` (scripts/unified_logging.py 530-531): a message that is missing is a TypeError. -/
def shownMessage (e : Entry) : Res Str :=
  match e.message with
  | none => .error .typeError
  | some m => .ok (join [' '] (prefixes e ++ [m]))

/-- `f"{s:<w}"`. -/
def padded (w : Nat) (s : Str) : Str := s ++ List.replicate (w - s.length) ' '

/-- The line of an entry (scripts/unified_logging.py 533-539): a type that is missing cannot be formatted. -/
def entryLine (env : LogJson.Env) (e : Entry) : Res Str :=
  match shownMessage e with
  | .error err => .error err
  | .ok m =>
    match e.type with
    | none => .error .typeError
    | some t =>
      .ok (LogJson.dateText env e.time ++ ('\t' :: '0' :: 'x' :: (padded 8 (digits 16 (e.thread.getD 0)) ++
        ('\t' :: (padded 11 t ++ ('\t' :: '0' :: 'x' :: (padded 18 (digits 16 (e.activity.getD 0)) ++
          ('\t' :: (padded 6 (digits 10 (e.process.getD 0)) ++ ('\t' :: (padded 4 (digits 10 (e.ttl.getD 0)) ++
            ('\t' :: (m ++ ['\n'])))))))))))))

/-- The loop over the entries (scripts/unified_logging.py 255-539). -/
def entriesText (env : LogJson.Env) : List Entry → Str × Option Err
  | [] => ([], none)
  | e :: es =>
    match entryLine env e with
    | .error err => ([], some err)
    | .ok s => (s ++ (entriesText env es).1, (entriesText env es).2)

/-- The line above the entries (scripts/unified_logging.py 249-252). -/
def tableHeading : Str :=
  "Timestamp                       Thread     Type        Activity             PID    TTL".toList

/-- The text output for a trace file (scripts/unified_logging.py 193-539): all entries are read before one is written.
`none` would be out of fuel. -/
def traceText (env : LogJson.Env) (read : List Unified.ReadEntry × Res Unified.FileState) : Option (Str × Option Err) :=
  match read.2 with
  | .error e => some (LogJson.heading, some e)
  | .ok _ =>
    (Heap.shown Entry.time (read.1.map ofRead)).map fun es =>
      (LogJson.heading ++ (tableHeading ++ ('\n' :: (entriesText env es).1)), (entriesText env es).2)

/-! ## Model: shared-cache strings -/

/-- `readDsc` with the tables it reads: UUID descriptors with their paths, and range descriptors. -/
def readTables {S : Type} (cstr : Nat → Res S) (data : Bytes) :
    Res (List (Unified.UuidDescriptor × S) × List Unified.RangeDescriptor × List (Unified.Range S)) :=
  match structAt (fixedMap 16 id) data 0 with
  | .error e => .error e
  | .ok (h, _) =>
    if h.take 4 ≠ [0x68, 0x63, 0x73, 0x64] then .error .parseError
    else
      let version := leNat (slice h 4 6)
      let minor := leNat (slice h 6 8)
      if ¬ ((version = 1 ∧ minor = 0) ∨ (version = 2 ∧ minor = 0)) then .error .parseError
      else
        match readMany (Unified.rangeMap version) data (leNat (slice h 8 12)) 16 with
        | .error e => .error e
        | .ok (ranges, off) =>
          match readMany (Unified.uuidMap version) data (leNat (slice h 12 16)) off with
          | .error e => .error e
          | .ok (uuids, _) =>
            match Unified.imagePaths cstr uuids with
            | .error e => .error e
            | .ok uuids => (Unified.resolveRanges uuids ranges).map (fun out => (uuids, ranges, out))

/-- `str(image_identifier).upper()` of 16 bytes. -/
def identifierText (b : Bytes) : Str :=
  match Unified.uuidText b with
  | .ok s => s
  | .error _ => []

/-- `f"0x{offset:08x} .. 0x{end:08x} ({size:d})\n"`. -/
def interval (offset size : Nat) : Str :=
  ['0', 'x'] ++ Formats.hexw 8 offset ++ " .. 0x".toList ++ Formats.hexw 8 (offset + size) ++ " (".toList ++
    digits 10 size ++ ")\n".toList

/-- What is written of a UUID (scripts/unified_logging.py 196-210). -/
def uuidBlock (index : Nat) (u : Unified.UuidDescriptor × Str) : Str :=
  "uuid ".toList ++ digits 10 index ++ ":\n".toList ++
  "    uuid ".toList ++ digits 10 index ++ ":\t".toList ++ identifierText u.1.ident ++ ['\n'] ++
  "    dsc text:\t".toList ++ interval u.1.textOffset u.1.textSize ++
  "    path:\t".toList ++ u.2 ++ "\n\n".toList

/-- What is written of a range (scripts/unified_logging.py 212-226). -/
def rangeBlock (index : Nat) (d : Unified.RangeDescriptor) (r : Unified.Range Str) : Str :=
  "Range ".toList ++ digits 10 index ++ ":\n".toList ++
  "    uuid ".toList ++ digits 10 d.uuidIndex ++ ":\t".toList ++ identifierText r.ident ++ ['\n'] ++
  "    dsc range:\t".toList ++ interval r.rangeOffset r.rangeSize ++
  "    path:\t".toList ++ r.path ++ "\n\n".toList

/-- The loops over the UUIDs and ranges. -/
def uuidBlocks : Nat → List (Unified.UuidDescriptor × Str) → Str
  | _, [] => []
  | i, u :: us => uuidBlock i u ++ uuidBlocks (i + 1) us

def rangeBlocks : Nat → List (Unified.RangeDescriptor × Unified.Range Str) → Str
  | _, [] => []
  | i, r :: rs => rangeBlock i r.1 r.2 ++ rangeBlocks (i + 1) rs

/-- The output for a shared-cache strings file (scripts/unified_logging.py 191-226). -/
def stringsText (cstr : Nat → Res Str) (data : Bytes) : Str × Option Err :=
  match readTables cstr data with
  | .error e => ([], some e)
  | .ok (uuids, ranges, out) => (LogJson.heading ++ uuidBlocks 0 uuids ++ rangeBlocks 0 (ranges.zip out), none)

/-! ## Specification -/

/-- What comes before and after the first `c`. -/
def cut (c : Char) (s : Str) : Str × Str := (s.takeWhile (fun d => d ≠ c), (s.dropWhile (fun d => d ≠ c)).drop 1)

/-- A number with spaces after it. -/
def number (base : Nat) (s : Str) : Option Nat := parseDigits base (cut ' ' s).1

/-- The fields of a line: date and time, thread, type, activity, process, time to live and message. -/
structure Fields where
  date : Str
  thread : Option Nat
  type : Str
  activity : Option Nat
  process : Option Nat
  ttl : Option Nat
  message : Str
deriving DecidableEq

/-- How a line is read: six fields that end with tabs, two of them after `0x`, and the rest. -/
def readLine (s : Str) : Fields :=
  let a := cut '\t' s
  let b := cut '\t' a.2
  let c := cut '\t' b.2
  let d := cut '\t' c.2
  let e := cut '\t' d.2
  let f := cut '\t' e.2
  ⟨a.1, number 16 (b.1.drop 2), (cut ' ' c.1).1, number 16 (d.1.drop 2), number 10 e.1, number 10 f.1, f.2⟩

/-- The entry has a type, without spaces and tabs, and a message. -/
def Entry.Ok (e : Entry) : Prop := (∃ t, e.type = some t ∧ ' ' ∉ t ∧ '\t' ∉ t) ∧ e.message ≠ none

/-- The text of its parts has no line break. -/
def Entry.Single (e : Entry) : Prop :=
  ∀ s, e.message = some s ∨ e.processPath = some s ∨ e.senderPath = some s ∨ e.subSystem = some s ∨ e.category = some s ∨
    e.type = some s → '\n' ∉ s

/-! ## Proofs: log entries -/

theorem cut_append (c : Char) (p s : Str) (h : c ∉ p) : cut c (p ++ c :: s) = (p, s) := by
  induction p with
  | nil => simp [cut]
  | cons x p ih =>
    have hx : x ≠ c := fun e => h (by simp [e])
    have hp : c ∉ p := fun m => h (by simp [m])
    have := ih hp
    unfold cut at this ⊢
    rw [Prod.mk.injEq] at this
    simp only [List.cons_append, List.takeWhile_cons, List.dropWhile_cons, hx, ne_eq, not_false_eq_true, decide_true, if_true]
    rw [this.1, this.2]

theorem takeWhile_self (p : Char → Bool) (s : Str) (h : ∀ c ∈ s, p c = true) : s.takeWhile p = s := by
  have := List.takeWhile_append_of_pos (l₂ := []) h
  simpa using this

theorem cut_padded (w : Nat) (p : Str) (h : ' ' ∉ p) : (cut ' ' (padded w p)).1 = p := by
  unfold padded
  cases hk : w - p.length with
  | zero =>
    rw [List.replicate_zero, List.append_nil]
    unfold cut
    dsimp only
    refine takeWhile_self _ _ ?_
    intro x hx
    simp only [ne_eq, decide_not, Bool.not_eq_eq_eq_not, Bool.not_true, decide_eq_false_iff_not]
    exact fun e => h (e ▸ hx)
  | succ k =>
    rw [List.replicate_succ, cut_append _ _ _ h]

theorem digits_free (b : Nat) (hb : 2 ≤ b) (hb' : b ≤ 16) (n : Nat) (c : Char) (h : ∀ d < 16, digitChar d ≠ c) :
    c ∉ digits b n := by
  intro hc
  obtain ⟨d, hd, rfl⟩ := mem_digits b n hb c hc
  exact h d (by omega) rfl

theorem padded_free (w : Nat) (s : Str) (c : Char) (h : c ∉ s) (hc : c ≠ ' ') : c ∉ padded w s := by
  unfold padded
  simp only [List.mem_append, List.mem_replicate, not_or, not_and]
  exact ⟨h, fun _ => hc⟩

theorem number_padded (b : Nat) (hb : 2 ≤ b) (hb' : b ≤ 16) (w n : Nat) : number b (padded w (digits b n)) = some n := by
  unfold number
  rw [cut_padded w _ (digits_free b hb hb' n ' ' (by decide))]
  exact parse_digits b n hb (by omega)

/-- The text of a date has only characters of the ISO 8601 text, and a space. -/
theorem mem_date (env : LogJson.Env) (t : Int) (c : Char) (h : c ∈ LogJson.dateText env t) : c ∈ env.iso t ∨ c = ' ' := by
  unfold LogJson.dateText at h
  dsimp only at h
  simp only [List.mem_append, List.mem_singleton] at h
  have hs : ∀ i j, c ∈ slice (env.iso t) i j → c ∈ env.iso t := by
    intro i j hc
    unfold slice at hc
    exact List.mem_of_mem_take (List.mem_of_mem_drop hc)
  rcases h with (((h | h) | h) | h) | h
  · exact .inl (List.mem_of_mem_take h)
  · exact .inr h
  · exact .inl (hs _ _ h)
  · exact .inl (hs _ _ h)
  · exact .inl (hs _ _ h)

/-- C170.  An entry with a type and a message has a line, from which the fields can be read. -/
theorem C170_fields (env : LogJson.Env) (e : Entry) (h : e.Ok) (hd : '\t' ∉ env.iso e.time) :
    ∃ s m, entryLine env e = .ok s ∧ shownMessage e = .ok m ∧ readLine s =
      ⟨LogJson.dateText env e.time, some (e.thread.getD 0), e.type.getD [], some (e.activity.getD 0),
        some (e.process.getD 0), some (e.ttl.getD 0), m ++ ['\n']⟩ := by
  obtain ⟨⟨t, ht, h1, h2⟩, hm⟩ := h
  obtain ⟨m, hm⟩ := Option.ne_none_iff_exists'.mp hm
  refine ⟨_, _, by unfold entryLine shownMessage; rw [hm, ht], by unfold shownMessage; rw [hm], ?_⟩
  have hdate : '\t' ∉ LogJson.dateText env e.time := fun hc => (mem_date env _ _ hc).elim hd (by decide)
  have tab : ∀ d < 16, digitChar d ≠ '\t' := by decide
  have hex : ∀ w n, '\t' ∉ '0' :: 'x' :: padded w (digits 16 n) := by
    intro w n hc
    rcases List.mem_cons.mp hc with hc | hc
    · exact absurd hc (by decide)
    · rcases List.mem_cons.mp hc with hc | hc
      · exact absurd hc (by decide)
      · exact padded_free w _ _ (digits_free 16 (by decide) (by decide) n _ tab) (by decide) hc
  have dec : ∀ w n, '\t' ∉ padded w (digits 10 n) := fun w n =>
    padded_free w _ _ (digits_free 10 (by decide) (by decide) n _ tab) (by decide)
  unfold readLine
  dsimp only
  rw [cut_append _ _ _ hdate]
  dsimp only
  rw [show ∀ (x r : Str), ('0' :: 'x' :: (x ++ r)) = ('0' :: 'x' :: x) ++ r from fun _ _ => rfl,
    cut_append _ _ _ (hex 8 _)]
  dsimp only
  rw [cut_append _ _ _ (padded_free 11 _ _ h2 (by decide))]
  dsimp only
  rw [show ∀ (x r : Str), ('0' :: 'x' :: (x ++ r)) = ('0' :: 'x' :: x) ++ r from fun _ _ => rfl,
    cut_append _ _ _ (hex 18 _)]
  dsimp only
  rw [cut_append _ _ _ (dec 6 _)]
  dsimp only
  rw [cut_append _ _ _ (dec 4 _)]
  dsimp only
  rw [List.drop_succ_cons, List.drop_succ_cons, List.drop_zero, List.drop_succ_cons, List.drop_succ_cons, List.drop_zero,
    number_padded 16 (by decide) (by decide), number_padded 16 (by decide) (by decide),
    number_padded 10 (by decide) (by decide), number_padded 10 (by decide) (by decide), cut_padded 11 t h1, ht]
  rfl

/-- C170.  Entries with the same line have the same fields. -/
theorem C170_recovers (env : LogJson.Env) (e e' : Entry) (h : e.Ok) (h' : e'.Ok) (hd : '\t' ∉ env.iso e.time)
    (hd' : '\t' ∉ env.iso e'.time) (hs : entryLine env e = entryLine env e') :
    LogJson.dateText env e.time = LogJson.dateText env e'.time ∧ e.thread.getD 0 = e'.thread.getD 0 ∧ e.type = e'.type ∧
      e.activity.getD 0 = e'.activity.getD 0 ∧ e.process.getD 0 = e'.process.getD 0 ∧ e.ttl.getD 0 = e'.ttl.getD 0 ∧
      shownMessage e = shownMessage e' := by
  obtain ⟨s, m, e1, e2, e3⟩ := C170_fields env e h hd
  obtain ⟨s', m', f1, f2, f3⟩ := C170_fields env e' h' hd'
  rw [e1, f1] at hs
  cases hs
  rw [e3] at f3
  simp only [Fields.mk.injEq, Option.some.injEq, List.append_cancel_right_eq] at f3
  obtain ⟨a, b, c, d, e, f, g⟩ := f3
  obtain ⟨⟨t, ht, _⟩, _⟩ := h
  obtain ⟨⟨t', ht', _⟩, _⟩ := h'
  rw [ht, ht'] at c
  refine ⟨a, b, ?_, d, e, f, by rw [e2, f2, g]⟩
  rw [ht, ht']
  exact congrArg some c

/-- C170.  The message of an entry is at the end of its line. -/
theorem C170_message (e : Entry) (x m : Str) (hx : e.message = some x) (hm : shownMessage e = .ok m) : x <:+ m := by
  unfold shownMessage at hm
  rw [hx] at hm
  cases hm
  generalize prefixes e = l
  induction l with
  | nil => exact ⟨[], by simp [join]⟩
  | cons p l ih =>
    rw [List.cons_append, LogJson.join_cons_ne _ _ _ (by simp)]
    exact ih.trans (List.suffix_append _ _)

/-- C170.  What the line has of an entry that is read: of one of a record, of a dump, and of the start of the system or
the setting of its clock. -/
theorem C170_entries (env : LogJson.Env) (hd : ∀ t, '\t' ∉ env.iso t) :
    (∀ (e : Unified.LogEntry) (t : Str), e.eventType = some t → ' ' ∉ t → '\t' ∉ t →
      ∃ s m, entryLine env (ofRead (.point e)) = .ok s ∧ e.message <:+ m ∧ readLine s =
        ⟨LogJson.dateText env e.timestamp, some e.thread, t, some (e.activity.getD 0), some (e.pid.getD 0), some e.ttl,
          m ++ ['\n']⟩) ∧
    (∀ (e : Unified.DumpEntry) (time : Int), ' ' ∉ e.eventType → '\t' ∉ e.eventType →
      ∃ s m, entryLine env (ofRead (.dump e time)) = .ok s ∧ e.message <:+ m ∧ readLine s =
        ⟨LogJson.dateText env time, some (e.thread.getD 0), e.eventType, some (e.activity.getD 0), some e.pid, some 0,
          m ++ ['\n']⟩) ∧
    (∀ (m : Str) (n : Nat) (time : Int), entryLine env (ofRead (.boot m n time)) = entryLine env (ofRead (.adjusted m n time)) ∧
      ∃ s, entryLine env (ofRead (.boot m n time)) = .ok s ∧ readLine s =
        ⟨LogJson.dateText env time, some 0, "timesyncEvent".toList, some 0, some 0, some 0, m ++ ['\n']⟩) := by
  refine ⟨?_, ?_, ?_⟩
  · intro e t ht h1 h2
    obtain ⟨s, m, e1, e2, e3⟩ := C170_fields env (ofRead (.point e)) ⟨⟨t, ht, h1, h2⟩, Option.some_ne_none _⟩ (hd _)
    refine ⟨s, m, e1, C170_message _ _ m rfl e2, ?_⟩
    rw [e3]
    unfold ofRead
    dsimp only
    rw [ht]
    rfl
  · intro e time h1 h2
    obtain ⟨s, m, e1, e2, e3⟩ := C170_fields env (ofRead (.dump e time)) ⟨⟨_, rfl, h1, h2⟩, Option.some_ne_none _⟩ (hd _)
    exact ⟨s, m, e1, C170_message _ _ m rfl e2, e3⟩
  · intro m n time
    refine ⟨rfl, ?_⟩
    obtain ⟨s, x, e1, e2, e3⟩ := C170_fields env (ofRead (.boot m n time)) ⟨⟨_, rfl, by decide, by decide⟩, Option.some_ne_none _⟩ (hd _)
    cases e2
    exact ⟨s, e1, e3⟩

theorem entriesText_ok (env : LogJson.Env) (es : List Entry) (h : ∀ e ∈ es, ∃ s, entryLine env e = .ok s) :
    entriesText env es = (es.flatMap (fun e => (entryLine env e).toOption.getD []), none) := by
  induction es with
  | nil => rfl
  | cons e es ih =>
    obtain ⟨s, hs⟩ := h e (List.mem_cons_self ..)
    rw [entriesText, hs, ih (fun x hx => h x (List.mem_cons_of_mem _ hx)), List.flatMap_cons, hs]
    rfl

/-- C170.  All entries of a file that is read are written, in order of time, if all have a type: each with its line. -/
theorem C170_shown_partial (env : LogJson.Env) (es : List Unified.ReadEntry) (s : Unified.FileState)
    (h : ∀ e ∈ es, (ofRead e).type ≠ none) :
    ∃ out : List Entry, out.Perm (es.map ofRead) ∧ out.Pairwise (fun a b => a.time ≤ b.time) ∧
      ∃ lines : List Str, out.map (entryLine env) = lines.map .ok ∧
        traceText env (es, .ok s) = some (LogJson.heading ++ tableHeading ++ ['\n'] ++ lines.flatten, none) := by
  obtain ⟨out, h1, h2, h3⟩ := Heap.C149_order_partial Entry.time (es.map ofRead)
  have hok : ∀ e ∈ out, ∃ s, entryLine env e = .ok s := by
    intro e he
    obtain ⟨r, hr, rfl⟩ := List.mem_map.mp (h2.mem_iff.mp he)
    have ht := h r hr
    obtain ⟨t, ht⟩ := Option.ne_none_iff_exists'.mp ht
    have hm : ∃ m, (ofRead r).message = some m := by cases r <;> exact ⟨_, rfl⟩
    obtain ⟨m, hm⟩ := hm
    exact ⟨_, by unfold entryLine shownMessage; rw [hm, ht]⟩
  refine ⟨out, h2, h3, out.map (fun e => (entryLine env e).toOption.getD []), ?_, ?_⟩
  · rw [List.map_map]
    refine List.map_congr_left fun e he => ?_
    obtain ⟨s, hs⟩ := hok e he
    rw [Function.comp_apply, hs]
    rfl
  · unfold traceText
    dsimp only
    rw [h1, Option.map_some, entriesText_ok env out hok]
    simp [List.flatMap_def]

/-- C170.  It would be nice if all entries of a file were written. -/
def C170_shown_claim : Prop := ∀ (env : LogJson.Env) (es : List Unified.ReadEntry) (s : Unified.FileState),
  ∃ t, traceText env (es, .ok s) = some (t, none)

/-- C170.  An entry without a type ends the output: the entries before it are written, it and those after it are not. -/
theorem C170_untyped (env : LogJson.Env) (before after : List Entry) (e : Entry) (ht : e.type = none)
    (h : ∀ x ∈ before, ∃ s, entryLine env x = .ok s) :
    entriesText env (before ++ e :: after) = ((entriesText env before).1, some .typeError) := by
  induction before with
  | nil =>
    have : entryLine env e = .error .typeError := by
      unfold entryLine shownMessage
      cases e.message with
      | none => rfl
      | some m => dsimp only; rw [ht]
    rw [List.nil_append]
    simp only [entriesText]
    rw [this]
  | cons x xs ih =>
    obtain ⟨s, hs⟩ := h x (List.mem_cons_self ..)
    rw [List.cons_append, entriesText, hs, entriesText, hs, ih (fun y hy => h y (List.mem_cons_of_mem _ hy))]

/-- C170.  Such entries are those of activities other than of creation and of user actions, and of unknown records: all
others have a type. -/
theorem C170_types (e : Unified.LogEntry) (recordType logType : Nat) (h : e.eventType = Unified.eventType recordType logType) :
    (ofRead (.point e)).type ≠ none ↔
      recordType = 2 ∧ (logType = 1 ∨ logType = 3) ∨ recordType = 3 ∨ recordType = 4 ∨ recordType = 6 ∨ recordType = 7 := by
  show e.eventType ≠ none ↔ _
  rw [h]
  unfold Unified.eventType
  split
  · rename_i h2
    simp only [List.lookup]
    by_cases a : logType = 1
    · subst a; simp [h2]
    · by_cases b : logType = 3
      · subst b; simp [h2]
      · have e1 : (logType == 1) = false := by simpa using a
        have e3 : (logType == 3) = false := by simpa using b
        rw [e1, e3]
        simp only [ne_eq, not_true_eq_false, false_iff]
        omega
  · rename_i h2
    simp only [List.lookup]
    by_cases a : recordType = 4
    · subst a; simp
    · by_cases b : recordType = 7
      · subst b; simp
      · by_cases c : recordType = 6
        · subst c; simp
        · by_cases d : recordType = 3
          · subst d; simp
          · have e1 : (recordType == 4) = false := by simpa using a
            have e2 : (recordType == 7) = false := by simpa using b
            have e3 : (recordType == 6) = false := by simpa using c
            have e4 : (recordType == 3) = false := by simpa using d
            rw [e1, e2, e3, e4]
            simp only [ne_eq, not_true_eq_false, false_iff]
            omega

/-- C170.  It would be nice if the entries before damage were written, as they are delivered (C148). -/
def C170_damage_claim : Prop := ∀ (env : LogJson.Env) (es : List Unified.ReadEntry) (err : Err), es ≠ [] →
  ∃ t r, traceText env (es, .error err) = some (LogJson.heading ++ t, r) ∧ t ≠ []

/-- C170.  Of a damaged file only the heading is written. -/
theorem C170_damage (env : LogJson.Env) (es : List Unified.ReadEntry) (err : Err) :
    traceText env (es, .error err) = some (LogJson.heading, some err) := rfl

theorem C170_damage_claim_false : ¬ C170_damage_claim := fun h => by
  obtain ⟨t, r, h1, h2⟩ := h ⟨fun _ => false, fun _ => []⟩ [.boot [] 0 0] .parseError (by simp)
  rw [C170_damage] at h1
  simp only [Option.some.injEq, Prod.mk.injEq] at h1
  exact h2 (List.append_cancel_left ((List.append_nil _).trans h1.1)).symm

/-- A log entry as in the documentation. -/
def sampleEntry : Entry :=
  { activity := some 0x30, category := some "c".toList, message := some "m".toList, process := some 7,
    processPath := some "/usr/sbin/p".toList, senderPath := some "/usr/lib/s".toList, subSystem := some "b".toList,
    thread := some 0x2f, time := 0, type := some "logEvent".toList }

def samplePoint (t : Option Str) : Unified.ReadEntry :=
  .point { eventType := t, machTime := 0, timestamp := 0, thread := 0, traceIdentifier := 0, processImage := none }

theorem C170_shown_claim_false : ¬ C170_shown_claim := fun h => by
  obtain ⟨t, ht⟩ := h LogJson.sampleEnv [samplePoint none] ⟨none, [], []⟩
  have : (traceText LogJson.sampleEnv ([samplePoint none], .ok ⟨none, [], []⟩)).map (·.2) = some (some .typeError) := by
    decide +kernel
  rw [ht] at this
  cases this

/-! ## Lines -/

/-- C170.  It would be nice if every entry were written as one line. -/
def C170_one_line_claim : Prop := ∀ (env : LogJson.Env) (e : Entry) (s : Str), '\n' ∉ env.iso e.time →
  entryLine env e = .ok s → s.count '\n' = 1

/-- C170.  It would be nice if the lines told the entries from each other. -/
def C170_forged_claim : Prop := ∀ (env : LogJson.Env) (es es' : List Entry), entriesText env es = entriesText env es' →
  es.length = es'.length

/-- The message of an entry may have the line of another. -/
def forger : Entry :=
  { sampleEntry with message := some (("m\n".toList ++ ((entryLine LogJson.sampleEnv sampleEntry).toOption.getD []).dropLast)) }

theorem C170_forged_claim_false : ¬ C170_forged_claim := fun h => by
  have := h LogJson.sampleEnv [forger] [sampleEntry, sampleEntry] (by decide +kernel)
  revert this
  decide

theorem C170_one_line_claim_false : ¬ C170_one_line_claim := fun h => by
  have h1 : entryLine LogJson.sampleEnv { sampleEntry with message := some "a\nb".toList } =
    .ok ((entryLine LogJson.sampleEnv { sampleEntry with message := some "a\nb".toList }).toOption.getD []) := by decide +kernel
  have := h LogJson.sampleEnv { sampleEntry with message := some "a\nb".toList } _ (by decide) h1
  revert this
  decide +kernel

theorem mem_baseName (s : Str) (c : Char) (h : c ∈ baseName s) : c ∈ s := by
  unfold baseName at h
  rw [List.mem_reverse] at h
  exact List.mem_reverse.mp ((List.takeWhile_sublist _).subset h)

theorem mem_join (sep : Str) (l : List Str) (c : Char) (h : c ∈ join sep l) : c ∈ sep ∨ ∃ s ∈ l, c ∈ s := by
  induction l with
  | nil => simp [join] at h
  | cons x l ih =>
    cases l with
    | nil => exact .inr ⟨x, by simp, by simpa [join] using h⟩
    | cons y l =>
      rw [LogJson.join_cons_ne sep x (y :: l) (by simp)] at h
      simp only [List.mem_append] at h
      rcases h with (h | h) | h
      · exact .inr ⟨x, by simp, h⟩
      · exact .inl h
      · rcases ih h with h | ⟨s, hs, h⟩
        · exact .inl h
        · exact .inr ⟨s, List.mem_cons_of_mem _ hs, h⟩

theorem message_single (e : Entry) (h : e.Single) (m : Str) (hm : shownMessage e = .ok m) : '\n' ∉ m := by
  unfold shownMessage at hm
  cases hmm : e.message with
  | none => rw [hmm] at hm; cases hm
  | some x =>
    rw [hmm] at hm
    dsimp only at hm
    cases hm
    intro hc
    rcases mem_join _ _ _ hc with hc | ⟨s, hs, hc⟩
    · exact absurd hc (by decide)
    · unfold prefixes at hs
      simp only [List.mem_append, List.mem_singleton] at hs
      rcases hs with ((hs | hs) | hs) | hs
      · split at hs
        · rename_i c p hp
          rw [List.mem_singleton] at hs
          subst hs
          rcases List.mem_append.mp hc with hc | hc
          · exact h _ (.inr (.inl hp)) (mem_baseName _ _ hc)
          · exact absurd hc (by decide)
        · cases hs
      · split at hs
        · rename_i c p hp
          rw [List.mem_singleton] at hs
          subst hs
          rcases List.mem_append.mp hc with hc | hc
          · rcases List.mem_append.mp hc with hc | hc
            · exact absurd hc (by decide)
            · exact h _ (.inr (.inr (.inl hp))) (mem_baseName _ _ hc)
          · exact absurd hc (by decide)
        · cases hs
      · split at hs
        · rename_i c p d q hp hq
          rw [List.mem_singleton] at hs
          subst hs
          simp only [List.mem_append] at hc
          rcases hc with (((hc | hc) | hc) | hc) | hc
          · exact absurd hc (by decide)
          · exact h _ (.inr (.inr (.inr (.inl hp)))) hc
          · exact absurd hc (by decide)
          · exact h _ (.inr (.inr (.inr (.inr (.inl hq))))) hc
          · exact absurd hc (by decide)
        · cases hs
      · exact h _ (.inl hmm) (hs ▸ hc)

/-- C170.  Entries without line breaks in their texts are written as one line each. -/
theorem C170_one_line_partial (env : LogJson.Env) (e : Entry) (s : Str) (h : e.Single) (hd : '\n' ∉ env.iso e.time)
    (hs : entryLine env e = .ok s) : ∃ l, s = l ++ ['\n'] ∧ '\n' ∉ l := by
  unfold entryLine at hs
  cases hm : shownMessage e with
  | error x => rw [hm] at hs; cases hs
  | ok m =>
    rw [hm] at hs
    dsimp only at hs
    cases ht : e.type with
    | none => rw [ht] at hs; cases hs
    | some t =>
      rw [ht] at hs
      dsimp only at hs
      have nl : ∀ d < 16, digitChar d ≠ '\n' := by decide
      have h1 : '\n' ∉ LogJson.dateText env e.time := fun hc => (mem_date env _ _ hc).elim hd (by decide)
      have h2 : ∀ w n, '\n' ∉ padded w (digits 16 n) := fun w n =>
        padded_free w _ _ (digits_free 16 (by decide) (by decide) n _ nl) (by decide)
      have h3 : ∀ w n, '\n' ∉ padded w (digits 10 n) := fun w n =>
        padded_free w _ _ (digits_free 10 (by decide) (by decide) n _ nl) (by decide)
      have h4 : '\n' ∉ padded 11 t := padded_free _ _ _ (h t (.inr (.inr (.inr (.inr (.inr ht)))))) (by decide)
      have h5 := message_single e h m hm
      refine ⟨LogJson.dateText env e.time ++ ('\t' :: '0' :: 'x' :: (padded 8 (digits 16 (e.thread.getD 0)) ++
        ('\t' :: (padded 11 t ++ ('\t' :: '0' :: 'x' :: (padded 18 (digits 16 (e.activity.getD 0)) ++
          ('\t' :: (padded 6 (digits 10 (e.process.getD 0)) ++ ('\t' :: (padded 4 (digits 10 (e.ttl.getD 0)) ++
            ('\t' :: m))))))))))), ?_, ?_⟩
      · cases hs
        simp
      · simp only [List.mem_append, List.mem_cons, not_or]
        exact ⟨h1, by decide, by decide, by decide, h2 _ _, by decide, h4, by decide, by decide, by decide, h2 _ _,
          by decide, h3 _ _, by decide, h3 _ _, by decide, h5⟩

theorem lines_injective (a b : List Str) (ha : ∀ s ∈ a, ∃ l, s = l ++ ['\n'] ∧ '\n' ∉ l)
    (hb : ∀ s ∈ b, ∃ l, s = l ++ ['\n'] ∧ '\n' ∉ l) (h : a.flatten = b.flatten) : a = b := by
  induction a generalizing b with
  | nil =>
    cases b with
    | nil => rfl
    | cons s b =>
      obtain ⟨l, rfl, _⟩ := hb s (List.mem_cons_self ..)
      simp at h
  | cons s a ih =>
    obtain ⟨l, rfl, hl⟩ := ha s (List.mem_cons_self ..)
    cases b with
    | nil => simp at h
    | cons s' b =>
      obtain ⟨l', rfl, hl'⟩ := hb s' (List.mem_cons_self ..)
      rw [List.flatten_cons, List.flatten_cons, List.append_assoc, List.append_assoc] at h
      have h1 := cut_append '\n' l a.flatten hl
      have h2 := cut_append '\n' l' b.flatten hl'
      simp only [List.singleton_append] at h
      rw [h, h2] at h1
      simp only [Prod.mk.injEq] at h1
      rw [h1.1, ih b (fun x hx => ha x (List.mem_cons_of_mem _ hx)) (fun x hx => hb x (List.mem_cons_of_mem _ hx)) h1.2.symm]

/-- C170.  Lists of such entries with the same output have the same lines. -/
theorem C170_forged_partial (env : LogJson.Env) (es es' : List Entry)
    (h : ∀ e ∈ es ++ es', e.Single ∧ '\n' ∉ env.iso e.time ∧ ∃ s, entryLine env e = .ok s)
    (hs : entriesText env es = entriesText env es') : es.map (entryLine env) = es'.map (entryLine env) := by
  have key : ∀ l : List Entry, (∀ e ∈ l, e.Single ∧ '\n' ∉ env.iso e.time ∧ ∃ s, entryLine env e = .ok s) →
      ∃ ls : List Str, l.map (entryLine env) = ls.map .ok ∧ (∀ s ∈ ls, ∃ l, s = l ++ ['\n'] ∧ '\n' ∉ l) ∧
        entriesText env l = (ls.flatten, none) := by
    intro l hl
    induction l with
    | nil => exact ⟨[], rfl, by simp, rfl⟩
    | cons e l ih =>
      obtain ⟨ls, i1, i2, i3⟩ := ih (fun x hx => hl x (List.mem_cons_of_mem _ hx))
      obtain ⟨h1, h2, s, h3⟩ := hl e (List.mem_cons_self ..)
      refine ⟨s :: ls, by rw [List.map_cons, List.map_cons, i1, h3], ?_, ?_⟩
      · intro x hx
        rcases List.mem_cons.mp hx with rfl | hx
        · exact C170_one_line_partial env e x h1 h2 h3
        · exact i2 x hx
      · rw [entriesText, h3, i3]
        rfl
  obtain ⟨a, a1, a2, a3⟩ := key es (fun e he => h e (List.mem_append_left _ he))
  obtain ⟨b, b1, b2, b3⟩ := key es' (fun e he => h e (List.mem_append_right _ he))
  rw [a3, b3] at hs
  rw [a1, b1, lines_injective a b a2 b2 (congrArg Prod.fst hs)]

/-! ## Parts of the message -/

/-- C170.  It would be nice if the line told by which process an entry is. -/
def C170_process_claim : Prop := ∀ (e e' : Entry), e.Ok → e'.Ok → shownMessage e = shownMessage e' →
  e.processPath.map baseName = e'.processPath.map baseName

theorem C170_process_claim_false : ¬ C170_process_claim := fun h => by
  have := h { message := some "b".toList, processPath := some "a".toList, time := 0, type := some "logEvent".toList }
    { message := some "a: b".toList, time := 0, type := some "logEvent".toList }
    ⟨⟨_, rfl, by decide, by decide⟩, by decide⟩ ⟨⟨_, rfl, by decide, by decide⟩, by decide⟩ (by decide)
  revert this
  decide

/-- An entry with all parts, in which the marks after the names are not part of them. -/
structure Parts (e : Entry) (process sender sub category message : Str) : Prop where
  process : ∃ p, e.processPath = some p ∧ p ≠ [] ∧ baseName p = process ∧ ':' ∉ process
  sender : ∃ p, e.senderPath = some p ∧ p ≠ [] ∧ baseName p = sender ∧ ')' ∉ sender
  sub : e.subSystem = some sub ∧ sub ≠ [] ∧ ':' ∉ sub
  category : e.category = some category ∧ category ≠ [] ∧ ']' ∉ category
  message : e.message = some message

theorem Parts.shown {e : Entry} {p s b c m : Str} (h : Parts e p s b c m) :
    shownMessage e = .ok (p ++ ':' :: (' ' :: '(' :: (s ++ ')' :: (' ' :: '[' :: (b ++ ':' :: (c ++ ']' :: (' ' :: m))))))) := by
  obtain ⟨⟨pp, p1, p2, p3, _⟩, ⟨sp, s1, s2, s3, _⟩, ⟨b1, b2, _⟩, ⟨c1, c2, _⟩, hm⟩ := h
  unfold shownMessage prefixes
  rw [hm, p1, s1, b1, c1]
  obtain ⟨x, pp, rfl⟩ := List.exists_cons_of_ne_nil p2
  obtain ⟨y, sp, rfl⟩ := List.exists_cons_of_ne_nil s2
  obtain ⟨z, b, rfl⟩ := List.exists_cons_of_ne_nil b2
  obtain ⟨w, c, rfl⟩ := List.exists_cons_of_ne_nil c2
  dsimp only
  rw [p3, s3]
  simp [join]

/-- C170.  It does, and tells the sender, sub system and category, if all of them are there. -/
theorem C170_process_partial (e e' : Entry) (p s b c m p' s' b' c' m' : Str) (h : Parts e p s b c m)
    (h' : Parts e' p' s' b' c' m') (hs : shownMessage e = shownMessage e') :
    p = p' ∧ s = s' ∧ b = b' ∧ c = c' ∧ m = m' := by
  rw [h.shown, h'.shown] at hs
  have hs := Except.ok.inj hs
  obtain ⟨_, _, _, _, q1⟩ := h.process
  obtain ⟨_, _, _, _, q1'⟩ := h'.process
  obtain ⟨_, _, _, _, q2⟩ := h.sender
  obtain ⟨_, _, _, _, q2'⟩ := h'.sender
  have e1 := congrArg (cut ':') hs
  rw [cut_append _ _ _ q1, cut_append _ _ _ q1'] at e1
  simp only [Prod.mk.injEq, List.cons.injEq, true_and] at e1
  have e2 := congrArg (cut ')') e1.2
  rw [cut_append _ _ _ q2, cut_append _ _ _ q2'] at e2
  simp only [Prod.mk.injEq, List.cons.injEq, true_and] at e2
  have e3 := congrArg (cut ':') e2.2
  rw [cut_append _ _ _ h.sub.2.2, cut_append _ _ _ h'.sub.2.2] at e3
  simp only [Prod.mk.injEq] at e3
  have e4 := congrArg (cut ']') e3.2
  rw [cut_append _ _ _ h.category.2.2, cut_append _ _ _ h'.category.2.2] at e4
  simp only [Prod.mk.injEq, List.cons.injEq, true_and] at e4
  exact ⟨e1.1, e2.1, e3.1, e4.1, e4.2⟩

/-- C170.  The name of an image is what comes after the last slash of its path. -/
theorem C170_base_name (directory name : Str) (h : '/' ∉ name) :
    baseName (directory ++ '/' :: name) = name ∧ baseName name = name := by
  have hr : ∀ c ∈ name.reverse, decide (c ≠ '/') = true := by
    intro c hc
    simp only [ne_eq, decide_not, Bool.not_eq_eq_eq_not, Bool.not_true, decide_eq_false_iff_not]
    exact fun e => h (e ▸ List.mem_reverse.mp hc)
  unfold baseName
  constructor
  · rw [List.reverse_append, List.reverse_cons, List.append_assoc, List.takeWhile_append_of_pos hr]
    simp
  · rw [takeWhile_self _ _ hr, List.reverse_reverse]

/-- C170.  It would be nice if the sub system of an entry were written. -/
def C170_sub_system_claim : Prop := ∀ (e : Entry) (s m : Str), e.subSystem = some s → shownMessage e = .ok m → s <:+: m

/-- C170.  It is not if there is no category, as with all simple dumps. -/
theorem C170_sub_system (d : Unified.DumpEntry) (t : Int) (s : Option Str) :
    shownMessage (ofRead (.dump { d with subSystem := s } t)) = shownMessage (ofRead (.dump d t)) := by
  unfold shownMessage prefixes ofRead
  dsimp only
  cases s with
  | none => cases d.subSystem with
    | none => rfl
    | some x => cases x <;> rfl
  | some y => cases d.subSystem with
    | none => cases y <;> rfl
    | some x => cases x <;> cases y <;> rfl

theorem C170_sub_system_claim_false : ¬ C170_sub_system_claim := fun h => by
  have := h { message := some "b".toList, subSystem := some "a".toList, time := 0, type := none } _ _ rfl rfl
  revert this
  decide

/-! ## Columns -/

/-- Where the columns of the heading begin. -/
def columns : List (Nat × Str) :=
  [(32, "Thread".toList), (43, "Type".toList), (55, "Activity".toList), (76, "PID".toList), (83, "TTL".toList)]

/-- The fields of a line that begin where those of the heading begin. -/
def Aligned (e : Entry) (s : Str) : Prop :=
  (['0', 'x'] ++ digits 16 (e.thread.getD 0)) <+: s.drop 32 ∧ e.type.getD [] <+: s.drop 43 ∧
    (['0', 'x'] ++ digits 16 (e.activity.getD 0)) <+: s.drop 55 ∧ digits 10 (e.process.getD 0) <+: s.drop 76 ∧
    digits 10 (e.ttl.getD 0) <+: s.drop 83

/-- C170.  It would be nice if the fields were below their headings. -/
def C170_columns_claim : Prop := ∀ (env : LogJson.Env) (e : Entry) (s : Str), (LogJson.dateText env e.time).length = 31 →
  entryLine env e = .ok s → Aligned e s

/-- The headings are where `columns` has them. -/
theorem C170_heading : ∀ c ∈ columns, c.2 <+: tableHeading.drop c.1 := by decide +kernel

theorem padded_length (w : Nat) (s : Str) (h : s.length ≤ w) : (padded w s).length = w := by
  unfold padded
  rw [List.length_append, List.length_replicate]
  omega

/-- C170.  They are, with tabs as single characters, if no field is longer than its column. -/
theorem C170_columns_partial (env : LogJson.Env) (e : Entry) (s : Str) (hd : (LogJson.dateText env e.time).length = 31)
    (h1 : e.thread.getD 0 < 16 ^ 8) (h2 : (e.type.getD []).length ≤ 11) (h3 : e.activity.getD 0 < 16 ^ 18)
    (h4 : e.process.getD 0 < 10 ^ 6) (hs : entryLine env e = .ok s) : Aligned e s := by
  unfold entryLine at hs
  cases hm : shownMessage e with
  | error x => rw [hm] at hs; cases hs
  | ok m =>
    rw [hm] at hs
    dsimp only at hs
    cases ht : e.type with
    | none => rw [ht] at hs; cases hs
    | some t =>
      rw [ht] at hs h2
      dsimp only at hs
      have hs := (Except.ok.inj hs).symm
      have l1 := padded_length 8 _ (digits_length_le 16 (e.thread.getD 0) 7 (by decide) h1)
      have l2 := padded_length 11 t h2
      have l3 := padded_length 18 _ (digits_length_le 16 (e.activity.getD 0) 17 (by decide) h3)
      have l4 := padded_length 6 _ (digits_length_le 10 (e.process.getD 0) 5 (by decide) h4)
      have pre : ∀ w (x r : Str), x <+: padded w x ++ r := fun w x r => ⟨List.replicate (w - x.length) ' ' ++ r, by
        unfold padded; simp⟩
      have drop : ∀ (p r : Str) (n : Nat), p.length = n → (p ++ r).drop n = r := fun p r n h => by
        rw [← h, List.drop_left]
      generalize hq4 : padded 4 (digits 10 (e.ttl.getD 0)) ++ ('\t' :: (m ++ ['\n'])) = r4 at hs
      have p4 : digits 10 (e.ttl.getD 0) <+: r4 := hq4 ▸ pre _ _ _
      generalize hq3 : padded 6 (digits 10 (e.process.getD 0)) ++ ('\t' :: r4) = r3 at hs
      have p3 : digits 10 (e.process.getD 0) <+: r3 := hq3 ▸ pre _ _ _
      generalize hq2 : ('0' :: 'x' :: (padded 18 (digits 16 (e.activity.getD 0)) ++ ('\t' :: r3)) : Str) = r2 at hs
      have p2 : (['0', 'x'] ++ digits 16 (e.activity.getD 0)) <+: r2 := by
        rw [← hq2]
        obtain ⟨t, ht⟩ := pre 18 (digits 16 (e.activity.getD 0)) ('\t' :: r3)
        exact ⟨t, by rw [← ht]; rfl⟩
      generalize hq1 : padded 11 t ++ ('\t' :: r2) = r1 at hs
      have p1 : t <+: r1 := hq1 ▸ pre _ _ _
      generalize hq0 : ('0' :: 'x' :: (padded 8 (digits 16 (e.thread.getD 0)) ++ ('\t' :: r1)) : Str) = r0 at hs
      have p0 : (['0', 'x'] ++ digits 16 (e.thread.getD 0)) <+: r0 := by
        rw [← hq0]
        obtain ⟨t, ht⟩ := pre 8 (digits 16 (e.thread.getD 0)) ('\t' :: r1)
        exact ⟨t, by rw [← ht]; rfl⟩
      have d0 : s.drop 32 = r0 := by
        rw [hs]
        refine (congrArg (List.drop 32) (show _ = (LogJson.dateText env e.time ++ ['\t']) ++ r0 by simp)).trans ?_
        exact drop _ _ _ (by simp [hd])
      have d1 : r0.drop 11 = r1 := by
        rw [← hq0]
        refine (congrArg (List.drop 11) (show _ =
          ('0' :: 'x' :: (padded 8 (digits 16 (e.thread.getD 0)) ++ ['\t'])) ++ r1 by simp)).trans ?_
        exact drop _ _ _ (by simp [l1])
      have d2 : r1.drop 12 = r2 := by
        rw [← hq1]
        refine (congrArg (List.drop 12) (show _ = (padded 11 t ++ ['\t']) ++ r2 by simp)).trans ?_
        exact drop _ _ _ (by simp [l2])
      have d3 : r2.drop 21 = r3 := by
        rw [← hq2]
        refine (congrArg (List.drop 21) (show _ =
          ('0' :: 'x' :: (padded 18 (digits 16 (e.activity.getD 0)) ++ ['\t'])) ++ r3 by simp)).trans ?_
        exact drop _ _ _ (by simp [l3])
      have d4 : r3.drop 7 = r4 := by
        rw [← hq3]
        refine (congrArg (List.drop 7) (show _ = (padded 6 (digits 10 (e.process.getD 0)) ++ ['\t']) ++ r4 by simp)).trans ?_
        exact drop _ _ _ (by simp [l4])
      unfold Aligned
      rw [show 43 = 32 + 11 from rfl, show 55 = 32 + (11 + 12) from rfl, show 76 = 32 + (11 + (12 + 21)) from rfl,
        show 83 = 32 + (11 + (12 + (21 + 7))) from rfl]
      simp only [← List.drop_drop]
      rw [d0, d1, d2, d3, d4, ht]
      exact ⟨p0, p1, p2, p3, p4⟩

theorem C170_columns_claim_false : ¬ C170_columns_claim := fun h => by
  have := (h LogJson.sampleEnv { sampleEntry with type := some "activityCreateEvent".toList } _ (by decide +kernel) rfl).2.2.1
  revert this
  decide +kernel

example : (entryLine LogJson.sampleEnv sampleEntry).toOption.map String.ofList =
    some "2023-01-12 01:36:31.338000+0000\t0x2f      \tlogEvent   \t0x30                \t7     \t0   \tp: (s) [b:c] m\n" := by
  decide +kernel

example : sampleEntry.Ok ∧ Parts sampleEntry "p".toList "s".toList "b".toList "c".toList "m".toList :=
  ⟨⟨⟨_, rfl, by decide, by decide⟩, by decide⟩, ⟨⟨_, rfl, by decide, by decide, by decide⟩, ⟨_, rfl, by decide, by decide, by decide⟩,
    ⟨rfl, by decide, by decide⟩, ⟨rfl, by decide, by decide⟩, rfl⟩⟩

example : (ofRead (samplePoint (some "logEvent".toList))).type ≠ none := by decide

/-! ## Proofs: shared-cache strings -/

/-- What `readTables` adds to the ranges of C73 are the tables. -/
theorem C170_read_tables {S : Type} (cstr : Nat → Res S) (data : Bytes) :
    (readTables cstr data).map (·.2.2) = Unified.readDsc cstr data := by
  unfold readTables Unified.readDsc
  cases structAt (fixedMap 16 id) data 0 with
  | error e => rfl
  | ok h =>
    dsimp only
    split
    · rfl
    · split
      · rfl
      · cases readMany (Unified.rangeMap (leNat (slice h.1 4 6))) data (leNat (slice h.1 8 12)) 16 with
        | error e => rfl
        | ok r =>
          dsimp only
          cases readMany (Unified.uuidMap (leNat (slice h.1 4 6))) data (leNat (slice h.1 12 16)) r.2 with
          | error e => rfl
          | ok u =>
            dsimp only
            cases Unified.imagePaths cstr u.1 with
            | error e => rfl
            | ok ps =>
              dsimp only
              cases Unified.resolveRanges ps r.1 <;> rfl

theorem imagePaths_ok {S : Type} (cstr : Nat → Res S) (us : List Unified.UuidDescriptor)
    (h : ∀ u ∈ us, ∃ p, cstr u.pathOffset = .ok p) :
    ∃ ps, Unified.imagePaths cstr us = .ok ps ∧ ps.map (·.1) = us ∧ ∀ q ∈ ps, cstr q.1.pathOffset = .ok q.2 := by
  induction us with
  | nil => exact ⟨[], rfl, rfl, by simp⟩
  | cons u us ih =>
    obtain ⟨p, hp⟩ := h u (by simp)
    obtain ⟨ps, e, h1, h2⟩ := ih (fun x hx => h x (List.mem_cons_of_mem _ hx))
    refine ⟨(u, p) :: ps, ?_, by simp [h1], ?_⟩
    · rw [Unified.imagePaths, hp]
      simp only [e]
    · intro q hq
      rcases List.mem_cons.mp hq with rfl | hq
      · exact hp
      · exact h2 q hq

theorem readTables_file {S : Type} (cstr : Nat → Res S) (version : Nat) (ranges : List Unified.RangeDescriptor)
    (uuids : List Unified.UuidDescriptor) (rest : Bytes) (hv : version = 1 ∨ version = 2)
    (hr : ∀ r ∈ ranges, r.Fits version ∧ r.uuidIndex < uuids.length)
    (hu : ∀ u ∈ uuids, u.Fits version ∧ ∃ p, cstr u.pathOffset = .ok p)
    (hn : ranges.length < 2 ^ 32) (hm : uuids.length < 2 ^ 32) :
    ∃ ps out, readTables cstr (Unified.dscFile version ranges uuids rest) = .ok (ps, ranges, out) ∧
      ps.map (·.1) = uuids ∧ (∀ q ∈ ps, cstr q.1.pathOffset = .ok q.2) ∧
      List.Forall₂ (Unified.IsRange cstr uuids) ranges out := by
  obtain ⟨out, hout, hall⟩ := Unified.C73_read_dsc cstr version ranges uuids rest hv hr hu hn hm
  obtain ⟨ps, eps, hps1, hps2⟩ := imagePaths_ok cstr uuids (fun u h => (hu u h).2)
  refine ⟨ps, out, ?_, hps1, hps2, hall⟩
  have hvl : version < 2 ^ 16 := by omega
  generalize hhd : [[0x68, 0x63, 0x73, 0x64], leBytes 2 version, leBytes 2 0,
    leBytes 4 ranges.length, leBytes 4 uuids.length].flatten = hd
  have hlen : hd.length = 16 := by rw [← hhd]; simp
  have hfile : Unified.dscFile version ranges uuids rest = hd ++
      ranges.flatMap (Unified.RangeDescriptor.bytes version) ++
      uuids.flatMap (Unified.UuidDescriptor.bytes version) ++ rest := by rw [← hhd]; rfl
  have hst : structAt (fixedMap 16 id) (Unified.dscFile version ranges uuids rest) 0 = .ok (hd, 16) := by
    have := structAt_fixed_append 16 id [] hd (ranges.flatMap (Unified.RangeDescriptor.bytes version) ++
      uuids.flatMap (Unified.UuidDescriptor.bytes version) ++ rest) (by decide) hlen
    rw [hfile]
    simpa using this
  have h0 : hd.take 4 = [0x68, 0x63, 0x73, 0x64] := by rw [← hhd]; rfl
  have h1 : leNat (slice hd 4 6) = version := by
    rw [← hhd]
    exact leField [[0x68, 0x63, 0x73, 0x64]] 2 version [leBytes 2 0, leBytes 4 ranges.length,
      leBytes 4 uuids.length] 4 6 (by simp) (by simp) (by norm_num; omega)
  have h2 : leNat (slice hd 6 8) = 0 := by
    rw [← hhd]
    exact leField [[0x68, 0x63, 0x73, 0x64], leBytes 2 version] 2 0 [leBytes 4 ranges.length,
      leBytes 4 uuids.length] 6 8 (by simp) (by simp) (by norm_num)
  have h3 : leNat (slice hd 8 12) = ranges.length := by
    rw [← hhd]
    exact leField [[0x68, 0x63, 0x73, 0x64], leBytes 2 version, leBytes 2 0] 4 ranges.length
      [leBytes 4 uuids.length] 8 12 (by simp) (by simp) (by norm_num; omega)
  have h4 : leNat (slice hd 12 16) = uuids.length := by
    rw [← hhd]
    exact leField [[0x68, 0x63, 0x73, 0x64], leBytes 2 version, leBytes 2 0,
      leBytes 4 ranges.length] 4 uuids.length [] 12 16 (by simp) (by simp) (by norm_num; omega)
  have m1 := Unified.readMany_fields (Unified.rangeMap version) (Unified.RangeDescriptor.bytes version) ranges
    (fun r h => Unified.range_encodes version r (hr r h).1) hd
    (uuids.flatMap (Unified.UuidDescriptor.bytes version) ++ rest)
  have m2 := Unified.readMany_fields (Unified.uuidMap version) (Unified.UuidDescriptor.bytes version) uuids
    (fun u h => Unified.uuid_encodes version u (hu u h).1)
    (hd ++ ranges.flatMap (Unified.RangeDescriptor.bytes version)) rest
  have e1 : hd ++ ranges.flatMap (Unified.RangeDescriptor.bytes version) ++
      (uuids.flatMap (Unified.UuidDescriptor.bytes version) ++ rest) = Unified.dscFile version ranges uuids rest := by
    rw [hfile]; simp
  rw [e1, hlen] at m1
  rw [← hfile] at m2
  rw [← C170_read_tables] at hout
  unfold readTables at hout ⊢
  rw [hst] at hout ⊢
  dsimp only at hout ⊢
  rw [h0, if_neg (by simp), h1, h2, h3, h4, if_neg (by omega), m1] at hout ⊢
  dsimp only at hout ⊢
  rw [m2] at hout ⊢
  dsimp only at hout ⊢
  rw [eps] at hout ⊢
  dsimp only at hout ⊢
  cases hres : Unified.resolveRanges ps ranges with
  | error e => rw [hres] at hout; cases hout
  | ok o =>
    rw [hres] at hout
    cases hout
    rfl

theorem uuidBlocks_eq (i : Nat) (us : List (Unified.UuidDescriptor × Str)) :
    uuidBlocks i us = ((us.zipIdx i).map (fun x => uuidBlock x.2 x.1)).flatten := by
  induction us generalizing i with
  | nil => rfl
  | cons u us ih => rw [uuidBlocks, ih]; rfl

theorem rangeBlocks_eq (i : Nat) (rs : List (Unified.RangeDescriptor × Unified.Range Str)) :
    rangeBlocks i rs = ((rs.zipIdx i).map (fun x => rangeBlock x.2 x.1.1 x.1.2)).flatten := by
  induction rs generalizing i with
  | nil => rfl
  | cons u us ih => rw [rangeBlocks, ih]; rfl

/-- C170.  Of a shared-cache strings file all UUIDs are written, with the paths they refer to, and after them all ranges,
in order and with their indexes. -/
theorem C170_strings (cstr : Nat → Res Str) (version : Nat) (ranges : List Unified.RangeDescriptor)
    (uuids : List Unified.UuidDescriptor) (rest : Bytes) (hv : version = 1 ∨ version = 2)
    (hr : ∀ r ∈ ranges, r.Fits version ∧ r.uuidIndex < uuids.length)
    (hu : ∀ u ∈ uuids, u.Fits version ∧ ∃ p, cstr u.pathOffset = .ok p)
    (hn : ranges.length < 2 ^ 32) (hm : uuids.length < 2 ^ 32) :
    ∃ (ps : List (Unified.UuidDescriptor × Str)) (out : List (Unified.Range Str)), ps.map (·.1) = uuids ∧ (∀ q ∈ ps, cstr q.1.pathOffset = .ok q.2) ∧
      List.Forall₂ (Unified.IsRange cstr uuids) ranges out ∧
      stringsText cstr (Unified.dscFile version ranges uuids rest) =
        ("Apple Unified Logging and Activity Tracing information:\n".toList ++
          (ps.zipIdx.map (fun x => uuidBlock x.2 x.1)).flatten ++
          ((ranges.zip out).zipIdx.map (fun x => rangeBlock x.2 x.1.1 x.1.2)).flatten, none) := by
  obtain ⟨ps, out, h, h1, h2, h3⟩ := readTables_file cstr version ranges uuids rest hv hr hu hn hm
  refine ⟨ps, out, h1, h2, h3, ?_⟩
  unfold stringsText
  rw [h]
  dsimp only
  rw [uuidBlocks_eq, rangeBlocks_eq]
  rfl

/-- C170.  A file that cannot be read is an error, and nothing is written: not even the heading. -/
theorem C170_strings_error (cstr : Nat → Res Str) (data : Bytes) (e : Err) (h : Unified.readDsc cstr data = .error e) :
    stringsText cstr data = ([], some e) := by
  rw [← C170_read_tables] at h
  unfold stringsText
  cases hr : readTables cstr data with
  | error x => rw [hr] at h; cases h; rfl
  | ok x => rw [hr] at h; cases h

theorem identifierText_eq (b : Bytes) (h : b.length = 16) : Unified.uuidText b = .ok (identifierText b) := by
  obtain ⟨_, _, _, _, _, _, _, _, _, _, e, _⟩ := Unified.C112_uuid b h
  unfold identifierText
  rw [e]

theorem identifier_free (b : Bytes) (h : b.length = 16) (c : Char) (hc : c ∉ "-0123456789ABCDEF".toList) :
    c ∉ identifierText b := by
  obtain ⟨p, q, r, s, t, _, _, _, _, _, e, hm, _⟩ := Unified.C112_uuid b h
  have : identifierText b = join ['-'] [p, q, r, s, t] := by unfold identifierText; rw [e]
  rw [this]
  intro hx
  rcases mem_join _ _ _ hx with hx | ⟨l, hl, hx⟩
  · exact hc (by rw [List.mem_singleton.mp hx]; decide)
  · rename_i hx'
    refine hc (List.mem_cons_of_mem _ (hm c ?_))
    clear hx'
    simp only [List.mem_cons, List.not_mem_nil, or_false] at hl
    simp only [List.mem_append]
    rcases hl with rfl | rfl | rfl | rfl | rfl <;> simp only [hx, or_true, true_or]

theorem identifier_injective (a b : Bytes) (ha : a.length = 16) (hb : b.length = 16)
    (h : identifierText a = identifierText b) : a = b := by
  obtain ⟨p, q, r, s, t, l1, l2, l3, l4, l5, e, _, hp⟩ := Unified.C112_uuid a ha
  obtain ⟨p', q', r', s', t', l1', l2', l3', l4', l5', e', _, hp'⟩ := Unified.C112_uuid b hb
  have ea : identifierText a = join ['-'] [p, q, r, s, t] := by unfold identifierText; rw [e]
  have eb : identifierText b = join ['-'] [p', q', r', s', t'] := by unfold identifierText; rw [e']
  rw [ea, eb] at h
  simp only [join, List.append_assoc] at h
  obtain ⟨h1, k1⟩ := List.append_inj h (l1.trans l1'.symm)
  simp only [List.singleton_append, List.cons.injEq, true_and] at k1
  obtain ⟨h2, k2⟩ := List.append_inj k1 (l2.trans l2'.symm)
  simp only [List.cons.injEq, true_and] at k2
  obtain ⟨h3, k3⟩ := List.append_inj k2 (l3.trans l3'.symm)
  simp only [List.cons.injEq, true_and] at k3
  obtain ⟨h4, k4⟩ := List.append_inj k3 (l4.trans l4'.symm)
  simp only [List.cons.injEq, true_and] at k4
  clear h k1 k2 k3
  subst h1 h2 h3 h4 k4
  rw [hp] at hp'
  exact Spotlight.beNat_injective a b (ha.trans hb.symm) (Option.some.inj hp')

/-- How the value of a line is read: what comes after its tab, up to the end of the line. -/
def valueOf (s : Str) : Str × Str := cut '\n' (cut '\t' s).2

/-- How a block is read: the index at the first line, the index and identifier at the second, offset, end and size at the
third, and the path to the end. -/
def readBlock (s : Str) : Str × Str × Str × Str :=
  let a := cut '\n' s
  let b := valueOf a.2
  let c := valueOf b.2
  (a.1, b.1, c.1, (cut '\t' c.2).2)

theorem interval_line (o n : Nat) : ∃ l, interval o n = l ++ ['\n'] ∧ '\n' ∉ l ∧
    l = ['0', 'x'] ++ Formats.hexw 8 o ++ " .. 0x".toList ++ Formats.hexw 8 (o + n) ++ " (".toList ++ digits 10 n ++ [')'] := by
  refine ⟨_, ?_, ?_, rfl⟩
  · unfold interval
    rw [show ")\n".toList = [')'] ++ ['\n'] from rfl]
    simp only [List.append_assoc]
  · have nl : ∀ d < 16, digitChar d ≠ '\n' := by decide
    have hh : ∀ w x, '\n' ∉ Formats.hexw w x := fun w x => Formats.hexw_notMem w x '\n' nl
    have hd := digits_free 10 (by decide) (by decide) n '\n' nl
    simp only [List.mem_append, not_or]
    exact ⟨⟨⟨⟨⟨⟨by decide, hh _ _⟩, by decide⟩, hh _ _⟩, by decide⟩, hd⟩, by decide⟩

theorem readBlock_eq (top label i2 ident third l path : Str) (h1 : '\n' ∉ top) (h2 : '\t' ∉ label ++ i2) (h3 : '\n' ∉ ident)
    (h4 : '\t' ∉ third) (h5 : '\n' ∉ l) :
    readBlock (top ++ ['\n'] ++ (label ++ i2 ++ ['\t'] ++ ident ++ ['\n']) ++ (third ++ ['\t'] ++ (l ++ ['\n'])) ++
      ("    path:".toList ++ ['\t'] ++ path)) = (top, ident, l, path) := by
  unfold readBlock valueOf
  dsimp only
  rw [show ∀ (r1 r2 r3 : Str), top ++ ['\n'] ++ r1 ++ r2 ++ r3 = top ++ '\n' :: (r1 ++ r2 ++ r3) by simp, cut_append _ _ _ h1]
  dsimp only
  rw [show ∀ (r2 r3 : Str), label ++ i2 ++ ['\t'] ++ ident ++ ['\n'] ++ r2 ++ r3 =
    (label ++ i2) ++ '\t' :: (ident ++ '\n' :: (r2 ++ r3)) by simp, cut_append _ _ _ h2]
  dsimp only
  rw [cut_append _ _ _ h3]
  dsimp only
  rw [show ∀ (r3 : Str), third ++ ['\t'] ++ (l ++ ['\n']) ++ r3 = third ++ '\t' :: (l ++ '\n' :: r3) by simp,
    cut_append _ _ _ h4]
  dsimp only
  rw [cut_append _ _ _ h5]
  dsimp only
  rw [show ∀ x : Str, "    path:".toList ++ ['\t'] ++ x = "    path:".toList ++ '\t' :: x by simp,
    cut_append _ _ _ (by decide)]

/-- C170.  From the block of a UUID its index, identifier, text range and path can be read. -/
theorem C170_uuid_block (i : Nat) (u : Unified.UuidDescriptor) (path : Str) (h : u.ident.length = 16) :
    readBlock (uuidBlock i (u, path)) = ("uuid ".toList ++ digits 10 i ++ [':'], identifierText u.ident,
      ['0', 'x'] ++ Formats.hexw 8 u.textOffset ++ " .. 0x".toList ++ Formats.hexw 8 (u.textOffset + u.textSize) ++
        " (".toList ++ digits 10 u.textSize ++ [')'], path ++ ['\n', '\n']) := by
  obtain ⟨l, e, hn, hl⟩ := interval_line u.textOffset u.textSize
  have dn : '\n' ∉ digits 10 i := digits_free 10 (by decide) (by decide) i _ (by decide)
  have dt : '\t' ∉ digits 10 i := digits_free 10 (by decide) (by decide) i _ (by decide)
  have hb : uuidBlock i (u, path) = ("uuid ".toList ++ digits 10 i ++ [':']) ++ ['\n'] ++
      ("    uuid ".toList ++ (digits 10 i ++ [':']) ++ ['\t'] ++ identifierText u.ident ++ ['\n']) ++
      ("    dsc text:".toList ++ ['\t'] ++ (l ++ ['\n'])) ++ ("    path:".toList ++ ['\t'] ++ (path ++ ['\n', '\n'])) := by
    unfold uuidBlock
    dsimp only
    rw [e]
    simp
  rw [hb, ← hl]
  refine readBlock_eq _ _ _ _ _ _ _ ?_ ?_ (identifier_free _ h _ (by decide)) (by decide) hn
  · simp only [List.mem_append, not_or]
    exact ⟨⟨by decide, dn⟩, by decide⟩
  · simp only [List.mem_append, not_or]
    exact ⟨by decide, dt, by decide⟩

/-- C170.  Likewise from that of a range, with the index of its UUID below the index of the range. -/
theorem C170_range_block (i : Nat) (d : Unified.RangeDescriptor) (r : Unified.Range Str) (h : r.ident.length = 16) :
    readBlock (rangeBlock i d r) = ("Range ".toList ++ digits 10 i ++ [':'], identifierText r.ident,
      ['0', 'x'] ++ Formats.hexw 8 r.rangeOffset ++ " .. 0x".toList ++ Formats.hexw 8 (r.rangeOffset + r.rangeSize) ++
        " (".toList ++ digits 10 r.rangeSize ++ [')'], r.path ++ ['\n', '\n']) ∧
    ("Range ".toList ++ digits 10 i ++ ":\n    uuid ".toList ++ digits 10 d.uuidIndex ++ ":\t".toList) <+: rangeBlock i d r := by
  obtain ⟨l, e, hn, hl⟩ := interval_line r.rangeOffset r.rangeSize
  have dn : '\n' ∉ digits 10 i := digits_free 10 (by decide) (by decide) i _ (by decide)
  have dt : '\t' ∉ digits 10 d.uuidIndex := digits_free 10 (by decide) (by decide) _ _ (by decide)
  constructor
  · have hb : rangeBlock i d r = ("Range ".toList ++ digits 10 i ++ [':']) ++ ['\n'] ++
        ("    uuid ".toList ++ (digits 10 d.uuidIndex ++ [':']) ++ ['\t'] ++ identifierText r.ident ++ ['\n']) ++
        ("    dsc range:".toList ++ ['\t'] ++ (l ++ ['\n'])) ++ ("    path:".toList ++ ['\t'] ++ (r.path ++ ['\n', '\n'])) := by
      unfold rangeBlock
      rw [e]
      simp
    rw [hb, ← hl]
    refine readBlock_eq _ _ _ _ _ _ _ ?_ ?_ (identifier_free _ h _ (by decide)) (by decide) hn
    · simp only [List.mem_append, not_or]
      exact ⟨⟨by decide, dn⟩, by decide⟩
    · simp only [List.mem_append, not_or]
      exact ⟨by decide, dt, by decide⟩
  · unfold rangeBlock
    rw [show ":\n    uuid ".toList = ":\n".toList ++ "    uuid ".toList from rfl]
    simp only [List.append_assoc, List.prefix_append_right_inj]
    exact List.prefix_append _ _

/-- C170.  UUIDs with the same block are the same, but for where the path is in the file. -/
theorem C170_uuid_recovers (i : Nat) (u v : Unified.UuidDescriptor) (p q : Str) (hu : u.ident.length = 16)
    (hv : v.ident.length = 16) (h : uuidBlock i (u, p) = uuidBlock i (v, q)) :
    u.ident = v.ident ∧ u.textOffset = v.textOffset ∧ u.textSize = v.textSize ∧ p = q := by
  have h := congrArg readBlock h
  rw [C170_uuid_block i u p hu, C170_uuid_block i v q hv] at h
  simp only [Prod.mk.injEq, true_and] at h
  obtain ⟨h1, h2, h3⟩ := h
  refine ⟨identifier_injective _ _ hu hv h1, ?_, ?_, List.append_cancel_right h3⟩
  · have := congrArg (cut ' ') h2
    have hf : ∀ n, ' ' ∉ ['0', 'x'] ++ Formats.hexw 8 n := by
      intro n hc
      rcases List.mem_append.mp hc with hc | hc
      · exact absurd hc (by decide)
      · exact Formats.hexw_notMem 8 n ' ' (by decide) hc
    have hc : ∀ n (r : Str), cut ' ' (['0', 'x'] ++ Formats.hexw 8 n ++ " .. 0x".toList ++ r) =
        (['0', 'x'] ++ Formats.hexw 8 n, ".. 0x".toList ++ r) := by
      intro n r
      rw [show " .. 0x".toList = ' ' :: ".. 0x".toList from rfl, List.append_assoc]
      exact cut_append _ _ _ (hf n)
    simp only [List.append_assoc] at this hc
    rw [hc, hc] at this
    simp only [Prod.mk.injEq] at this
    exact Formats.hexw_injective 8 _ _ (List.append_cancel_left this.1)
  · have := congrArg (fun s => (cut '(' s).2) h2
    have hf : ∀ m n, '(' ∉ ['0', 'x'] ++ Formats.hexw 8 m ++ " .. 0x".toList ++ Formats.hexw 8 n ++ [' '] := by
      intro m n
      have hx : ∀ n, '(' ∉ Formats.hexw 8 n := fun n => Formats.hexw_notMem 8 n '(' (by decide)
      simp only [List.mem_append, not_or]
      exact ⟨⟨⟨⟨by decide, hx m⟩, by decide⟩, hx n⟩, by decide⟩
    have hc : ∀ m n (r : Str), cut '(' (['0', 'x'] ++ Formats.hexw 8 m ++ " .. 0x".toList ++ Formats.hexw 8 n ++ " (".toList ++ r) =
        (['0', 'x'] ++ Formats.hexw 8 m ++ " .. 0x".toList ++ Formats.hexw 8 n ++ [' '], r) := by
      intro m n r
      rw [show " (".toList = [' '] ++ ['('] from rfl, ← List.append_assoc _ [' '] ['('], List.append_assoc _ ['('] r]
      exact cut_append _ _ _ (hf m n)
    rw [List.append_assoc _ (digits 10 u.textSize), List.append_assoc _ (digits 10 v.textSize), hc, hc] at this
    exact digits_injective 10 (by decide) (by decide) _ _ (List.append_cancel_right this)

example : (stringsText (fun _ => .ok "/a".toList)
    (Unified.dscFile 1 [⟨5, 60, 7, 0⟩] [⟨1, 2, List.replicate 16 9, 61⟩] [0x61, 0])).1.drop 56 =
    ("uuid 0:\n    uuid 0:\t09090909-0909-0909-0909-090909090909\n    dsc text:\t0x00000001 .. 0x00000003 (2)\n" ++
      "    path:\t/a\n\nRange 0:\n    uuid 0:\t09090909-0909-0909-0909-090909090909\n" ++
      "    dsc range:\t0x00000005 .. 0x0000000c (7)\n    path:\t/a\n\n").toList := by decide +kernel

end Dtf.LogText
