import Verif.ChangeLogDebug
import Verif.UsnDebug
import Verif.Fsevents
import Verif.Utf.Texts

/-!
# What is shown of files of the fseventsd service in debug mode (C198)

The pages are those of the data that is decompressed; the library that does that is not modelled.  Paths are decoded as in the model
of C189.  Nothing of the events is kept by the code: what is shown in debug mode is all that a user sees of them.
-/

namespace Dtf.FseventsDebug
open Py DataFormat Formats Fsevents
open Job (number decimal hexadecimal custom)
open ChangeLogDebug (Out write raise loop)
open UsnDebug (withoutNul)

abbrev Str := List Char

/-! ## Model -/

/-- A path can be decoded. -/
def utf8 (b : Bytes) : Bool := (Utf.decode8 b).isSome

/-- The debug information of a page header (fseventsd.debug.yaml 3-13). -/
def headerAttributes (b : Bytes) : List (Option Attribute) :=
  [custom "Signature" (streamAsString (slice b 0 4)), custom "Unknown1" (HexDump.dump (slice b 4 8)), decimal "Page size" (number b 8 12)]

/-- The debug information of a record (fseventsd.debug.yaml 15-28); one of the first version has no node. -/
def recordAttributes (path : Str) (r : Record) : List (Option Attribute) :=
  [custom "Path" (withoutNul path), decimal "Event identifier" r.identifier, hexadecimal 4 "Flags" r.flags,
    r.node.bind (decimal "Node identifier")]

/-- `_ReadDLSRecord` (fseventsd.py 63-94) in debug mode: the record and the offset after it. -/
def showRecord (data : Bytes) (second : Bool) (off : Nat) : Out (Record × Nat) :=
  write (readingText "DLS record".toList off) <|
  match readRecord utf8 data second off with
  | .error e => raise e
  | .ok (r, next) =>
    write (structureText "DLS record".toList (slice data off next)) <|
    match formatStructure (recordAttributes ((Utf.decode8 r.path).getD []) r) with
    | .error e => raise e
    | .ok t => (t, .ok (r, next))

/-- One page (fseventsd.py 36-61 and 113-132) in debug mode: the records and the offset after the last of them. -/
def showPage (data : Bytes) (off : Nat) : Out (List Record × Nat) :=
  write (readingText "DLS page header".toList off) <|
  match structAt headerMap data off with
  | .error e => raise e
  | .ok ((second, size), _) =>
    write (structureText "DLS page header".toList (slice data off (off + 12))) <|
    match formatStructure (headerAttributes (slice data off (off + 12))) with
    | .error e => raise e
    | .ok t =>
      write t <|
      match loop (fun o => (showRecord data second o).bind fun x => ([], .ok ((x.1, x.2), x.2))) (off + size) (off + size + 1)
        (off + 12) with
      | none => raise .runtimeError -- never the case, see `C198_same` and `Fsevents.records_end`
      | some r => r.bind fun records => ([], .ok (records.map (·.1), (records.getLast?.map (·.2)).getD (off + 12)))

/-- `ReadFileObject` (fseventsd.py 96-135) in debug mode; `none` is out of fuel. -/
def showFile (data : Bytes) (fuel : Nat) : Option (Out (List (List Record))) := loop (showPage data) data.length fuel 0

/-- `Main` (scripts/fseventsd.py 14-71) for a source in debug mode.  Nothing is caught. -/
def script (data : Bytes) (fuel : Nat) : Option (Str × Option Err) :=
  (showFile data fuel).map fun
    | (t, .error e) => (t, some e)
    | (t, .ok _) => (t ++ "MacOS fseventsd information:\n\n".toList, none)

/-! ## Specification -/

open RpLog.DebugMode (announcedAt dumpOf)
open Utmp.DebugMode (shownAs)

/-- An event: its path with any characters. -/
structure Event where
  path : Str
  identifier : Nat
  flags : Nat
  node : Option Nat

def Event.stored (e : Event) : Record := ⟨Utf.encode8 e.path, e.identifier, e.flags, e.node⟩

def Event.Ok (second : Bool) (e : Event) : Prop :=
  Char.ofNat 0 ∉ e.path ∧ e.identifier < 2 ^ 64 ∧ e.flags < 2 ^ 32 ∧ e.node.isSome = second ∧ ∀ n, e.node = some n → n < 2 ^ 64

/-- The events of a page. -/
structure Events where
  second : Bool
  unknown : Bytes
  events : List Event

def Events.stored (p : Events) : Page := ⟨p.second, p.unknown, p.events.map Event.stored⟩

def Events.Ok (p : Events) : Prop :=
  p.unknown.length = 4 ∧ 12 + ((p.events.map Event.stored).flatMap (·.bytes)).length < 2 ^ 32 ∧ ∀ e ∈ p.events, e.Ok p.second

/-- What is meant to be shown of an event at an offset; `line` is what is shown of its path. -/
def Event.shown (line : Str → Str) (off : Nat) (e : Event) : Str :=
  [announcedAt "DLS record" off, dumpOf "DLS record data" e.stored.bytes, line e.path,
    shownAs "Event identifier" (Text.digits 10 e.identifier), shownAs "Flags" ("0x".toList ++ Text.zpad 4 (Text.digits 16 e.flags)),
    (match e.node with
      | none => []
      | some n => shownAs "Node identifier" (Text.digits 10 n)), ['\n']].flatten

def eventsShown (line : Str → Str) : Nat → List Event → Str
  | _, [] => []
  | off, e :: l => e.shown line off ++ eventsShown line (off + e.stored.bytes.length) l

/-- What is meant to be shown of a page at an offset. -/
def Events.shown (line : Str → Str) (off : Nat) (p : Events) : Str :=
  [announcedAt "DLS page header" off, dumpOf "DLS page header data" (p.stored.bytes.take 12),
    shownAs "Signature" (if p.second then "2SLD".toList else "1SLD".toList), dumpOf "Unknown1" p.unknown,
    shownAs "Page size" (Text.digits 10 p.stored.bytes.length), ['\n'], eventsShown line (off + 12) p.events].flatten

def pagesShown (line : Str → Str) : Nat → List Events → Str
  | _, [] => []
  | off, p :: l => p.shown line off ++ pagesShown line (off + p.stored.bytes.length) l

/-- What is shown of a path: one with an end of line has no end of line after it. -/
def pathShown (path : Str) : Str := if '\n' ∈ path then "Path:\n".toList ++ path else shownAs "Path" path

/-! ## Proofs -/

/-- A loop that shows things returns what the loop that does not returns. -/
theorem loop_same {α : Type} (show' : Nat → Out (α × Nat)) (step : Nat → Res (α × Nat)) (stop : Nat)
    (hs : ∀ off, (show' off).2 = step off) : ∀ (fuel off : Nat) (acc : List α),
    walk step stop fuel off acc = (loop show' stop fuel off).map fun r => r.2.map (acc ++ ·) := by
  intro fuel
  induction fuel with
  | zero => intro off acc; rfl
  | succ fuel ih =>
    intro off acc
    rw [loop, walk]
    by_cases hc : off < stop
    · rw [if_pos hc, if_pos hc, ← hs off]
      rcases show' off with ⟨t, e | ⟨x, next⟩⟩
      · rfl
      · dsimp only
        rw [ih]
        cases loop show' stop fuel next with
        | none => rfl
        | some r =>
          rcases r with ⟨t', e | xs⟩
          · rfl
          · simp [Except.map]
    · rw [if_neg hc, if_neg hc]
      simp [Except.map]

theorem record_text (path : Str) (r : Record) : formatStructure (recordAttributes path r) = .ok
    (Job.block "Path" (withoutNul path) ++ shownAs "Event identifier" (Text.digits 10 r.identifier) ++
    shownAs "Flags" ("0x".toList ++ Text.zpad 4 (Text.digits 16 r.flags)) ++
    (match r.node with
      | none => []
      | some n => shownAs "Node identifier" (Text.digits 10 n)) ++ ['\n']) := by
  have hx : '\n' ∉ "0x".toList ++ hexw 4 r.flags := by
    have := (Job.fine_hexadecimal 4 "Flags" r.flags).2
    simpa [hexadecimal] using this
  unfold recordAttributes
  rw [Job.structure_fine]
  · cases r.node with
    | none =>
      have := Job.closed_line [Job.block "Path" (withoutNul path), Job.line "Event identifier" (dec r.identifier)] "Flags" _ hx
      simp only [List.cons_append, List.nil_append] at this
      simp only [List.filterMap_cons, List.filterMap_nil, Job.blockOf_string, UsnDebug.blockOf_decimal, hexadecimal,
        UsnDebug.blockOf_line "Flags" _ _ hx, Option.bind_none, Job.blockOf_none]
      rw [this]
      simp only [UsnDebug.line_shownAs, List.flatten_cons, List.flatten_nil, List.append_assoc, List.append_nil]
      rfl
    | some n =>
      have := Job.closed_line [Job.block "Path" (withoutNul path), Job.line "Event identifier" (dec r.identifier),
        Job.line "Flags" ("0x".toList ++ hexw 4 r.flags)] "Node identifier" _ (Job.dec_line n)
      simp only [List.filterMap_cons, List.filterMap_nil, Job.blockOf_string, UsnDebug.blockOf_decimal, hexadecimal,
        UsnDebug.blockOf_line "Flags" _ _ hx, Option.bind_some]
      rw [List.cons_append, List.cons_append, List.cons_append, List.nil_append] at this
      rw [this]
      simp only [UsnDebug.line_shownAs, List.flatten_cons, List.flatten_nil, List.append_assoc, List.append_nil]
      rfl
  · simp only [List.mem_cons, List.not_mem_nil, or_false]
    rintro a (rfl | rfl | rfl | rfl)
    · exact Job.fine_custom _ _
    · exact Job.fine_decimal _ _
    · exact Job.fine_hexadecimal _ _ _
    · cases r.node with
      | none => trivial
      | some n => exact Job.fine_decimal _ _

theorem header_text (b : Bytes) : formatStructure (headerAttributes b) = .ok
    (Job.block "Signature" (streamAsString (slice b 0 4)) ++ dumpOf "Unknown1" (slice b 4 8) ++
    shownAs "Page size" (Text.digits 10 (number b 8 12)) ++ ['\n']) := by
  unfold headerAttributes
  rw [Job.structure_fine]
  · simp only [List.filterMap_cons, List.filterMap_nil, Job.blockOf_string "Signature", UsnDebug.blockOf_decimal,
      Job.blockOf_lines "Unknown1" _ (Analyzer.dump_lines _)]
    have := Job.closed_line [Job.block "Signature" (streamAsString (slice b 0 4)),
      "Unknown1".toList ++ ":\n".toList ++ HexDump.dump (slice b 4 8)] "Page size" _ (Job.dec_line (number b 8 12))
    rw [List.cons_append, List.cons_append, List.nil_append] at this
    rw [this]
    simp only [UsnDebug.line_shownAs, List.flatten_cons, List.flatten_nil, List.append_assoc, List.append_nil, dumpOf]
    rfl
  · simp only [List.mem_cons, List.not_mem_nil, or_false]
    rintro a (rfl | rfl | rfl)
    · exact Job.fine_custom _ _
    · exact Job.fine_custom _ _
    · exact Job.fine_decimal _ _

theorem record_same (data : Bytes) (second : Bool) (off : Nat) : (showRecord data second off).2 = readRecord utf8 data second off := by
  unfold showRecord write raise
  rcases readRecord utf8 data second off with e | ⟨r, next⟩
  · rfl
  · dsimp only
    rw [record_text]

theorem page_same (data : Bytes) (off : Nat) : (showPage data off).2 = readPage utf8 data off := by
  unfold showPage readPage write raise
  rcases structAt headerMap data off with e | ⟨⟨second, size⟩, k⟩
  · rfl
  · dsimp only
    rw [header_text]
    dsimp only
    rw [loop_same (fun o => (showRecord data second o).bind fun x => ([], .ok ((x.1, x.2), x.2)))
      (fun o => (readRecord utf8 data second o).map (fun x => ((x.1, x.2), x.2))) (off + size) (by
        intro o
        have := record_same data second o
        rcases hs : showRecord data second o with ⟨t, e | x⟩
        · rw [hs] at this; dsimp only at this ⊢; rw [← this]; rfl
        · rw [hs] at this; dsimp only at this ⊢; rw [← this]; rfl)]
    rcases loop (fun o => (showRecord data second o).bind fun x => ([], .ok ((x.1, x.2), x.2))) (off + size) (off + size + 1)
        (off + 12) with _ | ⟨t, e | xs⟩
    · rfl
    · rfl
    · rfl

/-! ## C198 -/

/-- In debug mode the same records are read as otherwise, and the same files are refused with the same exceptions. -/
theorem C198_same (data : Bytes) (fuel : Nat) : (showFile data fuel).map (·.2) = readFile utf8 data fuel := by
  unfold showFile readFile
  rw [loop_same (showPage data) (readPage utf8 data) data.length (page_same data)]
  congr 1
  funext r
  rcases r with ⟨t, e | xs⟩ <;> rfl

/-- If every thing is shown and read wherever it is stored, the loop shows and reads all of them. -/
theorem loop_items {σ α : Type} (step : Bytes → Nat → Out (α × Nat)) (bytes : σ → Bytes) (text : σ → Nat → Str) (value : σ → Nat → α)
    (texts : Nat → List σ → Str) (h0 : ∀ off, texts off [] = [])
    (h1 : ∀ off i l, texts off (i :: l) = text i off ++ texts (off + (bytes i).length) l) (l : List σ)
    (h : ∀ i ∈ l, bytes i ≠ [] ∧ ∀ pre post, step (pre ++ bytes i ++ post) pre.length =
      (text i pre.length, .ok (value i pre.length, pre.length + (bytes i).length))) :
    ∀ (pre post : Bytes) (fuel : Nat), l.length < fuel →
    loop (step (pre ++ l.flatMap bytes ++ post)) (pre.length + (l.flatMap bytes).length) fuel pre.length =
      some (texts pre.length l, .ok (valuesFrom pre.length (l.map fun i => (bytes i, value i)))) := by
  induction l with
  | nil =>
    intro pre post fuel hf
    obtain ⟨fuel, rfl⟩ : ∃ n, fuel = n + 1 := ⟨fuel - 1, by simp at hf; omega⟩
    rw [loop, if_neg (by simp), h0]
    rfl
  | cons i l ih =>
    intro pre post fuel hf
    obtain ⟨fuel, rfl⟩ : ∃ n, fuel = n + 1 := ⟨fuel - 1, by simp at hf; omega⟩
    have hi := h i (by simp)
    have hp := List.length_pos_of_ne_nil hi.1
    have ih := ih (fun j hj => h j (List.mem_cons_of_mem _ hj)) (pre ++ bytes i) post fuel (by simp at hf; omega)
    have e1 : pre ++ (i :: l).flatMap bytes ++ post = pre ++ bytes i ++ (l.flatMap bytes ++ post) := by simp
    have e2 : pre ++ bytes i ++ (l.flatMap bytes ++ post) = pre ++ bytes i ++ l.flatMap bytes ++ post := by simp
    have hs := hi.2 pre (l.flatMap bytes ++ post)
    rw [loop, if_pos (by rw [List.flatMap_cons, List.length_append]; omega), e1, hs]
    dsimp only
    rw [List.length_append] at ih
    rw [e2, List.flatMap_cons, List.length_append, ← Nat.add_assoc, ih, h1]
    rfl

theorem record_ok (second : Bool) (e : Event) (h : e.Ok second) : e.stored.Ok utf8 second := by
  obtain ⟨h1, h2, h3, h4, h5⟩ := h
  refine ⟨Utf.bytes_ne_zero e.path h1, ?_, h2, h3, h4, h5⟩
  show (Utf.decode8 (Utf.encode8 e.path)).isSome = true
  rw [Utf.C189_utf8]
  rfl

theorem showRecord_stored (second : Bool) (e : Event) (h : e.Ok second) (pre post : Bytes) :
    showRecord (pre ++ e.stored.bytes ++ post) second pre.length =
      (e.shown pathShown pre.length, .ok (e.stored, pre.length + e.stored.bytes.length)) := by
  unfold showRecord
  rw [readRecord_bytes utf8 second e.stored (record_ok second e h) pre post]
  dsimp only
  rw [record_text, slice_at _ _ _ _ (Nat.le_refl _), List.take_length]
  rw [show e.stored.path = Utf.encode8 e.path from rfl, Utf.C189_utf8, Option.getD_some, UsnDebug.withoutNul_eq _ h.1]
  have hp : Job.block "Path" e.path = pathShown e.path := by
    unfold Job.block pathShown
    split
    · congr 1
    · rfl
  rw [hp]
  unfold write Event.shown
  refine Prod.ext ?_ rfl
  dsimp only
  simp only [List.flatten_cons, List.flatten_nil, List.append_nil, List.append_assoc]
  rfl

theorem page_ok (p : Events) (h : p.Ok) : p.stored.Ok utf8 := by
  refine ⟨h.1, h.2.1, ?_⟩
  intro r hr
  obtain ⟨e, he, rfl⟩ := List.mem_map.mp hr
  exact record_ok _ e (h.2.2 e he)

theorem showPage_stored (p : Events) (h : p.Ok) (pre post : Bytes) :
    showPage (pre ++ p.stored.bytes ++ post) pre.length =
      (p.shown pathShown pre.length, .ok (p.stored.records, pre.length + p.stored.bytes.length)) := by
  have hread := readPage_bytes utf8 p.stored (page_ok p h) pre post
  have hl := p.stored.length utf8 (page_ok p h)
  refine Prod.ext ?_ (by rw [page_same, hread])
  obtain ⟨second, unknown, events⟩ := p
  obtain ⟨h1, h2, h3⟩ := h
  dsimp only [Events.stored] at h1 h2 h3 hl ⊢
  generalize hr : (events.map Event.stored).flatMap (·.bytes) = body at *
  generalize hpg : (Page.mk second unknown (events.map Event.stored)) = pg at *
  have hd0 : pg.bytes = [pg.signature, unknown, leBytes 4 (12 + body.length)].flatten ++ body := by
    rw [← hpg]
    unfold Page.bytes
    rw [hr]
    simp
  have f0 := slice_fields [] pg.signature [unknown, leBytes 4 (12 + body.length)] 0 4 rfl rfl
  have f1 := slice_fields [pg.signature] unknown [leBytes 4 (12 + body.length)] 4 8 rfl (by rw [h1])
  have f2 := leField [pg.signature, unknown] 4 (12 + body.length) [] 8 12 (by simp [Page.signature, h1]) rfl (by omega)
  simp only [List.nil_append, List.cons_append] at f0 f1 f2
  have hsig : pg.signature = [if second then 0x32 else 0x31, 0x53, 0x4c, 0x44] := by rw [← hpg]; rfl
  generalize hh : [pg.signature, unknown, leBytes 4 (12 + body.length)].flatten = hd at *
  have hdl : hd.length = 12 := by rw [← hh]; simp [Page.signature, h1]
  have hx : Encodes headerMap hd (second, 12 + body.length) := by
    refine encodes_refine _ _ _ _ _ (encodes_fixed 12 id _ (by omega) hdl) ?_
    simp only [id]
    unfold parseHeader
    rw [f0, f2, hsig]
    cases second
    · rw [if_pos (by simp)]
    · rw [if_neg (by simp), if_pos (by simp)]
  have e1 : pre ++ pg.bytes ++ post = pre ++ hd ++ (body ++ post) := by rw [hd0]; simp
  have e2 : pre ++ hd ++ (body ++ post) = (pre ++ hd) ++ body ++ post := by simp
  have hsl : slice (pre ++ hd ++ (body ++ post)) pre.length (pre.length + 12) = hd := by
    rw [slice_at _ _ _ _ (by omega), ← hdl, List.take_length]
  have hloop := loop_items (fun data o => (showRecord data second o).bind fun x => ([], .ok ((x.1, x.2), x.2)))
    (fun e : Event => e.stored.bytes) (fun e off => e.shown pathShown off) (fun e off => (e.stored, off + e.stored.bytes.length))
    (eventsShown pathShown) (fun _ => rfl) (fun _ _ _ => rfl) events (by
      intro e he
      refine ⟨?_, ?_⟩
      · intro hc
        have := e.stored.length second (record_ok _ e (h3 e he)).2.2.2.2.1
        rw [hc, List.length_nil] at this
        omega
      · intro a b
        rw [showRecord_stored second e (h3 e he)]
        unfold ChangeLogDebug.Out.bind write
        dsimp only
        rw [List.append_nil]) (pre ++ hd) post (pre.length + 12 + body.length + 1) (by
      have : ∀ l : List Event, l.length ≤ ((l.map Event.stored).flatMap (·.bytes)).length := by
        intro l
        induction l with
        | nil => simp
        | cons e l ih =>
          have := e.stored.length _ rfl
          rw [List.map_cons, List.flatMap_cons, List.length_append, List.length_cons]
          omega
      have := this events
      rw [hr] at this
      omega)
  rw [List.flatMap_map] at hr
  rw [hr, List.length_append, hdl] at hloop
  unfold showPage
  rw [e1, hx pre (body ++ post)]
  dsimp only
  rw [hsl, header_text, f0, f1, show number hd 8 12 = 12 + body.length from f2]
  dsimp only
  rw [e2, ← Nat.add_assoc, hloop]
  unfold ChangeLogDebug.Out.bind write Events.shown
  dsimp only [Events.stored]
  rw [hpg, hd0, List.take_left' hdl, List.length_append, hdl]
  have hs : Job.block "Signature" (streamAsString pg.signature) =
      shownAs "Signature" (if second then "2SLD".toList else "1SLD".toList) := by
    rw [hsig]
    cases second <;> decide +kernel
  rw [hs]
  simp only [List.flatten_cons, List.flatten_nil, List.append_nil, List.append_assoc]
  rfl

/-- All that is stored is shown: the bytes of all page headers and records with the offsets at which they are, the versions and
sizes of the pages, and the path, the identifier, the flags and the node of every event, in order. -/
theorem C198_shown_partial (pages : List Events) (h : ∀ p ∈ pages, p.Ok) (fuel : Nat) (hf : pages.length < fuel) :
    showFile ((pages.map Events.stored).flatMap (·.bytes)) fuel =
      some (pagesShown pathShown 0 pages, .ok (pages.map fun p => p.events.map Event.stored)) := by
  have := loop_items showPage (fun p : Events => p.stored.bytes) (fun p off => p.shown pathShown off) (fun p _ => p.stored.records)
    (pagesShown pathShown) (fun _ => rfl) (fun _ _ _ => rfl) pages (by
      intro p hp
      refine ⟨?_, fun pre post => showPage_stored p (h p hp) pre post⟩
      intro hc
      have := p.stored.length utf8 (page_ok p (h p hp))
      rw [hc, List.length_nil] at this
      omega) [] [] fuel hf
  rw [List.append_nil, List.nil_append, List.length_nil, Nat.zero_add] at this
  unfold showFile
  rw [List.flatMap_map, this]
  refine congrArg some (Prod.ext rfl (congrArg Except.ok ?_))
  have key : ∀ (l : List Events) (off : Nat), valuesFrom off (l.map fun p => (p.stored.bytes, fun _ => p.stored.records)) =
      l.map fun p => p.events.map Event.stored := by
    intro l
    induction l with
    | nil => intro off; rfl
    | cons p l ih => intro off; rw [List.map_cons, valuesFrom, ih]; rfl
  exact key pages 0

/-- The script writes all of this and then its title; it has nothing else to say. -/
theorem C198_script (pages : List Events) (h : ∀ p ∈ pages, p.Ok) (fuel : Nat) (hf : pages.length < fuel) :
    script ((pages.map Events.stored).flatMap (·.bytes)) fuel =
      some (pagesShown pathShown 0 pages ++ "MacOS fseventsd information:\n\n".toList, none) := by
  unfold script
  rw [C198_shown_partial pages h fuel hf]
  rfl

/-- Every value is shown on a line of its own. -/
def C198_path_claim : Prop :=
  ∀ pages : List Events, (∀ p ∈ pages, p.Ok) → ∀ fuel, pages.length < fuel →
    (showFile ((pages.map Events.stored).flatMap (·.bytes)) fuel).map (·.1) = some (pagesShown (shownAs "Path") 0 pages)

/-- A page of the first version with one event. -/
def page (path : Str) : Events := ⟨false, [0, 0, 0, 0], [⟨path, 1, 0x1000001, none⟩]⟩

theorem page_stored (path : Str) (h0 : Char.ofNat 0 ∉ path) (hl : (Utf.encode8 path).length < 1000) : (page path).Ok := by
  refine ⟨rfl, ?_, ?_⟩
  · show 12 + ([(⟨Utf.encode8 path, 1, 0x1000001, none⟩ : Record)].flatMap (·.bytes)).length < 2 ^ 32
    rw [List.flatMap_cons, List.flatMap_nil, List.append_nil, Record.length _ false rfl]
    simp
    omega
  · intro e he
    rw [List.mem_singleton.mp he]
    exact ⟨h0, show 1 < 2 ^ 64 by omega, show 0x1000001 < 2 ^ 32 by omega, rfl, by simp⟩

/-- The identifier of the event comes right after a path that has an end of line. -/
theorem C198_path_claim_false : ¬ C198_path_claim := by
  intro h
  have hk : ∀ p ∈ [page "a\nb".toList], p.Ok := by
    intro p hp
    rw [List.mem_singleton.mp hp]
    exact page_stored _ (by decide +kernel) (by decide +kernel)
  have := h [page "a\nb".toList] hk 2 (by decide)
  rw [C198_shown_partial _ hk 2 (by decide)] at this
  have := congrArg (Option.map List.length) this
  revert this
  decide +kernel

/-- If no path has an end of line every value is shown on a line of its own. -/
theorem C198_lines_partial (pages : List Events) (h : ∀ p ∈ pages, p.Ok) (hn : ∀ p ∈ pages, ∀ e ∈ p.events, '\n' ∉ e.path)
    (fuel : Nat) (hf : pages.length < fuel) :
    (showFile ((pages.map Events.stored).flatMap (·.bytes)) fuel).map (·.1) = some (pagesShown (shownAs "Path") 0 pages) := by
  rw [C198_shown_partial pages h fuel hf]
  have k1 : ∀ (l : List Event) (off : Nat), (∀ e ∈ l, '\n' ∉ e.path) →
      eventsShown pathShown off l = eventsShown (shownAs "Path") off l := by
    intro l
    induction l with
    | nil => intro _ _; rfl
    | cons e l ih =>
      intro off hl
      have he : pathShown e.path = shownAs "Path" e.path := if_neg (hl e (by simp))
      rw [eventsShown, eventsShown, ih _ fun x hx => hl x (List.mem_cons_of_mem _ hx)]
      unfold Event.shown
      rw [he]
  have k2 : ∀ (l : List Events) (off : Nat), (∀ p ∈ l, ∀ e ∈ p.events, '\n' ∉ e.path) →
      pagesShown pathShown off l = pagesShown (shownAs "Path") off l := by
    intro l
    induction l with
    | nil => intro _ _; rfl
    | cons p l ih =>
      intro off hl
      rw [pagesShown, pagesShown, ih _ fun x hx => hl x (List.mem_cons_of_mem _ hx)]
      unfold Events.shown
      rw [k1 _ _ (hl p (by simp))]
  exact congrArg some (k2 pages 0 hn)

/-- The example meets the hypotheses, for a path with characters of several bytes. -/
example : (page "Användare/é.txt".toList).Ok := page_stored _ (by decide +kernel) (by decide +kernel)

end Dtf.FseventsDebug
