import Verif.ChangeLogDebug
import Verif.UsnDebug

/-!
# What is shown of Recycler INFO2 files in debug mode (C196)

The texts are decoded and the times are shown as in the models of C189 and C190.  Windows codepage 1252 is here as Python has it.
-/

namespace Dtf.RecyclerDebug
open Py DataFormat Formats Recycler
open Job (number decimal custom)
open ChangeLogDebug (Out write raise loop fixed)
open ChangeLog (utf16z)

abbrev Str := List Char

/-! ## Model -/

/-- The characters of the bytes 0x80 - 0x9f of codepage 1252; five bytes have none. -/
def high : List Nat :=
  [0x20AC, 0, 0x201A, 0x0192, 0x201E, 0x2026, 0x2020, 0x2021, 0x02C6, 0x2030, 0x0160, 0x2039, 0x0152, 0, 0x017D, 0,
    0, 0x2018, 0x2019, 0x201C, 0x201D, 0x2022, 0x2013, 0x2014, 0x02DC, 0x2122, 0x0161, 0x203A, 0x0153, 0, 0x017E, 0x0178]

def charOf (b : UInt8) : Option Char :=
  if 0x80 ≤ b ∧ b < 0xA0 then
    match high[b.toNat - 0x80]? with
    | none => none
    | some n => if n = 0 then none else some (Char.ofNat n)
  else some (Char.ofNat b.toNat)

/-- `_FormatANSIString` (recycler.py 34-50): `string.decode("cp1252")`; `none` is a ParseError. -/
def ansi (b : Bytes) : Option Str := b.mapM charOf

/-- The debug information of an entry (recycler.debug.yaml 3-18). -/
def attributes (b : Bytes) (name : Str) : List (Option Attribute) :=
  [custom "Original filename (ANSI)" name, decimal "Index" (number b 260 264), decimal "Drive number" (number b 264 268),
    some ⟨some "Deletion time".toList, Dates.formatFiletime (number b 268 276), false⟩,
    decimal "Original file size" (number b 276 280)]

/-- `_ReadFileEntry` (recycler.py 52-103) in debug mode: the entry and the position after it. -/
def showEntry (n : Nat) (data : Bytes) (off : Nat) : Out (Entry × Nat) :=
  match dataAt data off n with
  | .error e => raise e
  | .ok b =>
    let entry (name : Option Bytes) : Entry :=
      ⟨slice b 0 260, number b 260 264, number b 264 268, number b 268 276, number b 276 280, name⟩
    match ansi (slice b 0 260) with
    | none => raise .parseError
    | some name =>
      match formatStructure (attributes b name) with
      | .error e => raise e
      | .ok t =>
        write t <|
        if n > 280 then
          match utf16z (slice b 280 800) with
          | none => raise .parseError
          | some u =>
            match Utf.decode16 u with
            | none => raise .parseError
            | some s => (formatValue "Original filename (Unicode)".toList s ++ ['\n'], .ok (entry (some u), off + n))
        else (['\n'], .ok (entry none, off + n))

/-- What is written of a header (recycler.py 118-121): the debug information is that of an entry, of which a header has no
attribute. -/
def headerAttributes : List (Option Attribute) := [none, none, none, none, none]

/-- `_ReadFileHeader` (recycler.py 105-128) in debug mode: the size of the entries. -/
def showHeader (data : Bytes) : Out Nat :=
  (fixed "file header".toList 20 data 0).bind fun h =>
  match formatStructure headerAttributes with
  | .error e => raise e
  | .ok t => write t <| if number h 12 16 = 280 ∨ number h 12 16 = 800 then ([], .ok (number h 12 16)) else raise .parseError

/-- `ReadFileObject` (recycler.py 130-146) in debug mode; `none` is out of fuel. -/
def showFile (data : Bytes) (fuel : Nat) : Option (Out (List Entry)) :=
  match showHeader data with
  | (t, .error e) => some (t, .error e)
  | (t, .ok n) => (loop (showEntry n data) data.length fuel 20).map fun r => write t r

/-- `Main` (scripts/recycler.py 11-74) for a source in debug mode. -/
def script (data : Bytes) (fuel : Nat) : Option (Str × Option Err) :=
  (showFile data fuel).map fun
    | (t, .error e) => (t, some e)
    | (t, .ok _) => (t ++ "Recycler INFO2 file information:\n\n".toList, none)

/-! ## Specification -/

open RpLog.DebugMode (announcedAt dumpOf)
open Utmp.DebugMode (shownAs)

/-- The characters of codepage 1252 that are not those of Latin-1. -/
def special : List (Nat × Char) :=
  [(0x80, '€'), (0x82, '‚'), (0x83, 'ƒ'), (0x84, '„'), (0x85, '…'), (0x86, '†'), (0x87, '‡'), (0x88, 'ˆ'), (0x89, '‰'), (0x8A, 'Š'),
    (0x8B, '‹'), (0x8C, 'Œ'), (0x8E, 'Ž'), (0x91, '‘'), (0x92, '’'), (0x93, '“'), (0x94, '”'), (0x95, '•'), (0x96, '–'), (0x97, '—'),
    (0x98, '˜'), (0x99, '™'), (0x9A, 'š'), (0x9B, '›'), (0x9C, 'œ'), (0x9E, 'ž'), (0x9F, 'Ÿ')]

/-- A byte stands for a character. -/
def Stands (b : UInt8) (c : Char) : Prop :=
  ((b.toNat < 0x80 ∨ 0xA0 ≤ b.toNat) ∧ c.toNat = b.toNat) ∨ (b.toNat, c) ∈ special

/-- An entry: the bytes of its name and what they stand for, and the name with any characters. -/
structure Item where
  ansi : Bytes
  text : Str
  index : Nat
  drive : Nat
  deletion : Nat
  size : Nat
  wide : Option Str
  fill : Bytes

def Item.stored (i : Item) : Entry := ⟨i.ansi, i.index, i.drive, i.deletion, i.size, i.wide.map Utf.encode16⟩

def Item.bytes (i : Item) : Bytes := i.stored.bytes ++ nameBytes i.stored.name i.fill

def Item.Ok (n : Nat) (i : Item) : Prop :=
  Stored n i.stored i.fill ∧ List.Forall₂ Stands i.ansi i.text ∧ '\n' ∉ i.text ∧ ∀ s, i.wide = some s → Char.ofNat 0 ∉ s

/-- What is meant to be shown of an entry; `cut` is what is shown of the bytes of its name. -/
def Item.shown (cut : Str → Str) (time : Nat → Str) (i : Item) : Str :=
  [shownAs "Original filename (ANSI)" (cut i.text), shownAs "Index" (Text.digits 10 i.index),
    shownAs "Drive number" (Text.digits 10 i.drive), shownAs "Deletion time" (time i.deletion),
    shownAs "Original file size" (Text.digits 10 i.size), ['\n'],
    (match i.wide with
      | none => []
      | some s => shownAs "Original filename (Unicode)" s), ['\n']].flatten

def report (header : Str) (cut : Str → Str) (time : Nat → Str) (head : Bytes) (items : List Item) : Str :=
  [announcedAt "file header" 0, dumpOf "File header data" head, header, (items.map (Item.shown cut time)).flatten].flatten

/-- The values of a header. -/
def headerShown (u1 count u2 n u3 : Nat) : Str :=
  [shownAs "Unknown1" (RpLog.DebugMode.hexadecimalOf u1), shownAs "Number of file entries" (Text.digits 10 count),
    shownAs "Unknown2" (RpLog.DebugMode.hexadecimalOf u2), shownAs "File entry size" (Text.digits 10 n),
    shownAs "Unknown3" (RpLog.DebugMode.hexadecimalOf u3), ['\n']].flatten

/-- The texts of an entry can be decoded. -/
def Texts (e : Entry) : Bool :=
  (ansi e.ansiName).isSome && match e.name with
    | none => true
    | some u => (Utf.decode16 u).isSome

/-! ## Proofs -/

theorem charOf_stands (b : UInt8) (c : Char) (h : charOf b = some c) : Stands b c := by
  have key : ∀ n < 256, ∀ c ∈ (charOf (UInt8.ofNat n)).toList,
      ((n < 0x80 ∨ 0xA0 ≤ n) ∧ c.toNat = n) ∨ (n, c) ∈ special := by
    decide +kernel
  have := key b.toNat b.toNat_lt c
  rw [UInt8.ofNat_toNat, h] at this
  exact this (by simp)

theorem stands_charOf (b : UInt8) (c : Char) (h : Stands b c) : charOf b = some c := by
  rcases h with ⟨hb, hc⟩ | h
  · unfold charOf
    rw [if_neg (by rw [UInt8.le_iff_toNat_le, UInt8.lt_iff_toNat_lt]; simp; omega), ← hc, Char.ofNat_toNat]
  · have key : ∀ p ∈ special, charOf (UInt8.ofNat p.1) = some p.2 := by decide +kernel
    have := key _ h
    rwa [UInt8.ofNat_toNat] at this

/-- The bytes of a name are decoded as codepage 1252 has them. -/
theorem C196_codepage (b : Bytes) (s : Str) : ansi b = some s ↔ List.Forall₂ Stands b s := by
  unfold ansi
  induction b generalizing s with
  | nil => cases s <;> simp
  | cons x b ih =>
    cases hx : charOf x with
    | none =>
      rw [List.mapM_cons, hx]
      refine ⟨fun h => (by cases h), fun h => ?_⟩
      cases h with
      | cons h1 h2 => rw [stands_charOf x _ h1] at hx; cases hx
    | some c =>
      rw [List.mapM_cons, hx]
      constructor
      · intro h
        cases hm : b.mapM charOf with
        | none => rw [hm] at h; cases h
        | some t =>
          rw [hm] at h
          cases h
          exact .cons (charOf_stands x c hx) ((ih t).1 hm)
      · intro h
        cases h with
        | cons h1 h2 =>
          rw [(ih _).2 h2]
          have := stands_charOf x _ h1
          rw [hx] at this
          cases this
          rfl

theorem attributes_text (b : Bytes) (name : Str) (hn : '\n' ∉ name) : formatStructure (attributes b name) = .ok
    ([shownAs "Original filename (ANSI)" name, shownAs "Index" (Text.digits 10 (number b 260 264)),
    shownAs "Drive number" (Text.digits 10 (number b 264 268)),
    shownAs "Deletion time" (Dates.formatFiletime (number b 268 276)),
    shownAs "Original file size" (Text.digits 10 (number b 276 280)), ['\n']].flatten) := by
  have ht := UsnDebug.timeText_line _ _ (UsnDebug.timeText (number b 268 276))
  unfold attributes
  generalize Dates.formatFiletime (number b 268 276 : Nat) = time at ht
  rw [Job.structure_fine]
  · simp only [List.filterMap_cons, List.filterMap_nil, UsnDebug.blockOf_decimal, UsnDebug.blockOf_line "Deletion time" _ _ ht,
      Job.blockOf_custom _ _ hn]
    have := Job.closed_line [Job.line "Original filename (ANSI)" name, Job.line "Index" (dec (number b 260 264)),
      Job.line "Drive number" (dec (number b 264 268)), Job.line "Deletion time" time] "Original file size"
      (dec (number b 276 280)) (Job.dec_line _)
    simp only [List.cons_append, List.nil_append] at this
    rw [this]
    simp only [UsnDebug.line_shownAs, List.flatten_cons, List.flatten_nil, List.append_assoc, List.append_nil]
    rfl
  · simp only [List.mem_cons, List.not_mem_nil, or_false]
    rintro a (rfl | rfl | rfl | rfl | rfl)
    all_goals first
      | exact Job.fine_decimal _ _
      | exact Job.fine_custom _ _
      | exact ⟨⟨_, rfl⟩, .inr ht⟩

theorem attributes_fine (b : Bytes) (name : Str) : ∃ t, formatStructure (attributes b name) = .ok t := by
  have ht := UsnDebug.timeText_line _ _ (UsnDebug.timeText (number b 268 276))
  unfold attributes
  rw [Job.structure_fine]
  · exact ⟨_, rfl⟩
  · simp only [List.mem_cons, List.not_mem_nil, or_false]
    rintro a (rfl | rfl | rfl | rfl | rfl)
    all_goals first
      | exact Job.fine_decimal _ _
      | exact Job.fine_custom _ _
      | exact ⟨⟨_, rfl⟩, .inr ht⟩

/-- What is done in debug mode with an entry that is read otherwise. -/
theorem entry_read (n : Nat) (data : Bytes) (off : Nat) (e : Entry) (next : Nat) (h : entryStep n data off = .ok (e, next)) :
    ∃ t, showEntry n data off = if Texts e then (t, .ok (e, next)) else (t, .error .parseError) := by
  unfold entryStep at h
  unfold showEntry
  rcases hd : dataAt data off n with er | b
  · rw [hd] at h; cases h
  · rw [hd] at h
    dsimp only at h ⊢
    unfold parseEntry at h
    dsimp only at h
    by_cases hn : n > 280
    · rw [if_pos hn] at h
      cases hu : utf16z (slice b 280 800) with
      | none => rw [hu] at h; cases h
      | some u =>
        rw [hu] at h
        simp only [Option.map_some, Except.ok.injEq, Prod.mk.injEq] at h
        obtain ⟨rfl, rfl⟩ := h
        unfold Texts
        dsimp only
        cases ha : ansi (slice b 0 260) with
        | none => exact ⟨[], rfl⟩
        | some name =>
          obtain ⟨t, ht⟩ := attributes_fine b name
          dsimp only
          rw [ht]
          dsimp only
          rw [if_pos hn]
          have hs : Utf.decode16 u = none ∨ ∃ s, Utf.decode16 u = some s := by
            cases Utf.decode16 u with
            | none => exact .inl rfl
            | some s => exact .inr ⟨s, rfl⟩
          rcases hs with hs | ⟨s, hs⟩
          · simp only [hs]; exact ⟨_, rfl⟩
          · simp only [hs]; exact ⟨_, rfl⟩
    · rw [if_neg hn] at h
      simp only [Except.ok.injEq, Prod.mk.injEq] at h
      obtain ⟨rfl, rfl⟩ := h
      unfold Texts
      dsimp only
      cases ha : ansi (slice b 0 260) with
      | none => exact ⟨[], rfl⟩
      | some name =>
        obtain ⟨t, ht⟩ := attributes_fine b name
        dsimp only
        rw [ht]
        dsimp only
        rw [if_neg hn]
        exact ⟨_, rfl⟩

/-- A failure without debug mode is one with it. -/
theorem entry_fails (n : Nat) (data : Bytes) (off : Nat) (er : Err) (h : entryStep n data off = .error er) :
    ∃ t er', showEntry n data off = (t, .error er') := by
  unfold entryStep at h
  unfold showEntry
  rcases hd : dataAt data off n with e | b
  · exact ⟨_, _, rfl⟩
  · rw [hd] at h
    dsimp only at h ⊢
    cases ha : ansi (slice b 0 260) with
    | none => exact ⟨_, _, rfl⟩
    | some name =>
      obtain ⟨t, ht⟩ := attributes_fine b name
      dsimp only
      rw [ht]
      dsimp only
      unfold parseEntry at h
      dsimp only at h
      by_cases hn : n > 280
      · rw [if_pos hn] at h ⊢
        cases hu : utf16z (slice b 280 800) with
        | none => exact ⟨_, _, rfl⟩
        | some u => rw [hu] at h; cases h
      · rw [if_neg hn] at h; cases h

theorem loop_read (n : Nat) (data : Bytes) (stop : Nat) : ∀ (fuel off : Nat) (acc es : List Entry),
    walk (entryStep n data) stop fuel off acc = some (.ok es) →
    ∃ l t, es = acc ++ l ∧ loop (showEntry n data) stop fuel off = if l.all Texts then some (t, .ok l) else some (t, .error .parseError) := by
  intro fuel
  induction fuel with
  | zero => intro off acc es h; cases h
  | succ fuel ih =>
    intro off acc es h
    rw [walk] at h
    rw [loop]
    split at h
    · rename_i hc
      rw [if_pos hc]
      rcases hs : entryStep n data off with er | ⟨e, next⟩
      · rw [hs] at h; cases h
      · rw [hs] at h
        dsimp only at h
        obtain ⟨l, t, rfl, hl⟩ := ih next _ es h
        obtain ⟨t', ht⟩ := entry_read n data off e next hs
        rw [ht]
        by_cases he : Texts e = true
        · rw [if_pos he]
          dsimp only
          rw [hl]
          refine ⟨e :: l, t' ++ t, by simp, ?_⟩
          rw [List.all_cons, he, Bool.true_and]
          by_cases hall : l.all Texts = true
          · rw [if_pos hall, if_pos hall]; rfl
          · rw [if_neg hall, if_neg hall]; rfl
        · rw [if_neg he]
          refine ⟨e :: l, t', by simp, ?_⟩
          rw [List.all_cons, if_neg (by simp [he])]
    · rename_i hc
      rw [if_neg hc]
      cases h
      exact ⟨[], [], by simp, rfl⟩

theorem header_text : formatStructure headerAttributes = .ok ['\n'] := rfl

theorem showHeader_eq (data : Bytes) : ∃ t, showHeader data =
    match structAt headerMap data 0 with
    | .error e => (t, .error e)
    | .ok (n, _) => (t, .ok n) := by
  unfold showHeader fixed headerMap
  rw [structAt_refine, header_text]
  rcases hs : structAt (fixedMap 20 id) data ((0 : Nat) : Int) with e | ⟨b, k⟩
  · exact ⟨_, rfl⟩
  · unfold parseHeader ChangeLogDebug.Out.bind write raise
    dsimp only
    by_cases hc : number b 12 16 = 280 ∨ number b 12 16 = 800
    · rw [if_pos hc, if_pos (show leNat (slice b 12 16) = 280 ∨ leNat (slice b 12 16) = 800 from hc)]
      exact ⟨_, rfl⟩
    · rw [if_neg hc, if_neg (show ¬ (leNat (slice b 12 16) = 280 ∨ leNat (slice b 12 16) = 800) from hc)]
      exact ⟨_, rfl⟩

/-! ## C196 -/

/-- A file that is read is read in debug mode, with the same entries, if all its texts can be decoded; else it is refused with a
ParseError. -/
theorem C196_same_partial (data : Bytes) (fuel : Nat) (es : List Entry) (h : readFile data fuel = some (.ok es)) :
    ∃ t, showFile data fuel = if es.all Texts then some (t, .ok es) else some (t, .error .parseError) := by
  obtain ⟨t, ht⟩ := showHeader_eq data
  unfold readFile at h
  unfold showFile
  rw [ht]
  rcases hs : structAt headerMap data 0 with e | ⟨n, k⟩
  · rw [hs] at h; cases h
  · rw [hs] at h
    dsimp only at h ⊢
    obtain ⟨l, t', he, hl⟩ := loop_read n data _ fuel 20 [] es h
    rw [he]
    rw [hl, List.nil_append]
    refine ⟨t ++ t', ?_⟩
    by_cases hall : l.all Texts = true
    · rw [if_pos hall, if_pos hall]; rfl
    · rw [if_neg hall, if_neg hall]; rfl

/-- A file that is refused is refused in debug mode. -/
theorem C196_refused (data : Bytes) (fuel : Nat) (er : Err) (h : readFile data fuel = some (.error er)) :
    ∃ t er', showFile data fuel = some (t, .error er') := by
  obtain ⟨t, ht⟩ := showHeader_eq data
  unfold readFile at h
  unfold showFile
  rw [ht]
  rcases hs : structAt headerMap data 0 with e | ⟨n, k⟩
  · exact ⟨_, _, rfl⟩
  · rw [hs] at h
    dsimp only at h ⊢
    have key : ∀ (fuel off : Nat) (acc : List Entry), walk (entryStep n data) data.length fuel off acc = some (.error er) →
        ∃ t er', loop (showEntry n data) data.length fuel off = some (t, .error er') := by
      intro fuel
      induction fuel with
      | zero => intro off acc h; cases h
      | succ fuel ih =>
        intro off acc h
        rw [walk] at h
        rw [loop]
        split at h
        · rename_i hc
          rw [if_pos hc]
          rcases hx : entryStep n data off with e | ⟨e, next⟩
          · obtain ⟨t, e', he⟩ := entry_fails n data off e hx
            rw [he]
            exact ⟨_, _, rfl⟩
          · rw [hx] at h
            dsimp only at h
            obtain ⟨t, e', hl⟩ := ih next _ h
            obtain ⟨t', ht⟩ := entry_read n data off e next hx
            rw [ht]
            by_cases he : Texts e = true
            · rw [if_pos he]
              dsimp only
              rw [hl]
              exact ⟨_, _, rfl⟩
            · rw [if_neg he]
              exact ⟨_, _, rfl⟩
        · cases h
    obtain ⟨t', e', hl⟩ := key fuel 20 [] h
    rw [hl]
    exact ⟨_, _, rfl⟩

theorem showEntry_stored (n : Nat) (i : Item) (h : i.Ok n) (pre post : Bytes) :
    showEntry n (pre ++ i.bytes ++ post) pre.length =
      (i.shown id (fun v => Dates.formatFiletime v), .ok (i.stored, pre.length + i.bytes.length)) := by
  obtain ⟨hs, hf, hl, hz⟩ := h
  obtain ⟨h1, h2⟩ := parseEntry_bytes n i.stored i.fill hs
  have hd := dataAt_append pre i.bytes post
  have h1' : i.bytes.length = n := h1
  rw [h1'] at hd
  have h2' : parseEntry n i.bytes = some i.stored := h2
  unfold parseEntry at h2'
  dsimp only at h2'
  unfold showEntry
  rw [hd]
  dsimp only
  rcases hs with ⟨_, _, _, _, _, ⟨rfl, hn⟩ | ⟨rfl, s, hn, hu, hk⟩⟩
  · rw [if_neg (by decide)] at h2'
    have hw : i.wide = none := by
      cases hi : i.wide with
      | none => rfl
      | some s => rw [show i.stored.name = i.wide.map Utf.encode16 from rfl, hi] at hn; cases hn
    have he := Option.some.inj h2'
    have e0 : slice i.bytes 0 260 = i.ansi := congrArg Entry.ansiName he
    have e1 : number i.bytes 260 264 = i.index := congrArg Entry.index he
    have e2 : number i.bytes 264 268 = i.drive := congrArg Entry.drive he
    have e3 : number i.bytes 268 276 = i.deletion := congrArg Entry.deletion he
    have e4 : number i.bytes 276 280 = i.size := congrArg Entry.size he
    rw [e0, (C196_codepage i.ansi i.text).2 hf]
    dsimp only
    rw [attributes_text _ _ hl, e1, e2, e3, e4]
    dsimp only
    rw [if_neg (by decide), h1']
    unfold write Item.shown Item.stored
    rw [hw]
    simp
  · rw [if_pos (by decide)] at h2'
    cases hx : utf16z (slice i.bytes 280 800) with
    | none => rw [hx] at h2'; cases h2'
    | some u =>
      rw [hx] at h2'
      have he := Option.some.inj h2'
      have e0 : slice i.bytes 0 260 = i.ansi := congrArg Entry.ansiName he
      have e1 : number i.bytes 260 264 = i.index := congrArg Entry.index he
      have e2 : number i.bytes 264 268 = i.drive := congrArg Entry.drive he
      have e3 : number i.bytes 268 276 = i.deletion := congrArg Entry.deletion he
      have e4 : number i.bytes 276 280 = i.size := congrArg Entry.size he
      have e5 : some u = i.wide.map Utf.encode16 := congrArg Entry.name he
      cases hi : i.wide with
      | none => rw [hi] at e5; cases e5
      | some w =>
        rw [hi] at e5
        cases e5
        rw [e0, (C196_codepage i.ansi i.text).2 hf]
        dsimp only
        rw [attributes_text _ _ hl, e1, e2, e3, e4]
        dsimp only
        rw [if_pos (by decide), h1', Utf.C189_utf16]
        dsimp only
        unfold write Item.shown Item.stored
        rw [hi, ChangeLogDebug.value_eq]
        simp

theorem loop_items (n : Nat) (items : List Item) (h : ∀ i ∈ items, i.Ok n) (stop : Nat) : ∀ (pre : Bytes) (fuel : Nat),
    items.length < fuel → stop = pre.length + (items.flatMap Item.bytes).length →
    loop (showEntry n (pre ++ items.flatMap Item.bytes)) stop fuel pre.length =
      some ((items.map (Item.shown id fun v => Dates.formatFiletime v)).flatten, .ok (items.map Item.stored)) := by
  induction items with
  | nil =>
    intro pre fuel hf hs
    obtain ⟨fuel, rfl⟩ : ∃ n, fuel = n + 1 := ⟨fuel - 1, by simp at hf; omega⟩
    rw [loop, if_neg (by simp at hs; omega)]
    rfl
  | cons i items ih =>
    intro pre fuel hf hs
    obtain ⟨fuel, rfl⟩ : ∃ n, fuel = n + 1 := ⟨fuel - 1, by simp at hf; omega⟩
    have hi := h i (by simp)
    have hn : i.bytes.length = n := (parseEntry_bytes n i.stored i.fill hi.1).1
    have hn0 : 0 < n := by rcases hi.1 with ⟨_, _, _, _, _, ⟨rfl, _⟩ | ⟨rfl, _⟩⟩ <;> decide
    rw [List.flatMap_cons, List.length_append] at hs
    rw [loop, if_pos (by omega)]
    have := ih (fun t ht => h t (by simp [ht])) (pre ++ i.bytes) fuel (by simp at hf; omega)
      (by rw [List.length_append]; omega)
    rw [show pre ++ (i :: items).flatMap Item.bytes = pre ++ i.bytes ++ items.flatMap Item.bytes by simp, showEntry_stored n i hi]
    dsimp only
    rw [← List.length_append, this]
    simp [Except.map]

/-- All entries are shown in debug mode, in order and with their values: the name in UTF-16, the time of the calendar (C190) and
all 260 characters of the name in the codepage.  Of the values of the header none is shown. -/
theorem C196_shown_partial (u1 count u2 u3 n : Nat) (hn : n = 280 ∨ n = 800) (items : List Item) (h : ∀ i ∈ items, i.Ok n)
    (fuel : Nat) (hf : items.length < fuel) :
    ∃ time : Nat → Str, (∀ v, UsnDebug.TimeText v (time v)) ∧
      showFile (headerBytes u1 count u2 n u3 ++ items.flatMap Item.bytes) fuel =
        some (report ['\n'] id time (headerBytes u1 count u2 n u3) items, .ok (items.map Item.stored)) := by
  refine ⟨fun v => Dates.formatFiletime v, UsnDebug.timeText, ?_⟩
  have hl : (headerBytes u1 count u2 n u3).length = 20 := by simp [headerBytes]
  have f : number (headerBytes u1 count u2 n u3) 12 16 = n :=
    leField [_, _, _] 4 _ _ 12 16 (by simp) rfl (by rcases hn with rfl | rfl <;> decide)
  have hx := ChangeLogDebug.fixed_stored "file header".toList 20 [] (headerBytes u1 count u2 n u3) (items.flatMap Item.bytes)
    (by decide) hl
  rw [List.nil_append, List.length_nil] at hx
  have hh : showHeader (headerBytes u1 count u2 n u3 ++ items.flatMap Item.bytes) =
      (announcedAt "file header" 0 ++ dumpOf "File header data" (headerBytes u1 count u2 n u3) ++ ['\n'], .ok n) := by
    unfold showHeader
    rw [hx]
    unfold ChangeLogDebug.Out.bind
    dsimp only
    rw [header_text]
    dsimp only
    rw [f, if_pos hn]
    rfl
  unfold showFile
  rw [hh]
  dsimp only
  have := loop_items n items h (headerBytes u1 count u2 n u3 ++ items.flatMap Item.bytes).length (headerBytes u1 count u2 n u3) fuel
    hf (by rw [List.length_append])
  rw [hl] at this
  rw [this]
  simp [write, report]

/-- The script shows the file, then its title; what is raised is not caught. -/
theorem C196_script (data : Bytes) (fuel : Nat) (t : Str) :
    (∀ es, showFile data fuel = some (t, .ok es) →
      script data fuel = some (t ++ "Recycler INFO2 file information:\n\n".toList, none)) ∧
      ∀ e, showFile data fuel = some (t, .error e) → script data fuel = some (t, some e) := by
  unfold script
  constructor
  · intro es h; rw [h]; rfl
  · intro e h; rw [h]; rfl

/-! ## False claims -/

/-- A file that is read is read in debug mode. -/
def C196_same_claim : Prop :=
  ∀ (data : Bytes) (fuel : Nat) (es : List Entry), readFile data fuel = some (.ok es) → ∃ t, showFile data fuel = some (t, .ok es)

/-- The name in the codepage is shown up to its terminator. -/
def C196_name_claim : Prop :=
  ∀ (u1 count u2 u3 n : Nat), (n = 280 ∨ n = 800) → ∀ items : List Item, (∀ i ∈ items, i.Ok n) →
    ∃ (time : Nat → Str) (header : Str) (r : Res (List Entry)), (∀ v, UsnDebug.TimeText v (time v)) ∧ (header = ['\n'] ∨ header = headerShown u1 count u2 n u3) ∧
      showFile (headerBytes u1 count u2 n u3 ++ items.flatMap Item.bytes) (items.length + 1) =
        some (report header (List.takeWhile (· ≠ Char.ofNat 0)) time (headerBytes u1 count u2 n u3) items, r)

/-- The values of the header are shown. -/
def C196_header_claim : Prop :=
  ∀ (u1 count u2 u3 n : Nat), (n = 280 ∨ n = 800) →
    ∃ (time : Nat → Str) (r : Res (List Entry)),
      showFile (headerBytes u1 count u2 n u3) 1 =
        some (report (headerShown u1 count u2 n u3) id time (headerBytes u1 count u2 n u3) [], r)

/-! ## Witnesses -/

/-- A name with bytes after its terminator that stand for nothing. -/
def damaged : Entry := ⟨[65, 0, 0x81] ++ List.replicate 257 0, 1, 2, 0, 4, none⟩

theorem C196_same_claim_false : ¬ C196_same_claim := by
  intro h
  have hr := C100_entries 5 0 0 0 280 (.inl rfl) [(damaged, [])] (by
    intro i hi
    rw [List.mem_singleton] at hi
    subst hi
    exact ⟨by decide +kernel, by decide, by decide, by decide, by decide, .inl ⟨rfl, rfl⟩⟩) 0
  obtain ⟨t, ht⟩ := h _ _ _ hr
  obtain ⟨t', ht'⟩ := C196_same_partial _ _ _ hr
  rw [ht, if_neg (by decide +kernel)] at ht'
  cases ht'

/-- An entry with two names. -/
def sample : Item :=
  ⟨[65, 0x80] ++ List.replicate 258 0, "A€".toList ++ List.replicate 258 (Char.ofNat 0), 1, 2, 0, 4, some "A€".toList,
    List.replicate 514 7⟩

theorem sample_ok : sample.Ok 800 := by
  refine ⟨⟨by decide +kernel, by decide, by decide, by decide, by decide, .inr ⟨rfl, Utf.encode16 "A€".toList, rfl,
    Utf.encode16_utf16 _ (by decide +kernel), by decide +kernel⟩⟩, ?_, by decide +kernel, ?_⟩
  · rw [← C196_codepage]
    decide +kernel
  · intro s hs
    cases hs
    decide +kernel

theorem sample_time (cut : Str → Str) (time : Nat → Str) (h : ∀ v, UsnDebug.TimeText v (time v)) :
    sample.shown cut time = sample.shown cut fun _ => "Not set (0)".toList := by
  have : time 0 = "Not set (0)".toList := by
    rcases h 0 with ⟨_, h⟩ | ⟨h, _⟩ | ⟨h, _⟩
    · exact h
    · exact absurd h (by decide)
    · exact absurd rfl h
  unfold Item.shown
  rw [show sample.deletion = 0 from rfl, this]

theorem C196_name_claim_false : ¬ C196_name_claim := by
  intro h
  have ho : ∀ i ∈ [sample], i.Ok 800 := by
    intro i hi
    rw [List.mem_singleton] at hi
    exact hi ▸ sample_ok
  obtain ⟨time, header, r, ht, hh, hr⟩ := h 5 0 0 0 800 (.inr rfl) [sample] ho
  obtain ⟨time', ht', hr'⟩ := C196_shown_partial 5 0 0 0 800 (.inr rfl) [sample] ho 2 (by decide)
  rw [show [sample].length + 1 = 2 from rfl, hr'] at hr
  simp only [Option.some.injEq, Prod.mk.injEq] at hr
  have e := hr.1
  unfold report at e
  rw [List.map_singleton, List.map_singleton, sample_time _ _ ht, sample_time _ _ ht'] at e
  rcases hh with rfl | rfl
  · exact absurd (congrArg List.length e) (by decide +kernel)
  · exact absurd (congrArg List.length e) (by decide +kernel)

theorem C196_header_claim_false : ¬ C196_header_claim := by
  intro h
  obtain ⟨time, r, hr⟩ := h 5 0 0 0 280 (.inl rfl)
  obtain ⟨time', _, hr'⟩ := C196_shown_partial 5 0 0 0 280 (.inl rfl) [] (by simp) 1 (by decide)
  rw [List.flatMap_nil, List.append_nil, hr] at hr'
  simp only [Option.some.injEq, Prod.mk.injEq, report, List.map_nil, List.flatten_nil] at hr'
  exact absurd (congrArg List.length hr'.1) (by decide +kernel)

example : Texts damaged = false ∧ Texts sample.stored = true := by decide +kernel

example : ∃ t, showFile (headerBytes 5 0 0 800 0 ++ [sample].flatMap Item.bytes) 2 = some (t, .ok [sample.stored]) := by
  obtain ⟨_, _, h⟩ := C196_shown_partial 5 0 0 0 800 (.inr rfl) [sample] (by
    intro i hi
    rw [List.mem_singleton] at hi
    exact hi ▸ sample_ok) 2 (by decide)
  exact ⟨_, h⟩

example : ∃ t er, showFile (headerBytes 5 0 0 281 0) 1 = some (t, .error er) :=
  C196_refused _ 1 .parseError (by decide +kernel)

end Dtf.RecyclerDebug
