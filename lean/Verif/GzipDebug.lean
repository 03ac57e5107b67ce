import Verif.ChangeLogDebug
import Verif.UsnDebug
import Verif.Gzip

/-!
# What is shown of gzip files in debug mode (C199)

What zlib does is a parameter, as in the model of C47; the times are shown as in that of C190.
-/

namespace Dtf.GzipDebug
open Py DataFormat Formats Gzip
open Job (number decimal hexadecimal custom)
open ChangeLogDebug (Out write raise fixed)

abbrev Str := List Char

/-! ## Model -/

/-- The debug information of a header (gzipfile.debug.yaml 12-31).  The compression method and the time have a sign. -/
def headerAttributes (b : Bytes) : List (Option Attribute) :=
  [hexadecimal 4 "Signature" (number b 0 2), some ⟨some "Compression method".toList, decInt (signed 1 (number b 2 3)), false⟩,
    hexadecimal 2 "Flags" (number b 3 4), custom "Modification time" (Dates.formatPosix Dates.posix (signed 4 (number b 4 8))),
    decimal "Operating system" (number b 9 10), hexadecimal 2 "Compression flags" (number b 8 9)]

/-- The debug information of a footer (gzipfile.debug.yaml 3-10). -/
def footerAttributes (b : Bytes) : List (Option Attribute) :=
  [hexadecimal 8 "Checksum" (number b 0 4), decimal "Uncompressed data size" (number b 4 8)]

/-- The size of the extra field (gzipfile.py 132-140): the position after it. -/
def showExtra (data : Bytes) (flags pos : Nat) : Out Nat :=
  if flag flags 2 then
    (fixed "extra field data size".toList 2 data pos).bind fun b => ([], .ok (pos + 2 + leNat b))
  else ([], .ok pos)

/-- A string of ISO 8859-1 (gzipfile.py 142-162), in which every byte is a character. -/
def showString (what description : String) (data : Bytes) (set : Bool) (pos : Nat) : Out (Option Bytes × Nat) :=
  if set then
    write (readingText what.toList pos) <|
    match readString data pos with
    | .error e => raise e
    | .ok (s, next) =>
      (structureText what.toList (slice data pos next) ++ formatValue description.toList (s.map fun c => Char.ofNat c.toNat),
        .ok (some s, next))
  else ([], .ok (none, pos))

/-- `_ReadMemberHeader` (gzipfile.py 99-165) in debug mode. -/
def showHeader (data : Bytes) (pos : Nat) : Out (Option Bytes × Option Bytes × Nat) :=
  (fixed "member header".toList 10 data pos).bind fun h =>
  match formatStructure (headerAttributes h) with
  | .error e => raise e
  | .ok t =>
    write t <|
    if number h 0 2 = 0x8B1F ∧ signed 1 (number h 2 3) = 8 then
      (showExtra data (number h 3 4) (pos + 10)).bind fun pos =>
      (showString "original filename" "Original filename" data (flag (number h 3 4) 3) pos).bind fun name =>
      (showString "comment" "Comment" data (flag (number h 3 4) 4) name.2).bind fun comment =>
      ([], .ok (name.1, comment.1,
        if flag (number h 3 4) 1 then comment.2 + (slice data comment.2 (comment.2 + 2)).length else comment.2))
    else raise .parseError

/-- `_ReadMemberFooter` (gzipfile.py 79-97) in debug mode. -/
def showFooter (data : Bytes) (pos : Nat) : Out (Nat × Nat) :=
  (fixed "member footer".toList 8 data pos).bind fun b =>
  match formatStructure (footerAttributes b) with
  | .error e => raise e
  | .ok t => (t, .ok (number b 0 4, number b 4 8))

/-- One member (gzipfile.py 178-182) in debug mode; nothing is shown of its data. -/
def showMember (zl : Zlib) (size : Nat) (data : Bytes) (fuel pos : Nat) : Option (Out (Member × Nat)) :=
  match showHeader data pos with
  | (t, .error e) => some (t, .error e)
  | (t, .ok (name, comment, pos)) =>
    match readData zl size data fuel pos zl.init [] with
    | none => none
    | some (.error e) => some (t, .error e)
    | some (.ok (content, pos)) =>
      some <| write t <| (showFooter data pos).bind fun f => ([], .ok (⟨name, comment, content, f.1, f.2⟩, pos + 8))

/-- `ReadFileObject` (gzipfile.py 167-182) in debug mode; `none` is out of fuel. -/
def showFile (zl : Zlib) (size : Nat) (data : Bytes) : Nat → Nat → Option (Out (List Member))
  | 0, _ => none
  | fuel + 1, pos =>
    if pos < data.length then
      match showMember zl size data (fuel + 1) pos with
      | none => none
      | some (t, .error e) => some (t, .error e)
      | some (t, .ok (m, next)) => (showFile zl size data fuel next).map fun r => (t ++ r.1, r.2.map (m :: ·))
    else some ([], .ok [])

/-- `Main` (scripts/gzipfile.py 14-75) for a source in debug mode.  Nothing is caught. -/
def script (zl : Zlib) (size : Nat) (data : Bytes) (fuel : Nat) : Option (Str × Option Err) :=
  (showFile zl size data fuel 0).map fun
    | (t, .error e) => (t, some e)
    | (t, .ok _) => (t ++ "GZip information:".toList, none)

/-! ## Specification -/

open RpLog.DebugMode (announcedAt dumpOf hexadecimalOf)
open Utmp.DebugMode (shownAs)

/-- A member: its strings have any characters of ISO 8859-1. -/
structure Item where
  time : Nat
  level : UInt8
  system : UInt8
  text : Bool
  extra : Option Bytes
  crc : Option (UInt8 × UInt8)
  name : Option Str
  comment : Option Str
  content : Bytes
  checksum : Nat
  size : Nat
  stream : Bytes

def latin (s : Str) : Bytes := s.map fun c => UInt8.ofNat c.toNat

def Item.stored (i : Item) : Stored :=
  ⟨⟨i.name.map latin, i.comment.map latin, i.content, i.checksum, i.size⟩, i.text, i.extra, i.crc,
    [leBytes 4 i.time, [i.level], [i.system]].flatten, i.stream⟩

/-- Characters of ISO 8859-1 other than NUL. -/
def Latin (s : Str) : Prop := ∀ c ∈ s, 0 < c.toNat ∧ c.toNat < 256

def Item.Ok (zl : Zlib) (size : Nat) (i : Item) : Prop :=
  i.time < 2 ^ 32 ∧ (∀ e, i.extra = some e → e.length < 2 ^ 16) ∧ (∀ s, i.name = some s → Latin s) ∧
    (∀ s, i.comment = some s → Latin s) ∧ i.checksum < 2 ^ 32 ∧ i.size < 2 ^ 32 ∧ Deflated zl i.stream i.content ∧
    i.content ≠ [] ∧ i.stream.length ≤ size

def hex2 (n : Nat) : Str := "0x".toList ++ Text.zpad 2 (Text.digits 16 n)

/-- What is meant to be shown of a string at an offset, if there is one. -/
def stringShown (what data description : String) (off : Nat) : Option Str → Str
  | none => []
  | some s => announcedAt what off ++ dumpOf data (latin s ++ [0]) ++ shownAs description s

/-- What is meant to be shown of the size of the extra field. -/
def extraShown (off : Nat) : Option Bytes → Str
  | none => []
  | some e => announcedAt "extra field data size" off ++ dumpOf "Extra field data size data" (leBytes 2 e.length)

/-- What is meant to be shown of a member at an offset; `time` is the text of its time. -/
def Item.shown (time : Nat → Str) (off : Nat) (i : Item) : Str :=
  let afterExtra := off + 10 + (extraBytes i.extra).length
  let afterName := afterExtra + (stringBytes (i.name.map latin)).length
  let footer := off + i.stored.bytes.length - 8
  [announcedAt "member header" off, dumpOf "Member header data" i.stored.header, shownAs "Signature" "0x8b1f".toList,
    shownAs "Compression method" "8".toList, shownAs "Flags" (hex2 i.stored.flags), shownAs "Modification time" (time i.time),
    shownAs "Operating system" (Text.digits 10 i.system.toNat), shownAs "Compression flags" (hex2 i.level.toNat), ['\n'],
    extraShown (off + 10) i.extra,
    stringShown "original filename" "Original filename data" "Original filename" afterExtra i.name,
    stringShown "comment" "Comment data" "Comment" afterName i.comment,
    announcedAt "member footer" footer, dumpOf "Member footer data" i.stored.footer,
    shownAs "Checksum" (hexadecimalOf i.checksum), shownAs "Uncompressed data size" (Text.digits 10 i.size), ['\n']].flatten

def itemsShown (time : Nat → Str) : Nat → List Item → Str
  | _, [] => []
  | off, i :: l => i.shown time off ++ itemsShown time (off + i.stored.bytes.length) l

/-- The text of a number of seconds since 1970. -/
def Stamp (v : Int) (t : Str) : Prop :=
  (v = 0 ∧ t = "Not set (0)".toList) ∨ (v ≠ 0 ∧ ∃ c, Dates.IsTimeSince ⟨1970, 1, 1⟩ 0 c v ∧ t = c ++ " UTC".toList)

/-- The number that is shown for the one that is stored: numbers of 2 ^ 31 and more are taken for times before 1970. -/
def seconds (n : Nat) : Int := if n < 2 ^ 31 then n else (n : Int) - 2 ^ 32

/-! ## Proofs -/

theorem hex_line (w : Nat) (n : Nat) : '\n' ∉ "0x".toList ++ hexw w n := by
  have := (Job.fine_hexadecimal w "" n).2
  simpa [hexadecimal] using this

theorem blockOf_hex (w : Nat) (d : String) (n : Nat) : Job.blockOf (hexadecimal w d n) = some (Job.line d ("0x".toList ++ hexw w n)) :=
  UsnDebug.blockOf_line d _ _ (hex_line w n)

theorem stamp (v : Int) (h : -62135596800 ≤ v) : Stamp v (Dates.formatPosix Dates.posix v) := by
  by_cases h0 : v = 0
  · subst h0; exact .inl ⟨rfl, rfl⟩
  · exact .inr ⟨h0, (Dates.C190_posix_units v h0).1 h⟩

theorem stamp_line (v : Int) (t : Str) (h : Stamp v t) : '\n' ∉ t := by
  rcases h with ⟨_, rfl⟩ | ⟨_, c, ⟨_, n, hh, m, s, f, _, _, _, _, _, _, rfl⟩, rfl⟩
  · decide
  · rw [List.mem_append]
    rintro (h | h)
    · exact UsnDebug.writtenAs_line _ _ _ _ _ _ h
    · revert h; decide

theorem decInt_line (v : Int) : '\n' ∉ decInt v := by
  unfold decInt
  split
  · rw [List.mem_cons, not_or]
    exact ⟨by decide, Job.dec_line _⟩
  · exact Job.dec_line _

theorem byte_lt (b : Bytes) (i : Nat) : number b i (i + 1) < 256 := by
  unfold number
  rcases h : slice b i (i + 1) with _ | ⟨x, _ | ⟨y, l⟩⟩
  · decide
  · have := x.toNat_lt
    simp [leNat]
    omega
  · have := congrArg List.length h
    rw [slice_eq_take_drop, List.length_take] at this
    simp at this
    omega

theorem header_text (b : Bytes) : formatStructure (headerAttributes b) = .ok
    ([shownAs "Signature" ("0x".toList ++ hexw 4 (number b 0 2)), shownAs "Compression method" (decInt (signed 1 (number b 2 3))),
    shownAs "Flags" (hex2 (number b 3 4)), shownAs "Modification time" (Dates.formatPosix Dates.posix (signed 4 (number b 4 8))),
    shownAs "Operating system" (Text.digits 10 (number b 9 10)), shownAs "Compression flags" (hex2 (number b 8 9)),
    ['\n']].flatten) := by
  have ht : '\n' ∉ Dates.formatPosix Dates.posix (signed 4 (number b 4 8)) := by
    refine stamp_line _ _ (stamp _ ?_)
    unfold signed
    split <;> omega
  unfold headerAttributes
  generalize Dates.formatPosix Dates.posix (signed 4 (number b 4 8)) = time at *
  rw [Job.structure_fine]
  · simp only [List.filterMap_cons, List.filterMap_nil, UsnDebug.blockOf_decimal, blockOf_hex, Job.blockOf_custom _ _ ht,
      UsnDebug.blockOf_line _ _ _ (decInt_line _)]
    have := Job.closed_line [Job.line "Signature" ("0x".toList ++ hexw 4 (number b 0 2)),
      Job.line "Compression method" (decInt (signed 1 (number b 2 3))), Job.line "Flags" ("0x".toList ++ hexw 2 (number b 3 4)),
      Job.line "Modification time" time, Job.line "Operating system" (dec (number b 9 10))] "Compression flags" _
      (hex_line 2 (number b 8 9))
    simp only [List.cons_append, List.nil_append] at this
    rw [this]
    simp only [UsnDebug.line_shownAs, List.flatten_cons, List.flatten_nil, List.append_assoc, List.append_nil]
    rfl
  · simp only [List.mem_cons, List.not_mem_nil, or_false]
    rintro a (rfl | rfl | rfl | rfl | rfl | rfl)
    all_goals first
      | exact Job.fine_decimal _ _
      | exact Job.fine_hexadecimal _ _ _
      | exact Job.fine_custom _ _
      | exact ⟨⟨_, rfl⟩, .inr (decInt_line _)⟩

theorem footer_text (b : Bytes) : formatStructure (footerAttributes b) = .ok
    ([shownAs "Checksum" (hexadecimalOf (number b 0 4)), shownAs "Uncompressed data size" (Text.digits 10 (number b 4 8)),
    ['\n']].flatten) := by
  unfold footerAttributes
  rw [Job.structure_fine]
  · simp only [List.filterMap_cons, List.filterMap_nil, UsnDebug.blockOf_decimal, blockOf_hex]
    have := Job.closed_line [Job.line "Checksum" ("0x".toList ++ hexw 8 (number b 0 4))] "Uncompressed data size" _
      (Job.dec_line (number b 4 8))
    simp only [List.cons_append, List.nil_append] at this
    rw [this]
    simp only [UsnDebug.line_shownAs, List.flatten_cons, List.flatten_nil, List.append_assoc, List.append_nil]
    rfl
  · simp only [List.mem_cons, List.not_mem_nil, or_false]
    rintro a (rfl | rfl)
    · exact Job.fine_hexadecimal _ _ _
    · exact Job.fine_decimal _ _

theorem extra_same (data : Bytes) (flags pos : Nat) : (showExtra data flags pos).2 = skipExtra data flags pos := by
  unfold showExtra skipExtra
  by_cases hf : flag flags 2
  · rw [if_pos hf, if_pos hf]
    unfold fixed
    rw [structAt_fixed _ _ _ _ (by decide)]
    by_cases hl : data.length < pos + 2
    · rw [if_pos hl, if_pos hl]; rfl
    · rw [if_neg hl, if_neg hl, slice_eq_take_drop, Nat.add_sub_cancel_left]; rfl
  · rw [if_neg hf, if_neg hf]

theorem string_same (what description : String) (data : Bytes) (set : Bool) (pos : Nat) :
    (showString what description data set pos).2 = readOptional data set pos := by
  unfold showString readOptional
  by_cases hs : set
  · rw [if_pos hs, if_pos hs]
    unfold write raise
    rcases readString data pos with e | ⟨s, next⟩ <;> rfl
  · rw [if_neg hs, if_neg hs]

theorem bind_same (a : Out α) (f : α → Out β) : (a.bind f).2 =
    match a.2 with
    | .error e => .error e
    | .ok x => (f x).2 := by
  rcases a with ⟨t, e | x⟩ <;> rfl

theorem header_same (data : Bytes) (pos : Nat) : (showHeader data pos).2 = readHeader data pos := by
  unfold showHeader readHeader headerMap fixed
  rw [structAt_refine]
  rcases structAt (fixedMap 10 id) data (pos : Int) with e | ⟨b, k⟩
  · rfl
  · unfold parseHeader
    rw [bind_same]
    dsimp only [write]
    rw [header_text]
    dsimp only
    have hm : signed 1 (number b 2 3) = 8 ↔ leNat (slice b 2 3) = 8 := by
      have : number b 2 3 < 256 := byte_lt b 2
      show _ ↔ number b 2 3 = 8
      unfold signed
      split <;> omega
    by_cases hc : leNat (slice b 0 2) = 0x8B1F ∧ leNat (slice b 2 3) = 8
    · rw [if_pos hc, if_pos ⟨hc.1, hm.mpr hc.2⟩]
      dsimp only
      rw [bind_same, extra_same]
      show _ = match skipExtra data (number b 3 4) (pos + 10) with | .error e => _ | .ok pos => _
      rcases skipExtra data (number b 3 4) (pos + 10) with e | p
      · rfl
      · dsimp only
        rw [bind_same, string_same]
        show _ = match readOptional data (flag (number b 3 4) 3) p with | .error e => _ | .ok (name, pos) => _
        rcases readOptional data (flag (number b 3 4) 3) p with e | ⟨name, p⟩
        · rfl
        · dsimp only
          rw [bind_same, string_same]
          show _ = match readOptional data (flag (number b 3 4) 4) p with | .error e => _ | .ok (comment, pos) => _
          rcases readOptional data (flag (number b 3 4) 4) p with e | ⟨comment, p⟩
          · rfl
          · rfl
    · rw [if_neg hc, if_neg fun h => hc ⟨h.1, hm.mp h.2⟩]
      rfl

theorem footer_same (data : Bytes) (pos : Nat) : (showFooter data pos).2 =
    match structAt footerMap data pos with
    | .error e => .error e
    | .ok (f, _) => .ok f := by
  unfold showFooter footerMap fixed
  rw [structAt_refine]
  rcases structAt (fixedMap 8 id) data (pos : Int) with e | ⟨b, k⟩
  · rfl
  · rw [bind_same]
    dsimp only [write]
    rw [footer_text]
    rfl

theorem member_same (zl : Zlib) (size : Nat) (data : Bytes) (fuel pos : Nat) :
    (showMember zl size data fuel pos).map (·.2) = readMember zl size data fuel pos := by
  unfold showMember readMember
  have hh := header_same data pos
  rcases hs : showHeader data pos with ⟨t, e | ⟨name, comment, p⟩⟩
  · rw [hs] at hh; rw [← hh]; rfl
  · rw [hs] at hh
    rw [← hh]
    dsimp only
    rcases readData zl size data fuel p zl.init [] with _ | e | ⟨content, q⟩
    · rfl
    · rfl
    · dsimp only [write]
      have hf := footer_same data q
      rw [Option.map_some, bind_same, hf]
      rcases structAt footerMap data (q : Int) with e | ⟨⟨c, n⟩, k⟩ <;> rfl

/-! ## C199 -/

theorem file_same (zl : Zlib) (size : Nat) (data : Bytes) : ∀ (fuel pos : Nat) (acc : List Member),
    readFile zl size data fuel pos acc = (showFile zl size data fuel pos).map fun r => r.2.map (acc ++ ·) := by
  intro fuel
  induction fuel with
  | zero => intro pos acc; rfl
  | succ fuel ih =>
    intro pos acc
    rw [readFile, showFile]
    by_cases hc : pos < data.length
    · rw [if_pos hc, if_pos hc, ← member_same]
      rcases showMember zl size data (fuel + 1) pos with _ | ⟨t, e | ⟨m, next⟩⟩
      · rfl
      · rfl
      · dsimp only [Option.map_some]
        rw [ih]
        rcases showFile zl size data fuel next with _ | ⟨t', e | xs⟩
        · rfl
        · rfl
        · simp [Except.map]
    · rw [if_neg hc, if_neg hc]
      simp [Except.map]

/-- In debug mode the same members are read as otherwise, and the same files are refused with the same exceptions. -/
theorem C199_same (zl : Zlib) (size : Nat) (data : Bytes) (fuel : Nat) :
    (showFile zl size data fuel 0).map (·.2) = readFile zl size data fuel 0 [] := by
  rw [file_same]
  congr 1
  funext r
  rcases r with ⟨t, e | xs⟩ <;> rfl

theorem latin_text (s : Str) (h : Latin s) : (latin s).map (fun c => Char.ofNat c.toNat) = s := by
  unfold latin
  rw [List.map_map]
  conv => rhs; rw [← List.map_id s]
  refine List.map_congr_left fun c hc => ?_
  have := (h c hc).2
  simp only [Function.comp, UInt8.toNat_ofNat', Nat.mod_eq_of_lt this, Char.ofNat_toNat, id]

theorem latin_ne (s : Str) (h : Latin s) : ∀ b ∈ latin s, b ≠ 0 := by
  intro b hb he
  obtain ⟨c, hc, rfl⟩ := List.mem_map.mp hb
  have := h c hc
  have e := congrArg UInt8.toNat he
  rw [UInt8.toNat_ofNat', Nat.mod_eq_of_lt this.2] at e
  simp at e
  omega

theorem stored_ok (zl : Zlib) (size : Nat) (i : Item) (h : i.Ok zl size) : i.stored.Ok zl := by
  obtain ⟨h1, h2, h3, h4, h5, h6, h7, h8, h9⟩ := h
  refine ⟨by simp [Item.stored], h2, ?_, ?_, h5, h6, h7⟩
  · intro n hn
    obtain ⟨s, hs, rfl⟩ := Option.map_eq_some_iff.mp hn
    exact latin_ne s (h3 s hs)
  · intro n hn
    obtain ⟨s, hs, rfl⟩ := Option.map_eq_some_iff.mp hn
    exact latin_ne s (h4 s hs)

theorem showExtra_stored (flags : Nat) (e : Option Bytes) (hf : flag flags 2 = e.isSome)
    (he : ∀ x, e = some x → x.length < 2 ^ 16) (pre post : Bytes) :
    showExtra (pre ++ extraBytes e ++ post) flags pre.length = (extraShown pre.length e, .ok (pre ++ extraBytes e).length) := by
  refine Prod.ext ?_ (by rw [extra_same, skipExtra_bytes flags e hf he])
  unfold showExtra
  cases e with
  | none => rw [if_neg (by simp [hf])]; rfl
  | some x =>
    have hx := ChangeLogDebug.fixed_stored "extra field data size".toList 2 pre (leBytes 2 x.length) (x ++ post) (by decide) (by simp)
    rw [if_pos (by simp [hf]), show pre ++ extraBytes (some x) ++ post = pre ++ leBytes 2 x.length ++ (x ++ post) by
      simp [extraBytes], hx]
    unfold ChangeLogDebug.Out.bind write
    dsimp only
    rw [List.append_nil]
    rfl

theorem showString_stored (what data description : String) (hd : structureName what.toList = data.toList) (set : Bool)
    (s : Option Str) (hf : set = s.isSome) (hs : ∀ x, s = some x → Latin x) (pre post : Bytes) :
    showString what description (pre ++ stringBytes (s.map latin) ++ post) set pre.length =
      (stringShown what data description pre.length s, .ok (s.map latin, (pre ++ stringBytes (s.map latin)).length)) := by
  have hr := readOptional_bytes set (s.map latin) (by rw [hf]; simp) (by
    intro n hn
    obtain ⟨x, hx, rfl⟩ := Option.map_eq_some_iff.mp hn
    exact latin_ne x (hs x hx)) pre post
  refine Prod.ext ?_ (by rw [string_same, hr])
  subst hf
  unfold showString
  cases s with
  | none => rfl
  | some x =>
    unfold readOptional at hr
    rw [if_pos (show (some x).isSome = true from rfl)] at hr ⊢
    rcases hc : readString (pre ++ stringBytes ((some x).map latin) ++ post) pre.length with e | ⟨y, next⟩
    · rw [hc] at hr; cases hr
    · rw [hc] at hr
      simp only [Except.ok.injEq, Prod.mk.injEq, Option.map_some, Option.some.injEq] at hr
      obtain ⟨rfl, rfl⟩ := hr
      unfold write
      dsimp only [Option.map_some]
      rw [List.length_append, slice_at _ _ _ _ (Nat.le_refl _), List.take_length, latin_text x (hs x rfl)]
      unfold stringShown structureText
      rw [hd]
      simp only [ChangeLogDebug.value_eq, ChangeLogDebug.dump_eq, ChangeLogDebug.reading_eq, List.append_assoc]
      rfl

/-- What is shown of the header. -/
def headShown (time : Nat → Str) (off : Nat) (i : Item) : Str :=
  [announcedAt "member header" off, dumpOf "Member header data" i.stored.header, shownAs "Signature" "0x8b1f".toList,
    shownAs "Compression method" "8".toList, shownAs "Flags" (hex2 i.stored.flags), shownAs "Modification time" (time i.time),
    shownAs "Operating system" (Text.digits 10 i.system.toNat), shownAs "Compression flags" (hex2 i.level.toNat), ['\n'],
    extraShown (off + 10) i.extra,
    stringShown "original filename" "Original filename data" "Original filename" (off + 10 + (extraBytes i.extra).length) i.name,
    stringShown "comment" "Comment data" "Comment"
      (off + 10 + (extraBytes i.extra).length + (stringBytes (i.name.map latin)).length) i.comment].flatten

/-- The text of the number that is shown. -/
def timeShown (n : Nat) : Str := Dates.formatPosix Dates.posix (signed 4 n)

theorem header_fields (i : Item) (h : i.time < 2 ^ 32) : number i.stored.header 0 2 = 0x8B1F ∧ number i.stored.header 2 3 = 8 ∧
    number i.stored.header 3 4 = i.stored.flags ∧ number i.stored.header 4 8 = i.time ∧
    number i.stored.header 8 9 = i.level.toNat ∧ number i.stored.header 9 10 = i.system.toNat := by
  have hf := (flag_flags i.stored).2.2.2.2
  have e : i.stored.header = [leBytes 2 0x8B1F, [8], [UInt8.ofNat i.stored.flags], leBytes 4 i.time, [i.level], [i.system]].flatten := by
    simp [Stored.header, Item.stored]
  have s1 : slice i.stored.header 2 3 = [8] := by rw [e]; exact slice_fields [leBytes 2 _] [8] _ 2 3 (by simp) rfl
  have s2 : slice i.stored.header 3 4 = [UInt8.ofNat i.stored.flags] := by
    rw [e]; exact slice_fields [leBytes 2 _, [8]] _ _ 3 4 (by simp) rfl
  have s3 : slice i.stored.header 8 9 = [i.level] := by
    rw [e]; exact slice_fields [leBytes 2 _, [8], [_], leBytes 4 _] _ _ 8 9 (by simp) rfl
  have s4 : slice i.stored.header 9 10 = [i.system] := by
    rw [e]; exact slice_fields [leBytes 2 _, [8], [_], leBytes 4 _, [_]] _ _ 9 10 (by simp) rfl
  unfold number
  refine ⟨?_, ?_, ?_, ?_, ?_, ?_⟩
  · rw [e]; exact leField [] 2 _ _ 0 2 rfl rfl (by omega)
  · rw [s1]; rfl
  · rw [s2]
    simp only [leNat, Nat.mul_zero, Nat.add_zero]
    rw [UInt8.toNat_ofNat', Nat.mod_eq_of_lt (by omega)]
  · rw [e]; exact leField [leBytes 2 _, [8], [_]] 4 _ _ 4 8 (by simp) rfl (by omega)
  · rw [s3]; simp [leNat]
  · rw [s4]; simp [leNat]

theorem showHeader_stored (zl : Zlib) (size : Nat) (i : Item) (h : i.Ok zl size) (pre post : Bytes) :
    showHeader (pre ++ i.stored.bytes ++ post) pre.length = (headShown timeShown pre.length i,
      .ok (i.name.map latin, i.comment.map latin, (pre ++ [i.stored.header, extraBytes i.extra, stringBytes (i.name.map latin),
        stringBytes (i.comment.map latin), crcBytes i.crc].flatten).length)) := by
  refine Prod.ext ?_ (by rw [header_same, readHeader_bytes zl i.stored (stored_ok zl size i h)]; rfl)
  obtain ⟨h1, h2, h3, h4, -, -, -, -, -⟩ := h
  obtain ⟨g1, g2, g3, g4, -⟩ := flag_flags i.stored
  obtain ⟨f0, f1, f2, f3, f4, f5⟩ := header_fields i h1
  have hl : i.stored.header.length = 10 := by simp [Stored.header, Item.stored]
  generalize hst : i.stored.header = hd at *
  generalize hfl : i.stored.flags = flags at *
  have hb : i.stored.bytes = [hd, extraBytes i.extra, stringBytes (i.name.map latin), stringBytes (i.comment.map latin),
      crcBytes i.crc, i.stream, i.stored.footer].flatten := by rw [← hst]; rfl
  generalize hrest : [crcBytes i.crc, i.stream, i.stored.footer].flatten ++ post = rest
  have e4 : pre ++ i.stored.bytes ++ post = (pre ++ hd ++ extraBytes i.extra ++ stringBytes (i.name.map latin)) ++
      stringBytes (i.comment.map latin) ++ rest := by rw [hb, ← hrest]; simp
  have e3 : pre ++ i.stored.bytes ++ post = (pre ++ hd ++ extraBytes i.extra) ++ stringBytes (i.name.map latin) ++
      (stringBytes (i.comment.map latin) ++ rest) := by rw [e4]; simp
  have e2 : pre ++ i.stored.bytes ++ post = (pre ++ hd) ++ extraBytes i.extra ++ (stringBytes (i.name.map latin) ++
      (stringBytes (i.comment.map latin) ++ rest)) := by rw [e3]; simp
  have e1 : pre ++ i.stored.bytes ++ post = pre ++ hd ++ (extraBytes i.extra ++ (stringBytes (i.name.map latin) ++
      (stringBytes (i.comment.map latin) ++ rest))) := by rw [e2]; simp
  have r1 := ChangeLogDebug.fixed_stored "member header".toList 10 pre hd (extraBytes i.extra ++ (stringBytes (i.name.map latin) ++
      (stringBytes (i.comment.map latin) ++ rest))) (by decide) hl
  have r2 := showExtra_stored flags i.extra g2 h2 (pre ++ hd) (stringBytes (i.name.map latin) ++
      (stringBytes (i.comment.map latin) ++ rest))
  have r3 := showString_stored "original filename" "Original filename data" "Original filename" (by decide) (flag flags 3) i.name
    (by rw [g3]; simp [Item.stored]) h3 (pre ++ hd ++ extraBytes i.extra) (stringBytes (i.comment.map latin) ++ rest)
  have r4 := showString_stored "comment" "Comment data" "Comment" (by decide) (flag flags 4) i.comment
    (by rw [g4]; simp [Item.stored]) h4 (pre ++ hd ++ extraBytes i.extra ++ stringBytes (i.name.map latin)) rest
  rw [← e1] at r1
  rw [← e2] at r2
  rw [← e3] at r3
  rw [← e4] at r4
  unfold showHeader
  rw [r1]
  unfold ChangeLogDebug.Out.bind write
  dsimp only
  rw [header_text, f0, f1, f2, f3, f4, f5]
  dsimp only
  rw [if_pos ⟨rfl, by decide⟩, show pre.length + 10 = (pre ++ hd).length by simp [hl], r2]
  dsimp only
  rw [r3]
  dsimp only
  rw [r4]
  unfold headShown
  rw [hst, hfl]
  simp only [List.flatten_cons, List.flatten_nil, List.append_nil, List.append_assoc, List.length_append, hl]
  simp only [← Nat.add_assoc]
  rfl

theorem showMember_stored (zl : Zlib) (size : Nat) (i : Item) (h : i.Ok zl size) (pre post : Bytes) (fuel : Nat) :
    showMember zl size (pre ++ i.stored.bytes ++ post) (fuel + 2) pre.length =
      some (i.shown timeShown pre.length, .ok (i.stored.value, (pre ++ i.stored.bytes).length)) := by
  have hs := stored_ok zl size i h
  have hm := readMember_bytes zl size i.stored hs h.2.2.2.2.2.2.2.1 h.2.2.2.2.2.2.2.2 pre post fuel
  rw [← member_same] at hm
  rcases hx : showMember zl size (pre ++ i.stored.bytes ++ post) (fuel + 2) pre.length with _ | ⟨t, r⟩
  · rw [hx] at hm; cases hm
  · rw [hx, Option.map_some, Option.some.injEq] at hm
    dsimp only at hm
    subst hm
    refine congrArg some (Prod.ext ?_ rfl)
    unfold showMember at hx
    rw [showHeader_stored zl size i h] at hx
    dsimp only at hx
    generalize hh : [i.stored.header, extraBytes i.extra, stringBytes (i.name.map latin), stringBytes (i.comment.map latin),
      crcBytes i.crc].flatten = hb at hx
    have hbytes : i.stored.bytes = hb ++ i.stream ++ i.stored.footer := by rw [← hh]; simp [Stored.bytes, Item.stored]
    have e1 : pre ++ i.stored.bytes ++ post = (pre ++ hb) ++ i.stream ++ (i.stored.footer ++ post) := by rw [hbytes]; simp
    have e2 : pre ++ i.stored.bytes ++ post = ((pre ++ hb) ++ i.stream) ++ i.stored.footer ++ post := by rw [hbytes]; simp
    have hfl : i.stored.footer.length = 8 := by simp [Stored.footer]
    have r1 := readData_stream zl size i.stream i.content (pre ++ hb) (i.stored.footer ++ post) h.2.2.2.2.2.2.1
      h.2.2.2.2.2.2.2.1 h.2.2.2.2.2.2.2.2 fuel
    have r2 := ChangeLogDebug.fixed_stored "member footer".toList 8 ((pre ++ hb) ++ i.stream) i.stored.footer post (by decide) hfl
    rw [← e1] at r1
    rw [← e2] at r2
    rw [r1] at hx
    dsimp only at hx
    unfold showFooter at hx
    rw [r2] at hx
    unfold ChangeLogDebug.Out.bind write at hx
    dsimp only at hx
    have f0 : number i.stored.footer 0 4 = i.checksum := leField [] 4 _ _ 0 4 rfl rfl (by have : i.checksum < 2 ^ 32 := h.2.2.2.2.1; show i.checksum < _; omega)
    have f1 : number i.stored.footer 4 8 = i.size := leField [leBytes 4 _] 4 _ _ 4 8 (by simp) rfl (by have : i.size < 2 ^ 32 := h.2.2.2.2.2.1; show i.size < _; omega)
    rw [footer_text, f0, f1] at hx
    dsimp only at hx
    have ht := (Prod.mk.inj (Option.some.inj hx)).1
    rw [← ht]
    have hpos : pre.length + i.stored.bytes.length - 8 = (pre ++ hb ++ i.stream).length := by
      rw [hbytes]
      simp only [List.length_append, hfl]
      omega
    unfold headShown Item.shown
    dsimp only
    rw [hpos]
    simp only [List.flatten_cons, List.flatten_nil, List.append_nil, List.append_assoc]
    rfl

theorem seconds_signed (n : Nat) : signed 4 n = seconds n := by
  unfold signed seconds
  split <;> split <;> omega

/-- All that is stored of the members is shown but for their data, what is in their extra fields and the checksums of their
headers: the bytes of headers, sizes, strings and footers with the offsets at which they are, all values and all characters.  As in
C47 no member is of empty data and none has a stream that is larger than the buffer. -/
theorem C199_shown_partial (zl : Zlib) (size : Nat) (items : List Item) (h : ∀ i ∈ items, i.Ok zl size) (fuel : Nat)
    (hf : items.length < fuel) : ∃ time : Nat → Str, (∀ n < 2 ^ 32, Stamp (seconds n) (time n)) ∧
    showFile zl size ((items.map Item.stored).flatMap (·.bytes)) fuel 0 =
      some (itemsShown time 0 items, .ok (items.map fun i => i.stored.value)) := by
  refine ⟨timeShown, ?_, ?_⟩
  · intro n hn
    unfold timeShown
    rw [seconds_signed]
    refine stamp _ ?_
    unfold seconds
    split <;> omega
  · have key : ∀ (items : List Item) (pre : Bytes) (fuel : Nat), (∀ i ∈ items, i.Ok zl size) → items.length < fuel →
        showFile zl size (pre ++ (items.map Item.stored).flatMap (·.bytes)) fuel pre.length =
          some (itemsShown timeShown pre.length items, .ok (items.map fun i => i.stored.value)) := by
      intro items
      induction items with
      | nil =>
        intro pre fuel _ hf
        obtain ⟨k, rfl⟩ : ∃ k, fuel = k + 1 := ⟨fuel - 1, by simp at hf; omega⟩
        rw [showFile, if_neg (by simp)]
        rfl
      | cons i items ih =>
        intro pre fuel h hf
        obtain ⟨k, rfl⟩ : ∃ k, fuel = k + 2 := ⟨fuel - 2, by simp at hf; omega⟩
        have hl : 0 < i.stored.bytes.length := by simp [Stored.bytes, Stored.footer]
        have e : pre ++ ((i :: items).map Item.stored).flatMap (·.bytes) =
            pre ++ i.stored.bytes ++ (items.map Item.stored).flatMap (·.bytes) := by simp
        rw [e, showFile, if_pos (by simp only [List.length_append]; omega), showMember_stored zl size i (h i (by simp))]
        dsimp only
        rw [ih (pre ++ i.stored.bytes) _ (fun t ht => h t (by simp [ht])) (by simp at hf; omega), List.length_append]
        rfl
    simpa using key items [] fuel h hf

/-- The script writes all of this and then its title. -/
theorem C199_script (zl : Zlib) (size : Nat) (items : List Item) (h : ∀ i ∈ items, i.Ok zl size) (fuel : Nat)
    (hf : items.length < fuel) : ∃ time : Nat → Str, (∀ n < 2 ^ 32, Stamp (seconds n) (time n)) ∧
    script zl size ((items.map Item.stored).flatMap (·.bytes)) fuel = some (itemsShown time 0 items ++ "GZip information:".toList, none) := by
  obtain ⟨time, ht, hs⟩ := C199_shown_partial zl size items h fuel hf
  refine ⟨time, ht, ?_⟩
  unfold script
  rw [hs]
  rfl

/-- A member of data that is stored as it is, see `Gzip.toy`. -/
def item (time : Nat) : Item :=
  ⟨time, 2, 3, false, some [1, 2, 3], none, some "é.txt".toList, none, [65, 66], 7, 2, [2, 65, 66]⟩

theorem item_ok (time : Nat) (h : time < 2 ^ 32) : (item time).Ok toy 16 := by
  refine ⟨h, ?_, ?_, nofun, show 7 < 2 ^ 32 by omega, show 2 < 2 ^ 32 by omega, toy_deflated [65, 66] (by decide), nofun,
    show 3 ≤ 16 by omega⟩
  · intro e he
    cases he
    decide
  · intro s hs
    cases hs
    unfold Latin
    decide +kernel

/-- The time that is shown is that of the number of seconds that is stored. -/
def C199_time_claim : Prop :=
  ∀ (zl : Zlib) (size : Nat) (items : List Item), (∀ i ∈ items, i.Ok zl size) → ∀ fuel, items.length < fuel →
    ∃ time : Nat → Str, (∀ n : Nat, n < 2 ^ 32 → Stamp (n : Int) (time n)) ∧
      (showFile zl size ((items.map Item.stored).flatMap (·.bytes)) fuel 0).map (·.1) = some (itemsShown time 0 items)

/-- Two numbers are not shown as the same time. -/
theorem stamp_inj (v w : Int) (t : Str) (hv : -62135596800 ≤ v) (hw : -62135596800 ≤ w) (h1 : Stamp v t) (h2 : Stamp w t) : v = w := by
  have key : ∀ v, -62135596800 ≤ v → Stamp v t → t = Dates.formatPosix Dates.posix v := by
    intro v hv h
    rcases h with ⟨rfl, rfl⟩ | ⟨h0, c, hc, rfl⟩
    · rfl
    · obtain ⟨c', hc', e⟩ := (Dates.C190_posix_units v h0).1 hv
      have hp : 0 ≤ v + (Dates.posix.epoch * 86400 * Dates.posix.unit : Nat) := by
        rw [show Dates.posix.epoch * 86400 * Dates.posix.unit = 62135596800 by decide +kernel]
        omega
      have hd : Calendar.dayAfter Dates.posix.epoch = ⟨1970, 1, 1⟩ := Dates.start_posix
      have e1 := (Dates.text_iff Dates.posix _ hd v c).mpr ⟨hp, hc⟩
      have e2 := (Dates.text_iff Dates.posix _ hd v c').mpr ⟨hp, hc'⟩
      rw [e1] at e2
      rw [e, Option.some.inj e2]
  exact (Dates.C190_distinct Dates.posix v w).2.2 (by rw [← key v hv h1, ← key w hw h2])

theorem shown_time (i : Item) (off : Nat) (a b : Nat → Str) (h : i.shown a off = i.shown b off) : a i.time = b i.time := by
  unfold Item.shown at h
  dsimp only at h
  simp only [List.flatten_cons, List.append_cancel_left_eq] at h
  rw [List.append_cancel_right_eq] at h
  have h : formatValue "Modification time".toList (a i.time) = formatValue "Modification time".toList (b i.time) := h
  unfold formatValue at h
  exact List.append_cancel_left (List.append_cancel_right h)

/-- A time after 2038 is shown as one before 1970. -/
theorem C199_time_claim_false : ¬ C199_time_claim := by
  intro h
  have hk : ∀ i ∈ [item (2 ^ 32 - 1)], i.Ok toy 16 := by
    intro i hi
    rw [List.mem_singleton.mp hi]
    exact item_ok _ (by omega)
  obtain ⟨time, ht, hs⟩ := h toy 16 _ hk 2 (by decide)
  obtain ⟨time', ht', hs'⟩ := C199_shown_partial toy 16 _ hk 2 (by decide)
  rw [hs', Option.map_some, Option.some.injEq] at hs
  have hs : (item (2 ^ 32 - 1)).shown time' 0 ++ [] = (item (2 ^ 32 - 1)).shown time 0 ++ [] := hs
  rw [List.append_nil, List.append_nil] at hs
  have e : time' (2 ^ 32 - 1) = time (2 ^ 32 - 1) := shown_time _ _ _ _ hs
  have h1 := ht' (2 ^ 32 - 1) (by omega)
  have h2 := ht (2 ^ 32 - 1) (by omega)
  rw [show seconds (2 ^ 32 - 1) = -1 by decide] at h1
  rw [← e, show ((2 ^ 32 - 1 : Nat) : Int) = 4294967295 by decide] at h2
  have := stamp_inj _ _ _ (by omega) (by omega) h1 h2
  omega

end Dtf.GzipDebug
