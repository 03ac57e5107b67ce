import Verif.ChangeLogDebug
import Verif.UsnDebug
import Verif.Scripts.Reports

/-!
# What is shown of Recycle.Bin metadata files in debug mode (C197)

The texts are decoded and the times are shown as in the models of C189 and C190.
-/

namespace Dtf.RecycleBinDebug
open Py DataFormat Formats RecycleBin
open Job (number decimal)
open ChangeLogDebug (Out write raise fixed)
open ChangeLog (utf16z)
open UsnDebug (withoutNul)

abbrev Str := List Char

/-! ## Model -/

/-- The debug information of a header (recycle_bin.debug.yaml 3-13). -/
def attributes (b : Bytes) : List (Option Attribute) :=
  [decimal "Format version" (number b 0 8), decimal "Original file size" (number b 8 16),
    some ⟨some "Deletion time".toList, Dates.formatFiletime (number b 16 24), false⟩]

/-- `_ReadFileHeader` (recycle_bin.py 41-71) in debug mode. -/
def showHeader (data : Bytes) : Out (Nat × Nat × Nat) :=
  (fixed "file header".toList 24 data 0).bind fun h =>
  match formatStructure (attributes h) with
  | .error e => raise e
  | .ok t =>
    write t <|
    if number h 0 8 = 1 ∨ number h 0 8 = 2 then ([], .ok (number h 0 8, number h 8 16, number h 16 24)) else raise .parseError

/-- `_ReadOriginalFilename` (recycle_bin.py 73-108) in debug mode: the name as numbers and as a text.  The data is shown after it
was mapped; a name that cannot be decoded is a MappingError. -/
def showName (data : Bytes) (version : Nat) : Out (List Nat × Str) :=
  if version = 1 then
    write (readingText "UTF-16 little-endian string".toList 24) <|
    match utf16z (data.drop 24) with
    | none => raise .parseError
    | some u =>
      match Utf.decode16 u with
      | none => raise .parseError
      | some s => (structureText "UTF-16 little-endian string".toList (u ++ [0, 0]), .ok (rstrip0 (units u), withoutNul s))
  else
    write (readingText "UTF-16 little-endian string with size".toList 24) <|
    match structAt sizedString data 24 with
    | .error _ => raise .parseError
    | .ok (u, n) =>
      match Utf.decode16 u with
      | none => raise .parseError
      | some s =>
        (structureText "UTF-16 little-endian string with size".toList (slice data 24 (24 + n.toNat)),
          .ok (rstrip0 (units u), withoutNul s))

/-- `ReadFileObject` (recycle_bin.py 110-132) in debug mode. -/
def showFile (data : Bytes) : Out (Metadata × Str) :=
  (showHeader data).bind fun h =>
  (showName data h.1).bind fun n =>
  (formatValue "Original filename".toList n.2 ++ ['\n'], .ok (⟨h.1, h.2.1, h.2.2, n.1⟩, n.2))

/-- `Main` (scripts/recycle_bin.py 14-95) for a source in debug mode.  Nothing is caught. -/
def script (data : Bytes) : Str × Option Err :=
  match showFile data with
  | (t, .error e) => (t, some e)
  | (t, .ok (m, name)) => (t ++ Reports.metadataText (fun v => Dates.filetime.text v) (fun _ => name) m, none)

/-! ## Specification -/

open RpLog.DebugMode (announcedAt dumpOf)
open Utmp.DebugMode (shownAs)

/-- What is stored of a deleted file. -/
structure Deleted where
  version : Nat
  size : Nat
  deletion : Nat
  name : Str
  /-- What comes after the name. -/
  fill : Bytes

def Deleted.head (d : Deleted) : Bytes := [leBytes 8 d.version, leBytes 8 d.size, leBytes 8 d.deletion].flatten

/-- The name with its terminator; in format 2 after the number of its characters. -/
def Deleted.body (d : Deleted) : Bytes :=
  (if d.version = 1 then [] else leBytes 4 ((Utf.units16 d.name).length + 1)) ++ Utf.encode16 d.name ++ [0, 0]

def Deleted.bytes (d : Deleted) : Bytes := d.head ++ d.body ++ d.fill

def Deleted.Ok (d : Deleted) : Prop :=
  (d.version = 1 ∨ d.version = 2) ∧ d.size < 2 ^ 64 ∧ d.deletion < 2 ^ 64 ∧ Char.ofNat 0 ∉ d.name ∧ (Utf.units16 d.name).length + 1 < 2 ^ 32

/-- What is meant to be shown. -/
def Deleted.report (time : Str) (d : Deleted) : Str :=
  [announcedAt "file header" 0, dumpOf "File header data" d.head, shownAs "Format version" (Text.digits 10 d.version),
    shownAs "Original file size" (Text.digits 10 d.size), shownAs "Deletion time" time, ['\n'],
    (if d.version = 1 then announcedAt "UTF-16 little-endian string" 24 ++ dumpOf "UTF-16 little-endian string data" d.body
    else announcedAt "UTF-16 little-endian string with size" 24 ++ dumpOf "UTF-16 little-endian string with size data" d.body),
    shownAs "Original filename" d.name, ['\n']].flatten

/-- The text of a deletion time in the report of the script. -/
def Deletion (v : Nat) (t : Str) : Prop :=
  (v = 0 ∧ t = "Not set".toList) ∨ (v = 2 ^ 63 - 1 ∧ t = "Never".toList) ∨
    (v ≠ 0 ∧ v ≠ 2 ^ 63 - 1 ∧ ∃ c, Dates.IsTimeSince ⟨1601, 1, 1⟩ 7 c v ∧ t = c ++ " UTC".toList)

/-- The report of the script. -/
def Deleted.summary (time : Str) (d : Deleted) : Str :=
  ["Recycle.Bin metadata ($I) file information:\n".toList, "\tFormat version\t\t: ".toList, Text.digits 10 d.version,
    "\n\tDeletion time\t\t: ".toList, time, "\n\tOriginal filename\t: ".toList, d.name,
    "\n\tOriginal file size\t: ".toList, Text.digits 10 d.size, "\n\n".toList].flatten

/-! ## Proofs -/

theorem attributes_text (b : Bytes) : formatStructure (attributes b) = .ok
    ([shownAs "Format version" (Text.digits 10 (number b 0 8)), shownAs "Original file size" (Text.digits 10 (number b 8 16)),
    shownAs "Deletion time" (Dates.formatFiletime (number b 16 24)), ['\n']].flatten) := by
  have ht := UsnDebug.timeText_line _ _ (UsnDebug.timeText (number b 16 24))
  unfold attributes
  generalize Dates.formatFiletime (number b 16 24 : Nat) = time at ht
  rw [Job.structure_fine]
  · simp only [List.filterMap_cons, List.filterMap_nil, UsnDebug.blockOf_decimal, UsnDebug.blockOf_line "Deletion time" _ _ ht]
    have := Job.closed_line [Job.line "Format version" (dec (number b 0 8)), Job.line "Original file size" (dec (number b 8 16))]
      "Deletion time" time ht
    simp only [List.cons_append, List.nil_append] at this
    rw [this]
    simp only [UsnDebug.line_shownAs, List.flatten_cons, List.flatten_nil, List.append_assoc, List.append_nil]
    rfl
  · simp only [List.mem_cons, List.not_mem_nil, or_false]
    rintro a (rfl | rfl | rfl)
    all_goals first
      | exact Job.fine_decimal _ _
      | exact ⟨⟨_, rfl⟩, .inr ht⟩

theorem withoutNul_end (s : Str) (h : Char.ofNat 0 ∉ s) : withoutNul (s ++ [Char.ofNat 0]) = s := by
  have := UsnDebug.withoutNul_eq s h
  unfold withoutNul at this ⊢
  rw [List.reverse_append, List.reverse_singleton, List.singleton_append, List.dropWhile_cons_of_pos (by simp), this]

theorem encode16_end (s : Str) : Utf.encode16 (s ++ [Char.ofNat 0]) = Utf.encode16 s ++ [0, 0] := by
  simp [Utf.encode16, Utf.units16]
  decide +kernel

theorem header_same (data : Bytes) : ∃ t, showHeader data =
    match structAt headerMap data 0 with
    | .error e => (t, .error e)
    | .ok (h, _) => (t, .ok h) := by
  unfold showHeader fixed headerMap
  rw [structAt_refine]
  rcases hs : structAt (fixedMap 24 id) data ((0 : Nat) : Int) with e | ⟨b, k⟩
  · exact ⟨_, rfl⟩
  · unfold parseHeader ChangeLogDebug.Out.bind write raise
    dsimp only
    rw [attributes_text]
    dsimp only
    by_cases hc : number b 0 8 = 1 ∨ number b 0 8 = 2
    · rw [if_pos hc, if_pos (show leNat (slice b 0 8) = 1 ∨ leNat (slice b 0 8) = 2 from hc)]
      exact ⟨_, rfl⟩
    · rw [if_neg hc, if_neg (show ¬ (leNat (slice b 0 8) = 1 ∨ leNat (slice b 0 8) = 2) from hc)]
      exact ⟨_, rfl⟩

theorem name_ok (data : Bytes) (v : Nat) (n : List Nat × Str) (h : (showName data v).2 = .ok n) : readName data v = .ok n.1 := by
  unfold showName at h
  unfold readName
  split
  · rename_i hv
    rw [if_pos hv] at h
    dsimp only [write] at h
    cases hu : utf16z (data.drop 24) with
    | none => rw [hu] at h; cases h
    | some u =>
      rw [hu] at h
      dsimp only at h ⊢
      cases hd : Utf.decode16 u with
      | none => rw [hd] at h; cases h
      | some s => rw [hd] at h; cases h; rfl
  · rename_i hv
    rw [if_neg hv] at h
    dsimp only [write] at h
    rcases hs : structAt sizedString data 24 with e | ⟨u, k⟩
    · rw [hs] at h; cases h
    · rw [hs] at h
      dsimp only at h ⊢
      cases hd : Utf.decode16 u with
      | none => rw [hd] at h; cases h
      | some s => rw [hd] at h; cases h; rfl

theorem name_error (data : Bytes) (v : Nat) (e : Err) (h : readName data v = .error e) : ∃ t, showName data v = (t, .error e) := by
  unfold readName at h
  unfold showName
  split at h
  · rename_i hv
    rw [if_pos hv]
    cases hu : utf16z (data.drop 24) with
    | none => rw [hu] at h; cases h; exact ⟨_, rfl⟩
    | some u => rw [hu] at h; cases h
  · rename_i hv
    rw [if_neg hv]
    rcases hs : structAt sizedString data 24 with e | ⟨u, k⟩
    · rw [hs] at h; cases h; exact ⟨_, rfl⟩
    · rw [hs] at h; cases h

/-! ## C197 -/

/-- What is read in debug mode is what is read otherwise. -/
theorem C197_same (data : Bytes) (t : Str) (m : Metadata) (name : Str) (h : showFile data = (t, .ok (m, name))) :
    readFile data = .ok m := by
  obtain ⟨t', ht⟩ := header_same data
  have h' : (showFile data).2 = .ok (m, name) := by rw [h]
  unfold showFile at h'
  obtain ⟨x, hx, h'⟩ := ChangeLogDebug.bind_ok _ _ _ h'
  obtain ⟨n, hn, h'⟩ := ChangeLogDebug.bind_ok _ _ _ h'
  unfold readFile
  rw [ht] at hx
  rcases hs : structAt headerMap data 0 with e | ⟨⟨v, size, deletion⟩, k⟩
  · rw [hs] at hx; cases hx
  · rw [hs] at hx
    cases hx
    dsimp only
    rw [name_ok data v n hn]
    cases h'
    rfl

/-- What is refused is refused in debug mode, with the same exception. -/
theorem C197_refused (data : Bytes) (e : Err) (h : readFile data = .error e) : ∃ t, showFile data = (t, .error e) := by
  obtain ⟨t', ht⟩ := header_same data
  unfold readFile at h
  unfold showFile
  rw [ht]
  rcases hs : structAt headerMap data 0 with e | ⟨⟨v, size, deletion⟩, k⟩
  · rw [hs] at h; cases h; exact ⟨_, rfl⟩
  · rw [hs] at h
    dsimp only at h ⊢
    cases hn : readName data v with
    | ok n => rw [hn] at h; cases h
    | error e' =>
      rw [hn] at h
      cases h
      obtain ⟨t, hx⟩ := name_error data v _ hn
      unfold ChangeLogDebug.Out.bind
      dsimp only
      rw [hx]
      exact ⟨_, rfl⟩

theorem showHeader_stored (d : Deleted) (h : d.Ok) (post : Bytes) : showHeader (d.head ++ post) =
    ([announcedAt "file header" 0, dumpOf "File header data" d.head, shownAs "Format version" (Text.digits 10 d.version),
    shownAs "Original file size" (Text.digits 10 d.size), shownAs "Deletion time" (Dates.formatFiletime d.deletion), ['\n']].flatten,
    .ok (d.version, d.size, d.deletion)) := by
  obtain ⟨hv, h1, h2, _, _⟩ := h
  have hl : d.head.length = 24 := by simp [Deleted.head]
  have hx := ChangeLogDebug.fixed_stored "file header".toList 24 [] d.head post (by decide) hl
  have f0 : number d.head 0 8 = d.version := leField [] 8 _ _ 0 8 rfl rfl (by omega)
  have f1 : number d.head 8 16 = d.size := leField [_] 8 _ _ 8 16 (by simp) rfl (by omega)
  have f2 : number d.head 16 24 = d.deletion := leField [_, _] 8 _ _ 16 24 (by simp) rfl (by omega)
  rw [List.nil_append, List.length_nil] at hx
  unfold showHeader
  rw [hx]
  unfold ChangeLogDebug.Out.bind write
  dsimp only
  rw [attributes_text, f0, f1, f2]
  dsimp only
  rw [if_pos hv]
  refine Prod.ext ?_ rfl
  dsimp only
  simp only [List.flatten_cons, List.flatten_nil, List.append_nil, List.append_assoc]
  rfl

theorem showName_stored (d : Deleted) (h : d.Ok) : showName d.bytes d.version =
    ((if d.version = 1 then announcedAt "UTF-16 little-endian string" 24 ++ dumpOf "UTF-16 little-endian string data" d.body
    else announcedAt "UTF-16 little-endian string with size" 24 ++ dumpOf "UTF-16 little-endian string with size data" d.body),
    .ok (Utf.units16 d.name, d.name)) := by
  obtain ⟨hv, h1, h2, hz, hc⟩ := h
  have hl : d.head.length = 24 := by simp [Deleted.head]
  have hN : Name (Utf.units16 d.name) := by
    intro u hu
    refine ⟨?_, Utf.units16_lt d.name u hu⟩
    rcases Nat.eq_zero_or_pos u with h | h
    · exact absurd ((Utf.units16_zero d.name).mp (h ▸ hu)) hz
    · exact h
  have hz' : ∀ c ∈ Utf.units16 d.name, c ≠ 0 := fun c hc => by have := hN c hc; omega
  unfold showName
  by_cases hv1 : d.version = 1
  · rw [if_pos hv1, if_pos hv1]
    have hb : d.bytes.drop 24 = Utf.encode16 d.name ++ [0, 0] ++ d.fill := by
      unfold Deleted.bytes Deleted.body
      rw [if_pos hv1, List.append_assoc d.head, List.drop_left' hl, List.nil_append]
    rw [hb, ChangeLog.utf16z_append _ _ (Utf.encode16_utf16 d.name hz)]
    dsimp only
    rw [Utf.C189_utf16]
    dsimp only
    rw [UsnDebug.withoutNul_eq _ hz, ← Utf.nameBytes_encode, units_nameBytes _ (fun c hc => (hN c hc).2)]
    have hr := rstrip0_name _ hz' 0
    rw [List.replicate_zero, List.append_nil] at hr
    rw [hr, Utf.nameBytes_encode]
    unfold Deleted.body
    rw [if_pos hv1]
    rfl
  · rw [if_neg hv1, if_neg hv1]
    have hbody : d.body = leBytes 4 ((Utf.units16 d.name).length + 1) ++ nameBytes (Utf.units16 d.name ++ [0]) := by
      unfold Deleted.body
      rw [if_neg hv1, List.append_assoc, ← Utf.nameBytes_encode]
      congr 1
      simp [nameBytes, List.flatMap_append]
      decide
    have hnl : (nameBytes (Utf.units16 d.name ++ [0])).length = 2 * ((Utf.units16 d.name).length + 1) := by
      unfold nameBytes
      rw [flatMap_fixed_length 2 _ (by simp)]
      simp
    have hx : Encodes sizedString d.body (d.body.drop 4) := by
      rw [hbody]
      refine encodes_sized 4 _ _ _ (by decide) (by simp) ?_
      rw [List.take_left' (by simp), leNat_leBytes_of_lt 4 _ (by omega), List.length_append, hnl]
      simp
    have := hx d.head d.fill
    rw [hl] at this
    have hs : structAt sizedString d.bytes 24 = .ok (d.body.drop 4, (d.body.length : Int)) := this
    have hsl : slice d.bytes 24 (24 + ((d.body.length : Int)).toNat) = d.body := by
      unfold Deleted.bytes
      rw [Int.toNat_natCast, ← hl, slice_at _ _ _ _ (Nat.le_refl _), List.take_length]
    have hdrop : d.body.drop 4 = nameBytes (Utf.units16 d.name ++ [0]) := by
      rw [hbody]; exact List.drop_left' (by simp)
    have henc : nameBytes (Utf.units16 d.name ++ [0]) = Utf.encode16 (d.name ++ [Char.ofNat 0]) := by
      rw [encode16_end, ← Utf.nameBytes_encode]
      simp [nameBytes, List.flatMap_append]
      decide
    rw [hs]
    dsimp only
    rw [hsl, hdrop, show Utf.decode16 (nameBytes (Utf.units16 d.name ++ [0])) = some (d.name ++ [Char.ofNat 0]) by
      rw [henc, Utf.C189_utf16]]
    dsimp only
    rw [withoutNul_end _ hz, units_nameBytes _ (by
        intro c hc
        rcases List.mem_append.mp hc with h | h
        · exact (hN c h).2
        · rw [List.mem_singleton.mp h]; decide), show [0] = List.replicate 1 0 from rfl, rstrip0_name _ hz' 1]
    rfl

/-- All that is stored of a deleted file is shown, for both formats: the bytes of the header and of the name with the offsets at
which they are, the version, the size, the time of the calendar and the name with all its characters. -/
theorem C197_shown (d : Deleted) (h : d.Ok) :
    ∃ time, UsnDebug.TimeText d.deletion time ∧
      showFile d.bytes = (d.report time, .ok (⟨d.version, d.size, d.deletion, Utf.units16 d.name⟩, d.name)) := by
  refine ⟨Dates.formatFiletime d.deletion, UsnDebug.timeText _, ?_⟩
  have hh := showHeader_stored d h (d.body ++ d.fill)
  rw [← List.append_assoc] at hh
  unfold showFile
  rw [show showHeader d.bytes = _ from hh]
  unfold ChangeLogDebug.Out.bind
  dsimp only
  rw [showName_stored d h]
  unfold write Deleted.report
  refine Prod.ext ?_ rfl
  dsimp only
  simp only [ChangeLogDebug.value_eq, List.flatten_cons, List.flatten_nil, List.append_nil, List.append_assoc]

theorem time_ne (start : Calendar.Date) (width : Nat) (t : Str) (v : Int) (h : Dates.IsTimeSince start width t v) : t ≠ [] := by
  obtain ⟨e, n, hh, m, s, f, -, -, -, -, -, -, rfl⟩ := h
  unfold Dates.writtenAs
  simp

theorem metadata_eq (time : Nat → Option Str) (m : Metadata) (name : Str) :
    Reports.metadataText time (fun _ => name) m =
    ["Recycle.Bin metadata ($I) file information:\n".toList, "\tFormat version\t\t: ".toList, Text.digits 10 m.version,
    "\n\tDeletion time\t\t: ".toList, Reports.deletionText time m.deletion, "\n\tOriginal filename\t: ".toList, name,
    "\n\tOriginal file size\t: ".toList, Text.digits 10 m.size, "\n\n".toList].flatten := by
  unfold Reports.metadataText Reports.print
  generalize Reports.deletionText time m.deletion = x
  rw [show dec m.version = Text.digits 10 m.version from rfl, show dec m.size = Text.digits 10 m.size from rfl]
  generalize Text.digits 10 m.version = y
  generalize Text.digits 10 m.size = z
  have h1 : "Recycle.Bin metadata ($I) file information:\n".toList = "Recycle.Bin metadata ($I) file information:".toList ++ ['\n'] := by decide
  have h2 : "\n\tDeletion time\t\t: ".toList = ['\n'] ++ "\tDeletion time\t\t: ".toList := by decide
  have h3 : "\n\tOriginal filename\t: ".toList = ['\n'] ++ "\tOriginal filename\t: ".toList := by decide
  have h4 : "\n\tOriginal file size\t: ".toList = ['\n'] ++ "\tOriginal file size\t: ".toList := by decide
  have h5 : "\n\n".toList = ['\n'] ++ ([] ++ ['\n']) := by decide
  rw [h1, h2, h3, h4, h5]
  simp only [List.flatten_cons, List.flatten_nil, List.append_nil, List.append_assoc]

theorem deletion_cases (time : Nat → Option Str) (v : Nat) (t : Str) (e : time v = some t) (ht : t ≠ []) :
    (v = 0 ∧ Reports.deletionText time v = "Not set".toList) ∨
    (v = 9223372036854775807 ∧ Reports.deletionText time v = "Never".toList) ∨
    (v ≠ 0 ∧ v ≠ 9223372036854775807 ∧ Reports.deletionText time v = t ++ " UTC".toList) := by
  unfold Reports.deletionText
  by_cases h0 : v = 0
  · rw [if_pos h0]; exact .inl ⟨h0, rfl⟩
  · rw [if_neg h0]
    by_cases h1 : v = 9223372036854775807
    · rw [if_pos h1]; exact .inr (.inl ⟨h1, rfl⟩)
    · rw [if_neg h1, e]
      dsimp only
      rw [if_neg ht]
      exact .inr (.inr ⟨h0, h1, rfl⟩)

theorem filetime_text (v : Nat) : ∃ t, Dates.filetime.text v = some t ∧ Dates.IsTimeSince ⟨1601, 1, 1⟩ 7 t v := by
  obtain ⟨t, e, hi⟩ := Dates.text_some Dates.filetime v (by omega)
  rw [Dates.start_filetime] at hi
  exact ⟨t, e, hi⟩

theorem deletion_text (v : Nat) : Deletion v (Reports.deletionText (fun v => Dates.filetime.text v) v) := by
  obtain ⟨t, e, hi⟩ := filetime_text v
  have hn : (2 ^ 63 - 1 : Nat) = 9223372036854775807 := by decide
  unfold Deletion
  rw [hn]
  generalize hf : (fun v : Nat => Dates.filetime.text v) = f
  have e' : f v = some t := by rw [← hf]; exact e
  rcases deletion_cases f v t e' (time_ne _ _ _ _ hi) with ⟨a, b⟩ | ⟨a, b⟩ | ⟨a, b, c⟩
  · exact .inl ⟨a, b⟩
  · exact .inr (.inl ⟨a, b⟩)
  · exact .inr (.inr ⟨a, b, t, hi, c⟩)

/-- The script shows the file in debug mode and then reports its values. -/
theorem C197_script (d : Deleted) (h : d.Ok) :
    ∃ time time', UsnDebug.TimeText d.deletion time ∧ Deletion d.deletion time' ∧
      script d.bytes = (d.report time ++ d.summary time', none) := by
  obtain ⟨time, ht, hs⟩ := C197_shown d h
  unfold script
  rw [hs]
  dsimp only
  refine ⟨time, Reports.deletionText (fun v => Dates.filetime.text v) d.deletion, ht, ?_, ?_⟩
  · exact deletion_text d.deletion
  · unfold Deleted.summary
    rw [metadata_eq]

/-! ### Examples -/

/-- A file that was deleted on 2 January 2021. -/
def deleted (version : Nat) : Deleted := ⟨version, 70, 132540192000000000, "C:\\a.txt".toList, []⟩

theorem deleted_ok (v : Nat) (h : v = 1 ∨ v = 2) : (deleted v).Ok := by
  have hl : (Utf.units16 "C:\\a.txt".toList).length = 8 := by decide +kernel
  refine ⟨h, ?_, ?_, ?_, ?_⟩
  · show 70 < 2 ^ 64; omega
  · show 132540192000000000 < 2 ^ 64; omega
  · show Char.ofNat 0 ∉ "C:\\a.txt".toList; decide +kernel
  · show (Utf.units16 "C:\\a.txt".toList).length + 1 < 2 ^ 32; omega

example : (deleted 1).Ok ∧ (deleted 2).Ok := by
  exact ⟨deleted_ok 1 (.inl rfl), deleted_ok 2 (.inr rfl)⟩

/-- A file without a name cannot be read, and format 3 is not known. -/
example : readFile (deleted 1).head = .error .parseError ∧
    readFile { deleted 2 with version := 3 }.bytes = .error .parseError := by
  constructor <;> decide +kernel

/-- The values of the example are read in debug mode. -/
example : ∃ t, showFile (deleted 2).bytes = (t, .ok (⟨2, 70, 132540192000000000, Utf.units16 "C:\\a.txt".toList⟩, "C:\\a.txt".toList)) := by
  obtain ⟨time, -, h⟩ := C197_shown (deleted 2) (deleted_ok 2 (.inr rfl))
  exact ⟨_, h⟩

end Dtf.RecycleBinDebug
