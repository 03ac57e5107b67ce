import Verif.Records
import Verif.Cpio.Props
import Verif.Prefetch.Props
import Verif.Formats.Props

/-!
# The reports of Recycle.Bin metadata files, cpio archives and Prefetch hashes (C188)

What `decode` makes of UTF-16, `CopyToDateTimeString` of dfdatetime and the bytes of an upper case path are parameters.
-/

namespace Dtf.Reports
open Py DataFormat Formats

/-! ## Model -/

/-- What is written, and what is raised after that. -/
abbrev Run := List Char × Option Err

/-- What `print` writes of a text. -/
def print (s : List Char) : List Char := s ++ ['\n']

/-- The text of the deletion time (scripts/recycle_bin.py 74-84). -/
def deletionText (dateTime : Nat → Option (List Char)) (t : Nat) : List Char :=
  if t = 0 then "Not set".toList
  else if t = 0x7FFFFFFFFFFFFFFF then "Never".toList
  else
    match dateTime t with
    | none => "0x".toList ++ hexw 8 t
    | some s => if s = [] then "0x".toList ++ hexw 8 t else s ++ " UTC".toList

/-- What is printed of a file that is open (scripts/recycle_bin.py 70-89). -/
def metadataText (dateTime : Nat → Option (List Char)) (decode : List Nat → List Char) (m : RecycleBin.Metadata) : List Char :=
  print "Recycle.Bin metadata ($I) file information:".toList ++
    print ("\tFormat version\t\t: ".toList ++ dec m.version) ++
    print ("\tDeletion time\t\t: ".toList ++ deletionText dateTime m.deletion) ++
    print ("\tOriginal filename\t: ".toList ++ decode m.name) ++
    print ("\tOriginal file size\t: ".toList ++ dec m.size) ++ print []

/-- `Main` (scripts/recycle_bin.py 14-95) for a source and without debug mode.  Nothing is caught. -/
def metadataMain (dateTime : Nat → Option (List Char)) (decode : List Nat → List Char) (data : Bytes) : Run :=
  match RecycleBin.readFile data with
  | .error e => ([], some e)
  | .ok m => (metadataText dateTime decode m, none)

/-- `file_format` (cpio.py 403-414). -/
def formatText : Cpio.Format → List Char
  | .binBig => "bin-big-endian".toList
  | .binLittle => "bin-little-endian".toList
  | .odc => "odc".toList
  | .newc => "newc".toList
  | .crc => "crc".toList

/-- `Main` (scripts/cpio.py 198-214) for a source, without debug mode and without hashes. -/
def archiveMain (data : Bytes) (fuel : Nat) : Option Run :=
  match Cpio.detect data with
  | none => some ([], some .parseError)
  | some fmt =>
    (Cpio.readArchive data fuel).map fun out =>
      match out.result with
      | .error e => ([], some e)
      | .ok size =>
        ("CPIO archive information:\n".toList ++ ("\tFormat\t\t: ".toList ++ formatText fmt ++ ['\n']) ++
          ("\tSize\t\t: ".toList ++ decInt size ++ " bytes\n".toList) ++ ['\n'], none)

/-- `Main` (scripts/prefetch_hash.py 38-51) for a path that is not empty: `path` has the bytes of
`path.upper().encode("utf-16-le")`. -/
def hashMain (path : Bytes) : List Char :=
  print "Windows Prefetch hashes:".toList ++
    print ("\tWindows XP\t: 0x".toList ++ hexInt 8 (Prefetch.hashXP path)) ++
    print ("\tWindows Vista\t: 0x".toList ++ hexInt 8 (Prefetch.hashVista path)) ++
    print ("\tWindows 2008\t: 0x".toList ++ hexInt 8 (Prefetch.hash2008 path)) ++ print []

/-! ## Specification -/

/-- The value that a reader of a report finds after a label: that of the first line that starts with it. -/
def valueOf (label : String) (text : List Char) : Option (List Char) :=
  ((Text.splitOn '\n' text).find? (fun line => label.toList.isPrefixOf line)).map (·.drop label.toList.length)

/-- The number that is found after a label. -/
def numberOf (base : Nat) (label : String) (text : List Char) : Option Nat :=
  (valueOf label text).bind (Text.parseDigits base)

/-- A file of either version. -/
def Stored (m : RecycleBin.Metadata) : Prop :=
  (m.version = 1 ∨ m.version = 2) ∧ m.size < 2 ^ 64 ∧ m.deletion < 2 ^ 64 ∧ RecycleBin.Name m.name ∧ m.name.length + 1 < 2 ^ 32

/-- What dfdatetime is to give: a text for a time is on one line, and two times have two texts. -/
def DateTimes (dateTime : Nat → Option (List Char)) : Prop :=
  (∀ t s, dateTime t = some s → '\n' ∉ s) ∧ ∀ t u s, s ≠ [] → dateTime t = some s → dateTime u = some s → t = u

/-- The report of a Recycle.Bin file has the values of the file, in a line each. -/
def C188_recycle_claim : Prop :=
  ∀ dateTime, DateTimes dateTime → ∀ (decode : List Nat → List Char) (m : RecycleBin.Metadata) (fill : Bytes), Stored m →
    ∃ text, metadataMain dateTime decode (RecycleBin.fileBytes m fill) = (text, none) ∧
      numberOf 10 "\tFormat version\t\t: " text = some m.version ∧
      numberOf 10 "\tOriginal file size\t: " text = some m.size ∧
      valueOf "\tOriginal filename\t: " text = some (decode m.name)

/-! ## Lines -/

def unlines (l : List (List Char)) : List Char := l.flatMap (· ++ ['\n'])

theorem splitOn_unlines (l : List (List Char)) (h : ∀ s ∈ l, '\n' ∉ s) : Text.splitOn '\n' (unlines l) = l ++ [[]] := by
  induction l with
  | nil => rfl
  | cons s l ih =>
    rw [unlines, List.flatMap_cons, List.append_assoc, List.singleton_append,
      Text.splitOn_append_sep _ _ _ (h s (by simp))]
    rw [show List.flatMap (· ++ ['\n']) l = unlines l from rfl, ih (fun s hs => h s (by simp [hs]))]
    rfl

theorem valueOf_line (label : String) (pre post : List (List Char)) (v : List Char)
    (h : ∀ s ∈ pre ++ (label.toList ++ v) :: post, '\n' ∉ s) (hp : ∀ s ∈ pre, ¬ label.toList <+: s) :
    valueOf label (unlines (pre ++ (label.toList ++ v) :: post)) = some v := by
  unfold valueOf
  rw [splitOn_unlines _ h, List.append_assoc, List.find?_append]
  rw [List.find?_eq_none.mpr (by intro s hs; rw [List.isPrefixOf_iff_prefix]; exact hp s hs)]
  rw [Option.none_or, List.cons_append, List.find?_cons_of_pos (by rw [List.isPrefixOf_iff_prefix]; exact ⟨v, rfl⟩)]
  simp

/-- Two texts that differ at some place. -/
def mismatch (a b : List Char) : Bool := (a.zip b).any (fun p => p.1 != p.2)

theorem not_prefix (a b v : List Char) (h : mismatch a b = true) : ¬ a <+: b ++ v := by
  induction a generalizing b with
  | nil => simp [mismatch] at h
  | cons x a ih =>
    cases b with
    | nil => simp [mismatch] at h
    | cons y b =>
      rw [List.cons_append, List.cons_prefix_cons]
      rintro ⟨rfl, hp⟩
      refine ih b ?_ hp
      simpa [mismatch] using h

theorem digit_newline : ∀ d < 10, Text.digitChar d ≠ '\n' := by decide
theorem hexdigit_newline : ∀ d < 16, Text.digitChar d ≠ '\n' := by decide

theorem label_free (label : String) (v : List Char) (h : '\n' ∉ label.toList) (hv : '\n' ∉ v) : '\n' ∉ label.toList ++ v := by
  rw [List.mem_append]
  rintro (h' | h')
  · exact h h'
  · exact hv h'

theorem number_of_value (base : Nat) (label : String) (text : List Char) (n : Nat) (hb : 2 ≤ base) (hb' : base ≤ 36)
    (h : valueOf label text = some (Text.digits base n)) : numberOf base label text = some n := by
  rw [numberOf, h]
  exact Text.parse_digits base n hb hb'

/-! ## Recycle.Bin metadata -/

theorem deletion_line (dateTime : Nat → Option (List Char)) (hd : DateTimes dateTime) (t : Nat) :
    '\n' ∉ deletionText dateTime t := by
  have hx : '\n' ∉ "0x".toList ++ hexw 8 t := label_free "0x" _ (by decide +kernel) (hexw_notMem 8 t _ hexdigit_newline)
  unfold deletionText
  split
  · decide +kernel
  · split
    · decide +kernel
    · split
      · exact hx
      · rename_i s hs
        split
        · exact hx
        · intro hm
          rcases List.mem_append.mp hm with h | h
          · exact hd.1 t s hs h
          · revert h
            decide +kernel

theorem metadataText_lines (dateTime : Nat → Option (List Char)) (decode : List Nat → List Char) (m : RecycleBin.Metadata) :
    metadataText dateTime decode m = unlines ["Recycle.Bin metadata ($I) file information:".toList,
      "\tFormat version\t\t: ".toList ++ dec m.version, "\tDeletion time\t\t: ".toList ++ deletionText dateTime m.deletion,
      "\tOriginal filename\t: ".toList ++ decode m.name, "\tOriginal file size\t: ".toList ++ dec m.size, []] := by
  simp only [metadataText, unlines, print, List.flatMap_cons, List.flatMap_nil, List.append_assoc, List.append_nil]

theorem metadataMain_stored (dateTime : Nat → Option (List Char)) (decode : List Nat → List Char) (m : RecycleBin.Metadata)
    (fill : Bytes) (h : Stored m) :
    metadataMain dateTime decode (RecycleBin.fileBytes m fill) = (metadataText dateTime decode m, none) := by
  obtain ⟨h1, h2, h3, h4, h5⟩ := h
  rw [metadataMain, RecycleBin.C101_metadata m fill h1 h2 h3 h4 h5]

/-- The report of a file has its version, its deletion time, its name and its size, in a line each, if the name is on one
line. -/
theorem C188_recycle_partial (dateTime : Nat → Option (List Char)) (hd : DateTimes dateTime) (decode : List Nat → List Char)
    (m : RecycleBin.Metadata) (fill : Bytes) (h : Stored m) (hn : '\n' ∉ decode m.name) :
    ∃ text, metadataMain dateTime decode (RecycleBin.fileBytes m fill) = (text, none) ∧
      numberOf 10 "\tFormat version\t\t: " text = some m.version ∧
      valueOf "\tDeletion time\t\t: " text = some (deletionText dateTime m.deletion) ∧
      valueOf "\tOriginal filename\t: " text = some (decode m.name) ∧
      numberOf 10 "\tOriginal file size\t: " text = some m.size := by
  refine ⟨_, metadataMain_stored dateTime decode m fill h, ?_⟩
  rw [metadataText_lines]
  have hl : ∀ s ∈ ["Recycle.Bin metadata ($I) file information:".toList,
      "\tFormat version\t\t: ".toList ++ dec m.version, "\tDeletion time\t\t: ".toList ++ deletionText dateTime m.deletion,
      "\tOriginal filename\t: ".toList ++ decode m.name, "\tOriginal file size\t: ".toList ++ dec m.size, []], '\n' ∉ s := by
    intro s hs
    simp only [List.mem_cons, List.not_mem_nil, or_false] at hs
    rcases hs with rfl | rfl | rfl | rfl | rfl | rfl
    · decide +kernel
    · exact label_free _ _ (by decide +kernel) (dec_notMem _ _ digit_newline)
    · exact label_free _ _ (by decide +kernel) (deletion_line dateTime hd _)
    · exact label_free _ _ (by decide +kernel) hn
    · exact label_free _ _ (by decide +kernel) (dec_notMem _ _ digit_newline)
    · simp
  have np : ∀ (a b : String) (v : List Char), mismatch a.toList b.toList = true → ¬ a.toList <+: b.toList ++ v :=
    fun a b v h => not_prefix a.toList b.toList v h
  have np0 : ∀ (a b : String), mismatch a.toList b.toList = true → ¬ a.toList <+: b.toList := by
    intro a b h hp
    exact np a b [] h (by rw [List.append_nil]; exact hp)
  refine ⟨number_of_value 10 _ _ _ (by decide) (by decide) ?_, ?_, ?_, number_of_value 10 _ _ _ (by decide) (by decide) ?_⟩
  · refine valueOf_line _ [_] _ _ hl ?_
    intro s hs
    simp only [List.mem_cons, List.not_mem_nil, or_false] at hs
    subst hs
    exact np0 _ _ (by decide +kernel)
  · refine valueOf_line _ [_, _] _ _ hl ?_
    intro s hs
    simp only [List.mem_cons, List.not_mem_nil, or_false] at hs
    rcases hs with rfl | rfl
    · exact np0 _ _ (by decide +kernel)
    · exact np _ _ _ (by decide +kernel)
  · refine valueOf_line _ [_, _, _] _ _ hl ?_
    intro s hs
    simp only [List.mem_cons, List.not_mem_nil, or_false] at hs
    rcases hs with rfl | rfl | rfl
    · exact np0 _ _ (by decide +kernel)
    · exact np _ _ _ (by decide +kernel)
    · exact np _ _ _ (by decide +kernel)
  · refine valueOf_line _ [_, _, _, _] _ _ hl ?_
    intro s hs
    simp only [List.mem_cons, List.not_mem_nil, or_false] at hs
    rcases hs with rfl | rfl | rfl | rfl
    · exact np0 _ _ (by decide +kernel)
    · exact np _ _ _ (by decide +kernel)
    · exact np _ _ _ (by decide +kernel)
    · exact np _ _ _ (by decide +kernel)

/-- The text of a deletion time is that of no other time. -/
theorem C188_times (dateTime : Nat → Option (List Char)) (hd : DateTimes dateTime) (t u : Nat)
    (h : deletionText dateTime t = deletionText dateTime u) : t = u := by
  have key : ∀ t, (t = 0 ∧ deletionText dateTime t = "Not set".toList) ∨
      (t = 0x7FFFFFFFFFFFFFFF ∧ deletionText dateTime t = "Never".toList) ∨
      (deletionText dateTime t = "0x".toList ++ hexw 8 t) ∨
      ∃ s, s ≠ [] ∧ dateTime t = some s ∧ deletionText dateTime t = s ++ " UTC".toList := by
    intro t
    unfold deletionText
    split
    · exact .inl ⟨‹_›, rfl⟩
    · split
      · exact .inr (.inl ⟨‹_›, rfl⟩)
      · split
        · exact .inr (.inr (.inl rfl))
        · rename_i s hs
          split
          · exact .inr (.inr (.inl rfl))
          · exact .inr (.inr (.inr ⟨s, ‹_›, hs, rfl⟩))
  -- The last character.
  have hlast : ∀ t c, c ∈ (("0x".toList ++ hexw 8 t).getLast?) → ∃ d < 16, c = Text.digitChar d := by
    intro t c hc
    have hne : hexw 8 t ≠ [] := by
      simp [hexw, Text.zpad, Text.digits_ne_nil]
    rw [List.getLast?_append_of_ne_nil _ hne] at hc
    exact Text.mem_zpad_digits 16 t 8 (by decide) c (List.mem_of_mem_getLast? hc)
  have hutc : ∀ s : List Char, (s ++ " UTC".toList).getLast? = some 'C' := by
    intro s
    rw [List.getLast?_append_of_ne_nil _ (by decide +kernel)]
    decide +kernel
  have hset : "Not set".toList.getLast? = some 't' := by decide +kernel
  have hnever : "Never".toList.getLast? = some 'r' := by decide +kernel
  have hd16 : ∀ d < 16, Text.digitChar d ≠ 't' ∧ Text.digitChar d ≠ 'r' ∧ Text.digitChar d ≠ 'C' := by decide
  rcases key t with ⟨ht, et⟩ | ⟨ht, et⟩ | et | ⟨s, hs, hst, et⟩ <;>
    rcases key u with ⟨hu, eu⟩ | ⟨hu, eu⟩ | eu | ⟨r, hr, hru, eu⟩ <;>
    rw [et, eu] at h
  · rw [ht, hu]
  · have := congrArg List.getLast? h; rw [hset, hnever] at this; simp at this
  · have := congrArg List.getLast? h
    rw [hset] at this
    obtain ⟨d, hd', e⟩ := hlast u 't' this.symm
    exact absurd e.symm (hd16 d hd').1
  · have := congrArg List.getLast? h; rw [hset, hutc] at this; simp at this
  · have := congrArg List.getLast? h; rw [hset, hnever] at this; simp at this
  · rw [ht, hu]
  · have := congrArg List.getLast? h
    rw [hnever] at this
    obtain ⟨d, hd', e⟩ := hlast u 'r' this.symm
    exact absurd e.symm (hd16 d hd').2.1
  · have := congrArg List.getLast? h; rw [hnever, hutc] at this; simp at this
  · have := congrArg List.getLast? h
    rw [hset] at this
    obtain ⟨d, hd', e⟩ := hlast t 't' this
    exact absurd e.symm (hd16 d hd').1
  · have := congrArg List.getLast? h
    rw [hnever] at this
    obtain ⟨d, hd', e⟩ := hlast t 'r' this
    exact absurd e.symm (hd16 d hd').2.1
  · exact hexw_injective 8 t u (List.append_cancel_left h)
  · have := congrArg List.getLast? h
    rw [hutc] at this
    obtain ⟨d, hd', e⟩ := hlast t 'C' this
    exact absurd e.symm (hd16 d hd').2.2
  · have := congrArg List.getLast? h; rw [hset, hutc] at this; simp at this
  · have := congrArg List.getLast? h; rw [hnever, hutc] at this; simp at this
  · have := congrArg List.getLast? h
    rw [hutc] at this
    obtain ⟨d, hd', e⟩ := hlast u 'C' this.symm
    exact absurd e.symm (hd16 d hd').2.2
  · have hsr := List.append_cancel_right h
    subst hsr
    exact hd.2 t u s hs hst hru

/-- Two files have the same report only if they have the same version, time, size and name, whatever the names are. -/
theorem C188_recycle_distinct (dateTime : Nat → Option (List Char)) (hd : DateTimes dateTime) (decode : List Nat → List Char)
    (m n : RecycleBin.Metadata) (h : metadataText dateTime decode m = metadataText dateTime decode n) :
    m.version = n.version ∧ m.deletion = n.deletion ∧ decode m.name = decode n.name ∧ m.size = n.size := by
  simp only [metadataText, print, List.append_assoc] at h
  have h := List.append_cancel_left h
  simp only [List.singleton_append, List.cons.injEq, true_and] at h
  have h := List.append_cancel_left h
  obtain ⟨h1, h⟩ := append_sep_inj '\n' _ _ _ _ (dec_notMem _ _ digit_newline) (dec_notMem _ _ digit_newline) h
  have h := List.append_cancel_left h
  obtain ⟨h2, h⟩ := append_sep_inj '\n' _ _ _ _ (deletion_line dateTime hd _) (deletion_line dateTime hd _) h
  have h := List.append_cancel_left h
  refine ⟨dec_injective _ _ h1, C188_times dateTime hd _ _ h2, ?_⟩
  -- From the end.
  have hr := congrArg List.reverse h
  simp only [List.reverse_append, List.reverse_cons, List.reverse_nil, List.nil_append, List.append_assoc,
    List.cons_append, List.cons.injEq, true_and] at hr
  -- The reversed digits end where the reversed label, which starts with a space, begins.
  have hlab : "\tOriginal file size\t: ".toList.reverse = ' ' :: ":\t".toList ++ "ezis elif lanigirO\t".toList := by decide +kernel
  simp only [hlab, List.cons_append] at hr
  have hsp : ∀ k, ' ' ∉ (dec k).reverse := by
    intro k hm
    rw [List.mem_reverse] at hm
    exact dec_notMem k ' ' (by decide) hm
  obtain ⟨h3, h4⟩ := append_sep_inj ' ' _ _ _ _ (hsp _) (hsp _) hr
  have h4 := List.append_cancel_left h4
  have h4 := (List.cons.inj h4).2
  exact ⟨List.reverse_injective h4, dec_injective _ _ (List.reverse_injective h3)⟩

/-- A name that has a line for another size. -/
def forged : RecycleBin.Metadata := ⟨1, 6, 0, [0x61]⟩

def forgedName : List Char := "a\n\tOriginal file size\t: 5".toList

theorem C188_recycle_claim_false : ¬ C188_recycle_claim := by
  intro h
  have hd : DateTimes (fun _ => none) := ⟨fun _ _ h => (by cases h), fun _ _ _ _ h => (by cases h)⟩
  have hs : Stored forged := ⟨.inl rfl, by decide, by decide, by intro c hc; simp [forged] at hc; omega, by decide⟩
  obtain ⟨text, h1, _, h3, _⟩ := h (fun _ => none) hd (fun _ => forgedName) forged [] hs
  rw [metadataMain_stored _ _ _ _ hs] at h1
  have h1 := (Prod.mk.inj h1).1
  subst h1
  revert h3
  decide +kernel

/-- A file that cannot be read is not reported. -/
theorem C188_recycle_refused (dateTime : Nat → Option (List Char)) (decode : List Nat → List Char) (data : Bytes)
    (h : leNat (slice data 0 8) ≠ 1 ∧ leNat (slice data 0 8) ≠ 2) :
    ∃ e, metadataMain dateTime decode data = ([], some e) := by
  unfold metadataMain
  cases hr : RecycleBin.readFile data with
  | error e => exact ⟨e, rfl⟩
  | ok m =>
    have := RecycleBin.C101_versions data m hr
    omega

/-! ## Archives -/

/-- The names of the formats. -/
def named : List (Cpio.Format × String) :=
  [(.binBig, "bin-big-endian"), (.binLittle, "bin-little-endian"), (.odc, "odc"), (.newc, "newc"), (.crc, "crc")]

/-- The report of an archive has the name of its format and its size without what follows the trailer. -/
theorem C188_archive (fmt : Cpio.Format) (ms : List Cpio.Member) (tr : Cpio.Member) (rest : Bytes) (fuel : Nat)
    (hok : ∀ m ∈ ms, m.Ok fmt) (hne : ∀ m ∈ ms, m.path ≠ Cpio.trailer)
    (htr : tr.Ok fmt) (htp : tr.path = Cpio.trailer) (hf : ms.length < fuel) :
    ∃ text name, archiveMain (Cpio.archiveBytes fmt 0 (ms ++ [tr]) ++ rest) fuel = some (text, none) ∧
      (fmt, name) ∈ named ∧ valueOf "\tFormat\t\t: " text = some name.toList ∧
      valueOf "\tSize\t\t: " text =
        some (Text.digits 10 (Cpio.archiveBytes fmt 0 (ms ++ [tr])).length ++ " bytes".toList) := by
  have hdet : Cpio.detect (Cpio.archiveBytes fmt 0 (ms ++ [tr]) ++ rest) = some fmt := by
    cases ms with
    | nil =>
      simp only [List.nil_append, Cpio.archiveBytes, Cpio.Member.bytes, List.append_assoc]
      exact Cpio.detect_member fmt tr _ htr.1
    | cons m ms =>
      simp only [List.cons_append, Cpio.archiveBytes, Cpio.Member.bytes, List.append_assoc]
      exact Cpio.detect_member fmt m _ (hok m (List.mem_cons_self ..)).1
  have hdec : ∀ n : Nat, decInt (n : Int) = dec n := by
    intro n
    simp [decInt]
  obtain ⟨name, hname, htext⟩ : ∃ name, (fmt, name) ∈ named ∧ formatText fmt = name.toList := by
    cases fmt
    · exact ⟨"bin-big-endian", by decide +kernel, rfl⟩
    · exact ⟨"bin-little-endian", by decide +kernel, rfl⟩
    · exact ⟨"odc", by decide +kernel, rfl⟩
    · exact ⟨"newc", by decide +kernel, rfl⟩
    · exact ⟨"crc", by decide +kernel, rfl⟩
  have hfree : '\n' ∉ name.toList := by
    have : ∀ p ∈ named, '\n' ∉ p.2.toList := by decide +kernel
    exact this _ hname
  refine ⟨unlines ["CPIO archive information:".toList, "\tFormat\t\t: ".toList ++ name.toList,
      "\tSize\t\t: ".toList ++ (dec (Cpio.archiveBytes fmt 0 (ms ++ [tr])).length ++ " bytes".toList), []], name, ?_, hname, ?_⟩
  · rw [archiveMain, hdet]
    dsimp only
    rw [Cpio.C21_round_trip fmt ms tr rest fuel hok hne htr htp hf, Option.map_some]
    dsimp only
    rw [hdec, htext]
    have e1 : "CPIO archive information:\n".toList = "CPIO archive information:".toList ++ ['\n'] := by decide +kernel
    have e2 : " bytes\n".toList = " bytes".toList ++ ['\n'] := by decide +kernel
    rw [e1, e2]
    simp only [unlines, List.flatMap_cons, List.flatMap_nil, List.append_assoc, List.append_nil, List.nil_append]
  · generalize (Cpio.archiveBytes fmt 0 (ms ++ [tr])).length = n
    have hl : ∀ s ∈ ["CPIO archive information:".toList, "\tFormat\t\t: ".toList ++ name.toList,
        "\tSize\t\t: ".toList ++ (dec n ++ " bytes".toList), []], '\n' ∉ s := by
      intro s hs
      simp only [List.mem_cons, List.not_mem_nil, or_false] at hs
      rcases hs with rfl | rfl | rfl | rfl
      · decide +kernel
      · exact label_free _ _ (by decide +kernel) hfree
      · refine label_free _ _ (by decide +kernel) ?_
        intro hm
        rcases List.mem_append.mp hm with h | h
        · exact dec_notMem _ _ digit_newline h
        · revert h
          decide +kernel
      · simp
    constructor
    · refine valueOf_line _ [_] _ _ hl ?_
      intro s hs
      simp only [List.mem_cons, List.not_mem_nil, or_false] at hs
      subst hs
      intro hp
      exact not_prefix "\tFormat\t\t: ".toList "CPIO archive information:".toList [] (by decide +kernel)
        (by rw [List.append_nil]; exact hp)
    · refine valueOf_line _ [_, _] _ _ hl ?_
      intro s hs
      simp only [List.mem_cons, List.not_mem_nil, or_false] at hs
      rcases hs with rfl | rfl
      · intro hp
        exact not_prefix "\tSize\t\t: ".toList "CPIO archive information:".toList [] (by decide +kernel)
          (by rw [List.append_nil]; exact hp)
      · exact not_prefix _ _ _ (by decide +kernel)

/-! ## Prefetch hashes -/

/-- The report has the hashes of the path, with eight digits each: the numbers of C09. -/
theorem C188_hashes (path : Bytes) :
    ∃ xp vista s2008 : List Char, valueOf "\tWindows XP\t: 0x" (hashMain path) = some xp ∧
      valueOf "\tWindows Vista\t: 0x" (hashMain path) = some vista ∧
      valueOf "\tWindows 2008\t: 0x" (hashMain path) = some s2008 ∧
      xp.length = 8 ∧ vista.length = 8 ∧ s2008 = vista ∧
      (Text.parseDigits 16 vista).map Int.ofNat = some (Prefetch.poly 314159 path % 2 ^ 32) ∧
      (Text.parseDigits 16 xp).map Int.ofNat =
        some (((Prefetch.signed32 (Prefetch.poly 0 path * 314159269)).natAbs : Int) % 1000000007) := by
  have hx := Prefetch.C10_xp_range path
  have hv := Prefetch.C10_vista_range path
  have hxe : hexInt 8 (Prefetch.hashXP path) = hexw 8 (Prefetch.hashXP path).toNat := by
    unfold hexInt
    rw [if_neg (by omega)]
    exact congrArg (hexw 8) (by omega)
  have hve : hexInt 8 (Prefetch.hashVista path) = hexw 8 (Prefetch.hashVista path).toNat := by
    unfold hexInt
    rw [if_neg (by omega)]
    exact congrArg (hexw 8) (by omega)
  have hlen : ∀ n : Nat, n < 16 ^ 8 → (hexw 8 n).length = 8 := by
    intro n hn
    exact Text.zpad_length 8 _ (Text.digits_length_le 16 n 7 (by decide) hn)
  have hlines : hashMain path = unlines ["Windows Prefetch hashes:".toList,
      "\tWindows XP\t: 0x".toList ++ hexw 8 (Prefetch.hashXP path).toNat,
      "\tWindows Vista\t: 0x".toList ++ hexw 8 (Prefetch.hashVista path).toNat,
      "\tWindows 2008\t: 0x".toList ++ hexw 8 (Prefetch.hashVista path).toNat, []] := by
    simp only [hashMain, Prefetch.C09_2008_eq_vista, hxe, hve, unlines, print, List.flatMap_cons, List.flatMap_nil,
      List.append_assoc, List.append_nil]
  rw [hlines]
  have hl : ∀ s ∈ ["Windows Prefetch hashes:".toList,
      "\tWindows XP\t: 0x".toList ++ hexw 8 (Prefetch.hashXP path).toNat,
      "\tWindows Vista\t: 0x".toList ++ hexw 8 (Prefetch.hashVista path).toNat,
      "\tWindows 2008\t: 0x".toList ++ hexw 8 (Prefetch.hashVista path).toNat, []], '\n' ∉ s := by
    intro s hs
    simp only [List.mem_cons, List.not_mem_nil, or_false] at hs
    rcases hs with rfl | rfl | rfl | rfl | rfl
    · decide +kernel
    · exact label_free _ _ (by decide +kernel) (hexw_notMem _ _ _ hexdigit_newline)
    · exact label_free _ _ (by decide +kernel) (hexw_notMem _ _ _ hexdigit_newline)
    · exact label_free _ _ (by decide +kernel) (hexw_notMem _ _ _ hexdigit_newline)
    · simp
  have np : ∀ (a b : String) (v : List Char), mismatch a.toList b.toList = true → ¬ a.toList <+: b.toList ++ v :=
    fun a b v h => not_prefix a.toList b.toList v h
  have np0 : ∀ (a b : String), mismatch a.toList b.toList = true → ¬ a.toList <+: b.toList := by
    intro a b h hp
    exact np a b [] h (by rw [List.append_nil]; exact hp)
  refine ⟨_, _, _, valueOf_line _ [_] _ _ hl ?_, valueOf_line _ [_, _] _ _ hl ?_, valueOf_line _ [_, _, _] _ _ hl ?_,
    hlen _ (by omega), hlen _ (by omega), rfl, ?_, ?_⟩
  · intro s hs
    simp only [List.mem_cons, List.not_mem_nil, or_false] at hs
    subst hs
    exact np0 _ _ (by decide +kernel)
  · intro s hs
    simp only [List.mem_cons, List.not_mem_nil, or_false] at hs
    rcases hs with rfl | rfl
    · exact np0 _ _ (by decide +kernel)
    · exact np _ _ _ (by decide +kernel)
  · intro s hs
    simp only [List.mem_cons, List.not_mem_nil, or_false] at hs
    rcases hs with rfl | rfl | rfl
    · exact np0 _ _ (by decide +kernel)
    · exact np _ _ _ (by decide +kernel)
    · exact np _ _ _ (by decide +kernel)
  · rw [hexw, Text.parse_zpad_digits 16 _ 8 (by decide) (by decide), Option.map_some, ← Prefetch.C09_vista_is_polynomial]
    exact congrArg some (Int.toNat_of_nonneg hv.1)
  · rw [hexw, Text.parse_zpad_digits 16 _ 8 (by decide) (by decide), Option.map_some, ← Prefetch.C09_xp_is_signed_product]
    exact congrArg some (Int.toNat_of_nonneg hx.1)

/-! ## Witnesses -/

example : Stored ⟨2, 10, 20, [67, 58]⟩ :=
  ⟨.inr rfl, by decide, by decide, by unfold RecycleBin.Name; decide, by decide⟩

example : DateTimes (fun t => some (dec t)) :=
  ⟨fun t s h => by cases h; exact dec_notMem _ _ digit_newline, fun t u s _ h1 h2 => by
    have := (Option.some.inj h1).trans (Option.some.inj h2).symm
    exact dec_injective _ _ this⟩

example : valueOf "\tWindows Vista\t: 0x" (hashMain [67, 0, 58, 0, 92, 0, 65, 0, 66, 0]) = some "f5ac496b".toList := by
  decide +kernel

end Dtf.Reports
