import Verif.Utf.Texts
import Verif.Job
import Verif.Ipp
import Verif.Alias

/-!
# Texts of scheduled tasks, printing requests and aliases (C193)

The decoders of `Utf.lean` in the place of the parameters of C173, C46 and C143.
-/

namespace Dtf.Utf
open Py DataFormat

/-! ## Model -/

/-- The data up to a terminator of two zero bytes, at an even offset: what dtfabric decodes of a string with
`elements_terminator: "\x00\x00"` (job.yaml 95-108). -/
def beforeTerminator : Bytes → Bytes
  | a :: b :: l => if a = 0 ∧ b = 0 then [] else a :: b :: beforeTerminator l
  | l => l

/-- The decoder of the strings of a scheduled task. -/
def jobEnv : Job.Env := ⟨fun b => decode16 (beforeTerminator b)⟩

/-- `bytes.decode(charset)` (cups_ipp.py 168) for the character sets that printers use; `other` is for all others. -/
def decodeAs (other : List Char → Bytes → Res (List Char)) (charset : List Char) (b : Bytes) : Res (List Char) :=
  if charset = "ascii".toList ∨ charset = "us-ascii".toList then Ipp.ascii b
  else if charset = "utf-8".toList then
    match decode8 b with
    | none => .error .unicodeError
    | some s => .ok s
  else other charset b

/-- What the reader of printing requests uses: names are decoded as UTF-8 (cups_ipp.yaml 66-88). -/
def ippLibrary (other : List Char → Bytes → Res (List Char)) (dateTime : List Nat → Res Unit) : Ipp.Library :=
  ⟨fun b => (decode8 b).isSome, decodeAs other, dateTime⟩

/-- The code units of bytes, with the most significant byte first; `none` if there is a byte left. -/
def unitsOfBe : Bytes → Option (List Nat)
  | [] => some []
  | [_] => none
  | a :: b :: l => (unitsOfBe l).map ((256 * a.toNat + b.toNat) :: ·)

/-- `bytes.decode("utf-16-be")`, through dtfabric (alias_data.yaml 184-203). -/
def decode16be (b : Bytes) : Option (List Char) := (unitsOfBe b).bind decodeUnits

/-! ## Scheduled tasks -/

/-- A text of a job as Windows stores it: nothing if it is empty, else a terminator after it. -/
def jobText (s : List Char) : Bytes := if s = [] then [] else encode16 s ++ [0, 0]

/-- The texts of a job. -/
structure JobTexts where
  applicationName : List Char
  parameters : List Char
  workingDirectory : List Char
  author : List Char
  comment : List Char

def JobTexts.all (t : JobTexts) : List (List Char) := [t.applicationName, t.parameters, t.workingDirectory, t.author, t.comment]

/-- A string of a job with a text. -/
def storedText (s : List Char) : Job.Text := ⟨UInt16.ofNat ((jobText s).length / 2), jobText s, s⟩

/-- A job with these texts. -/
def jobFile (fixed : Job.Fixed) (count : UInt16) (t : JobTexts) (userData reservedData : Bytes) (triggers : List Job.Trigger) : Job.File :=
  ⟨fixed, count, storedText t.applicationName, storedText t.parameters, storedText t.workingDirectory, storedText t.author,
    storedText t.comment, userData, reservedData, triggers⟩

theorem before_units (l : List Nat) (h : ∀ u ∈ l, 0 < u ∧ u < 0x10000) (rest : Bytes) :
    beforeTerminator ((l.flatMap fun u => [UInt8.ofNat (u % 256), UInt8.ofNat (u / 256)]) ++ 0 :: 0 :: rest) =
      l.flatMap fun u => [UInt8.ofNat (u % 256), UInt8.ofNat (u / 256)] := by
  induction l with
  | nil => simp [beforeTerminator]
  | cons u l ih =>
    obtain ⟨h0, h1⟩ := h u (by simp)
    simp only [List.flatMap_cons, List.cons_append, List.nil_append]
    rw [beforeTerminator, if_neg, ih fun v hv => h v (by simp [hv])]
    rintro ⟨ha, hb⟩
    have ha' := congrArg UInt8.toNat ha
    have hb' := congrArg UInt8.toNat hb
    rw [byte_toNat _ (by omega)] at ha' hb'
    have e0 : (0 : UInt8).toNat = 0 := rfl
    rw [e0] at ha' hb'
    omega

theorem job_text (s : List Char) (h : nul ∉ s) : jobEnv.text (jobText s) = some s := by
  unfold jobEnv jobText
  dsimp only
  split
  · rename_i he
    subst he
    rfl
  · unfold encode16
    rw [before_units]
    · exact C189_utf16 s
    · intro u hu
      refine ⟨?_, units16_lt s u hu⟩
      rcases Nat.eq_zero_or_pos u with h' | h'
      · exact absurd ((units16_zero s).mp (h' ▸ hu)) h
      · exact h'

theorem stored_valid (s : List Char) (hn : nul ∉ s) (hl : (units16 s).length + 1 < 2 ^ 16) : (storedText s).Valid jobEnv := by
  refine ⟨?_, job_text s hn⟩
  have e : (jobText s).length = 2 * ((jobText s).length / 2) ∧ (jobText s).length / 2 < 2 ^ 16 := by
    unfold jobText
    split
    · exact ⟨rfl, by decide⟩
    · rw [List.length_append, encode16_length]
      simp only [List.length_cons, List.length_nil]
      omega
  show (jobText s).length = 2 * (UInt16.ofNat ((jobText s).length / 2)).toNat
  rw [UInt16.toNat_ofNat', Nat.mod_eq_of_lt e.2]
  exact e.1

theorem job_valid (fixed : Job.Fixed) (count : UInt16) (t : JobTexts) (userData reservedData : Bytes) (triggers : List Job.Trigger)
    (hi : fixed.identifierD.length = 8) (ht : ∀ s ∈ t.all, nul ∉ s ∧ (units16 s).length + 1 < 2 ^ 16)
    (hu : userData.length < 2 ^ 16) (hr : reservedData.length < 2 ^ 16) (hg : triggers.length < 2 ^ 16) :
    (jobFile fixed count t userData reservedData triggers).Valid jobEnv := by
  have v : ∀ s ∈ t.all, (storedText s).Valid jobEnv := fun s hs => stored_valid s (ht s hs).1 (ht s hs).2
  unfold JobTexts.all at v
  exact ⟨hi, v _ (by simp), v _ (by simp), v _ (by simp), v _ (by simp), v _ (by simp), hu, hr, hg⟩

/-- C193.  The texts of a scheduled task come out, whatever their characters are, with what follows the task. -/
theorem C193_job (fixed : Job.Fixed) (count : UInt16) (t : JobTexts) (userData reservedData : Bytes) (triggers : List Job.Trigger)
    (rest : Bytes) (debug : Bool) (hi : fixed.identifierD.length = 8)
    (ht : ∀ s ∈ t.all, nul ∉ s ∧ (units16 s).length + 1 < 2 ^ 16) (hu : userData.length < 2 ^ 16)
    (hr : reservedData.length < 2 ^ 16) (hg : triggers.length < 2 ^ 16) :
    ∃ c shown, Job.read jobEnv debug ((jobFile fixed count t userData reservedData triggers).stored ++ rest) = (none, c, shown) ∧
      c.applicationName = some t.applicationName ∧ c.parameters = some t.parameters ∧ c.workingDirectory = some t.workingDirectory ∧
      c.author = some t.author ∧ c.comment = some t.comment := by
  obtain ⟨s, hs⟩ := Job.C173_configuration jobEnv debug _ (job_valid fixed count t userData reservedData triggers hi ht hu hr hg) rest
  exact ⟨_, s, hs, rfl, rfl, rfl, rfl, rfl⟩

/-- C193.  The script shows them on lines of their own. -/
theorem C193_job_shown (fixed : Job.Fixed) (count : UInt16) (t : JobTexts) (userData reservedData : Bytes) (triggers : List Job.Trigger)
    (rest : Bytes) (hi : fixed.identifierD.length = 8)
    (ht : ∀ s ∈ t.all, nul ∉ s ∧ (units16 s).length + 1 < 2 ^ 16) (hu : userData.length < 2 ^ 16)
    (hr : reservedData.length < 2 ^ 16) (hg : triggers.length < 2 ^ 16) :
    ∃ i, Job.script jobEnv false ((jobFile fixed count t userData reservedData triggers).stored ++ rest) =
      (none, "Windows Task Scheduler job information:\n".toList ++ "\tIdentifier\t\t: ".toList ++ i ++ "\n".toList ++
        "\tApplication name\t: ".toList ++ t.applicationName ++ "\n".toList ++ "\tParameters\t\t: ".toList ++ t.parameters ++
        "\n".toList ++ "\tAuthor\t\t\t: ".toList ++ t.author ++ "\n".toList ++ "\tComment\t\t\t: ".toList ++ t.comment ++
        "\n\n".toList) := by
  refine ⟨(jobFile fixed count t userData reservedData triggers).identifier, ?_⟩
  rw [Job.C173_script jobEnv _ (job_valid fixed count t userData reservedData triggers hi ht hu hr hg) rest]
  rfl

/-! ## Printing requests -/

/-- An attribute with a name and a text. -/
def textAttribute (tag : Nat) (name value : List Char) : Bytes :=
  [[UInt8.ofNat tag], beBytes 2 (encode8 name).length, encode8 name, beBytes 2 (encode8 value).length, encode8 value].flatten

/-- The attribute that all requests start with ([RFC 8011] 4.1.4): the character set. -/
def charsetAttribute (charset : String) : Bytes := textAttribute 0x47 "attributes-charset".toList charset.toList

theorem library_name (other : List Char → Bytes → Res (List Char)) (dateTime : List Nat → Res Unit) (s : List Char) :
    (ippLibrary other dateTime).utf8 (encode8 s) = true := by
  unfold ippLibrary
  dsimp only
  rw [C189_utf8]
  rfl

theorem library_text (other : List Char → Bytes → Res (List Char)) (dateTime : List Nat → Res Unit) (s : List Char) :
    (ippLibrary other dateTime).decode "utf-8".toList (encode8 s) = .ok s := by
  unfold ippLibrary decodeAs
  dsimp only
  rw [if_neg (by decide), if_pos rfl, C189_utf8]

theorem stores_texts (lib : Ipp.Library) (charset : List Char) (hu : ∀ s, lib.utf8 (encode8 s) = true)
    (hd : ∀ s, lib.decode charset (encode8 s) = .ok s) (l : List (Nat × List Char × List Char))
    (h : ∀ x ∈ l, (x.1 = 0x41 ∨ x.1 = 0x42) ∧ (encode8 x.2.1).length < 2 ^ 15 ∧ (encode8 x.2.2).length < 2 ^ 15) :
    Ipp.StoresAll lib charset (l.flatMap fun x => textAttribute x.1 x.2.1 x.2.2)
      (l.map fun x => .attr x.1 (encode8 x.2.1) (.text x.2.2)) := by
  induction l with
  | nil => exact .nil _
  | cons x l ih =>
    obtain ⟨h1, h2, h3⟩ := h x (by simp)
    rw [List.flatMap_cons, List.map_cons]
    refine .cons _ charset _ _ _ _ ?_ (ih fun y hy => h y (by simp [hy]))
    unfold textAttribute
    exact .attr _ _ _ _ _ _ (by omega) (by omega) h2 (hu _) h3 (.text _ _ _ h1 (hd _))

theorem char8_ascii (c : Char) (h : c.toNat < 128) : char8 c = [c.toNat] := by
  unfold char8
  exact if_pos h

theorem encode8_ascii (s : List Char) (h : ∀ c ∈ s, c.toNat < 128) : encode8 s = s.map fun c => UInt8.ofNat c.toNat := by
  induction s with
  | nil => rfl
  | cons c s ih =>
    rw [encode8_cons, ih fun d hd => h d (by simp [hd]), char8_ascii c (h c (by simp))]
    rfl

theorem charset_stored (lib : Ipp.Library) (hu : ∀ s, lib.utf8 (encode8 s) = true) (first name charset : List Char)
    (hn : (encode8 name).length < 2 ^ 15) (h : ∀ c ∈ charset, c.toNat < 128) (hl : charset.length < 2 ^ 15) :
    Ipp.Stores lib first (textAttribute 0x47 name charset) (.attr 0x47 (encode8 name) (.text charset)) charset := by
  unfold textAttribute
  rw [encode8_ascii charset h]
  have hm := Ipp.Means.switch (lib := lib) (charset := first) charset h
  have hb : (charset.map fun c => UInt8.ofNat c.toNat).length = charset.length := List.length_map ..
  generalize (charset.map fun c => UInt8.ofNat c.toNat) = b at *
  rw [← hb] at hl
  exact .attr first charset 0x47 (encode8 name) b _ (by decide) (by decide) hn (hu _) hl hm

/-- C193.  The texts of a request come out, whatever their characters are, when it has said that they are UTF-8. -/
theorem C193_ipp (other : List Char → Bytes → Res (List Char)) (dateTime : List Nat → Res Unit) (header post : Bytes)
    (l : List (Nat × List Char × List Char)) (hh : header.length = 8)
    (h : ∀ x ∈ l, (x.1 = 0x41 ∨ x.1 = 0x42) ∧ (encode8 x.2.1).length < 2 ^ 15 ∧ (encode8 x.2.2).length < 2 ^ 15)
    (fuel : Nat) (hf : l.length + 2 < fuel) :
    Ipp.readFile (ippLibrary other dateTime)
        (header ++ ([1] ++ (charsetAttribute "utf-8" ++ l.flatMap fun x => textAttribute x.1 x.2.1 x.2.2)) ++ 3 :: post) fuel =
      some (.ok (.group 1 :: .attr 0x47 (encode8 "attributes-charset".toList) (.text "utf-8".toList) ::
        l.map fun x => .attr x.1 (encode8 x.2.1) (.text x.2.2))) := by
  have hu := library_name other dateTime
  have hd := library_text other dateTime
  have hn : (encode8 "attributes-charset".toList).length < 2 ^ 15 := by decide +kernel
  have hc := charset_stored (ippLibrary other dateTime) hu "ascii".toList "attributes-charset".toList "utf-8".toList hn (by decide) (by decide)
  unfold charsetAttribute
  generalize ippLibrary other dateTime = lib at *
  generalize "attributes-charset".toList = name at *
  generalize "utf-8".toList = charset at *
  refine Ipp.C46_items lib header _ post _ hh ?_ fuel ?_
  · exact .cons _ "ascii".toList [1] _ _ _ (.group _ 1 (.inl rfl)) (.cons _ _ _ _ _ _ hc (stores_texts lib charset hu hd l h))
  · rw [List.length_cons, List.length_cons, List.length_map]
    exact hf

theorem encode8_high (s : List Char) (h : ∃ c ∈ s, 128 ≤ c.toNat) : ∃ b ∈ encode8 s, 128 ≤ b.toNat := by
  obtain ⟨c, hc, hn⟩ := h
  have hv := toNat_valid c
  have : ∃ b ∈ (char8 c).map UInt8.ofNat, 128 ≤ b.toNat := by
    unfold char8
    dsimp only
    rw [if_neg (by omega)]
    split
    · exact ⟨_, List.mem_cons_self .., by rw [byte_toNat _ (by omega)]; omega⟩
    · split
      · exact ⟨_, List.mem_cons_self .., by rw [byte_toNat _ (by omega)]; omega⟩
      · exact ⟨_, List.mem_cons_self .., by rw [byte_toNat _ (by omega)]; omega⟩
  obtain ⟨b, hb, hn⟩ := this
  exact ⟨b, List.mem_flatMap.mpr ⟨c, hc, hb⟩, hn⟩

/-- C193.  A text with a character that is not ASCII raises a UnicodeDecodeError, and no ParseError, as long as no character set
was given. -/
theorem C193_ipp_ascii (other : List Char → Bytes → Res (List Char)) (dateTime : List Nat → Res Unit) (tag : Nat) (s : List Char)
    (ht : tag = 0x41 ∨ tag = 0x42) (hs : ∃ c ∈ s, 128 ≤ c.toNat) :
    Ipp.readValue (ippLibrary other dateTime) "ascii".toList tag (encode8 s) = .error .unicodeError := by
  obtain ⟨b, hb, hn⟩ := encode8_high s hs
  have h : (ippLibrary other dateTime).decode "ascii".toList (encode8 s) = .error .unicodeError := by
    unfold ippLibrary decodeAs Ipp.ascii
    dsimp only
    rw [if_pos (.inl rfl), if_neg]
    intro ha
    rw [List.all_eq_true] at ha
    have := ha b hb
    rw [decide_eq_true_eq, UInt8.lt_iff_toNat_lt] at this
    have e : (128 : UInt8).toNat = 128 := rfl
    omega
  unfold Ipp.readValue
  rcases ht with rfl | rfl
  · rw [if_neg (by decide), if_neg (by decide), if_neg (by decide), if_neg (by decide), if_pos (by decide)]
    rw [h]
  · rw [if_neg (by decide), if_neg (by decide), if_neg (by decide), if_neg (by decide), if_pos (by decide)]
    rw [h]

/-! ## Aliases -/

/-- A text of an alias as it is stored and as it is read: UTF-8, or UTF-16 with the number of code units before it. -/
inductive AliasText : Alias.Stored → Alias.Value → Prop
  | utf8 (tag : Nat) (s : List Char) (pad : UInt8) (h : tag ∈ [0, 2, 6, 0x12, 0x13]) (hl : (encode8 s).length < 2 ^ 16) :
    AliasText (tag, encode8 s, pad) (.utf8 tag s)
  | utf16 (tag : Nat) (s : List Char) (pad : UInt8) (h : tag ∈ [0x0e, 0x0f]) (hl : 2 + 2 * (units16 s).length < 2 ^ 16) :
    AliasText (tag, beBytes 2 (units16 s).length ++ (units16 s).flatMap (beBytes 2), pad) (.utf16 tag s)

/-- The texts, one by one. -/
inductive AliasTexts : List Alias.Stored → List Alias.Value → Prop
  | nil : AliasTexts [] []
  | cons {s v ss vs} : AliasText s v → AliasTexts ss vs → AliasTexts (s :: ss) (v :: vs)

theorem unitsOfBe_bytes (l : List Nat) (h : ∀ u ∈ l, u < 0x10000) : unitsOfBe (l.flatMap (beBytes 2)) = some l := by
  induction l with
  | nil => rfl
  | cons u l ih =>
    have hu := h u (by simp)
    have e : beBytes 2 u = [UInt8.ofNat (u / 256), UInt8.ofNat u] := rfl
    rw [List.flatMap_cons, e, List.cons_append, List.cons_append, List.nil_append, unitsOfBe, ih fun v hv => h v (by simp [hv])]
    have e1 : (UInt8.ofNat (u / 256)).toNat = u / 256 := byte_toNat _ (by omega)
    have e2 : (UInt8.ofNat u).toNat = u % 256 := by rw [UInt8.toNat_ofNat']
    rw [e1, e2, Nat.div_add_mod]
    rfl

/-- C193.  The decoder of UTF-16 with the most significant byte first inverts the encoder. -/
theorem C193_utf16be (s : List Char) : decode16be ((units16 s).flatMap (beBytes 2)) = some s := by
  unfold decode16be
  rw [unitsOfBe_bytes _ (units16_lt s)]
  exact decodeUnits_units s

theorem unitsOfBe_only (b : Bytes) (l : List Nat) (h : unitsOfBe b = some l) : b = l.flatMap (beBytes 2) := by
  fun_induction unitsOfBe b generalizing l with
  | case1 => cases h; rfl
  | case2 => cases h
  | case3 a b r ih =>
    rw [Option.map_eq_some_iff] at h
    obtain ⟨t, ht, rfl⟩ := h
    have e : beBytes 2 (256 * a.toNat + b.toNat) = [a, b] := by
      show [UInt8.ofNat ((256 * a.toNat + b.toNat) / 256), UInt8.ofNat (256 * a.toNat + b.toNat)] = _
      have hb := b.toNat_lt
      congr 1
      · exact byte_ofNat a _ (by omega)
      · congr 1
        apply UInt8.toNat.inj
        rw [UInt8.toNat_ofNat']
        omega
    rw [List.flatMap_cons, e, ← ih t ht]
    rfl

/-- C193.  It accepts nothing else. -/
theorem C193_utf16be_only (b : Bytes) (s : List Char) (h : decode16be b = some s) : b = (units16 s).flatMap (beBytes 2) := by
  unfold decode16be at h
  rw [Option.bind_eq_some_iff] at h
  obtain ⟨l, h1, h2⟩ := h
  rw [unitsOfBe_only b l h1, decodeUnits_only l s h2]

theorem alias_stand (ss : List Alias.Stored) (vs : List Alias.Value) (h : AliasTexts ss vs) : Alias.AllStand decode8 decode16be ss vs := by
  induction h with
  | nil => exact .nil
  | cons h _ ih =>
    refine .cons _ _ _ _ ?_ ?_ ?_ ih
    · cases h with
      | utf8 tag s pad h hl =>
        revert h tag
        intro tag h
        simp only [List.mem_cons, List.not_mem_nil, or_false] at h
        show tag < 2 ^ 16
        omega
      | utf16 tag s pad h hl =>
        simp only [List.mem_cons, List.not_mem_nil, or_false] at h
        show tag < 2 ^ 16
        omega
    · cases h with
      | utf8 tag s pad h hl => exact hl
      | utf16 tag s pad h hl =>
        show (_ ++ _ : Bytes).length < _
        rw [List.length_append, length_beBytes, Alias.flatMap_beBytes_length]
        exact hl
    · cases h with
      | utf8 tag s pad h hl => exact .utf8 tag _ s h (C189_utf8 s)
      | utf16 tag s pad h hl => exact .utf16 tag _ s h (C193_utf16be s)

/-- C193.  The names and paths of an alias come out, whatever their characters are, in both versions of the format. -/
theorem C193_alias (r2 : Alias.RecordV2) (r3 : Alias.RecordV3) (more : Bytes) (ss : List Alias.Stored) (vs : List Alias.Value) (fuel : Nat)
    (h2 : r2.Ok) (h3 : r3.Ok) (hm : more.length = 28) (h : AliasTexts ss vs)
    (hl : 150 + (ss.flatMap Alias.Stored.bytes).length < 2 ^ 16) (hf : ss.length < fuel) :
    Alias.readAlias decode8 decode16be fuel (Alias.aliasBytes 2 (r2.bytes more) (ss.flatMap Alias.Stored.bytes)) =
        some (.ok (.v2 r2, vs)) ∧
      Alias.readAlias decode8 decode16be fuel (Alias.aliasBytes 3 r3.bytes (ss.flatMap Alias.Stored.bytes)) =
        some (.ok (.v3 r3, vs)) :=
  ⟨Alias.C143_version2 _ _ r2 more ss vs fuel h2 hm (alias_stand ss vs h) hl hf,
    Alias.C143_version3 _ _ r3 ss vs fuel h3 (alias_stand ss vs h) (by omega) hf⟩

/-! ## Witnesses -/

example : AliasTexts [(0x0e, beBytes 2 (units16 "é😀".toList).length ++ (units16 "é😀".toList).flatMap (beBytes 2), 0),
    (0x13, encode8 "/Volumes/é".toList, 0)] [.utf16 0x0e "é😀".toList, .utf8 0x13 "/Volumes/é".toList] :=
  .cons (.utf16 _ _ _ (by decide) (by decide +kernel)) (.cons (.utf8 _ _ _ (by decide) (by decide +kernel)) .nil)

example : ∀ s ∈ (⟨"C:\\é😀.exe".toList, [], "C:\\".toList, "Zoë".toList, []⟩ : JobTexts).all,
    nul ∉ s ∧ (units16 s).length + 1 < 2 ^ 16 := by decide +kernel

example : ∀ x ∈ [(0x42, "printer-name".toList, "Büro 😀".toList), (0x41, "job-name".toList, "é".toList)],
    ((x.1 : Nat) = 0x41 ∨ x.1 = 0x42) ∧ (encode8 x.2.1).length < 2 ^ 15 ∧ (encode8 x.2.2).length < 2 ^ 15 := by decide +kernel

end Dtf.Utf
