import Verif.Utf
import Verif.Fsevents
import Verif.Asl.Props
import Verif.Wmi.Instances
import Verif.Unified.Catalog
import Verif.Unified.Decoders
import Verif.Spotlight.Tables
import Verif.Scripts.Reports
import Verif.RpLogDebug

/-!
# Texts of files, from their characters on (C189, C122)

The decoders of `Utf.lean` in the place of the parameters of other properties: texts of any characters, stored in the
encoding of the format, come out as they were.
-/

namespace Dtf.Utf
open Py DataFormat

/-- The character that ends strings. -/
def nul : Char := Char.ofNat 0

theorem bytes_ne_zero (s : List Char) (h : nul ∉ s) : ∀ b ∈ encode8 s, b ≠ 0 := by
  intro b hb hz
  exact h ((encode8_zero s).mp (hz ▸ hb))

theorem map_snd (texts : List (List Char)) : (texts.map (fun t => (encode8 t, t))).map (·.2) = texts := by
  rw [List.map_map]
  exact List.map_id _

theorem map_fst (texts : List (List Char)) : (texts.map (fun t => (encode8 t, t))).map (·.1) = texts.map encode8 := by
  rw [List.map_map]
  rfl

/-! ## Unified logging -/

/-- The strings of a catalog come out, whatever their characters are. -/
theorem C189_catalog (uuids : List Bytes) (texts : List (List Char)) (ps : List (Bytes × Unified.Process))
    (cs : List (Bytes × Unified.SubChunk)) (subOffset time : Nat) (reserved rest : Bytes)
    (hu : ∀ u ∈ uuids, u.length = 16) (hs : ∀ t ∈ texts, nul ∉ t)
    (hp : ∀ p ∈ ps, p.2.Ok ∧ Unified.Filled p.2.members p.1) (hc : ∀ c ∈ cs, c.2.Ok ∧ Unified.Filled c.2.members c.1)
    (hsize : 16 * uuids.length + (Unified.stringArea (texts.map encode8)).length < 2 ^ 16)
    (hn : ps.length < 2 ^ 16) (hm : cs.length < 2 ^ 16) (ho : subOffset < 2 ^ 16) (ht : time < 2 ^ 64)
    (hr : reserved.length = 6) :
    Unified.readCatalog decode8 (Unified.headerBytes uuids (texts.map encode8) ps.length cs.length subOffset time reserved ++
      ((ps.map (·.1)).flatten ++ ((cs.map (·.1)).flatten ++ rest))) = .ok (⟨uuids, texts, ps.map (·.2)⟩, rest) := by
  have := Unified.C121_catalog decode8 uuids (texts.map (fun t => (encode8 t, t))) ps cs subOffset time reserved rest hu (by
    intro s hs'
    obtain ⟨t, ht', rfl⟩ := List.mem_map.mp hs'
    exact ⟨fun h0 => hs t ht' ((encode8_zero t).mp h0), C189_utf8 t⟩) hp hc (by rw [map_fst]; exact hsize) hn hm ho ht hr
  rw [map_fst, map_snd] at this
  exact this

theorem char8_length (c : Char) : (char8 c).length = 1 ↔ c.toNat < 0x80 := by
  unfold char8
  dsimp only
  split
  · simpa
  · split
    · simpa using by omega
    · split <;> simpa using by omega

theorem char8_pos (c : Char) : 1 ≤ (char8 c).length := by
  unfold char8
  dsimp only
  split
  · simp
  · split
    · simp
    · split <;> simp

/-- A text has as many characters as bytes if and only if it is ASCII. -/
theorem encode8_length (s : List Char) : s.length = (encode8 s).length ↔ ∀ c ∈ s, c.toNat < 0x80 := by
  have hge : ∀ s : List Char, s.length ≤ (encode8 s).length := by
    intro s
    induction s with
    | nil => simp
    | cons c s ih =>
      have := char8_pos c
      rw [encode8_cons, List.length_append, List.length_map, List.length_cons]
      omega
  induction s with
  | nil => simp [encode8]
  | cons c s ih =>
    have h1 := char8_pos c
    have h2 := hge s
    have h3 := char8_length c
    rw [encode8_cons, List.length_append, List.length_map, List.length_cons]
    simp only [List.mem_cons, forall_eq_or_imp]
    constructor
    · intro h
      exact ⟨h3.mp (by omega), ih.mp (by omega)⟩
    · intro h
      have := h3.mpr h.1
      have := ih.mpr h.2
      omega

/-- All strings of a catalog are found at their offsets. -/
def C122_utf8_claim : Prop := ∀ (texts : List (List Char)) (offset : Nat) (text : List Char),
  ((Unified.stringMap 0 texts).lookup offset = some text ↔
    ∃ k, ∃ h : k < texts.length, offset = Unified.areaOffset (texts.map encode8) k ∧ text = texts[k])

/-- Strings in ASCII are found at their offsets. -/
theorem C122_utf8_partial (texts : List (List Char)) (h : ∀ t ∈ texts, ∀ c ∈ t, c.toNat < 0x80) (offset : Nat)
    (text : List Char) : (Unified.stringMap 0 texts).lookup offset = some text ↔
    ∃ k, ∃ h : k < texts.length, offset = Unified.areaOffset (texts.map encode8) k ∧ text = texts[k] := by
  have := Unified.C122_strings_partial (texts.map (fun t => (encode8 t, t))) (by
    intro s hs
    obtain ⟨t, ht, rfl⟩ := List.mem_map.mp hs
    exact (encode8_length t).mpr (h t ht)) offset text
  rw [map_fst, map_snd] at this
  simpa using this

/-- A string after one that is not ASCII is not found: offsets are counted in characters. -/
theorem C122_utf8_claim_false : ¬ C122_utf8_claim := by
  intro h
  have := (h ["é".toList, "b".toList] 3 "b".toList).mpr ⟨1, by decide, by decide +kernel, rfl⟩
  revert this
  decide +kernel

/-- The names of a membership come out. -/
theorem C189_membership (t : UInt8) (user : Bool) (name domain : List Char) (rest : Bytes)
    (ht : (t = 0x24 ∨ t = 0xA0 ∨ t = 0xA4) ∧ user = true ∨ t = 0x44 ∧ user = false) (hn : nul ∉ name) (hd : nul ∉ domain) :
    Unified.membershipText decode8 (t :: encode8 name ++ 0 :: encode8 domain ++ 0 :: rest) =
      .ok ((if user then "user: ".toList else "group: ".toList) ++ name ++ ['@'] ++ domain) :=
  Unified.C112_name decode8 t user (encode8 name) (encode8 domain) rest name domain ht (bytes_ne_zero name hn)
    (C189_utf8 name) (bytes_ne_zero domain hd) (C189_utf8 domain)

/-! ## fseventsd and Apple System Log -/

/-- Every page of events with paths of any characters is read; the bytes of a path are those of one text only. -/
theorem C189_paths (pages : List Fsevents.Page) (fuel : Nat) (hf : pages.length < fuel)
    (h : ∀ p ∈ pages, p.unknown.length = 4 ∧ 12 + (p.records.flatMap (·.bytes)).length < 2 ^ 32 ∧ ∀ r ∈ p.records,
      (∃ path : List Char, nul ∉ path ∧ r.path = encode8 path) ∧ r.identifier < 2 ^ 64 ∧ r.flags < 2 ^ 32 ∧
        r.node.isSome = p.second ∧ ∀ n, r.node = some n → n < 2 ^ 64) :
    Fsevents.readFile (fun b => (decode8 b).isSome) (pages.flatMap (·.bytes)) fuel = some (.ok (pages.map (·.records))) ∧
      ∀ p ∈ pages, ∀ r ∈ p.records, ∃ path, decode8 r.path = some path ∧ r.path = encode8 path := by
  constructor
  · refine Fsevents.C45_pages _ pages ?_ fuel hf
    intro p hp
    obtain ⟨h1, h2, h3⟩ := h p hp
    refine ⟨h1, h2, fun r hr => ?_⟩
    obtain ⟨⟨path, hn, hp'⟩, h4, h5, h6, h7⟩ := h3 r hr
    refine ⟨?_, ?_, h4, h5, h6, h7⟩
    · rw [hp']; exact bytes_ne_zero path hn
    · show (decode8 r.path).isSome = true
      rw [hp', C189_utf8]; rfl
  · intro p hp r hr
    obtain ⟨⟨path, _, hp'⟩, _⟩ := (h p hp).2.2 r hr
    exact ⟨path, by rw [hp', C189_utf8], hp'⟩

/-- A string of an Apple System Log that is stored with its terminator comes out, whatever its characters are. -/
theorem C189_asl (pre post : Bytes) (text : List Char) (pos unknown : Nat) (hn : nul ∉ text) (h0 : 0 < pre.length)
    (h1 : pre.length < 2 ^ 63) (hs : (encode8 text).length + 1 < 2 ^ 32) :
    ∃ b pos', Asl.readString (fun b => (decode8 b).isSome)
        (pre ++ Asl.stringBytes unknown (encode8 text ++ [0]) ++ post) pos pre.length = .ok (some b, pos') ∧
      decode8 b = some text := by
  refine ⟨encode8 text, _, Asl.C25_stored_zero_terminated _ pre (encode8 text) post pos unknown 1 h0 h1 hs ?_ ?_, C189_utf8 text⟩
  · have : encode8 text ++ List.replicate 1 0 = encode8 (text ++ [nul]) := by
      simp only [encode8, List.flatMap_append]
      rfl
    show (decode8 (encode8 text ++ List.replicate 1 0)).isSome = true
    rw [this, C189_utf8]
    rfl
  · intro x hx hz
    exact bytes_ne_zero text hn x (List.mem_of_getLast? hx) hz

/-! ## Spotlight -/

/-- The values of an attribute that is a list of texts come out. -/
theorem C189_spotlight (tb : Spotlight.Tables) (t : Spotlight.MetaType) (w : Nat) (texts : List (List Char)) (rest : Bytes)
    (hk : t.keyName ≠ "kMDStoreAccumulatedSizes") (ht : t.valueType = 0x0B) (hp : t.propertyType &&& 3 = 2)
    (hw : Spotlight.Fits w (texts.flatMap (fun s => encode8 s ++ [0])).length) (hn : ∀ s ∈ texts, nul ∉ s) :
    Spotlight.readAttribute (Spotlight.otherValue decode8 tb) (some t)
        (Spotlight.encodeVarInt w (texts.flatMap (fun s => encode8 s ++ [0])).length ++
          texts.flatMap (fun s => encode8 s ++ [0]) ++ rest) =
      .ok (some (Spotlight.attrOf t (.texts texts)),
        (Spotlight.encodeVarInt w (texts.flatMap (fun s => encode8 s ++ [0])).length ++
          texts.flatMap (fun s => encode8 s ++ [0])).length) := by
  have e : (texts.map (fun s => (encode8 s, s))).flatMap (fun x => x.1 ++ [0]) = texts.flatMap (fun s => encode8 s ++ [0]) := by
    rw [List.flatMap_map]
  have := Spotlight.C140_texts decode8 tb t w (texts.map (fun s => (encode8 s, s))) rest hk ht hp (by rw [e]; exact hw) (by
    intro x hx
    obtain ⟨s, hs, rfl⟩ := List.mem_map.mp hx
    exact ⟨bytes_ne_zero s (hn s hs), C189_utf8 s⟩)
  unfold Spotlight.textsBytes at this
  rw [e, map_snd] at this
  simpa using this

/-! ## UTF-16 -/

theorem encode16_length (s : List Char) : (encode16 s).length = 2 * (units16 s).length := by
  unfold encode16
  induction units16 s with
  | nil => rfl
  | cons u l ih =>
    rw [List.flatMap_cons, List.length_append, ih, List.length_cons]
    simp
    omega

/-- The super class of a class of the WMI repository comes out. -/
theorem C189_super_class (super : List Char) (time : Nat) (data rest : Bytes) (hn : (units16 super).length < 2 ^ 32)
    (ht : time < 2 ^ 64) (hd : data.length + 4 < 2 ^ 32) :
    Wmi.readClassReference decode16 (Wmi.classRecord (encode16 super) (units16 super).length time data ++ rest) =
      .ok ⟨super, data, 16 + (encode16 super).length + data.length⟩ :=
  Wmi.C132_class decode16 (encode16 super) super _ time data rest (encode16_length super) (C189_utf16 super) hn ht hd

theorem nameBytes_encode (s : List Char) : RecycleBin.nameBytes (units16 s) = encode16 s := by
  unfold RecycleBin.nameBytes encode16
  have h := units16_lt s
  revert h
  induction units16 s with
  | nil => intro _; rfl
  | cons u l ih =>
    intro h
    rw [List.flatMap_cons, List.flatMap_cons, ih (fun v hv => h v (by simp [hv]))]
    congr 1
    show [UInt8.ofNat u, UInt8.ofNat (u / 256)] = _
    congr 1
    apply UInt8.toNat.inj
    rw [UInt8.toNat_ofNat', UInt8.toNat_ofNat']
    omega

/-- The original name of a deleted file is read as it was stored, in both formats, and shown. -/
theorem C189_recycle (version size deletion : Nat) (name : List Char) (fill : Bytes)
    (hv : version = 1 ∨ version = 2) (hs : size < 2 ^ 64) (hd : deletion < 2 ^ 64) (hn : nul ∉ name)
    (hl : (units16 name).length + 1 < 2 ^ 32) :
    ∃ m, RecycleBin.readFile ([leBytes 8 version, leBytes 8 size, leBytes 8 deletion].flatten ++
        (if version = 1 then encode16 name ++ [0, 0] ++ fill
        else leBytes 4 ((units16 name).length + 1) ++ encode16 name ++ [0, 0] ++ fill)) = .ok m ∧
      m.version = version ∧ m.size = size ∧ m.deletion = deletion ∧ decodeUnits m.name = some name := by
  have hN : RecycleBin.Name (units16 name) := by
    intro u hu
    refine ⟨?_, units16_lt name u hu⟩
    rcases Nat.eq_zero_or_pos u with h | h
    · exact absurd ((units16_zero name).mp (h ▸ hu)) hn
    · exact h
  have := RecycleBin.C101_metadata ⟨version, size, deletion, units16 name⟩ fill hv hs hd hN hl
  unfold RecycleBin.fileBytes at this
  dsimp only at this
  rw [nameBytes_encode] at this
  exact ⟨_, this, rfl, rfl, rfl, decodeUnits_units name⟩

theorem encode16_utf16 (s : List Char) (h : nul ∉ s) : ChangeLog.Utf16 (encode16 s) := by
  rw [← nameBytes_encode]
  refine RecycleBin.nameBytes_utf16 _ ?_
  intro u hu
  refine ⟨?_, units16_lt s u hu⟩
  rcases Nat.eq_zero_or_pos u with h' | h'
  · exact absurd ((units16_zero s).mp (h' ▸ hu)) h
  · exact h'

/-- The description of a restore point is shown as it was stored. -/
theorem C189_restore_point (filetime : Nat → Option (List Char)) (l : RpLog.Log) (h : RpLog.DebugMode.Log.Ok l)
    (text : List Char) (ht : l.description = encode16 text) :
    RpLog.DebugMode.showFile true decode16 filetime l.bytes = (RpLog.DebugMode.report filetime l text, none) :=
  RpLog.DebugMode.C184_shown decode16 filetime l h text (by rw [ht, C189_utf16])

/-! ## Witnesses -/

example : nul ∉ "/Users/é/😀".toList := by decide +kernel

example : ∃ m, RecycleBin.readFile ([leBytes 8 2, leBytes 8 5, leBytes 8 7].flatten ++
    (leBytes 4 7 ++ encode16 "C:\\é😀".toList ++ [0, 0])) = .ok m ∧ decodeUnits m.name = some "C:\\é😀".toList := by
  obtain ⟨m, h, _, _, _, h2⟩ := C189_recycle 2 5 7 "C:\\é😀".toList [] (.inr rfl) (by decide) (by decide) (by decide +kernel)
    (by decide +kernel)
  rw [if_neg (by decide), List.append_nil] at h
  have e : (units16 "C:\\é😀".toList).length + 1 = 7 := by decide +kernel
  rw [e] at h
  exact ⟨m, by simpa using h, h2⟩

example : Wmi.readClassReference decode16 (Wmi.classRecord (encode16 "Win32_é".toList) 7 1 [9, 9] ++ [5]) =
    .ok ⟨"Win32_é".toList, [9, 9], 16 + 14 + 2⟩ :=
  C189_super_class "Win32_é".toList 1 [9, 9] [5] (by decide +kernel) (by decide) (by decide)

example : Unified.membershipText decode8 (0x24 :: encode8 "é".toList ++ 0 :: encode8 "d".toList ++ [0]) =
    .ok "user: é@d".toList :=
  (C189_membership 0x24 true "é".toList "d".toList [] (.inl ⟨.inl rfl, rfl⟩) (by decide +kernel) (by decide +kernel)).trans
    (by decide +kernel)

example : ∃ b pos', Asl.readString (fun b => (decode8 b).isSome)
    ([1] ++ Asl.stringBytes 1 (encode8 "é".toList ++ [0]) ++ []) 0 1 = .ok (some b, pos') ∧ decode8 b = some "é".toList :=
  C189_asl [1] [] "é".toList 0 1 (by decide +kernel) (by decide) (by decide) (by decide +kernel)

end Dtf.Utf
