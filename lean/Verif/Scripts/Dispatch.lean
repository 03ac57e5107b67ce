import Verif.Wemf
import Verif.Records
import Verif.Unified.Strings
import Verif.Unified.Trace

/-!
# Which reader a script uses for a file (C187)

scripts/wemf.py, scripts/utmp.py and scripts/unified_logging.py look at some bytes of a file to find out what it is and
scripts/firefox_cache1.py at its name.  The model has these choices and the readers of C48, C99, C73, C32 and C74.
-/

namespace Dtf.Dispatch
open Py DataFormat

/-! ## Model -/

/-- What a script got from a file: by the first or by the second reader. -/
inductive Got (α β : Type) where
  | first (r : Option (Res α))
  | second (r : Option (Res β))

/-- `b" EMF"` (scripts/wemf.py 65). -/
def emfSignature : Bytes := [0x20, 0x45, 0x4d, 0x46]

/-- scripts/wemf.py 61-70: `seek(40)`, `read(4)`, the choice and `Open`.  Reading beyond the end gives fewer bytes. -/
def metafile (data : Bytes) (fuel : Nat) : Got (List Wemf.Record) (List Wemf.Record) :=
  if slice data 40 44 = emfSignature then .first (Wemf.readEmf data fuel) else .second (Wemf.readWmf data fuel)

/-- `b"utmpx-1.00\x00"` (scripts/utmp.py 65). -/
def utmpxSignature : Bytes := [0x75, 0x74, 0x6d, 0x70, 0x78, 0x2d, 0x31, 0x2e, 0x30, 0x30, 0x00]

/-- scripts/utmp.py 61-74. -/
def logins (data : Bytes) (fuel : Nat) : Got (Utmp.XEntry × List Utmp.XEntry) (List Utmp.Entry) :=
  if data.take 11 = utmpxSignature then .first (Utmp.readXFile data fuel) else .second (Utmp.readFile data fuel)

/-- The readers of scripts/unified_logging.py 171-190. -/
inductive Kind where
  | dsc
  | uuidtext
  | timesync
  | trace
deriving DecidableEq, Repr

/-- scripts/unified_logging.py 164-190. -/
def unified (data : Bytes) : Kind :=
  let signature := data.take 4
  if signature = [0x68, 0x63, 0x73, 0x64] then .dsc
  else if signature = [0x99, 0x88, 0x77, 0x66] then .uuidtext
  else if signature = [0xb0, 0xbb, 0x30, 0x00] ∨ signature = [0x54, 0x73, 0x20, 0x00] then .timesync
  else .trace

/-- The readers of scripts/firefox_cache1.py 62-70. -/
inductive CacheKind where
  | map
  | block
deriving DecidableEq, Repr

/-- `os.path.basename` of a path. -/
def lastSegment (path : List Char) : List Char := (path.reverse.takeWhile (fun c => c ≠ '/')).reverse

/-- scripts/firefox_cache1.py 61-73; `none` is `return False`. -/
def firefox (path : List Char) : Option CacheKind :=
  let filename := lastSegment path
  if filename = "_CACHE_MAP_".toList then some .map
  else if "_CACHE_00".toList.isPrefixOf filename then some .block
  else none

/-! ## Specification -/

/-- An Enhanced Metafile: a header record of 108 bytes with the signature after the type, the size, the bounds and the
frame, and records. -/
structure Emf where
  bounds : Bytes
  rest : Bytes
  records : List Wemf.Stored

def Emf.header (f : Emf) : Bytes := [leBytes 4 1, leBytes 4 108, f.bounds, " EMF".toUTF8.toList, f.rest].flatten

def Emf.bytes (f : Emf) : Bytes := f.header ++ f.records.flatMap (·.emf)

def Emf.Ok (f : Emf) : Prop := f.bounds.length = 32 ∧ f.rest.length = 64 ∧ ∀ r ∈ f.records, r.EmfOk

/-- A Windows Metafile. -/
structure Wmf where
  placeable : Bytes
  header : Bytes
  records : List Wemf.Stored

def Wmf.bytes (f : Wmf) : Bytes := f.placeable ++ f.header ++ f.records.flatMap (·.wmf)

def Wmf.Ok (f : Wmf) : Prop := Wemf.Placeable f.placeable ∧ Wemf.WmfHeader f.header ∧ ∀ r ∈ f.records, r.WmfOk

/-- The records were read by their types and sizes. -/
def ReadAs (header : Nat) (records : List Wemf.Stored) (r : Option (Res (List Wemf.Record))) : Prop :=
  ∃ out, r = some (.ok out) ∧
    out.map (fun r => (r.type, r.size)) = records.map (fun r => (r.type, header + r.body.length))

/-- All Windows Metafiles are read. -/
def C187_wmf_claim : Prop := ∀ (f : Wmf), f.Ok → ∃ fuel r, metafile f.bytes fuel = .second r ∧ ReadAs 6 f.records r

/-- All utmp files are read. -/
def C187_utmp_claim : Prop :=
  ∀ es : List Utmp.Entry, (∀ e ∈ es, e.Ok) → ∃ fuel, logins (es.flatMap (·.bytes)) fuel = .second (some (.ok es))

/-! ## Metafiles -/

theorem emf_text : " EMF".toUTF8.toList = emfSignature := by decide +kernel

theorem emf_chosen (f : Emf) (h : f.Ok) : slice f.bytes 40 44 = emfSignature := by
  obtain ⟨h1, _, _⟩ := h
  unfold Emf.bytes Emf.header
  rw [emf_text]
  have := slice_fields [leBytes 4 1, leBytes 4 108, f.bounds] emfSignature [f.rest, f.records.flatMap (·.emf)] 40 44
    (by simp [h1]) (by simp [emfSignature])
  simpa [List.append_assoc] using this

/-- All Enhanced Metafiles are read as such, with all their records. -/
theorem C187_emf (f : Emf) (h : f.Ok) (fuel : Nat) (hf : f.records.length < fuel) :
    ∃ r, metafile f.bytes fuel = .first r ∧ ReadAs 8 f.records r := by
  refine ⟨_, by rw [metafile, if_pos (emf_chosen f h)], ?_⟩
  have hl : f.header.length = 108 := by
    have h4 : " EMF".toUTF8.toList.length = 4 := by rw [emf_text]; rfl
    unfold Emf.header
    simp only [List.length_flatten, List.map_cons, List.map_nil, List.sum_cons, List.sum_nil, leBytes_length, h4, h.1, h.2.1]
    rfl
  exact Wemf.C48_emf_partial f.header hl f.records h.2.2 fuel hf

/-- A Windows Metafile is read, with all its records, exactly if the bytes at offset 40 are not the signature of the other
format. -/
theorem C187_wmf_exact (f : Wmf) (h : f.Ok) (fuel : Nat) (hf : f.records.length < fuel) :
    (∃ r, metafile f.bytes fuel = .second r ∧ ReadAs 6 f.records r) ↔ slice f.bytes 40 44 ≠ " EMF".toUTF8.toList := by
  rw [emf_text]
  unfold metafile
  constructor
  · rintro ⟨r, h1, _⟩ he
    rw [if_pos he] at h1
    cases h1
  · intro hne
    refine ⟨_, by rw [if_neg hne], ?_⟩
    exact Wemf.C48_wmf_records f.placeable f.header h.1 h.2.1 f.records h.2.2 fuel hf

/-- A metafile with a placeable of which the first record is smaller than 2 GiB is read. -/
theorem C187_wmf_partial (f : Wmf) (h : f.Ok) (fuel : Nat) (hf : f.records.length < fuel) (hp : f.placeable ≠ [])
    (hs : ∀ r, f.records.head? = some r → r.body.length < 2 ^ 31) :
    ∃ r, metafile f.bytes fuel = .second r ∧ ReadAs 6 f.records r := by
  rw [C187_wmf_exact f h fuel hf, emf_text]
  obtain ⟨hp', hh, hr⟩ := h
  have hpl : f.placeable.length = 22 := by
    rcases hp' with h0 | ⟨rest, h0, h1⟩
    · exact absurd h0 hp
    · rw [h0]
      simp [Wemf.placeableKey, h1]
  have hhl : f.header.length = 18 := by
    obtain ⟨t, rest, h0, _, h1⟩ := hh
    rw [h0]
    simp [h1]
  intro he
  have hsl : slice f.bytes 40 44 = (f.records.flatMap (·.wmf)).take 4 := by
    unfold Wmf.bytes slice
    rw [List.drop_take]
    rw [List.drop_append_of_le_length (by simp [hpl, hhl]), List.drop_eq_nil_of_le (by simp [hpl, hhl])]
    rfl
  rw [hsl] at he
  cases hrec : f.records with
  | nil => rw [hrec] at he; simp [emfSignature] at he
  | cons r rs =>
    have hb := hs r (by rw [hrec]; rfl)
    rw [hrec] at he
    have h4 : ((r :: rs).flatMap (·.wmf)).take 4 = leBytes 4 ((6 + r.body.length) / 2) := by
      simp only [List.flatMap_cons, Wemf.Stored.wmf, List.flatten_cons, List.append_assoc]
      rw [List.take_append_of_le_length (by simp)]
      exact List.take_of_length_le (by simp)
    rw [h4] at he
    have hn := congrArg leNat he
    rw [leNat_leBytes, Nat.mod_eq_of_lt (by omega)] at hn
    have hv : leNat emfSignature = 0x464d4520 := by decide +kernel
    omega

/-- A Windows Metafile with one record that has the text " EMF" at offset 40. -/
def disguised : Wmf := ⟨[], [leBytes 2 1, leBytes 2 9, List.replicate 14 0].flatten,
  [⟨0x521, List.replicate 16 0 ++ emfSignature⟩]⟩

theorem disguised_ok : disguised.Ok := by
  refine ⟨Or.inl rfl, ⟨1, List.replicate 14 0, rfl, Or.inl rfl, by simp⟩, ?_⟩
  intro r hr
  simp only [disguised, List.mem_singleton] at hr
  subst hr
  simp [Wemf.Stored.WmfOk, emfSignature]

theorem C187_disguised (fuel : Nat) : metafile disguised.bytes fuel = .first (some (.error .parseError)) := by
  rw [metafile, if_pos (by decide +kernel), Wemf.readEmf]
  have : structAt (fixedMap 108 id) disguised.bytes 0 = .error .parseError := by decide +kernel
  rw [this]

theorem C187_wmf_claim_false : ¬ C187_wmf_claim := by
  intro h
  obtain ⟨fuel, r, h1, _⟩ := h disguised disguised_ok
  rw [C187_disguised] at h1
  cases h1

/-! ## Login records -/

theorem utmpx_text : utmpxSignature = "utmpx-1.00\x00".toUTF8.toList := by decide +kernel

/-- A file of macOS is read as such, with all its records. -/
theorem C187_utmpx (first : Utmp.XEntry) (es : List Utmp.XEntry) (hf : first.Ok) (h : ∀ e ∈ es, e.Ok)
    (hs : "utmpx-1.00\x00".toUTF8.toList <+: first.username) (ht : first.type = 10) (fuel : Nat) :
    logins (first.bytes ++ es.flatMap (·.bytes)) (es.length + fuel + 1) = .first (some (.ok (first, es))) := by
  rw [← utmpx_text] at hs
  obtain ⟨t, ht'⟩ := hs
  have hch : (first.bytes ++ es.flatMap (·.bytes)).take 11 = utmpxSignature := by
    simp only [Utmp.XEntry.bytes, List.flatten_cons, ← ht', List.append_assoc]
    rw [List.take_append_of_le_length (by simp [utmpxSignature])]
    exact List.take_of_length_le (by simp [utmpxSignature])
  rw [logins, if_pos hch]
  have hs' : Utmp.signature <+: first.username := by
    have hp : Utmp.signature <+: utmpxSignature := by
      rw [← List.isPrefixOf_iff_prefix]
      decide +kernel
    exact hp.trans ⟨t, ht'⟩
  rw [Utmp.C99_xentries first es hf h hs' ht fuel]

/-- A file of Linux of which the first record has a type that is documented, 0 to 9, is read as such, with all its
records. -/
theorem C187_utmp_partial (es : List Utmp.Entry) (h : ∀ e ∈ es, e.Ok)
    (ht : ∀ e, es.head? = some e → 0 ≤ e.type ∧ e.type ≤ 9) (fuel : Nat) :
    logins (es.flatMap (·.bytes)) (es.length + fuel + 1) = .second (some (.ok es)) := by
  have hne : (es.flatMap (·.bytes)).take 11 ≠ utmpxSignature := by
    cases es with
    | nil => simp [utmpxSignature]
    | cons e es =>
      intro he
      obtain ⟨h0, h9⟩ := ht e rfl
      have h4 := congrArg (List.take 4) he
      rw [List.take_take, show min 4 11 = 4 from rfl] at h4
      have hb : ((e :: es).flatMap (·.bytes)).take 4 = leBytes 4 (unsigned 4 e.type) := by
        simp only [List.flatMap_cons, Utmp.Entry.bytes, List.flatten_cons, List.append_assoc]
        rw [List.take_append_of_le_length (by simp)]
        exact List.take_of_length_le (by simp)
      rw [hb] at h4
      have hn := congrArg leNat h4
      rw [leNat_leBytes, Nat.mod_eq_of_lt (unsigned_lt 4 _)] at hn
      have hv : leNat (utmpxSignature.take 4) = 0x706d7475 := by decide +kernel
      rw [hv] at hn
      have hu : unsigned 4 e.type = e.type.toNat := by
        unfold unsigned
        omega
      omega
  rw [logins, if_neg hne, Utmp.C99_entries es h fuel]

/-- A record of the type 0x706d7475, which is not documented, whose first bytes are the signature. -/
def lookalike : Utmp.Entry :=
  ⟨0x706d7475, 0x2e312d78, [0x30, 0x30] ++ List.replicate 30 0, 0, List.replicate 32 0, List.replicate 256 0, 0, 0, 0, 0, 0,
    List.replicate 16 0, List.replicate 20 0⟩

theorem lookalike_ok : lookalike.Ok := by
  refine ⟨?_, by decide, rfl, by decide, List.length_replicate .., List.length_replicate .., ?_, ?_, ?_, ?_, ?_,
    List.length_replicate .., List.length_replicate ..⟩ <;> simp only [Utmp.Fits, lookalike] <;> omega

theorem C187_utmp_claim_false : ¬ C187_utmp_claim := by
  intro h
  obtain ⟨fuel, hf⟩ := h [lookalike] (by simpa using lookalike_ok)
  rw [logins, if_pos (by decide +kernel)] at hf
  cases hf

/-! ## Unified logging -/

/-- A shared-cache strings file, a uuidtext file, a timesync database with at least one record and a trace file, which starts
with a chunk of tag 0x1000, are each given to their reader. -/
theorem C187_unified :
    (∀ version ranges uuids rest, unified (Unified.dscFile version ranges uuids rest) = .dsc) ∧
    (∀ entries footer, unified (Unified.uuidtextFile entries footer) = .uuidtext) ∧
    (∀ (r : Unified.StoredRecord) records, r.Ok → unified (r.bytes ++ records) = .timesync) ∧
    (∀ rest, unified (leBytes 4 0x1000 ++ rest) = .trace) := by
  refine ⟨fun _ _ _ _ => ?_, fun _ _ => ?_, fun r records hr => ?_, fun rest => ?_⟩
  · unfold unified Unified.dscFile
    simp
  · unfold unified Unified.uuidtextFile
    simp
  · obtain ⟨r, u, v⟩ := r
    obtain ⟨h1, _, _⟩ := hr
    cases r with
    | boot b =>
      have hs : b.recordSize = 48 := h1.1
      have : ((Unified.StoredRecord.bytes ⟨.boot b, u, v⟩) ++ records).take 4 = [0xb0, 0xbb, 0x30, 0x00] := by
        simp [Unified.StoredRecord.bytes, Unified.TimeRecord.bytes, hs, leBytes]
      unfold unified
      rw [this]
      decide
    | sync b =>
      have hs : b.recordSize = 32 := h1.1
      have : ((Unified.StoredRecord.bytes ⟨.sync b, u, v⟩) ++ records).take 4 = [0x54, 0x73, 0x20, 0x00] := by
        simp [Unified.StoredRecord.bytes, Unified.TimeRecord.bytes, hs, leBytes]
      unfold unified
      rw [this]
      decide
  · have : (leBytes 4 0x1000 ++ rest).take 4 = [0x00, 0x10, 0x00, 0x00] := by
      simp [leBytes]
    unfold unified
    rw [this]
    decide

/-! ## Firefox cache files -/

theorem lastSegment_join (dir name : List Char) (h : '/' ∉ name) : lastSegment (dir ++ '/' :: name) = name := by
  unfold lastSegment
  rw [List.reverse_append, List.reverse_cons, List.append_assoc, List.takeWhile_append_of_pos]
  · simp
  · intro c hc
    simp only [List.mem_reverse] at hc
    simp only [ne_eq, decide_not, Bool.not_eq_eq_eq_not, Bool.not_true, decide_eq_false_iff_not]
    rintro rfl
    exact h hc

theorem lastSegment_name (name : List Char) (h : '/' ∉ name) : lastSegment name = name := by
  unfold lastSegment
  have := List.takeWhile_append_of_pos (p := fun c : Char => decide (c ≠ '/')) (l₁ := name.reverse) (l₂ := []) ?_
  · rw [List.append_nil] at this
    rw [this]
    simp
  intro c hc
  simp only [List.mem_reverse] at hc
  simp only [ne_eq, decide_not, Bool.not_eq_eq_eq_not, Bool.not_true, decide_eq_false_iff_not]
  rintro rfl
  exact h hc

/-- The map file and the block files of a cache are given to their readers, in every directory; a file of another name is
refused. -/
theorem C187_firefox (dir : List Char) :
    firefox (dir ++ '/' :: "_CACHE_MAP_".toList) = some .map ∧
    (∀ n ∈ ['1', '2', '3'], firefox (dir ++ '/' :: ("_CACHE_00".toList ++ [n, '_'])) = some .block) ∧
    (∀ name, '/' ∉ name → name ≠ "_CACHE_MAP_".toList → ¬ "_CACHE_00".toList <+: name →
      firefox (dir ++ '/' :: name) = none) := by
  refine ⟨?_, ?_, ?_⟩
  · rw [firefox, lastSegment_join _ _ (by decide +kernel)]
    decide +kernel
  · intro n hn
    simp only [List.mem_cons, List.not_mem_nil, or_false] at hn
    rcases hn with rfl | rfl | rfl <;>
    · rw [firefox, lastSegment_join _ _ (by decide +kernel)]
      decide +kernel
  · intro name h1 h2 h3
    rw [firefox, lastSegment_join _ _ h1, if_neg h2, if_neg (by rw [List.isPrefixOf_iff_prefix]; exact h3)]

/-- A name without a directory is looked at in the same way. -/
theorem C187_firefox_relative (name : List Char) (h : '/' ∉ name) (dir : List Char) :
    firefox name = firefox (dir ++ '/' :: name) := by
  rw [firefox, firefox, lastSegment_join _ _ h, lastSegment_name _ h]

/-! ## Witnesses -/

example : (⟨List.replicate 32 0, List.replicate 64 0, [⟨14, [1, 2]⟩]⟩ : Emf).Ok := by
  refine ⟨by simp, by simp, ?_⟩
  simp [Wemf.Stored.EmfOk]

/-- A metafile with a placeable and a record. -/
example : (⟨Wemf.placeableKey ++ List.replicate 18 0, [leBytes 2 1, leBytes 2 9, List.replicate 14 0].flatten,
    [⟨0x521, [1, 2]⟩]⟩ : Wmf).Ok := by
  refine ⟨Or.inr ⟨_, rfl, by simp⟩, ⟨1, List.replicate 14 0, rfl, Or.inl rfl, by simp⟩, ?_⟩
  simp [Wemf.Stored.WmfOk]

example : (⟨utmpxSignature ++ List.replicate 245 0, 0, List.replicate 32 0, 0, 10, 0, 0, 0, List.replicate 256 0,
    List.replicate 64 0⟩ : Utmp.XEntry).Ok := by
  refine ⟨by decide +kernel, by decide, List.length_replicate .., by decide, ?_, ?_, ?_, ?_, List.length_replicate ..,
    List.length_replicate ..⟩ <;> simp only [Utmp.Fits] <;> omega

example : ({ lookalike with type := 7 } : Utmp.Entry).Ok := by
  obtain ⟨_, h⟩ := lookalike_ok
  exact ⟨by simp only [Utmp.Fits]; omega, h⟩

example : firefox "/tmp/Cache/_CACHE_002_".toList = some .block ∧ firefox "/tmp/_CACHE_MAP_/x".toList = none := by
  decide +kernel

end Dtf.Dispatch
