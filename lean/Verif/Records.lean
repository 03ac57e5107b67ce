import Verif.Holds
import Verif.ChangeLog
import Verif.Formats.Model

/-!
# Files with a sequence of records: utmp and Recycler INFO2; Recycle.Bin metadata and restore point logs
(C99 - C102)
-/

namespace Dtf.DataFormat
open Py

/-- When the structures have a fixed size and all were read, they are all that there is. -/
theorem readUntil_fixed_length {τ : Type} (n : Nat) (hn : 0 < n) (f : Bytes → Option τ) (data : Bytes) (fuel off : Nat)
    (acc out : List τ) (ho : off ≤ data.length)
    (h : readUntil ((fixedMap n id).refine f) data data.length fuel off acc = some (.ok out)) :
    ∃ xs, out = acc ++ xs ∧ data.length = off + n * xs.length := by
  induction fuel generalizing off acc with
  | zero => cases h
  | succ fuel ih =>
    rw [readUntil] at h
    split at h
    · split at h
      · cases h
      · rename_i x size hx
        obtain ⟨h1, _, h3⟩ := structAt_fixed_ok n f data off x size hn hx
        rw [h3, Int.toNat_natCast] at h
        obtain ⟨xs, e1, e2⟩ := ih (off + n) _ h1 h
        refine ⟨x :: xs, by rw [e1]; simp, ?_⟩
        rw [e2, List.length_cons, Nat.mul_succ]
        omega
    · cases h
      exact ⟨[], by simp, by simp; omega⟩

/-- The structures up to the end of the file are read, all of them and in order. -/
theorem readUntil_all {σ : Type} (m : DataTypeMap σ) (f : σ → Bytes) (l : List σ) (h : ∀ x ∈ l, Encodes m (f x) x)
    (hp : ∀ x ∈ l, f x ≠ []) (pre : Bytes) (fuel : Nat) :
    readUntil m (pre ++ l.flatMap f) (pre ++ l.flatMap f).length (l.length + fuel + 1) pre.length [] = some (.ok l) := by
  have := readUntil_encodes m (l.map (fun e => (f e, e)))
    (by intro i hi; obtain ⟨e, he, rfl⟩ := List.mem_map.mp hi; exact h e he)
    (by intro i hi; obtain ⟨e, he, rfl⟩ := List.mem_map.mp hi; exact hp e he) pre [] fuel []
  rw [List.flatMap_map, List.length_map, List.append_nil, List.nil_append, List.map_map] at this
  rw [this, show (Prod.snd ∘ fun e : σ => (f e, e)) = id from rfl, List.map_id]

/-- Reading such a structure fails with a parse error only. -/
def ParseErrors {σ : Type} (m : DataTypeMap σ) : Prop :=
  ∀ (data : Bytes) (off : Nat) (e : Err), structAt m data off = .error e → e = .parseError

theorem errors_sized {σ : Type} (hdr : Nat) (extra : Bytes → Nat) (parse : Bytes → σ) (hh : 0 < hdr) :
    ParseErrors (sizedMap hdr extra parse) := by
  intro data off e h
  rw [structAt_sized hdr extra parse data off hh] at h
  split at h
  · cases h; rfl
  · split at h
    · cases h; rfl
    · cases h

theorem errors_fixed {σ : Type} (size : Nat) (parse : Bytes → σ) (hh : 0 < size) : ParseErrors (fixedMap size parse) :=
  errors_sized size _ parse hh

theorem errors_refine {σ τ : Type} (m : DataTypeMap σ) (f : σ → Option τ) (h : ParseErrors m) : ParseErrors (m.refine f) := by
  intro data off e hx
  rw [structAt_refine] at hx
  split at hx
  · rename_i e' he
    cases hx
    exact h data off _ he
  · split at hx
    · cases hx
    · cases hx; rfl

theorem readUntil_error {σ : Type} (m : DataTypeMap σ) (hm : ParseErrors m) (data : Bytes) (stop fuel off : Nat)
    (acc : List σ) (e : Err) (h : readUntil m data stop fuel off acc = some (.error e)) : e = .parseError := by
  induction fuel generalizing off acc with
  | zero => cases h
  | succ fuel ih =>
    rw [readUntil] at h
    split at h
    · split at h
      · rename_i e' he
        cases h
        exact hm data off _ he
      · exact ih _ _ h
    · cases h

/-- Any larger fuel is enough, too. -/
theorem readUntil_enough {σ : Type} (m : DataTypeMap σ) (hm : PositiveSizes m) (data : Bytes) (stop fuel off : Nat)
    (acc : List σ) (h : stop - off < fuel) : readUntil m data stop fuel off acc ≠ none := by
  have key : ∀ k, readUntil m data stop (stop - off + 1 + k) off acc ≠ none := by
    intro k
    induction k with
    | zero => exact readUntil_terminates m hm data stop off acc
    | succ k ih =>
      obtain ⟨r, hr⟩ := Option.ne_none_iff_exists'.mp ih
      rw [← Nat.add_assoc, readUntil_mono m data stop _ off acc r hr]
      exact nofun
  rw [show fuel = stop - off + 1 + (fuel - (stop - off + 1)) by omega]
  exact key _

end Dtf.DataFormat

/-! # utmp and utmpx files (C99) -/

namespace Dtf.Utmp
open Py DataFormat

/-! ## Model -/

/-- `linux_libc6_utmp_entry` (utmp.yaml 36-76). -/
structure Entry where
  type : Int
  pid : Nat
  terminal : Bytes
  terminalId : Nat
  username : Bytes
  hostname : Bytes
  termination : Int
  exit : Int
  session : Int
  timestamp : Int
  microseconds : Int
  address : Bytes
  unknown : Bytes
deriving DecidableEq, Repr

def parseEntry (b : Bytes) : Entry :=
  ⟨signed 4 (leNat (slice b 0 4)), leNat (slice b 4 8), slice b 8 40, leNat (slice b 40 44), slice b 44 76,
    slice b 76 332, signed 2 (leNat (slice b 332 334)), signed 2 (leNat (slice b 334 336)),
    signed 4 (leNat (slice b 336 340)), signed 4 (leNat (slice b 340 344)), signed 4 (leNat (slice b 344 348)),
    slice b 348 364, slice b 364 384⟩

def entryMap : DataTypeMap Entry := (fixedMap 384 id).refine (fun b => some (parseEntry b))

/-- `LinuxLibc6UtmpFile._ReadEntries` (utmp.py 94-111). -/
def readFile (data : Bytes) (fuel : Nat) : Option (Res (List Entry)) := readUntil entryMap data data.length fuel 0 []

/-- `macosx_utmpx_entry` (utmp.yaml 78-110). -/
structure XEntry where
  username : Bytes
  terminalId : Nat
  terminal : Bytes
  pid : Nat
  type : Int
  unknown1 : Int
  timestamp : Int
  microseconds : Int
  hostname : Bytes
  unknown2 : Bytes
deriving DecidableEq, Repr

def parseXEntry (b : Bytes) : XEntry :=
  ⟨slice b 0 256, leNat (slice b 256 260), slice b 260 292, leNat (slice b 292 296), signed 2 (leNat (slice b 296 298)),
    signed 2 (leNat (slice b 298 300)), signed 4 (leNat (slice b 300 304)), signed 4 (leNat (slice b 304 308)),
    slice b 308 564, slice b 564 628⟩

def xentryMap : DataTypeMap XEntry := (fixedMap 628 id).refine (fun b => some (parseXEntry b))

/-- `utmpx-1.00` and a zero byte. -/
def signature : Bytes := [117, 116, 109, 112, 120, 45, 49, 46, 48, 48, 0]

/-- `MacOSXUtmpxFile._ReadEntries` (utmp.py 198-233): the first entry and the others. -/
def readXFile (data : Bytes) (fuel : Nat) : Option (Res (XEntry × List XEntry)) :=
  match structAt xentryMap data 0 with
  | .error e => some (.error e)
  | .ok (first, size) =>
    if ¬ signature.isPrefixOf first.username then some (.error .parseError)
    else if first.type ≠ 10 then some (.error .parseError)
    else
      match readUntil xentryMap data data.length fuel size.toNat [] with
      | none => none
      | some (.error e) => some (.error e)
      | some (.ok es) => some (.ok (first, es))

/-- How a string is shown: the zero bytes are removed (utmp.py 42-54 and 152-177).  The bytes before they are decoded
as UTF-8. -/
def shownString (b : Bytes) : Bytes := b.filter (· ≠ 0)

/-- The text of the value of which the address is shown (utmp.py 66-73): the formatters return a tuple with the text and
`False` (data_format.py 257-293), the text of which `_DebugPrintValue` writes (data_format.py 149-158, 551-563). -/
def tupleText (s : Option (List Char)) : List Char :=
  match s with
  | none => "(None, False)".toList
  | some s => "('".toList ++ s ++ "', False)".toList

def shownAddress (address : Bytes) : List Char :=
  if address.drop 4 = List.replicate 12 0 then tupleText (Formats.ipv4 (address.take 4))
  else tupleText (Formats.ipv6 address)

/-! ## The specification -/

def Entry.bytes (e : Entry) : Bytes :=
  [leBytes 4 (unsigned 4 e.type), leBytes 4 e.pid, e.terminal, leBytes 4 e.terminalId, e.username, e.hostname,
    leBytes 2 (unsigned 2 e.termination), leBytes 2 (unsigned 2 e.exit), leBytes 4 (unsigned 4 e.session),
    leBytes 4 (unsigned 4 e.timestamp), leBytes 4 (unsigned 4 e.microseconds), e.address, e.unknown].flatten

/-- The value of a signed integer of `w` bytes. -/
def Fits (w : Nat) (v : Int) : Prop := -(256 ^ w : Nat) ≤ 2 * v ∧ 2 * v < (256 ^ w : Nat)

def Entry.Ok (e : Entry) : Prop :=
  Fits 4 e.type ∧ e.pid < 2 ^ 32 ∧ e.terminal.length = 32 ∧ e.terminalId < 2 ^ 32 ∧ e.username.length = 32 ∧
    e.hostname.length = 256 ∧ Fits 2 e.termination ∧ Fits 2 e.exit ∧ Fits 4 e.session ∧ Fits 4 e.timestamp ∧
    Fits 4 e.microseconds ∧ e.address.length = 16 ∧ e.unknown.length = 20

def XEntry.bytes (e : XEntry) : Bytes :=
  [e.username, leBytes 4 e.terminalId, e.terminal, leBytes 4 e.pid, leBytes 2 (unsigned 2 e.type),
    leBytes 2 (unsigned 2 e.unknown1), leBytes 4 (unsigned 4 e.timestamp), leBytes 4 (unsigned 4 e.microseconds),
    e.hostname, e.unknown2].flatten

def XEntry.Ok (e : XEntry) : Prop :=
  e.username.length = 256 ∧ e.terminalId < 2 ^ 32 ∧ e.terminal.length = 32 ∧ e.pid < 2 ^ 32 ∧ Fits 2 e.type ∧
    Fits 2 e.unknown1 ∧ Fits 4 e.timestamp ∧ Fits 4 e.microseconds ∧ e.hostname.length = 256 ∧ e.unknown2.length = 64

/-- A string of a fixed size is shown up to its terminator, as the functions of the C library that wrote it have it. -/
def C99_string_claim : Prop := ∀ (s rest : Bytes), 0 ∉ s → shownString (s ++ 0 :: rest) = s

/-- An IPv4 address is shown as such. -/
def C99_address_claim : Prop := ∀ a b c d : UInt8,
  shownAddress (a :: b :: c :: d :: List.replicate 12 0) =
    Text.join ['.'] ([a, b, c, d].map (fun x => Text.digits 10 x.toNat))

/-! ## Proofs -/

theorem signed_field (B : Bytes) (lo hi w : Nat) (v : Int) (h : Fits w v)
    (e : leNat (slice B lo hi) = unsigned w v) : signed w (leNat (slice B lo hi)) = v := by
  rw [e, signed_unsigned w v h.1 h.2]

theorem entry_encodes (e : Entry) (h : e.Ok) : Encodes entryMap e.bytes e := by
  obtain ⟨h0, h1, h2, h3, h4, h5, h6, h7, h8, h9, h10, h11, h12⟩ := h
  have hl : e.bytes.length = 384 := by simp [Entry.bytes, h2, h4, h5, h11, h12]
  refine encodes_refine _ _ _ _ _ (encodes_fixed 384 id _ (by decide) hl) ?_
  unfold parseEntry id
  have hu4 (v : Int) : unsigned 4 v < 256 ^ 4 := unsigned_lt 4 v
  have hu2 (v : Int) : unsigned 2 v < 256 ^ 2 := unsigned_lt 2 v
  generalize hB : e.bytes = B
  unfold Entry.bytes at hB
  have f0 := signed_field B 0 4 4 _ h0 (hB ▸ leField [] 4 _ _ 0 4 rfl rfl (hu4 e.type))
  have f1 : leNat (slice B 4 8) = e.pid := hB ▸ leField [_] 4 _ _ 4 8 (by simp) rfl (by omega)
  have f2 : slice B 8 40 = e.terminal := hB ▸ slice_fields [_, _] _ _ 8 40 (by simp) (by simp [h2])
  have f3 : leNat (slice B 40 44) = e.terminalId := hB ▸ leField [_, _, _] 4 _ _ 40 44 (by simp [h2]) rfl (by omega)
  have f4 : slice B 44 76 = e.username := hB ▸ slice_fields [_, _, _, _] _ _ 44 76 (by simp [h2]) (by simp [h4])
  have f5 : slice B 76 332 = e.hostname :=
    hB ▸ slice_fields [_, _, _, _, _] _ _ 76 332 (by simp [h2, h4]) (by simp [h5])
  have f6 := signed_field B 332 334 2 _ h6
    (hB ▸ leField [_, _, _, _, _, _] 2 _ _ 332 334 (by simp [h2, h4, h5]) rfl (hu2 e.termination))
  have f7 := signed_field B 334 336 2 _ h7
    (hB ▸ leField [_, _, _, _, _, _, _] 2 _ _ 334 336 (by simp [h2, h4, h5]) rfl (hu2 e.exit))
  have f8 := signed_field B 336 340 4 _ h8
    (hB ▸ leField [_, _, _, _, _, _, _, _] 4 _ _ 336 340 (by simp [h2, h4, h5]) rfl (hu4 e.session))
  have f9 := signed_field B 340 344 4 _ h9
    (hB ▸ leField [_, _, _, _, _, _, _, _, _] 4 _ _ 340 344 (by simp [h2, h4, h5]) rfl (hu4 e.timestamp))
  have f10 := signed_field B 344 348 4 _ h10
    (hB ▸ leField [_, _, _, _, _, _, _, _, _, _] 4 _ _ 344 348 (by simp [h2, h4, h5]) rfl (hu4 e.microseconds))
  have f11 : slice B 348 364 = e.address :=
    hB ▸ slice_fields [_, _, _, _, _, _, _, _, _, _, _] _ _ 348 364 (by simp [h2, h4, h5]) (by simp [h11])
  have f12 : slice B 364 384 = e.unknown :=
    hB ▸ slice_fields [_, _, _, _, _, _, _, _, _, _, _, _] _ _ 364 384 (by simp [h2, h4, h5, h11]) (by simp [h12])
  rw [f0, f1, f2, f3, f4, f5, f6, f7, f8, f9, f10, f11, f12]

theorem xentry_encodes (e : XEntry) (h : e.Ok) : Encodes xentryMap e.bytes e := by
  obtain ⟨h0, h1, h2, h3, h4, h5, h6, h7, h8, h9⟩ := h
  have hl : e.bytes.length = 628 := by simp [XEntry.bytes, h0, h2, h8, h9]
  refine encodes_refine _ _ _ _ _ (encodes_fixed 628 id _ (by decide) hl) ?_
  unfold parseXEntry id
  have hu4 (v : Int) : unsigned 4 v < 256 ^ 4 := unsigned_lt 4 v
  have hu2 (v : Int) : unsigned 2 v < 256 ^ 2 := unsigned_lt 2 v
  generalize hB : e.bytes = B
  unfold XEntry.bytes at hB
  have f0 : slice B 0 256 = e.username := hB ▸ slice_fields [] _ _ 0 256 rfl (by simp [h0])
  have f1 : leNat (slice B 256 260) = e.terminalId := hB ▸ leField [_] 4 _ _ 256 260 (by simp [h0]) rfl (by omega)
  have f2 : slice B 260 292 = e.terminal := hB ▸ slice_fields [_, _] _ _ 260 292 (by simp [h0]) (by simp [h2])
  have f3 : leNat (slice B 292 296) = e.pid := hB ▸ leField [_, _, _] 4 _ _ 292 296 (by simp [h0, h2]) rfl (by omega)
  have f4 := signed_field B 296 298 2 _ h4
    (hB ▸ leField [_, _, _, _] 2 _ _ 296 298 (by simp [h0, h2]) rfl (hu2 e.type))
  have f5 := signed_field B 298 300 2 _ h5
    (hB ▸ leField [_, _, _, _, _] 2 _ _ 298 300 (by simp [h0, h2]) rfl (hu2 e.unknown1))
  have f6 := signed_field B 300 304 4 _ h6
    (hB ▸ leField [_, _, _, _, _, _] 4 _ _ 300 304 (by simp [h0, h2]) rfl (hu4 e.timestamp))
  have f7 := signed_field B 304 308 4 _ h7
    (hB ▸ leField [_, _, _, _, _, _, _] 4 _ _ 304 308 (by simp [h0, h2]) rfl (hu4 e.microseconds))
  have f8 : slice B 308 564 = e.hostname :=
    hB ▸ slice_fields [_, _, _, _, _, _, _, _] _ _ 308 564 (by simp [h0, h2]) (by simp [h8])
  have f9 : slice B 564 628 = e.unknown2 :=
    hB ▸ slice_fields [_, _, _, _, _, _, _, _, _] _ _ 564 628 (by simp [h0, h2, h8]) (by simp [h9])
  rw [f0, f1, f2, f3, f4, f5, f6, f7, f8, f9]

theorem Entry.bytes_ne (e : Entry) : e.bytes ≠ [] := by
  intro h
  have := congrArg List.length h
  simp [Entry.bytes] at this

theorem XEntry.bytes_ne (e : XEntry) : e.bytes ≠ [] := by
  intro h
  have := congrArg List.length h
  simp [XEntry.bytes] at this

/-- All entries are read, in order and with their values. -/
theorem C99_entries (es : List Entry) (h : ∀ e ∈ es, e.Ok) (fuel : Nat) :
    readFile (es.flatMap (·.bytes)) (es.length + fuel + 1) = some (.ok es) := by
  have := readUntil_all entryMap (·.bytes) es (fun e he => entry_encodes e (h e he)) (fun e _ => e.bytes_ne) [] fuel
  rwa [List.nil_append] at this

/-- Reading ends for all files. -/
theorem C99_terminates (data : Bytes) : readFile data (data.length + 1) ≠ none :=
  readUntil_terminates entryMap (positive_refine _ _ (positive_fixed 384 id (by decide))) data data.length 0 []

/-- Nothing is left out: what is read are entries of 384 bytes up to the end, an entry that is not complete is an
error. -/
theorem C99_complete (data : Bytes) (fuel : Nat) (es : List Entry) (h : readFile data fuel = some (.ok es)) :
    data.length = 384 * es.length := by
  obtain ⟨xs, e1, e2⟩ := readUntil_fixed_length 384 (by decide) _ data fuel 0 [] es (Nat.zero_le _) h
  simp only [List.nil_append] at e1
  rw [e1, e2, Nat.zero_add]

/-- All entries of a utmpx file are read. -/
theorem C99_xentries (first : XEntry) (es : List XEntry) (hf : first.Ok) (h : ∀ e ∈ es, e.Ok)
    (hs : signature <+: first.username) (ht : first.type = 10) (fuel : Nat) :
    readXFile (first.bytes ++ es.flatMap (·.bytes)) (es.length + fuel + 1) = some (.ok (first, es)) := by
  have := readUntil_all xentryMap (·.bytes) es (fun e he => xentry_encodes e (h e he)) (fun e _ => e.bytes_ne)
    first.bytes fuel
  have h1 := xentry_encodes first hf [] (es.flatMap (·.bytes))
  unfold readXFile
  rw [show structAt xentryMap (first.bytes ++ es.flatMap (·.bytes)) 0 = .ok (first, (first.bytes.length : Int)) from h1]
  dsimp only
  rw [if_neg (by rw [List.isPrefixOf_iff_prefix]; exact fun h => h hs), if_neg (by simp [ht]), Int.toNat_natCast, this]

/-- A utmpx file that is accepted begins with the signature, and nothing of it is left out. -/
theorem C99_xcomplete (data : Bytes) (fuel : Nat) (first : XEntry) (es : List XEntry)
    (h : readXFile data fuel = some (.ok (first, es))) :
    signature <+: data ∧ first.type = 10 ∧ data.length = 628 * (es.length + 1) := by
  unfold readXFile at h
  split at h
  · cases h
  · rename_i x size hx
    obtain ⟨h1, h2, h3⟩ := structAt_fixed_ok 628 _ data 0 x size (by decide) hx
    split at h
    · cases h
    · rename_i hp
      split at h
      · cases h
      · rename_i ht
        rw [h3, Int.toNat_natCast] at h
        split at h
        · cases h
        · cases h
        · rename_i xs hxs
          cases h
          obtain ⟨ys, e1, e2⟩ := readUntil_fixed_length 628 (by decide) _ data fuel 628 [] es (by omega) hxs
          simp only [List.nil_append] at e1
          rw [e1]
          refine ⟨?_, by omega, by omega⟩
          rw [Classical.not_not, List.isPrefixOf_iff_prefix] at hp
          simp only [Option.some.injEq] at h2
          rw [← h2] at hp
          refine hp.trans ?_
          unfold parseXEntry
          dsimp only
          rw [slice_eq_take_drop, slice_eq_take_drop]
          simp only [List.drop_zero]
          exact (List.take_prefix _ _).trans (List.take_prefix _ _)

/-- A string that is filled with zero bytes is shown. -/
theorem C99_string_partial (s : Bytes) (n : Nat) (hs : 0 ∉ s) : shownString (s ++ List.replicate n 0) = s := by
  unfold shownString
  rw [List.filter_append, List.filter_eq_self.mpr, List.filter_eq_nil_iff.mpr, List.append_nil]
  · intro x hx; rw [List.eq_of_mem_replicate hx]; simp
  · intro x hx; simp only [ne_eq, decide_not, Bool.not_eq_eq_eq_not, Bool.not_true, decide_eq_false_iff_not]
    rintro rfl; exact hs hx

/-- What is after the terminator, such as the rest of a longer name that was there before, is shown as well. -/
theorem C99_string_claim_false : ¬ C99_string_claim := by
  intro h
  have := h [98, 111, 98] [105, 99, 101, 0] (by decide)
  revert this
  decide

/-- The address is shown within the text of a tuple. -/
theorem C99_address_claim_false : ¬ C99_address_claim := by
  intro h
  have := h 10 0 0 1
  revert this
  decide +kernel

/-- The text of the tuple has the address. -/
theorem C99_address_partial (a b c d : UInt8) :
    shownAddress (a :: b :: c :: d :: List.replicate 12 0) = ['(', '\''] ++
      Text.join ['.'] ([a, b, c, d].map (fun x => Text.digits 10 x.toNat)) ++ "', False)".toList := by
  unfold shownAddress
  rw [if_pos (show List.drop 4 (a :: b :: c :: d :: List.replicate 12 0) = List.replicate 12 0 from rfl)]
  rfl

def sample (type : Int) : Entry :=
  ⟨type, 1000, 116 :: List.replicate 31 0, 7, 98 :: List.replicate 31 0, List.replicate 256 0, 0, -1, 5, -6, 7,
    10 :: List.replicate 15 0, List.replicate 20 0⟩

theorem sample_ok : (sample 7).Ok := by
  refine ⟨⟨by decide, by decide⟩, by decide, by decide +kernel, by decide, by decide +kernel, by decide +kernel, ⟨by decide, by decide⟩,
    ⟨by decide, by decide⟩, ⟨by decide, by decide⟩, ⟨by decide, by decide⟩, ⟨by decide, by decide⟩, by decide +kernel, by decide +kernel⟩

example : readFile ([sample 7, sample 7].flatMap (·.bytes)) 3 = some (.ok [sample 7, sample 7]) :=
  C99_entries [sample 7, sample 7] (by simp [sample_ok]) 0

def sampleX : XEntry :=
  ⟨signature ++ List.replicate 245 0, 0, List.replicate 32 0, 0, 10, 0, 0, 0, List.replicate 256 0, List.replicate 64 0⟩

example : readXFile (sampleX.bytes ++ [sampleX].flatMap (·.bytes)) 2 = some (.ok (sampleX, [sampleX])) := by
  have ok : sampleX.Ok := ⟨by decide +kernel, by decide, by decide +kernel, by decide, ⟨by decide, by decide⟩, ⟨by decide, by decide⟩,
    ⟨by decide, by decide⟩, ⟨by decide, by decide⟩, by decide +kernel, by decide +kernel⟩
  exact C99_xentries sampleX [sampleX] ok (by simp [ok]) (List.prefix_append _ _) rfl 0

end Dtf.Utmp

/-! # Recycler INFO2 files (C100) -/

namespace Dtf.Recycler
open Py DataFormat ChangeLog

/-! ## Model -/

/-- `recycler_info2_file_entry` (recycler.yaml 52-70) and the UTF-16 name after it (recycler.yaml 72-78), without its
terminator.  The name in the codepage is kept as the 260 bytes. -/
structure Entry where
  ansiName : Bytes
  index : Nat
  drive : Nat
  deletion : Nat
  size : Nat
  name : Option Bytes
deriving DecidableEq, Repr

/-- `_ReadFileEntry` (recycler.py 52-103), on the data of the entry.  Decoding UTF-16 is not modelled. -/
def parseEntry (n : Nat) (b : Bytes) : Option Entry :=
  let e (name : Option Bytes) : Entry :=
    ⟨slice b 0 260, leNat (slice b 260 264), leNat (slice b 264 268), leNat (slice b 268 276), leNat (slice b 276 280), name⟩
  if n > 280 then (utf16z (slice b 280 800)).map (fun name => e (some name)) else some (e none)

/-- `_ReadFileHeader` (recycler.py 105-128) with `recycler_info2_file_header` (recycler.yaml 35-50): the size of the
entries. -/
def parseHeader (b : Bytes) : Option Nat :=
  let n := leNat (slice b 12 16)
  if n = 280 ∨ n = 800 then some n else none

def headerMap : DataTypeMap Nat := (fixedMap 20 id).refine parseHeader

/-- One round of the loop of `ReadFileObject` (recycler.py 143-146). -/
def entryStep (n : Nat) (data : Bytes) (off : Nat) : Res (Entry × Nat) :=
  match dataAt data off n with
  | .error e => .error e
  | .ok b =>
    match parseEntry n b with
    | none => .error .parseError
    | some e => .ok (e, off + n)

/-- `ReadFileObject` (recycler.py 130-146). -/
def readFile (data : Bytes) (fuel : Nat) : Option (Res (List Entry)) :=
  match structAt headerMap data 0 with
  | .error e => some (.error e)
  | .ok (n, _) => walk (entryStep n data) data.length fuel 20 []

/-! ## The specification -/

def headerBytes (unknown1 count unknown2 n unknown3 : Nat) : Bytes :=
  [leBytes 4 unknown1, leBytes 4 count, leBytes 4 unknown2, leBytes 4 n, leBytes 4 unknown3].flatten

def Entry.bytes (e : Entry) : Bytes :=
  [e.ansiName, leBytes 4 e.index, leBytes 4 e.drive, leBytes 8 e.deletion, leBytes 4 e.size].flatten

/-- The name with its terminator, and whatever fills the rest. -/
def nameBytes (name : Option Bytes) (fill : Bytes) : Bytes :=
  match name with
  | none => []
  | some s => s ++ [0, 0] ++ fill

/-- An entry and what fills the rest of its name, for entries of `n` bytes. -/
def Stored (n : Nat) (e : Entry) (fill : Bytes) : Prop :=
  e.ansiName.length = 260 ∧ e.index < 2 ^ 32 ∧ e.drive < 2 ^ 32 ∧ e.deletion < 2 ^ 64 ∧ e.size < 2 ^ 32 ∧
    (n = 280 ∧ e.name = none ∨ n = 800 ∧ ∃ s, e.name = some s ∧ Utf16 s ∧ s.length + 2 + fill.length = 520)

/-! ## Proofs -/

theorem parseEntry_bytes (n : Nat) (e : Entry) (fill : Bytes) (h : Stored n e fill) :
    (e.bytes ++ nameBytes e.name fill).length = n ∧ parseEntry n (e.bytes ++ nameBytes e.name fill) = some e := by
  obtain ⟨h0, h1, h2, h3, h4, h5⟩ := h
  have hl : e.bytes.length = 280 := by simp [Entry.bytes, h0]
  have hs (i j : Nat) (hj : j ≤ 280) : slice (e.bytes ++ nameBytes e.name fill) i j = slice e.bytes i j := by
    rw [slice_eq_take_drop, slice_eq_take_drop]
    by_cases hi : i ≤ e.bytes.length
    · rw [List.drop_append_of_le_length hi, List.take_append_of_le_length (by rw [List.length_drop]; omega)]
    · rw [show j - i = 0 by omega]; simp
  unfold parseEntry
  dsimp only
  rw [hs 0 260 (by decide), hs 260 264 (by decide), hs 264 268 (by decide), hs 268 276 (by decide), hs 276 280 (by decide)]
  have f0 : slice e.bytes 0 260 = e.ansiName := slice_fields [] _ _ 0 260 rfl (by simp [h0])
  have f1 : leNat (slice e.bytes 260 264) = e.index := leField [_] 4 _ _ 260 264 (by simp [h0]) rfl (by omega)
  have f2 : leNat (slice e.bytes 264 268) = e.drive := leField [_, _] 4 _ _ 264 268 (by simp [h0]) rfl (by omega)
  have f3 : leNat (slice e.bytes 268 276) = e.deletion := leField [_, _, _] 8 _ _ 268 276 (by simp [h0]) rfl (by omega)
  have f4 : leNat (slice e.bytes 276 280) = e.size := leField [_, _, _, _] 4 _ _ 276 280 (by simp [h0]) rfl (by omega)
  rw [f0, f1, f2, f3, f4]
  rcases h5 with ⟨rfl, h5⟩ | ⟨rfl, s, h5, h6, h7⟩
  · rw [h5]
    refine ⟨by simp [nameBytes, hl], ?_⟩
    rw [if_neg (by decide), ← h5]
  · rw [h5]
    have hn : (nameBytes (some s) fill).length = 520 := by simp [nameBytes]; omega
    refine ⟨by rw [List.length_append, hl, hn], ?_⟩
    rw [if_pos (by decide), slice_eq_take_drop, List.drop_left' hl, List.take_of_length_le (by omega), nameBytes,
      utf16z_append s fill h6]
    cases e
    simp only [Option.map_some] at h5 ⊢
    rw [h5]

theorem entryStep_bytes (n : Nat) (e : Entry) (fill : Bytes) (h : Stored n e fill) (pre post : Bytes) :
    entryStep n (pre ++ (e.bytes ++ nameBytes e.name fill) ++ post) pre.length =
      .ok (e, (pre ++ (e.bytes ++ nameBytes e.name fill)).length) := by
  obtain ⟨h1, h2⟩ := parseEntry_bytes n e fill h
  unfold entryStep
  have := dataAt_append pre (e.bytes ++ nameBytes e.name fill) post
  rw [h1] at this
  rw [this]
  dsimp only
  rw [h2, List.length_append, h1]

theorem walk_entries (n : Nat) (items : List (Entry × Bytes)) (h : ∀ i ∈ items, Stored n i.1 i.2) (pre : Bytes)
    (fuel : Nat) (acc : List Entry) :
    walk (entryStep n (pre ++ items.flatMap (fun i => i.1.bytes ++ nameBytes i.1.name i.2)))
      (pre ++ items.flatMap (fun i => i.1.bytes ++ nameBytes i.1.name i.2)).length (items.length + fuel + 1) pre.length acc =
      some (.ok (acc ++ items.map (·.1))) := by
  induction items generalizing pre acc with
  | nil => simp [walk]
  | cons i items ih =>
    have hi := h i (by simp)
    have e : pre ++ (i :: items).flatMap (fun i => i.1.bytes ++ nameBytes i.1.name i.2) =
        pre ++ (i.1.bytes ++ nameBytes i.1.name i.2) ++ items.flatMap (fun i => i.1.bytes ++ nameBytes i.1.name i.2) := by
      simp
    have hn := (parseEntry_bytes n i.1 i.2 hi).1
    have hn0 : 0 < n := by rcases hi with ⟨_, _, _, _, _, ⟨rfl, _⟩ | ⟨rfl, _⟩⟩ <;> decide
    rw [e, List.length_cons, show items.length + 1 + fuel + 1 = (items.length + fuel + 1) + 1 by omega, walk,
      if_pos (by simp only [List.length_append] at hn ⊢; omega), entryStep_bytes n i.1 i.2 hi]
    dsimp only
    rw [ih (fun j hj => h j (by simp [hj]))]
    simp

/-- All entries are read, in order and with their values, whatever the number in the header is. -/
theorem C100_entries (u1 count u2 u3 n : Nat) (hn : n = 280 ∨ n = 800) (items : List (Entry × Bytes))
    (h : ∀ i ∈ items, Stored n i.1 i.2) (fuel : Nat) :
    readFile (headerBytes u1 count u2 n u3 ++ items.flatMap (fun i => i.1.bytes ++ nameBytes i.1.name i.2))
      (items.length + fuel + 1) = some (.ok (items.map (·.1))) := by
  have hl : (headerBytes u1 count u2 n u3).length = 20 := by simp [headerBytes]
  have he : Encodes headerMap (headerBytes u1 count u2 n u3) n := by
    refine encodes_refine _ _ _ _ _ (encodes_fixed 20 id _ (by decide) hl) ?_
    unfold parseHeader
    have f : leNat (slice (headerBytes u1 count u2 n u3) 12 16) = n :=
      leField [_, _, _] 4 _ _ 12 16 (by simp) rfl (by rcases hn with rfl | rfl <;> decide)
    simp only [id, f]
    rw [if_pos hn]
  have h0 := he [] (items.flatMap (fun i => i.1.bytes ++ nameBytes i.1.name i.2))
  unfold readFile
  rw [show structAt headerMap (headerBytes u1 count u2 n u3 ++
    items.flatMap (fun i => i.1.bytes ++ nameBytes i.1.name i.2)) 0 = .ok (n, _) from h0]
  dsimp only
  have := walk_entries n items h (headerBytes u1 count u2 n u3) fuel []
  rwa [hl] at this

/-- A file that is accepted has entries of the size in the header up to its end. -/
theorem C100_complete (data : Bytes) (fuel : Nat) (es : List Entry) (h : readFile data fuel = some (.ok es)) :
    data.length = 20 + leNat (slice data 12 16) * es.length ∧
      (leNat (slice data 12 16) = 280 ∨ leNat (slice data 12 16) = 800) := by
  unfold readFile at h
  split at h
  · cases h
  · rename_i n k hx
    obtain ⟨h1, h2, _⟩ := structAt_fixed_ok 20 _ data 0 n k (by decide) hx
    have hn : n = leNat (slice data 12 16) ∧ (n = 280 ∨ n = 800) := by
      unfold parseHeader at h2
      dsimp only at h2
      rw [Nat.zero_add, slice_slice data 0 20 12 16 (by decide), Nat.zero_add, Nat.zero_add] at h2
      split at h2
      · rename_i hc
        cases h2
        exact ⟨rfl, hc⟩
      · cases h2
    rw [← hn.1]
    refine ⟨?_, hn.2⟩
    have key : ∀ fuel off acc, off ≤ data.length → walk (entryStep n data) data.length fuel off acc = some (.ok es) →
        data.length + n * acc.length = off + n * es.length := by
      intro fuel
      induction fuel with
      | zero => intro off acc _ h; cases h
      | succ fuel ih =>
        intro off acc ho h
        rw [walk] at h
        split at h
        · unfold entryStep at h
          split at h
          · cases h
          · rename_i x m hm
            split at hm
            · cases hm
            · rename_i b hb
              split at hm
              · cases hm
              · cases hm
                have hoff : off + n ≤ data.length := by
                  refine Nat.le_of_not_lt (fun hlt => ?_)
                  rw [dataAt_short data off n hlt (by omega)] at hb
                  cases hb
                have := ih (off + n) _ hoff h
                rw [List.length_append, List.length_singleton, Nat.mul_succ] at this
                omega
        · cases h
          omega
    have := key fuel 20 [] h1 h
    simpa using this

/-- Reading ends for all files. -/
theorem C100_terminates (data : Bytes) : readFile data (data.length + 1) ≠ none := by
  unfold readFile
  split
  · simp
  · rename_i n k hx
    obtain ⟨h1, h2, _⟩ := structAt_fixed_ok 20 _ data 0 n k (by decide) hx
    have hn : 0 < n := by
      unfold parseHeader at h2
      dsimp only at h2
      split at h2
      · cases h2; omega
      · cases h2
    have key : ∀ fuel off acc, data.length - off < fuel → walk (entryStep n data) data.length fuel off acc ≠ none := by
      intro fuel
      induction fuel with
      | zero => intro off acc h; omega
      | succ fuel ih =>
        intro off acc h
        rw [walk]
        split
        · unfold entryStep
          split
          · simp
          · rename_i x m hm
            split at hm
            · cases hm
            · split at hm
              · cases hm
              · cases hm
                exact ih _ _ (by omega)
        · simp
    exact key _ _ _ (by omega)

def sampleEntry : Entry := ⟨67 :: List.replicate 259 0, 1, 2, 3, 4, some [67, 0, 58, 0]⟩

example : readFile (headerBytes 5 0 0 800 0 ++ ([(sampleEntry, List.replicate 514 7)] : List (Entry × Bytes)).flatMap
    (fun i => i.1.bytes ++ nameBytes i.1.name i.2)) 2 = some (.ok [sampleEntry]) :=
  C100_entries 5 0 0 0 800 (.inr rfl) [(sampleEntry, List.replicate 514 7)]
    (by
      intro i hi
      rw [List.mem_singleton] at hi
      subst hi
      exact ⟨by decide +kernel, by decide, by decide, by decide, by decide, .inr ⟨rfl, _, rfl,
        .cons _ _ _ (by decide) (.cons _ _ _ (by decide) .nil), by decide +kernel⟩⟩) 0

end Dtf.Recycler

/-! # Recycle.Bin metadata files (C101) -/

namespace Dtf.RecycleBin
open Py DataFormat ChangeLog

/-! ## Model -/

/-- The attributes that `ReadFileObject` sets (recycle_bin.py 110-127). -/
structure Metadata where
  version : Nat
  size : Nat
  deletion : Nat
  /-- The UTF-16 characters. -/
  name : List Nat
deriving DecidableEq, Repr

/-- `recycle_bin_metadata_file_header` (recycle_bin.yaml 28-39) with the check of recycle_bin.py 66-69. -/
def parseHeader (b : Bytes) : Option (Nat × Nat × Nat) :=
  let v := leNat (slice b 0 8)
  if v = 1 ∨ v = 2 then some (v, leNat (slice b 8 16), leNat (slice b 16 24)) else none

def headerMap : DataTypeMap (Nat × Nat × Nat) := (fixedMap 24 id).refine parseHeader

/-- `rstrip("\x00")` of the characters. -/
def rstrip0 (l : List Nat) : List Nat := (l.reverse.dropWhile (· = 0)).reverse

def units : Bytes → List Nat
  | a :: b :: l => leNat [a, b] :: units l
  | _ => []

/-- `recycle_bin_metadata_utf16le_string_with_size` (recycle_bin.yaml 48-60). -/
def sizedString : DataTypeMap Bytes := sizedMap 4 (fun b => 2 * leNat b) (fun b => b.drop 4)

/-- `_ReadOriginalFilename` (recycle_bin.py 73-108).  Decoding UTF-16 is not modelled. -/
def readName (data : Bytes) (version : Nat) : Res (List Nat) :=
  if version = 1 then
    match utf16z (data.drop 24) with
    | none => .error .parseError
    | some s => .ok (rstrip0 (units s))
  else
    match structAt sizedString data 24 with
    | .error _ => .error .parseError
    | .ok (b, _) => .ok (rstrip0 (units b))

/-- `ReadFileObject` (recycle_bin.py 110-127). -/
def readFile (data : Bytes) : Res Metadata :=
  match structAt headerMap data 0 with
  | .error e => .error e
  | .ok ((v, size, deletion), _) =>
    match readName data v with
    | .error e => .error e
    | .ok name => .ok ⟨v, size, deletion, name⟩

/-! ## The specification -/

/-- A name: characters that are not zero. -/
def Name (l : List Nat) : Prop := ∀ c ∈ l, 0 < c ∧ c < 2 ^ 16

def nameBytes (l : List Nat) : Bytes := l.flatMap (leBytes 2)

/-- Format 1: the name with its terminator in a field of fixed size; format 2: the number of characters, of which
the last is the terminator, and the characters. -/
def fileBytes (m : Metadata) (fill : Bytes) : Bytes :=
  [leBytes 8 m.version, leBytes 8 m.size, leBytes 8 m.deletion].flatten ++
    (if m.version = 1 then nameBytes m.name ++ [0, 0] ++ fill
    else leBytes 4 (m.name.length + 1) ++ nameBytes m.name ++ [0, 0] ++ fill)

/-! ## Proofs -/

theorem nameBytes_utf16 (l : List Nat) (h : Name l) : Utf16 (nameBytes l) := by
  induction l with
  | nil => exact .nil
  | cons c l ih =>
    have hc := h c (by simp)
    have : leBytes 2 c = [UInt8.ofNat c, UInt8.ofNat (c / 256)] := by
      rfl
    have hn : leNat (leBytes 2 c) = c := leNat_leBytes_of_lt 2 c (by omega)
    rw [nameBytes, List.flatMap_cons, this]
    refine .cons _ _ _ ?_ (ih (fun x hx => h x (by simp [hx])))
    rintro ⟨h1, h2⟩
    rw [this, h1, h2] at hn
    have : leNat [0, 0] = 0 := by decide
    omega

theorem units_nameBytes (l : List Nat) (h : ∀ c ∈ l, c < 2 ^ 16) : units (nameBytes l) = l := by
  induction l with
  | nil => rfl
  | cons c l ih =>
    have hc := h c (by simp)
    have : leBytes 2 c = [UInt8.ofNat c, UInt8.ofNat (c / 256)] := rfl
    have hn : leNat (leBytes 2 c) = c := leNat_leBytes_of_lt 2 c (by omega)
    rw [nameBytes, List.flatMap_cons, this]
    show leNat [_, _] :: units (nameBytes l) = _
    rw [ih (fun x hx => h x (by simp [hx])), ← this, hn]

theorem rstrip0_name (l : List Nat) (h : ∀ c ∈ l, c ≠ 0) (n : Nat) : rstrip0 (l ++ List.replicate n 0) = l := by
  unfold rstrip0
  rw [List.reverse_append, List.reverse_replicate, List.dropWhile_append_of_pos (by
    intro a ha; rw [List.eq_of_mem_replicate ha]; decide)]
  cases e : l.reverse with
  | nil => rw [List.reverse_eq_nil_iff] at e; rw [e]; rfl
  | cons c r =>
    have hc : c ≠ 0 := h c (by rw [← List.mem_reverse, e]; simp)
    rw [List.dropWhile_cons_of_neg (by simp [hc]), ← e, List.reverse_reverse]

/-- The values of the attributes are those of the file, for both formats and every name. -/
theorem C101_metadata (m : Metadata) (fill : Bytes) (hv : m.version = 1 ∨ m.version = 2) (hs : m.size < 2 ^ 64)
    (hd : m.deletion < 2 ^ 64) (hn : Name m.name) (hc : m.name.length + 1 < 2 ^ 32) :
    readFile (fileBytes m fill) = .ok m := by
  have hl : [leBytes 8 m.version, leBytes 8 m.size, leBytes 8 m.deletion].flatten.length = 24 := by simp
  have he : Encodes headerMap [leBytes 8 m.version, leBytes 8 m.size, leBytes 8 m.deletion].flatten
      (m.version, m.size, m.deletion) := by
    refine encodes_refine _ _ _ _ _ (encodes_fixed 24 id _ (by decide) hl) ?_
    unfold parseHeader
    generalize hB : [leBytes 8 m.version, leBytes 8 m.size, leBytes 8 m.deletion].flatten = B
    have f0 : leNat (slice B 0 8) = m.version := hB ▸ leField [] 8 _ _ 0 8 rfl rfl (by omega)
    have f1 : leNat (slice B 8 16) = m.size := hB ▸ leField [_] 8 _ _ 8 16 (by simp) rfl (by omega)
    have f2 : leNat (slice B 16 24) = m.deletion := hB ▸ leField [_, _] 8 _ _ 16 24 (by simp) rfl (by omega)
    simp only [id, f0, f1, f2]
    rw [if_pos hv]
  have hname : readName (fileBytes m fill) m.version = .ok m.name := by
    unfold readName fileBytes
    have hz : ∀ c ∈ m.name, c ≠ 0 := fun c hc => by have := hn c hc; omega
    have hu := units_nameBytes m.name (fun c hc => (hn c hc).2)
    by_cases h1 : m.version = 1
    · rw [if_pos h1, if_pos h1, List.drop_left' hl, utf16z_append _ _ (nameBytes_utf16 _ hn)]
      dsimp only
      rw [hu]
      have := rstrip0_name m.name hz 0
      simp only [List.replicate_zero, List.append_nil] at this
      rw [this]
    · rw [if_neg h1, if_neg h1]
      have e2 : nameBytes m.name ++ [0, 0] = nameBytes (m.name ++ [0]) := by
        simp [nameBytes, List.flatMap_append]; decide
      have hnl : (nameBytes (m.name ++ [0])).length = 2 * (m.name.length + 1) := by
        unfold nameBytes
        rw [flatMap_fixed_length 2 _ (by simp)]
        simp
      have hx : Encodes sizedString (leBytes 4 (m.name.length + 1) ++ nameBytes (m.name ++ [0]))
          ((leBytes 4 (m.name.length + 1) ++ nameBytes (m.name ++ [0])).drop 4) := by
        refine encodes_sized 4 _ _ _ (by decide) (by simp) ?_
        rw [List.take_left' (by simp), leNat_leBytes_of_lt 4 _ (by omega), List.length_append, hnl]
        simp
      have := hx [leBytes 8 m.version, leBytes 8 m.size, leBytes 8 m.deletion].flatten fill
      rw [hl] at this
      rw [List.append_assoc (leBytes 4 _), e2, ← List.append_assoc]
      rw [show structAt sizedString _ 24 = .ok _ from this]
      dsimp only
      rw [List.drop_left' (by simp), units_nameBytes _ (by
        intro c hc
        rcases List.mem_append.mp hc with h | h
        · exact (hn c h).2
        · rw [List.mem_singleton.mp h]; decide), show [0] = List.replicate 1 0 from rfl,
        rstrip0_name m.name hz 1]
  unfold readFile
  have h0 := he [] (if m.version = 1 then nameBytes m.name ++ [0, 0] ++ fill
    else leBytes 4 (m.name.length + 1) ++ nameBytes m.name ++ [0, 0] ++ fill)
  rw [show structAt headerMap (fileBytes m fill) 0 = .ok ((m.version, m.size, m.deletion), _) from h0]
  dsimp only
  rw [hname]

/-- A file of another version is refused. -/
theorem C101_versions (data : Bytes) (m : Metadata) (h : readFile data = .ok m) :
    m.version = leNat (slice data 0 8) ∧ (m.version = 1 ∨ m.version = 2) := by
  unfold readFile at h
  split at h
  · cases h
  · rename_i v size deletion k hx
    obtain ⟨_, h2, _⟩ := structAt_fixed_ok 24 _ data 0 _ k (by decide) hx
    split at h
    · cases h
    · cases h
      unfold parseHeader at h2
      dsimp only at h2
      rw [Nat.zero_add, slice_slice data 0 24 0 8 (by decide), Nat.zero_add, Nat.zero_add] at h2
      split at h2
      · rename_i hc
        cases h2
        exact ⟨rfl, hc⟩
      · cases h2

example : readFile (fileBytes ⟨2, 10, 20, [67, 58]⟩ []) = .ok ⟨2, 10, 20, [67, 58]⟩ :=
  C101_metadata ⟨2, 10, 20, [67, 58]⟩ [] (.inr rfl) (by decide) (by decide) (by unfold Name; decide) (by decide)

end Dtf.RecycleBin

/-! # Restore point logs (C102) -/

namespace Dtf.RpLog
open Py DataFormat ChangeLog

/-! ## Model -/

structure Log where
  eventType : Nat
  restoreType : Nat
  sequence : Nat
  description : Bytes
  unknown : Bytes
  creation : Nat
deriving DecidableEq, Repr

def footerMap : DataTypeMap Nat := (fixedMap 8 id).refine (fun b => some (leNat b))

/-- `ReadFileObject` (rp_log.py 111-126) with `_ReadFileHeader` (93-109) and `_ReadFileFooter` (74-91).  Decoding
UTF-16 is not modelled. -/
def readFile (data : Bytes) : Res Log :=
  if data.length < 16 then .error .parseError
  else
    match utf16z (data.drop 16) with
    | none => .error .parseError
    | some s =>
      match fileRead data (18 + s.length) ((data.length : Int) - 8 - (18 + s.length : Nat)) with
      | .error e => .error e
      | .ok b =>
        match structAt footerMap data (data.length - 8 : Nat) with
        | .error e => .error e
        | .ok (creation, _) =>
          .ok ⟨leNat (slice data 0 4), leNat (slice data 4 8), leNat (slice data 8 16), s, b, creation⟩

/-! ## The specification -/

def Log.bytes (l : Log) : Bytes :=
  [leBytes 4 l.eventType, leBytes 4 l.restoreType, leBytes 8 l.sequence, l.description ++ [0, 0], l.unknown,
    leBytes 8 l.creation].flatten

/-- A file that cannot be read as a restore point log is a parse error. -/
def C102_errors_claim : Prop := ∀ (data : Bytes) (e : Err), readFile data = .error e → e = .parseError

/-- The parts that are read do not overlap. -/
def C102_parts_claim : Prop := ∀ (data : Bytes) (l : Log), readFile data = .ok l →
  26 + l.description.length + l.unknown.length = data.length

/-! ## Proofs -/

/-- The values of the log are read. -/
theorem C102_log (l : Log) (h1 : l.eventType < 2 ^ 32) (h2 : l.restoreType < 2 ^ 32) (h3 : l.sequence < 2 ^ 64)
    (h4 : Utf16 l.description) (h5 : l.creation < 2 ^ 64) : readFile l.bytes = .ok l := by
  have hl : l.bytes.length = 26 + l.description.length + l.unknown.length := by simp [Log.bytes]; omega
  have hf : structAt footerMap l.bytes (l.bytes.length - 8 : Nat) = .ok (l.creation, 8) := by
    have he : Encodes footerMap (leBytes 8 l.creation) l.creation := by
      refine encodes_refine _ _ _ _ _ (encodes_fixed 8 id _ (by decide) (by simp)) ?_
      rw [id, leNat_leBytes_of_lt 8 _ (by omega)]
    have := he [leBytes 4 l.eventType, leBytes 4 l.restoreType, leBytes 8 l.sequence, l.description ++ [0, 0],
      l.unknown].flatten []
    rw [List.append_nil] at this
    have e : [leBytes 4 l.eventType, leBytes 4 l.restoreType, leBytes 8 l.sequence, l.description ++ [0, 0],
      l.unknown].flatten ++ leBytes 8 l.creation = l.bytes := by simp [Log.bytes]
    have e2 : [leBytes 4 l.eventType, leBytes 4 l.restoreType, leBytes 8 l.sequence, l.description ++ [0, 0],
      l.unknown].flatten.length = l.bytes.length - 8 := by rw [← e, List.length_append]; simp
    rw [e, e2] at this
    simpa using this
  have hd : l.bytes.drop 16 = l.description ++ [0, 0] ++ (l.unknown ++ leBytes 8 l.creation) := by
    have e : l.bytes = [leBytes 4 l.eventType, leBytes 4 l.restoreType, leBytes 8 l.sequence].flatten ++
      (l.description ++ [0, 0] ++ (l.unknown ++ leBytes 8 l.creation)) := by simp [Log.bytes]
    rw [e, List.drop_left' (by simp)]
  have hr : fileRead l.bytes (18 + l.description.length) ((l.bytes.length : Int) - 8 - (18 + l.description.length : Nat)) =
      .ok l.unknown := by
    unfold fileRead
    rw [show (l.bytes.length : Int) - 8 - (18 + l.description.length : Nat) = (l.unknown.length : Nat) by omega,
      if_neg (by omega)]
    have e : l.bytes = [leBytes 4 l.eventType, leBytes 4 l.restoreType, leBytes 8 l.sequence,
      l.description ++ [0, 0]].flatten ++ (l.unknown ++ leBytes 8 l.creation) := by simp [Log.bytes]
    have e2 : [leBytes 4 l.eventType, leBytes 4 l.restoreType, leBytes 8 l.sequence,
      l.description ++ [0, 0]].flatten.length = 18 + l.description.length := by simp; omega
    rw [File.read, if_neg (by omega), Int.toNat_natCast]
    dsimp only
    rw [e, List.drop_left' e2, List.take_left' rfl]
  unfold readFile
  rw [if_neg (by omega), hd, utf16z_append _ _ h4]
  dsimp only
  rw [hr]
  dsimp only
  rw [hf]
  dsimp only
  unfold Log.bytes
  generalize hB : [leBytes 4 l.eventType, leBytes 4 l.restoreType, leBytes 8 l.sequence, l.description ++ [0, 0],
    l.unknown, leBytes 8 l.creation].flatten = B
  have f0 : leNat (slice B 0 4) = l.eventType := hB ▸ leField [] 4 _ _ 0 4 rfl rfl (by omega)
  have f1 : leNat (slice B 4 8) = l.restoreType := hB ▸ leField [_] 4 _ _ 4 8 (by simp) rfl (by omega)
  have f2 : leNat (slice B 8 16) = l.sequence := hB ▸ leField [_, _] 8 _ _ 8 16 (by simp) rfl (by omega)
  rw [f0, f1, f2]

/-- A description that ends within the last 8 bytes makes the size of the data between them negative, which `read`
refuses. -/
theorem C102_errors_claim_false : ¬ C102_errors_claim := by
  intro h
  have := h (List.replicate 18 0) .valueError (by decide +kernel)
  cases this

/-- With a size of -1 the footer is read as data between them. -/
theorem C102_parts_claim_false : ¬ C102_parts_claim := by
  intro h
  have := h (List.replicate 25 0) ⟨0, 0, 0, [], List.replicate 7 0, 0⟩ (by decide +kernel)
  revert this
  decide

/-- The parts do not overlap when the description ends before the last 8 bytes; and then there is no other error than a
parse error. -/
theorem C102_parts_partial (data s : Bytes) (hs : utf16z (data.drop 16) = some s) (hl : 26 + s.length ≤ data.length) :
    ∃ l, readFile data = .ok l ∧ l.description = s ∧ 26 + l.description.length + l.unknown.length = data.length := by
  unfold readFile
  rw [if_neg (by omega), hs]
  dsimp only
  have hr : fileRead data (18 + s.length) ((data.length : Int) - 8 - (18 + s.length : Nat)) =
      .ok ((data.drop (18 + s.length)).take (data.length - (26 + s.length))) := by
    unfold fileRead
    rw [show (data.length : Int) - 8 - (18 + s.length : Nat) = (data.length - (26 + s.length) : Nat) by omega,
      if_neg (by omega), File.read, if_neg (by omega), Int.toNat_natCast]
  rw [hr]
  dsimp only
  obtain ⟨x, hx⟩ : ∃ x, structAt footerMap data (data.length - 8 : Nat) = .ok (x, 8) := by
    unfold footerMap
    rw [structAt_refine, structAt_fixed _ _ _ _ (by decide), if_neg (by omega)]
    exact ⟨_, rfl⟩
  rw [hx]
  refine ⟨_, rfl, rfl, ?_⟩
  simp only [List.length_take, List.length_drop]
  omega

example : readFile (Log.bytes ⟨100, 12, 5, [72, 0, 105, 0], [1, 2, 3], 99⟩) = .ok ⟨100, 12, 5, [72, 0, 105, 0], [1, 2, 3], 99⟩ :=
  C102_log _ (by decide) (by decide) (by decide) (.cons _ _ _ (by decide) (.cons _ _ _ (by decide) .nil)) (by decide)

end Dtf.RpLog
