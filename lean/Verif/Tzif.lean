import Verif.Holds

/-!
# Time zone information files (C97)
-/

namespace Dtf.Tzif
open Py DataFormat

/-! ## Model -/

/-- What is read of a data block.  The local time types, the leap seconds and the indicators are not taken apart by
the code. -/
structure Block where
  times : List Int
  index : List Nat
  types : Bytes
  names : Bytes
  leaps : Bytes
  standard : Bytes
  utc : Bytes
deriving DecidableEq, Repr

/-- `tzif_file_header` (tzif.yaml 36-63). -/
structure Header where
  version : Nat
  utc : Nat
  standard : Nat
  leaps : Nat
  times : Nat
  types : Nat
  names : Nat
deriving DecidableEq, Repr

/-- `_ReadFileHeader` (tzif.py 99-128) with its checks. -/
def parseHeader (b : Bytes) : Option Header :=
  if slice b 0 4 = [84, 90, 105, 102] ∧ leNat (slice b 4 5) ∈ [0, 0x32, 0x33] then
    some ⟨leNat (slice b 4 5), beNat (slice b 20 24), beNat (slice b 24 28), beNat (slice b 28 32),
      beNat (slice b 32 36), beNat (slice b 36 40), beNat (slice b 40 44)⟩
  else none

def headerMap : DataTypeMap Header := (fixedMap 44 id).refine parseHeader

/-- A sequence with the number of elements in the header, mapped from bytes: no bytes are an error
(data_format.py 654-655; tzif.py 214-228, 318-332, 360-374). -/
def sequence (b : Bytes) (values : List α) : Res (List α) :=
  if b = [] then .error .parseError else .ok values

/-- What follows a header, with transition times of `w` bytes (tzif.py 268-274, 287-293).  The leap seconds have 8
bytes each for every width. -/
def readBody (w : Nat) (data : Bytes) (h : Header) (pos : Nat) : Res (Block × Nat) :=
  match dataAt data pos (w * h.times) with
  | .error e => .error e
  | .ok b0 =>
    match sequence b0 ((beNats w h.times b0).map (signed w)) with
    | .error e => .error e
    | .ok times =>
      match dataAt data (pos + w * h.times) h.times with
      | .error e => .error e
      | .ok b1 =>
        match sequence b1 (b1.map UInt8.toNat) with
        | .error e => .error e
        | .ok index =>
          let p := pos + w * h.times + h.times
          match dataAt data p (6 * h.types), dataAt data (p + 6 * h.types) h.names,
            dataAt data (p + 6 * h.types + h.names) (8 * h.leaps),
            dataAt data (p + 6 * h.types + h.names + 8 * h.leaps) h.standard,
            dataAt data (p + 6 * h.types + h.names + 8 * h.leaps + h.standard) h.utc with
          | .ok types, .ok names, .ok leaps, .ok standard, .ok utc =>
            .ok (⟨times, index, types, names, leaps, standard, utc⟩,
              p + 6 * h.types + h.names + 8 * h.leaps + h.standard + h.utc)
          | _, _, _, _, _ => .error .parseError

/-- `_ReadTimeZoneInformation32bit` and `_ReadTimeZoneInformation64bit` (tzif.py 255-293). The header of both is
that at the start of the file (tzif.py 113-115). -/
def readInformation (w : Nat) (data : Bytes) : Res (Header × Block) :=
  match structAt headerMap data 0 with
  | .error e => .error e
  | .ok (h, n) =>
    match readBody w data h n.toNat with
    | .error e => .error e
    | .ok (b, _) => .ok (h, b)

/-- `ReadFileObject` (tzif.py 399-416): the first block and, with version 2 or 3, the second. -/
def readFile (data : Bytes) : Res (Block × Option Block) :=
  match readInformation 4 data with
  | .error e => .error e
  | .ok (h, first) =>
    if h.version = 0x32 ∨ h.version = 0x33 then
      match readInformation 8 data with
      | .error e => .error e
      | .ok (_, second) => .ok (first, some second)
    else .ok (first, none)

/-! ## Specification

A data block by RFC 8536: a header with the numbers, transition times of 4 or 8 bytes and leap seconds with a time of
that size and 4 bytes. -/

/-- The values of a block are in their ranges. -/
def Block.Ok (w : Nat) (x : Block) : Prop :=
  x.times.length < 2 ^ 32 ∧ x.index.length = x.times.length ∧ (∀ i ∈ x.index, i < 256) ∧
    (∀ t ∈ x.times, -(256 ^ w : Nat) ≤ 2 * t ∧ 2 * t < (256 ^ w : Nat)) ∧
    (∃ n, x.types.length = 6 * n ∧ n < 2 ^ 32) ∧ x.names.length < 2 ^ 32 ∧
    (∃ n, x.leaps.length = (w + 4) * n ∧ n < 2 ^ 32) ∧ x.standard.length < 2 ^ 32 ∧ x.utc.length < 2 ^ 32

def Block.header (w version : Nat) (reserved : Bytes) (x : Block) : Bytes :=
  [[84, 90, 105, 102], leBytes 1 version, reserved, beBytes 4 x.utc.length, beBytes 4 x.standard.length,
    beBytes 4 (x.leaps.length / (w + 4)), beBytes 4 x.times.length, beBytes 4 (x.types.length / 6),
    beBytes 4 x.names.length].flatten

def Block.body (w : Nat) (x : Block) : Bytes :=
  [(x.times.map (unsigned w)).flatMap (beBytes w), x.index.flatMap (leBytes 1), x.types, x.names, x.leaps, x.standard,
    x.utc].flatten

def Block.bytes (w version : Nat) (reserved : Bytes) (x : Block) : Bytes := x.header w version reserved ++ x.body w

/-- A file of version 1 is read. -/
def C97_first_claim : Prop := ∀ (reserved rest : Bytes) (x : Block), x.Ok 4 → reserved.length = 15 →
  readFile (x.bytes 4 0 reserved ++ rest) = .ok (x, none)

/-- A file of version 2 or 3 is read. -/
def C97_second_claim : Prop := ∀ (version : Nat) (reserved reserved' footer : Bytes) (x y : Block),
  version = 0x32 ∨ version = 0x33 → x.Ok 4 → y.Ok 8 → x.times ≠ [] → y.times ≠ [] → reserved.length = 15 →
  reserved'.length = 15 →
  readFile (x.bytes 4 version reserved ++ y.bytes 8 version reserved' ++ footer) = .ok (x, some y)

/-! ## Proofs -/

theorem parseHeader_fields (version : Nat) (hv : version ∈ [0, 0x32, 0x33]) (reserved : Bytes)
    (hr : reserved.length = 15) (a b c d e f : Nat) (ha : a < 2 ^ 32) (hb : b < 2 ^ 32) (hc : c < 2 ^ 32)
    (hd : d < 2 ^ 32) (he : e < 2 ^ 32) (hf : f < 2 ^ 32) :
    parseHeader [[84, 90, 105, 102], leBytes 1 version, reserved, beBytes 4 a, beBytes 4 b, beBytes 4 c, beBytes 4 d,
      beBytes 4 e, beBytes 4 f].flatten = some ⟨version, a, b, c, d, e, f⟩ := by
  have hv' : version < 256 := by
    simp only [List.mem_cons, List.not_mem_nil, or_false] at hv
    omega
  generalize hB : [[84, 90, 105, 102], leBytes 1 version, reserved, beBytes 4 a, beBytes 4 b, beBytes 4 c, beBytes 4 d,
      beBytes 4 e, beBytes 4 f].flatten = B
  have f0 : slice B 0 4 = [84, 90, 105, 102] := hB ▸ slice_fields [] [84, 90, 105, 102] _ 0 4 rfl rfl
  have f1 : leNat (slice B 4 5) = version := hB ▸ leField [[84, 90, 105, 102]] 1 version _ 4 5 rfl rfl (by omega)
  have f2 : beNat (slice B 20 24) = a := hB ▸ beField [[84, 90, 105, 102], leBytes 1 version, reserved] 4 _ _ 20 24
    (by simp [hr]) rfl (by omega)
  have f3 : beNat (slice B 24 28) = b := hB ▸ beField [[84, 90, 105, 102], leBytes 1 version, reserved, beBytes 4 a] 4 _ _
    24 28 (by simp [hr]) rfl (by omega)
  have f4 : beNat (slice B 28 32) = c := hB ▸ beField [[84, 90, 105, 102], leBytes 1 version, reserved, beBytes 4 a,
    beBytes 4 b] 4 _ _ 28 32 (by simp [hr]) rfl (by omega)
  have f5 : beNat (slice B 32 36) = d := hB ▸ beField [[84, 90, 105, 102], leBytes 1 version, reserved, beBytes 4 a,
    beBytes 4 b, beBytes 4 c] 4 _ _ 32 36 (by simp [hr]) rfl (by omega)
  have f6 : beNat (slice B 36 40) = e := hB ▸ beField [[84, 90, 105, 102], leBytes 1 version, reserved, beBytes 4 a,
    beBytes 4 b, beBytes 4 c, beBytes 4 d] 4 _ _ 36 40 (by simp [hr]) rfl (by omega)
  have f7 : beNat (slice B 40 44) = f := hB ▸ beField [[84, 90, 105, 102], leBytes 1 version, reserved, beBytes 4 a,
    beBytes 4 b, beBytes 4 c, beBytes 4 d, beBytes 4 e] 4 _ _ 40 44 (by simp [hr]) rfl (by omega)
  unfold parseHeader
  rw [f0, f1, f2, f3, f4, f5, f6, f7, if_pos ⟨rfl, hv⟩]

theorem header_encodes (version : Nat) (hv : version ∈ [0, 0x32, 0x33]) (reserved : Bytes) (hr : reserved.length = 15)
    (x : Block) (hx : x.Ok 4) :
    Encodes headerMap (x.header 4 version reserved) ⟨version, x.utc.length, x.standard.length, x.leaps.length / 8,
      x.times.length, x.types.length / 6, x.names.length⟩ := by
  obtain ⟨h1, h2, h3, h4, ⟨n, h5, h5'⟩, h6, ⟨m, h7, h7'⟩, h8, h9⟩ := hx
  unfold Block.header
  refine encodes_refine _ _ _ _ _ (encodes_fixed 44 id _ (by omega) (by simp [hr])) ?_
  exact parseHeader_fields version hv reserved hr _ _ _ _ _ _ h9 h8 (by omega) h1 (by omega) h6

theorem dataAt_holds (data : Bytes) (off : Nat) (b : Bytes) (n : Nat) (h : Holds data off b) (hn : b.length = n) :
    dataAt data off n = .ok b := by
  subst hn
  obtain ⟨pre, post, rfl, rfl⟩ := h
  exact dataAt_append pre b post

theorem signed_map (w : Nat) (l : List Int) (h : ∀ t ∈ l, -(256 ^ w : Nat) ≤ 2 * t ∧ 2 * t < (256 ^ w : Nat)) :
    (l.map (unsigned w)).map (signed w) = l := by
  rw [List.map_map]
  conv => rhs; rw [← List.map_id l]
  apply List.map_congr_left
  intro t ht
  exact signed_unsigned w t (h t ht).1 (h t ht).2

theorem toNat_bytes (l : List Nat) (h : ∀ i ∈ l, i < 256) : (l.flatMap (leBytes 1)).map UInt8.toNat = l := by
  induction l with
  | nil => rfl
  | cons i l ih =>
    rw [List.flatMap_cons, List.map_append, ih (fun j hj => h j (by simp [hj]))]
    have : (leBytes 1 i).map UInt8.toNat = [i] := by
      have hi := h i (by simp)
      simp [leBytes]
      omega
    rw [this]
    rfl

theorem readBody_holds (data : Bytes) (version pos : Nat) (x : Block) (hx : x.Ok 4) (hn : x.times ≠ [])
    (h : Holds data pos (x.body 4)) :
    readBody 4 data ⟨version, x.utc.length, x.standard.length, x.leaps.length / 8, x.times.length, x.types.length / 6,
      x.names.length⟩ pos = .ok (x, pos + (x.body 4).length) := by
  obtain ⟨h1, h2, h3, h4, ⟨n, h5, h5'⟩, h6, ⟨m, h7, h7'⟩, h8, h9⟩ := hx
  have hlen : 0 < x.times.length := List.length_pos_iff.mpr hn
  have l0 : ((x.times.map (unsigned 4)).flatMap (beBytes 4)).length = 4 * x.times.length := by
    rw [flatMap_fixed_length 4 _ (by simp), List.length_map]
  have l1 : (x.index.flatMap (leBytes 1)).length = x.times.length := by
    rw [flatMap_fixed_length 1 _ (by simp), h2, Nat.one_mul]
  have e : x.body 4 = (x.times.map (unsigned 4)).flatMap (beBytes 4) ++ (x.index.flatMap (leBytes 1) ++ (x.types ++
      (x.names ++ (x.leaps ++ (x.standard ++ x.utc))))) := by simp [Block.body]
  rw [e] at h
  have d0 := dataAt_holds _ _ _ _ (holds_prefix _ _ _ _ h) l0
  have g1 := holds_suffix _ _ _ _ h
  rw [l0] at g1
  have d1 := dataAt_holds _ _ _ _ (holds_prefix _ _ _ _ g1) l1
  have g2 := holds_suffix _ _ _ _ g1
  rw [l1] at g2
  have d2 := dataAt_holds _ _ _ _ (holds_prefix _ _ _ _ g2) (show x.types.length = 6 * (x.types.length / 6) by omega)
  have g3 := holds_suffix _ _ _ _ g2
  have d3 := dataAt_holds _ _ _ _ (holds_prefix _ _ _ _ g3) rfl
  have g4 := holds_suffix _ _ _ _ g3
  have d4 := dataAt_holds _ _ _ _ (holds_prefix _ _ _ _ g4) (show x.leaps.length = 8 * (x.leaps.length / 8) by omega)
  have g5 := holds_suffix _ _ _ _ g4
  have d5 := dataAt_holds _ _ _ _ (holds_prefix _ _ _ _ g5) rfl
  have g6 := holds_suffix _ _ _ _ g5
  have d6 := dataAt_holds _ _ _ _ g6 rfl
  have e6 : 6 * (x.types.length / 6) = x.types.length := by omega
  have e7 : 8 * (x.leaps.length / 8) = x.leaps.length := by omega
  have hb := beNats_flatMap 4 (x.times.map (unsigned 4)) (by
    intro k hk
    obtain ⟨t, _, rfl⟩ := List.mem_map.mp hk
    exact unsigned_lt 4 t) []
  rw [List.length_map, List.append_nil] at hb
  unfold readBody
  dsimp only
  rw [d0]
  dsimp only
  unfold sequence
  rw [if_neg (by intro hc; rw [hc] at l0; simp at l0; omega), hb, signed_map 4 x.times h4]
  dsimp only
  rw [d1]
  dsimp only
  rw [if_neg (by intro hc; rw [hc] at l1; simp at l1; omega), toNat_bytes _ h3]
  dsimp only
  rw [d2, e6, d3, e7]
  rw [e7] at d4
  rw [d4, d5, d6]
  dsimp only
  have l : (x.body 4).length = 4 * x.times.length + x.times.length + x.types.length + x.names.length + x.leaps.length +
      x.standard.length + x.utc.length := by
    rw [e]
    simp only [List.length_append, l0, l1]
    omega
  rw [l]
  simp only [Nat.add_assoc]

/-- The first block is read, whatever follows. -/
theorem readInformation_first (version : Nat) (hv : version ∈ [0, 0x32, 0x33]) (reserved rest : Bytes)
    (hr : reserved.length = 15) (x : Block) (hx : x.Ok 4) (hn : x.times ≠ []) :
    ∃ h : Header, readInformation 4 (x.bytes 4 version reserved ++ rest) = .ok (h, x) ∧ h.version = version := by
  have hl : (x.header 4 version reserved).length = 44 := by simp [Block.header, hr]
  have hh : structAt headerMap (x.bytes 4 version reserved ++ rest) 0 = .ok _ :=
    encodes_holds _ _ _ (header_encodes version hv reserved hr x hx) _ 0
      ⟨[], x.body 4 ++ rest, by simp [Block.bytes], rfl⟩
  refine ⟨⟨version, x.utc.length, x.standard.length, x.leaps.length / 8, x.times.length, x.types.length / 6,
      x.names.length⟩, ?_, rfl⟩
  unfold readInformation
  rw [hh]
  dsimp only
  rw [Int.toNat_natCast, readBody_holds _ version _ x hx hn
    ⟨x.header 4 version reserved, rest, by simp [Block.bytes], rfl⟩]

/-- A file of version 1 that has transitions is read.  What is left out of the claim: zones without transitions. -/
theorem C97_first_partial (reserved rest : Bytes) (x : Block) (hx : x.Ok 4) (hn : x.times ≠ [])
    (hr : reserved.length = 15) : readFile (x.bytes 4 0 reserved ++ rest) = .ok (x, none) := by
  obtain ⟨h, e, hv⟩ := readInformation_first 0 (by simp) reserved rest hr x hx hn
  unfold readFile
  rw [e]
  dsimp only
  rw [if_neg (by omega)]

/-- Of a file of version 2 or 3 the first block is right whenever there is a result. -/
theorem C97_second_partial (version : Nat) (hv : version = 0x32 ∨ version = 0x33) (reserved rest : Bytes) (x : Block)
    (hx : x.Ok 4) (hn : x.times ≠ []) (hr : reserved.length = 15) (a : Block) (b : Option Block)
    (h : readFile (x.bytes 4 version reserved ++ rest) = .ok (a, b)) : a = x ∧ b.isSome := by
  obtain ⟨hd, e, hv'⟩ := readInformation_first version (by rcases hv with rfl | rfl <;> simp) reserved rest hr x hx hn
  unfold readFile at h
  rw [e] at h
  dsimp only at h
  rw [if_pos (by omega)] at h
  split at h
  · cases h
  · cases h
    exact ⟨rfl, rfl⟩

def utcBlock : Block := ⟨[], [], [0, 0, 0, 0, 0, 0], [85, 84, 67, 0], [], [], []⟩

/-- UTC has no transitions and cannot be read. -/
theorem C97_first_claim_false : ¬ C97_first_claim := by
  intro h
  have := h (List.replicate 15 0) [] utcBlock
    ⟨by decide, rfl, by decide, by decide, ⟨1, rfl, by decide⟩, by decide, ⟨0, rfl, by decide⟩, by decide, by decide⟩ rfl
  revert this
  decide +kernel

def sampleBlock (t : Int) : Block := ⟨[t], [0], [0, 0, 14, 16, 0, 0], [67, 69, 84, 0], [], [0], [0]⟩

example : readFile ((sampleBlock (-5)).bytes 4 0 (List.replicate 15 0)) = .ok (sampleBlock (-5), none) := by
  have := C97_first_partial (List.replicate 15 0) [] (sampleBlock (-5))
    ⟨by decide, rfl, by decide, by decide, ⟨1, rfl, by decide⟩, by decide, ⟨0, rfl, by decide⟩, by decide, by decide⟩
    (by decide) rfl
  rwa [List.append_nil] at this

/-- The second block is taken to be where the first is: its transition times are made of those of the first block and
what follows them. -/
theorem C97_second_claim_false : ¬ C97_second_claim := by
  intro h
  have := h 0x32 (List.replicate 15 0) (List.replicate 15 0) [10, 10] (sampleBlock 5) (sampleBlock 6) (.inl rfl)
    ⟨by decide, rfl, by decide, by decide, ⟨1, rfl, by decide⟩, by decide, ⟨0, rfl, by decide⟩, by decide, by decide⟩
    ⟨by decide, rfl, by decide, by decide, ⟨1, rfl, by decide⟩, by decide, ⟨0, rfl, by decide⟩, by decide, by decide⟩
    (by decide) (by decide) rfl rfl
  revert this
  decide +kernel

theorem beNat_append (a b : Bytes) : beNat (a ++ b) = beNat a * 256 ^ b.length + beNat b := by
  rw [beNat_eq_leNat_reverse, List.reverse_append, leNat_append, List.length_reverse, ← beNat_eq_leNat_reverse,
    ← beNat_eq_leNat_reverse, Nat.add_comm, Nat.mul_comm]

theorem beNats_pairs (us : List Nat) (rest : Bytes) (n i s t : Nat) (hi : i < n) (hs : us[2 * i]? = some s)
    (ht : us[2 * i + 1]? = some t) :
    (beNats 8 n (us.flatMap (beBytes 4) ++ rest))[i]? = some (beNat (beBytes 4 s ++ beBytes 4 t)) := by
  induction i generalizing us n with
  | zero =>
    match us, n, hi with
    | u :: v :: us, n + 1, _ =>
      cases hs
      cases ht
      rw [beNats, List.getElem?_cons_zero]
      have : ((s :: t :: us).flatMap (beBytes 4) ++ rest).take 8 = beBytes 4 s ++ beBytes 4 t := by
        simp only [List.flatMap_cons, ← List.append_assoc]
        rw [List.append_assoc]
        exact List.take_left' (by simp)
      rw [this]
  | succ i ih =>
    match us, n, hi with
    | u :: v :: us, n + 1, hi =>
      rw [beNats, List.getElem?_cons_succ]
      have : ((u :: v :: us).flatMap (beBytes 4) ++ rest).drop 8 = us.flatMap (beBytes 4) ++ rest := by
        simp only [List.flatMap_cons, ← List.append_assoc]
        rw [List.append_assoc]
        exact List.drop_left' (by simp)
      rw [this]
      refine ih us n (by omega) ?_ ?_
      · rw [show 2 * (i + 1) = 2 * i + 1 + 1 by omega] at hs
        simpa using hs
      · rw [show 2 * (i + 1) + 1 = 2 * i + 1 + 1 + 1 by omega] at ht
        simpa using ht

/-- What a body has is what is at its place. -/
theorem readBody_times (w : Nat) (data : Bytes) (h : Header) (pos : Nat) (b : Block) (n : Nat)
    (e : readBody w data h pos = .ok (b, n)) :
    b.times = (beNats w h.times (slice data pos (pos + w * h.times))).map (signed w) := by
  unfold readBody at e
  cases h0 : dataAt data pos (w * h.times) with
  | error _ => rw [h0] at e; cases e
  | ok b0 =>
    rw [h0] at e
    dsimp only at e
    have hb0 : b0 = slice data pos (pos + w * h.times) := by
      by_cases hl : pos + w * h.times ≤ data.length
      · rw [dataAt_ok _ _ _ hl] at h0
        cases h0
        rfl
      · by_cases hz : 0 < w * h.times
        · rw [dataAt_short _ _ _ (by omega) hz] at h0
          cases h0
        · have hz : w * h.times = 0 := by omega
          rw [hz] at h0 e ⊢
          unfold sequence at e
          split at e
          · cases e
          · rename_i hs
            split at hs
            · cases hs
            · rename_i hne
              exfalso
              apply hne
              unfold dataAt at h0
              unfold readData at h0
              simp only [File.seekSet, File.read] at h0
              rw [if_neg (by omega)] at h0
              simpa using h0.symm
    subst hb0
    unfold sequence at e
    split at e
    · cases e
    · rename_i times hs
      split at hs
      · cases hs
      · cases hs
        split at e
        · cases e
        · split at e
          · cases e
          · split at e
            · cases e
              rfl
            · cases e

/-- The transition times that are shown for the second block are those of the first in pairs: half of them, each made
of two. -/
theorem C97_second_is_first (version : Nat) (hv : version = 0x32 ∨ version = 0x33) (reserved rest : Bytes) (x : Block)
    (hx : x.Ok 4) (hn : x.times ≠ []) (hr : reserved.length = 15) (a b : Block)
    (h : readFile (x.bytes 4 version reserved ++ rest) = .ok (a, some b)) (i : Nat) (s t : Int)
    (hs : x.times[2 * i]? = some s) (ht : x.times[2 * i + 1]? = some t) :
    b.times[i]? = some (signed 8 (unsigned 4 s * 2 ^ 32 + unsigned 4 t)) := by
  have hv3 : version ∈ [0, 0x32, 0x33] := by rcases hv with rfl | rfl <;> simp
  obtain ⟨hd, e, hv'⟩ := readInformation_first version hv3 reserved rest hr x hx hn
  unfold readFile at h
  rw [e] at h
  dsimp only at h
  rw [if_pos (by omega)] at h
  have hl : (x.header 4 version reserved).length = 44 := by simp [Block.header, hr]
  have hh : structAt headerMap (x.bytes 4 version reserved ++ rest) 0 = .ok _ :=
    encodes_holds _ _ _ (header_encodes version hv3 reserved hr x hx) _ 0
      ⟨[], x.body 4 ++ rest, by simp [Block.bytes], rfl⟩
  unfold readInformation at h
  rw [hh] at h
  dsimp only at h
  rw [Int.toNat_natCast, hl] at h
  split at h
  · cases h
  · rename_i r hb
    split at hb
    · cases hb
    · rename_i y n hb'
      cases hb
      cases h
      rw [readBody_times _ _ _ _ _ _ hb']
      dsimp only
      obtain ⟨rest', hrest⟩ : ∃ rest', slice (x.bytes 4 version reserved ++ rest) 44 (44 + 8 * x.times.length) =
          ((x.times.map (unsigned 4)).flatMap (beBytes 4) ++ rest').take (8 * x.times.length) := by
        refine ⟨[x.index.flatMap (leBytes 1), x.types, x.names, x.leaps, x.standard, x.utc].flatten ++ rest, ?_⟩
        rw [slice_eq_take_drop, Nat.add_sub_cancel_left]
        congr 1
        unfold Block.bytes
        rw [List.append_assoc]
        rw [List.drop_left' hl]
        simp [Block.body]
      have l0 : ((x.times.map (unsigned 4)).flatMap (beBytes 4)).length = 4 * x.times.length := by
        rw [flatMap_fixed_length 4 _ (by simp), List.length_map]
      rw [hrest, List.take_append, List.take_of_length_le (by omega)]
      have hi : 2 * i + 1 < x.times.length := by
        obtain ⟨hlt, _⟩ := List.getElem?_eq_some_iff.mp ht
        exact hlt
      rw [List.getElem?_map, beNats_pairs _ _ _ i (unsigned 4 s) (unsigned 4 t) (by omega)
        (by rw [List.getElem?_map, hs]; rfl) (by rw [List.getElem?_map, ht]; rfl), beNat_append,
        beNat_beBytes_of_lt _ _ (unsigned_lt 4 s), beNat_beBytes_of_lt _ _ (unsigned_lt 4 t), length_beBytes]
      rfl

end Dtf.Tzif
