import Verif.Slices

/-!
# Gzip files (C47)

What zlib does is a parameter.
-/

namespace Dtf.Gzip
open Py DataFormat

/-! ## Model -/

/-- A decompressor object: what `decompress` returns and the attribute `unused_data` after it. -/
structure Zlib where
  Z : Type
  init : Z
  step : Z → Bytes → Res (Bytes × Z)
  unused : Z → Bytes

/-- `_ReadCompressedData` (gzipfile.py 38-57): the data, what is left of the compressed data, and the decompressor;
`none` is out of fuel. -/
def inflate (zl : Zlib) : Nat → zl.Z → Bytes → Bytes → Option (Res (Bytes × Bytes × zl.Z))
  | 0, _, _, _ => none
  | fuel + 1, z, b, out =>
    if b = [] then some (.ok (out, [], z))
    else
      match zl.step z b with
      | .error e => some (.error e)
      | .ok (d, z') => if d = [] then some (.ok (out, b, z')) else inflate zl fuel z' (zl.unused z') (out ++ d)

/-- `_ReadMemberCompressedData` (gzipfile.py 59-77): the data, which the code does not keep, and the position.
`size` is that of the buffer. -/
def readData (zl : Zlib) (size : Nat) (data : Bytes) : Nat → Nat → zl.Z → Bytes → Option (Res (Bytes × Nat))
  | 0, _, _, _ => none
  | fuel + 1, pos, z, out =>
    let b := slice data pos (pos + size)
    if b = [] then some (.ok (out, pos))
    else
      match inflate zl (b.length + 1) z b [] with
      | none => none
      | some (.error e) => some (.error e)
      | some (.ok (d, rest, z')) =>
        if d = [] then some (.ok (out, pos + b.length - rest.length))
        else readData zl size data fuel (pos + b.length - rest.length) z' (out ++ d)

/-- A string with a terminator at a position (gzipfile.py 142-162): the string and the position after it. -/
def readString (data : Bytes) (pos : Nat) : Res (Bytes × Nat) :=
  match cstr (data.drop pos) with
  | none => .error .parseError
  | some s => .ok (s, pos + s.length + 1)

/-- `gzip_member_header` (gzipfile.yaml 43-59) with the checks of gzipfile.py 119-130: the flags. -/
def parseHeader (b : Bytes) : Option Nat :=
  if leNat (slice b 0 2) = 0x8B1F ∧ leNat (slice b 2 3) = 8 then some (leNat (slice b 3 4)) else none

def headerMap : DataTypeMap Nat := (fixedMap 10 id).refine parseHeader

/-- Whether a bit of the flags is set. -/
def flag (flags bit : Nat) : Bool := flags / 2 ^ bit % 2 = 1

/-- The extra field (gzipfile.py 132-140): the position after it, which is where it says even if the file is
shorter. -/
def skipExtra (data : Bytes) (flags pos : Nat) : Res Nat :=
  if flag flags 2 then
    if data.length < pos + 2 then .error .parseError
    else .ok (pos + 2 + leNat (slice data pos (pos + 2)))
  else .ok pos

/-- A string that is there if the flag is set. -/
def readOptional (data : Bytes) (set : Bool) (pos : Nat) : Res (Option Bytes × Nat) :=
  if set then
    match readString data pos with
    | .error e => .error e
    | .ok (s, pos) => .ok (some s, pos)
  else .ok (none, pos)

/-- `_ReadMemberHeader` (gzipfile.py 99-165): the name, the comment and the position after it. -/
def readHeader (data : Bytes) (pos : Nat) : Res (Option Bytes × Option Bytes × Nat) :=
  match structAt headerMap data pos with
  | .error e => .error e
  | .ok (flags, _) =>
    match skipExtra data flags (pos + 10) with
    | .error e => .error e
    | .ok pos =>
      match readOptional data (flag flags 3) pos with
      | .error e => .error e
      | .ok (name, pos) =>
        match readOptional data (flag flags 4) pos with
        | .error e => .error e
        | .ok (comment, pos) =>
          .ok (name, comment, if flag flags 1 then pos + (slice data pos (pos + 2)).length else pos)

/-- A member: what is read of it. -/
structure Member where
  name : Option Bytes
  comment : Option Bytes
  content : Bytes
  checksum : Nat
  size : Nat
deriving DecidableEq, Repr

/-- `gzip_member_footer` (gzipfile.yaml 61-70). -/
def footerMap : DataTypeMap (Nat × Nat) :=
  (fixedMap 8 id).refine (fun b => some (leNat (slice b 0 4), leNat (slice b 4 8)))

/-- One member (gzipfile.py 178-182). -/
def readMember (zl : Zlib) (size : Nat) (data : Bytes) (fuel pos : Nat) : Option (Res (Member × Nat)) :=
  match readHeader data pos with
  | .error e => some (.error e)
  | .ok (name, comment, pos) =>
    match readData zl size data fuel pos zl.init [] with
    | none => none
    | some (.error e) => some (.error e)
    | some (.ok (content, pos)) =>
      match structAt footerMap data pos with
      | .error e => some (.error e)
      | .ok ((checksum, n), _) => some (.ok (⟨name, comment, content, checksum, n⟩, pos + 8))

/-- `ReadFileObject` (gzipfile.py 167-182). -/
def readFile (zl : Zlib) (size : Nat) (data : Bytes) : Nat → Nat → List Member → Option (Res (List Member))
  | 0, _, _ => none
  | fuel + 1, pos, acc =>
    if pos < data.length then
      match readMember zl size data (fuel + 1) pos with
      | none => none
      | some (.error e) => some (.error e)
      | some (.ok (m, next)) => readFile zl size data fuel next (acc ++ [m])
    else some (.ok acc)

/-! ## The specification -/

/-- A stream and the data it is of: the decompressor gives the data and what comes after the stream, and nothing
more after that. -/
structure Deflated (zl : Zlib) (c d : Bytes) : Prop where
  stream : ∀ rest, ∃ z, ∃ ended : zl.Z → Prop, zl.step zl.init (c ++ rest) = .ok (d, z) ∧ zl.unused z = rest ∧ ended z ∧
    ∀ z, ended z → ∀ x, ∃ z', zl.step z x = .ok ([], z') ∧ ended z'
  nonempty : c ≠ []

/-- A member as it is stored. -/
structure Stored where
  value : Member
  text : Bool
  extra : Option Bytes
  crc : Option (UInt8 × UInt8)
  fields : Bytes
  stream : Bytes

def Stored.flags (s : Stored) : Nat :=
  (if s.text then 1 else 0) + (if s.crc.isSome then 2 else 0) + (if s.extra.isSome then 4 else 0) +
    (if s.value.name.isSome then 8 else 0) + (if s.value.comment.isSome then 16 else 0)

def extraBytes : Option Bytes → Bytes
  | some e => leBytes 2 e.length ++ e
  | none => []

def stringBytes : Option Bytes → Bytes
  | some s => s ++ [0]
  | none => []

def crcBytes : Option (UInt8 × UInt8) → Bytes
  | some (a, b) => [a, b]
  | none => []

def Stored.header (s : Stored) : Bytes := [leBytes 2 0x8B1F, [8], [UInt8.ofNat s.flags], s.fields].flatten

def Stored.footer (s : Stored) : Bytes := [leBytes 4 s.value.checksum, leBytes 4 s.value.size].flatten

def Stored.bytes (s : Stored) : Bytes :=
  [s.header, extraBytes s.extra, stringBytes s.value.name, stringBytes s.value.comment, crcBytes s.crc, s.stream,
    s.footer].flatten

def Stored.Ok (zl : Zlib) (s : Stored) : Prop :=
  s.fields.length = 6 ∧ (∀ e, s.extra = some e → e.length < 2 ^ 16) ∧ (∀ n, s.value.name = some n → ∀ b ∈ n, b ≠ 0) ∧
    (∀ n, s.value.comment = some n → ∀ b ∈ n, b ≠ 0) ∧ s.value.checksum < 2 ^ 32 ∧ s.value.size < 2 ^ 32 ∧
    Deflated zl s.stream s.value.content

/-! ## Proofs -/

theorem flag_flags (s : Stored) : flag s.flags 1 = s.crc.isSome ∧ flag s.flags 2 = s.extra.isSome ∧
    flag s.flags 3 = s.value.name.isSome ∧ flag s.flags 4 = s.value.comment.isSome ∧ s.flags < 32 := by
  unfold Stored.flags
  generalize s.text = a
  generalize s.crc.isSome = b
  generalize s.extra.isSome = c
  generalize s.value.name.isSome = d
  generalize s.value.comment.isSome = e
  revert a b c d e
  decide

theorem skipExtra_bytes (flags : Nat) (e : Option Bytes) (hf : flag flags 2 = e.isSome)
    (he : ∀ x, e = some x → x.length < 2 ^ 16) (pre post : Bytes) :
    skipExtra (pre ++ extraBytes e ++ post) flags pre.length = .ok (pre ++ extraBytes e).length := by
  unfold skipExtra
  cases e with
  | none => rw [if_neg (by simp [hf])]; simp [extraBytes]
  | some x =>
    have hx := he x rfl
    have f : slice (pre ++ extraBytes (some x) ++ post) pre.length (pre.length + 2) = leBytes 2 x.length := by
      rw [slice_at _ _ _ _ (by simp [extraBytes]), extraBytes]
      exact List.take_left' (by simp)
    rw [if_pos (by simp [hf]), if_neg (by simp [extraBytes]), f, leNat_leBytes_of_lt _ _ (by omega)]
    simp [extraBytes, Nat.add_assoc]

theorem readOptional_bytes (set : Bool) (s : Option Bytes) (hf : set = s.isSome)
    (hs : ∀ n, s = some n → ∀ b ∈ n, b ≠ 0) (pre post : Bytes) :
    readOptional (pre ++ stringBytes s ++ post) set pre.length = .ok (s, (pre ++ stringBytes s).length) := by
  unfold readOptional
  subst hf
  cases s with
  | none => simp [stringBytes]
  | some n =>
    have : (pre ++ stringBytes (some n) ++ post).drop pre.length = n ++ 0 :: post := by
      rw [List.append_assoc, List.drop_left]
      simp [stringBytes]
    rw [if_pos (by rfl), readString, this, cstr_append _ _ (hs n rfl)]
    simp [stringBytes]
    omega

theorem header_encodes (s : Stored) (h : s.fields.length = 6) : Encodes headerMap s.header s.flags := by
  have hl : s.header.length = 10 := by simp [Stored.header, h]
  refine encodes_refine _ _ _ s.header _ (encodes_fixed 10 id _ (by omega) hl) ?_
  have f0 : leNat (slice s.header 0 2) = 0x8B1F := leField [] 2 _ _ 0 2 rfl rfl (by omega)
  have f1 : slice s.header 2 3 = [8] := slice_fields [leBytes 2 _] [8] _ 2 3 (by simp) rfl
  have f2 : slice s.header 3 4 = [UInt8.ofNat s.flags] :=
    slice_fields [leBytes 2 _, [8]] [UInt8.ofNat s.flags] _ 3 4 (by simp) rfl
  have hf := (flag_flags s).2.2.2.2
  unfold parseHeader
  rw [f0, f1, f2, if_pos ⟨rfl, rfl⟩]
  simp only [leNat, Nat.mul_zero, Nat.add_zero]
  rw [UInt8.toNat_ofNat', Nat.mod_eq_of_lt (by omega)]

theorem readHeader_bytes (zl : Zlib) (s : Stored) (h : s.Ok zl) (pre post : Bytes) :
    readHeader (pre ++ s.bytes ++ post) pre.length = .ok (s.value.name, s.value.comment,
      (pre ++ [s.header, extraBytes s.extra, stringBytes s.value.name, stringBytes s.value.comment,
        crcBytes s.crc].flatten).length) := by
  obtain ⟨h1, h2, h3, h4, h5, h6, h7⟩ := h
  obtain ⟨g1, g2, g3, g4, g5⟩ := flag_flags s
  have hl : s.header.length = 10 := by simp [Stored.header, h1]
  unfold readHeader
  generalize hn : stringBytes s.value.name = nb at *
  generalize hc : stringBytes s.value.comment = cb at *
  generalize hx : extraBytes s.extra = xb at *
  have e1 : pre ++ s.bytes ++ post =
      pre ++ s.header ++ ([xb, nb, cb, crcBytes s.crc, s.stream, s.footer].flatten ++ post) := by
    simp [Stored.bytes, hn, hc, hx]
  have e2 : pre ++ s.bytes ++ post =
      (pre ++ s.header) ++ extraBytes s.extra ++ ([nb, cb, crcBytes s.crc, s.stream, s.footer].flatten ++ post) := by
    rw [e1]; simp [hx]
  have e3 : pre ++ s.bytes ++ post = (pre ++ s.header ++ extraBytes s.extra) ++ stringBytes s.value.name ++
      ([cb, crcBytes s.crc, s.stream, s.footer].flatten ++ post) := by
    rw [e1]; simp [hx, hn]
  have e4 : pre ++ s.bytes ++ post =
      (pre ++ s.header ++ extraBytes s.extra ++ stringBytes s.value.name) ++ stringBytes s.value.comment ++
      ([crcBytes s.crc, s.stream, s.footer].flatten ++ post) := by
    rw [e1]; simp [hx, hn, hc]
  have r1 := header_encodes s h1 pre ([xb, nb, cb, crcBytes s.crc, s.stream, s.footer].flatten ++ post)
  have r2 := skipExtra_bytes s.flags s.extra g2 h2 (pre ++ s.header)
    ([nb, cb, crcBytes s.crc, s.stream, s.footer].flatten ++ post)
  have r3 := readOptional_bytes _ s.value.name g3 h3 (pre ++ s.header ++ extraBytes s.extra)
    ([cb, crcBytes s.crc, s.stream, s.footer].flatten ++ post)
  have r4 := readOptional_bytes _ s.value.comment g4 h4 (pre ++ s.header ++ extraBytes s.extra ++
    stringBytes s.value.name) ([crcBytes s.crc, s.stream, s.footer].flatten ++ post)
  rw [← e1] at r1
  rw [← e2] at r2
  rw [← e3] at r3
  rw [← e4] at r4
  rw [r1]
  dsimp only
  rw [show pre.length + 10 = (pre ++ s.header).length by simp [hl], r2]
  dsimp only
  rw [r3]
  dsimp only
  rw [r4]
  dsimp only
  rw [g1]
  congr 3
  cases hcrc : s.crc with
  | none => simp [crcBytes, hx, hn, hc, Nat.add_assoc]
  | some p =>
    obtain ⟨a, b⟩ := p
    have e5 : pre ++ s.bytes ++ post =
        (pre ++ s.header ++ extraBytes s.extra ++ stringBytes s.value.name ++ stringBytes s.value.comment) ++
          [a, b] ++ ([s.stream, s.footer].flatten ++ post) := by
      rw [e4, hcrc]; simp [crcBytes]
    rw [if_pos (by rfl), e5, slice_at _ _ _ _ (by simp)]
    simp [crcBytes, hx, hn, hc, Nat.add_assoc]

theorem readData_stream (zl : Zlib) (size : Nat) (c d pre post : Bytes) (h : Deflated zl c d) (hd : d ≠ [])
    (hs : c.length ≤ size) (fuel : Nat) :
    readData zl size (pre ++ c ++ post) (fuel + 2) pre.length zl.init [] = some (.ok (d, (pre ++ c).length)) := by
  have hcl : 0 < c.length := List.length_pos_iff.mpr h.nonempty
  -- the bytes of the first buffer
  have hb : slice (pre ++ c ++ post) pre.length (pre.length + size) = c ++ post.take (size - c.length) := by
    rw [slice_eq_take_drop, List.append_assoc, List.drop_left, Nat.add_sub_cancel_left, List.take_append,
      List.take_of_length_le hs]
  generalize hr : post.take (size - c.length) = rest at *
  obtain ⟨z, ended, h1, h2, h3, h4⟩ := h.stream rest
  rw [readData]
  rw [hb, if_neg (by simp [h.nonempty])]
  have hi : ∃ z', inflate zl ((c ++ rest).length + 1) zl.init (c ++ rest) [] = some (.ok (d, rest, z')) ∧ ended z' := by
    rw [inflate, if_neg (by simp [h.nonempty]), h1]
    dsimp only
    rw [if_neg hd, h2]
    obtain ⟨k, hk⟩ : ∃ k, (c ++ rest).length = k + 1 := ⟨(c ++ rest).length - 1, by simp; omega⟩
    rw [hk, inflate]
    by_cases hrest : rest = []
    · rw [if_pos hrest]
      exact ⟨z, by simp [hrest], h3⟩
    · rw [if_neg hrest]
      obtain ⟨z', hz, hz'⟩ := h4 z h3 rest
      rw [hz]
      exact ⟨z', by simp, hz'⟩
  obtain ⟨z', hi1, hi2⟩ := hi
  rw [hi1]
  dsimp only
  have hpos : pre.length + (c ++ rest).length - rest.length = (pre ++ c).length := by simp; omega
  rw [if_neg hd, hpos, readData]
  split
  · simp
  · rename_i hne
    obtain ⟨z2, hz, _⟩ := h4 z' hi2 (slice (pre ++ c ++ post) (pre ++ c).length ((pre ++ c).length + size))
    rw [inflate, if_neg hne, hz]
    dsimp only
    rw [if_pos rfl]
    dsimp only
    rw [if_pos rfl]
    simp

theorem footer_encodes (s : Stored) (h5 : s.value.checksum < 2 ^ 32) (h6 : s.value.size < 2 ^ 32) :
    Encodes footerMap s.footer (s.value.checksum, s.value.size) := by
  refine encodes_refine _ _ _ s.footer _ (encodes_fixed 8 id _ (by omega) (by simp [Stored.footer])) ?_
  have f0 : leNat (slice s.footer 0 4) = s.value.checksum := leField [] 4 _ _ 0 4 rfl rfl (by omega)
  have f1 : leNat (slice s.footer 4 8) = s.value.size := leField [leBytes 4 _] 4 _ _ 4 8 (by simp) rfl (by omega)
  rw [f0, f1]

theorem readMember_bytes (zl : Zlib) (size : Nat) (s : Stored) (h : s.Ok zl) (hd : s.value.content ≠ [])
    (hs : s.stream.length ≤ size) (pre post : Bytes) (fuel : Nat) :
    readMember zl size (pre ++ s.bytes ++ post) (fuel + 2) pre.length = some (.ok (s.value, (pre ++ s.bytes).length)) := by
  unfold readMember
  rw [readHeader_bytes zl s h pre post]
  dsimp only
  generalize hh : [s.header, extraBytes s.extra, stringBytes s.value.name, stringBytes s.value.comment,
    crcBytes s.crc].flatten = hb
  have hbytes : s.bytes = hb ++ s.stream ++ s.footer := by rw [← hh]; simp [Stored.bytes]
  have e1 : pre ++ s.bytes ++ post = (pre ++ hb) ++ s.stream ++ (s.footer ++ post) := by rw [hbytes]; simp
  have e2 : pre ++ s.bytes ++ post = ((pre ++ hb) ++ s.stream) ++ s.footer ++ post := by rw [hbytes]; simp
  obtain ⟨h1, h2, h3, h4, h5, h6, h7⟩ := h
  have r1 := readData_stream zl size s.stream s.value.content (pre ++ hb) (s.footer ++ post) h7 hd hs fuel
  have r2 := footer_encodes s h5 h6 ((pre ++ hb) ++ s.stream) post
  rw [← e1] at r1
  rw [← e2] at r2
  rw [r1]
  dsimp only
  rw [r2]
  dsimp only
  rw [hbytes]
  simp [Stored.footer, Nat.add_assoc]

/-! ## C47 -/

/-- All members are read, in order, with their data. -/
def C47_claim : Prop :=
  ∀ (zl : Zlib) (members : List Stored), (∀ s ∈ members, s.Ok zl) →
    ∃ fuel, readFile zl (16 * 1024 * 1024) (members.flatMap (·.bytes)) fuel 0 [] =
      some (.ok (members.map (·.value)))

/-- It is so if no member is of empty data and none has a stream that is larger than the buffer. -/
theorem C47_members_partial (zl : Zlib) (size : Nat) (members : List Stored)
    (h : ∀ s ∈ members, s.Ok zl ∧ s.value.content ≠ [] ∧ s.stream.length ≤ size) (fuel : Nat)
    (hf : members.length < fuel) :
    readFile zl size (members.flatMap (·.bytes)) fuel 0 [] = some (.ok (members.map (·.value))) := by
  have key : ∀ (members : List Stored) (pre : Bytes) (acc : List Member) (fuel : Nat),
      (∀ s ∈ members, s.Ok zl ∧ s.value.content ≠ [] ∧ s.stream.length ≤ size) → members.length < fuel →
      readFile zl size (pre ++ members.flatMap (·.bytes)) fuel pre.length acc =
        some (.ok (acc ++ members.map (·.value))) := by
    intro members
    induction members with
    | nil =>
      intro pre acc fuel _ hf
      obtain ⟨k, rfl⟩ : ∃ k, fuel = k + 1 := ⟨fuel - 1, by simp at hf; omega⟩
      rw [readFile, if_neg (by simp)]
      simp
    | cons s members ih =>
      intro pre acc fuel h hf
      have hs := h s (by simp)
      obtain ⟨k, rfl⟩ : ∃ k, fuel = k + 2 := ⟨fuel - 2, by simp at hf; omega⟩
      have hl : 0 < s.bytes.length := by simp [Stored.bytes, Stored.footer]; omega
      have e : pre ++ (s :: members).flatMap (·.bytes) = pre ++ s.bytes ++ members.flatMap (·.bytes) := by simp
      rw [e, readFile, if_pos (by simp only [List.length_append]; omega),
        readMember_bytes zl size s hs.1 hs.2.1 hs.2.2]
      dsimp only
      rw [ih _ _ _ (fun t ht => h t (by simp [ht])) (by simp at hf; omega)]
      simp
  simpa using key members [] [] fuel h hf

/-- A decompressor of data that is stored with a byte for its size before it. -/
def toy : Zlib where
  Z := Option Bytes
  init := none
  step := fun z b =>
    match z, b with
    | none, n :: l => .ok (l.take n.toNat, some (l.drop n.toNat))
    | none, [] => .ok ([], none)
    | some u, b => .ok ([], some (u ++ b))
  unused := fun z => z.getD []

theorem toy_deflated (d : Bytes) (h : d.length < 256) : Deflated toy (UInt8.ofNat d.length :: d) d := by
  refine ⟨fun rest => ⟨some rest, fun z => z.isSome, ?_, rfl, rfl, ?_⟩, by simp⟩
  · have e : (UInt8.ofNat d.length).toNat = d.length := by rw [UInt8.toNat_ofNat']; omega
    simp [toy, e]
  · intro z hz x
    cases z with
    | none => simp at hz
    | some u => exact ⟨some (u ++ x), rfl, rfl⟩

def toyMember (name : Option Bytes) (d : Bytes) : Stored :=
  ⟨⟨name, none, d, 7, d.length⟩, false, none, none, List.replicate 6 0, UInt8.ofNat d.length :: d⟩

theorem toyMember_ok (name : Option Bytes) (hn : ∀ n, name = some n → ∀ b ∈ n, b ≠ 0) (d : Bytes)
    (h : d.length < 256) : (toyMember name d).Ok toy :=
  ⟨rfl, by simp [toyMember], hn, by simp [toyMember], by simp [toyMember], by simp [toyMember]; omega,
    toy_deflated d h⟩

/-- A member of empty data makes that the file is refused: its footer is searched where its stream begins. -/
theorem C47_empty (fuel : Nat) : readFile toy (16 * 1024 * 1024) (toyMember none []).bytes (fuel + 2) 0 [] =
    some (.error .parseError) := by
  have hm : readMember toy (16 * 1024 * 1024) (toyMember none []).bytes (fuel + 2) 0 =
      some (.ok (⟨none, none, [], 0x700, 0⟩, 18)) := by
    unfold readMember
    rw [show readHeader (toyMember none []).bytes 0 = .ok (none, none, 10) by decide +kernel]
    dsimp only
    rw [readData]
    have hb : slice (toyMember none []).bytes 10 (10 + 16 * 1024 * 1024) = (toyMember none []).bytes.drop 10 := by
      rw [slice_eq_take_drop, Nat.add_sub_cancel_left]
      exact List.take_of_length_le (by rw [List.length_drop]; simp [toyMember, Stored.bytes, Stored.header, extraBytes,
        stringBytes, crcBytes, Stored.footer])
    rw [hb]
    rw [show inflate toy (((toyMember none []).bytes.drop 10).length + 1) toy.init ((toyMember none []).bytes.drop 10) [] =
      some (.ok ([], (toyMember none []).bytes.drop 10, some ((toyMember none []).bytes.drop 11))) from rfl]
    have hn : (toyMember none []).bytes.drop 10 ≠ [] := by decide +kernel
    have hpos : 10 + ((toyMember none []).bytes.drop 10).length - ((toyMember none []).bytes.drop 10).length = 10 := by
      omega
    rw [if_neg hn]
    dsimp only
    rw [if_pos rfl, hpos]
    decide +kernel
  have hl : (toyMember none []).bytes.length = 19 := by decide +kernel
  rw [readFile, if_pos (by rw [hl]; decide), hm]
  dsimp only
  rw [readFile, if_pos (by rw [hl]; decide)]
  unfold readMember
  rw [show readHeader (toyMember none []).bytes 18 = .error .parseError by decide +kernel]

theorem C47_claim_false : ¬ C47_claim := by
  intro h
  obtain ⟨fuel, hf⟩ := h toy [toyMember none []] (by
    intro s hs
    simp only [List.mem_singleton] at hs
    subst hs
    exact toyMember_ok none (by simp) [] (by decide))
  have e : [toyMember none []].flatMap (·.bytes) = (toyMember none []).bytes := by simp
  rw [e] at hf
  match fuel with
  | 0 => simp [readFile] at hf
  | 1 =>
    have hl : (toyMember none []).bytes.length = 19 := by decide +kernel
    rw [readFile, if_pos (by rw [hl]; decide)] at hf
    split at hf
    · cases hf
    · cases hf
    · simp [readFile] at hf
  | fuel + 2 => rw [C47_empty] at hf; cases hf

/-- Two members of data. -/
example : readFile toy 100 ([toyMember (some [97]) [1, 2, 3], toyMember none [4]].flatMap (·.bytes)) 3 0 [] =
    some (.ok [⟨some [97], none, [1, 2, 3], 7, 3⟩, ⟨none, none, [4], 7, 1⟩]) := by
  refine C47_members_partial toy 100 _ ?_ 3 (by decide)
  intro s hs
  simp only [List.mem_cons, List.not_mem_nil, or_false] at hs
  rcases hs with rfl | rfl
  · exact ⟨toyMember_ok _ (by simp) _ (by decide), by simp [toyMember], by simp [toyMember]⟩
  · exact ⟨toyMember_ok _ (by simp) _ (by decide), by simp [toyMember], by simp [toyMember]⟩

/-! ### Termination -/

/-- A decompressor that gives data has used some of what it was given. -/
def Uses (zl : Zlib) : Prop :=
  ∀ z b d z', zl.step z b = .ok (d, z') → d ≠ [] → (zl.unused z').length < b.length

theorem inflate_ends (zl : Zlib) (hu : Uses zl) (fuel : Nat) : ∀ z b out, b.length < fuel →
    ∃ r, inflate zl fuel z b out = some r ∧
      ∀ d rest z', r = .ok (d, rest, z') → rest.length ≤ b.length ∧ (d ≠ out → rest.length < b.length) := by
  induction fuel with
  | zero => intro z b out h; omega
  | succ fuel ih =>
    intro z b out h
    rw [inflate]
    split
    · rename_i hb
      subst hb
      exact ⟨_, rfl, fun d rest z' he => by cases he; simp⟩
    · cases hs : zl.step z b with
      | error e => exact ⟨_, rfl, fun d rest z' he => by cases he⟩
      | ok x =>
        obtain ⟨d, z'⟩ := x
        dsimp only
        split
        · exact ⟨_, rfl, fun d rest z' he => by cases he; simp⟩
        · rename_i hd
          have hlt := hu _ _ _ _ hs hd
          obtain ⟨r, hr, hr'⟩ := ih z' (zl.unused z') (out ++ d) (by omega)
          refine ⟨r, hr, fun d' rest z'' he => ?_⟩
          have := hr' d' rest z'' he
          exact ⟨by omega, fun _ => by omega⟩

theorem readData_ends (zl : Zlib) (hu : Uses zl) (size : Nat) (data : Bytes) (fuel : Nat) : ∀ pos z out,
    data.length - pos < fuel → ∃ r, readData zl size data fuel pos z out = some r ∧
      ∀ d next, r = .ok (d, next) → pos ≤ next := by
  induction fuel with
  | zero => intro pos z out h; omega
  | succ fuel ih =>
    intro pos z out h
    rw [readData]
    generalize hb : slice data pos (pos + size) = b
    split
    · exact ⟨_, rfl, fun d next he => by cases he; omega⟩
    · rename_i hne
      obtain ⟨r, hr, hr'⟩ := inflate_ends zl hu (b.length + 1) z b [] (by omega)
      rw [hr]
      cases r with
      | error e => exact ⟨_, rfl, fun d next he => by cases he⟩
      | ok x =>
        obtain ⟨d, rest, z'⟩ := x
        have hx := hr' d rest z' rfl
        dsimp only
        split
        · exact ⟨_, rfl, fun d next he => by cases he; omega⟩
        · rename_i hd
          have := hx.2 hd
          have hlen : pos < data.length := by
            have hp := List.length_pos_iff.mpr hne
            rw [← hb, slice_length] at hp
            omega
          obtain ⟨r, hr, hr'⟩ := ih (pos + b.length - rest.length) z' (out ++ d) (by omega)
          exact ⟨r, hr, fun d' next he => by have := hr' d' next he; omega⟩

theorem readHeader_forward (data : Bytes) (pos : Nat) (a b : Option Bytes) (next : Nat)
    (h : readHeader data pos = .ok (a, b, next)) : pos + 10 ≤ next := by
  have hopt : ∀ set p s q, readOptional data set p = .ok (s, q) → p ≤ q := by
    intro set p s q hq
    unfold readOptional readString at hq
    split at hq
    · split at hq
      · cases hq
      · rename_i hx
        split at hx
        · cases hx
        · cases hx
          cases hq
          omega
    · cases hq
      omega
  unfold readHeader at h
  split at h
  · cases h
  · split at h
    · cases h
    · rename_i p1 h1
      have hp1 : pos + 10 ≤ p1 := by
        unfold skipExtra at h1
        split at h1
        · split at h1
          · cases h1
          · cases h1; omega
        · cases h1; omega
      split at h
      · cases h
      · rename_i h2
        have := hopt _ _ _ _ h2
        split at h
        · cases h
        · rename_i h3
          have := hopt _ _ _ _ h3
          simp only [Except.ok.injEq, Prod.mk.injEq] at h
          obtain ⟨_, _, h⟩ := h
          split at h <;> omega

/-- Reading ends for every file if the decompressor uses what it is given. -/
theorem C47_terminates (zl : Zlib) (hu : Uses zl) (size : Nat) (data : Bytes) :
    readFile zl size data (2 * data.length + 1) 0 [] ≠ none := by
  have key : ∀ fuel pos acc, 2 * data.length - pos < fuel → readFile zl size data fuel pos acc ≠ none := by
    intro fuel
    induction fuel with
    | zero => intro pos acc h; omega
    | succ fuel ih =>
      intro pos acc h
      rw [readFile]
      split
      · rename_i hlt
        cases hm : readMember zl size data (fuel + 1) pos with
        | none =>
          unfold readMember at hm
          split at hm
          · cases hm
          · rename_i p hh
            have := readHeader_forward _ _ _ _ _ hh
            obtain ⟨r, hr, _⟩ := readData_ends zl hu size data (fuel + 1) p zl.init [] (by omega)
            rw [hr] at hm
            cases r with
            | error e => simp at hm
            | ok x =>
              dsimp only at hm
              split at hm <;> cases hm
        | some r =>
          cases r with
          | error e => simp
          | ok x =>
            obtain ⟨m, next⟩ := x
            dsimp only
            refine ih _ _ ?_
            unfold readMember at hm
            split at hm
            · cases hm
            · rename_i p hh
              have := readHeader_forward _ _ _ _ _ hh
              obtain ⟨r, hr, hr'⟩ := readData_ends zl hu size data (fuel + 1) p zl.init [] (by omega)
              rw [hr] at hm
              cases r with
              | error e => simp at hm
              | ok x =>
                have hx := hr' x.1 x.2 rfl
                dsimp only at hm
                split at hm
                · cases hm
                · cases hm
                  omega
      · simp
  exact key _ _ _ (by omega)

theorem toy_uses : Uses toy := by
  intro z b d z' h hd
  cases z with
  | none =>
    cases b with
    | nil => cases h; exact absurd rfl hd
    | cons n l =>
      cases h
      simp [toy]
      omega
  | some u =>
    cases h
    exact absurd rfl hd

example : readFile toy 100 [1, 2, 3] 7 0 [] ≠ none := C47_terminates toy toy_uses 100 [1, 2, 3]

end Dtf.Gzip
