import Verif.Slices

/-!
# BSM event auditing files (C49, C96)
-/

namespace Dtf.Bsm
open Py DataFormat

/-! ## Model -/

/-- An unsigned integer in big-endian. -/
def be (b : Bytes) (i j : Nat) : Nat := beNat (slice b i j)

/-- The size of a number of strings that end with a zero byte. -/
def stringsSize : Nat → Bytes → Option Nat
  | 0, _ => some 0
  | n + 1, b =>
    match cstr b with
    | none => none
    | some s => (stringsSize n (b.drop (s.length + 1))).map (· + s.length + 1)

/-- The size of the token that some bytes start with, from the members of `bsm_token` (bsm.yaml 64-788); `none` if the
type is not among them, or if a string has no end. The size may be larger than the bytes. -/
def tokenSize (b : Bytes) : Option Nat :=
  match be b 0 1 with
  | 0x11 => some (11 + be b 9 11)
  | 0x13 => if be b 1 3 = 0xb105 then some 7 else none
  | 0x14 => some 18
  | 0x15 => some (22 + be b 10 14)
  | 0x21 => some (4 + be b 3 4)
  | 0x22 => some 6
  | 0x23 => some (3 + be b 1 3)
  | 0x24 => some 37
  | 0x26 => some 37
  | 0x27 => some 6
  | 0x28 => some (3 + be b 1 3)
  | 0x29 => some (3 + be b 1 3)
  | 0x2a => some 5
  | 0x2b => some 21
  | 0x2c => some 3
  | 0x2d => some (8 + be b 6 8)
  | 0x2f => some 5
  | 0x32 => some 29
  | 0x34 => some (5 + 4 * be b 1 5)
  | 0x3b => some (5 + 4 * be b 1 5)
  | 0x3c => (stringsSize (be b 1 5) (b.drop 5)).map (5 + ·)
  | 0x3d => (stringsSize (be b 1 5) (b.drop 5)).map (5 + ·)
  | 0x3e => some 29
  | 0x52 => some 9
  | 0x60 => some (3 + be b 1 3)
  | 0x71 => some (12 + be b 10 12)
  | 0x72 => some 10
  | 0x73 => some 33
  | 0x74 => some 26
  | 0x75 => some 41
  | 0x77 => some 41
  | 0x79 => some (30 + be b 10 14)
  | 0x7a => some (37 + be b 33 37)
  | 0x7b => some (37 + be b 33 37)
  | 0x7c => some (41 + be b 37 41)
  | 0x7d => some (41 + be b 37 41)
  | 0x7e => some 21
  | 0x7f => some (11 + 2 * be b 5 7)
  | 0x80 => some 9
  | 0x81 => some 21
  | 0x82 => (cstr (b.drop 3)).map (fun s => 3 + s.length + 1)
  | _ => none

/-- A token: its type and its size, and the values of these that have them. -/
structure Token where
  type : Nat
  size : Nat
  recordSize : Option Nat
  formatVersion : Option Nat
deriving DecidableEq, Repr

/-- `_HEADER_TOKEN_TYPES` (bsm.py 805). -/
def headerTypes : List Nat := [0x14, 0x15, 0x74, 0x79]

/-- The values of a token (bsm.yaml 210-304, 709-721). -/
def mapToken (b : Bytes) : Token :=
  let t := be b 0 1
  if t ∈ headerTypes then ⟨t, b.length, some (be b 1 5), some (be b 5 6)⟩
  else if t = 0x13 then ⟨t, b.length, some (be b 3 7), none⟩
  else ⟨t, b.length, none, none⟩

/-- `_ReadToken` and `_ReadTokenType` (bsm.py 943-992): the token and the position after it. `text` is whether the
strings of a token can be decoded. -/
def readToken (text : Bytes → Bool) (data : Bytes) (off : Nat) : Res (Token × Nat) :=
  if data.length < off + 1 then .error .parseError
  else
    match tokenSize (data.drop off) with
    | none => .error .parseError
    | some n =>
      if off + n ≤ data.length ∧ text (slice data off (off + n)) then .ok (mapToken (slice data off (off + n)), off + n)
      else .error .parseError

/-- The loop of `_ReadRecord` (bsm.py 927-936): the last token, the position and all tokens; `none` is out of fuel. -/
def readTokens (text : Bytes → Bool) (data : Bytes) (stop : Nat) :
    Nat → Nat → Token → List Token → Option (Res (Token × Nat × List Token))
  | 0, _, _, _ => none
  | fuel + 1, off, last, acc =>
    if off < stop then
      match readToken text data off with
      | .error e => some (.error e)
      | .ok (t, next) =>
        if t.type = 0x13 then some (.ok (t, next, acc ++ [t])) else readTokens text data stop fuel next t (acc ++ [t])
    else some (.ok (last, off, acc))

/-- The check of the last token (bsm.py 938-941). A token without a record size is an error of another kind. -/
def checkLast (last : Token) (size : Nat) : Res Unit :=
  match last.recordSize with
  | none => .error .attributeError
  | some s => if s = size then .ok () else .error .parseError

/-- The rest of `_ReadRecord` for a record that has a header (bsm.py 925-941). -/
def readBody (text : Bytes → Bool) (data : Bytes) (fuel off : Nat) (header : Token) (size next : Nat) :
    Option (Res (List Token × Nat)) :=
  if size = 0 then some (.ok ([], next))
  else
    match readTokens text data (off + size) fuel off header [] with
    | none => none
    | some (.error e) => some (.error e)
    | some (.ok (last, next, tokens)) =>
      match checkLast last size with
      | .error e => some (.error e)
      | .ok _ => some (.ok (tokens, next))

/-- `_ReadRecord` (bsm.py 902-941): the tokens of the record and the position after it.  The header is read twice; it
is once among the tokens. -/
def readRecord (text : Bytes → Bool) (data : Bytes) (fuel off : Nat) : Option (Res (List Token × Nat)) :=
  match readToken text data off with
  | .error e => some (.error e)
  | .ok (h, next) =>
    if h.type ∈ headerTypes ∧ h.formatVersion = some 11 then
      readBody text data fuel off h (h.recordSize.getD 0) next
    else some (.error .parseError)

/-- `ReadFileObject` (bsm.py 994-1006). -/
def readFile (text : Bytes → Bool) (data : Bytes) : Nat → Nat → List (List Token) → Option (Res (List (List Token)))
  | 0, _, _ => none
  | fuel + 1, off, acc =>
    if off < data.length then
      match readRecord text data (data.length + 1) off with
      | none => none
      | some (.error e) => some (.error e)
      | some (.ok (tokens, next)) => readFile text data fuel next (acc ++ [tokens])
    else some (.ok acc)

/-! ## The specification -/

/-- The tokens of a fixed size and the size without the type, as in the documentation of the format. -/
def fixedTokens : List (UInt8 × Nat) :=
  [(0x22, 5), (0x24, 36), (0x26, 36), (0x27, 5), (0x2a, 4), (0x2b, 20), (0x2c, 2), (0x2f, 4), (0x32, 28), (0x3e, 28),
    (0x52, 8), (0x72, 9), (0x73, 32), (0x75, 40), (0x77, 40), (0x7e, 20), (0x80, 8), (0x81, 20)]

/-- The tokens with a string that has its size before it, and the number of bytes between the type and the size. -/
def stringTokens : List (UInt8 × Nat) :=
  [(0x11, 8), (0x23, 0), (0x28, 0), (0x29, 0), (0x2d, 5), (0x60, 0), (0x71, 9)]

/-- The tokens with an address at the end that has its size before it, and the number of bytes between the type and
the size. -/
def addressTokens : List (UInt8 × Nat) := [(0x7a, 32), (0x7b, 32), (0x7c, 36), (0x7d, 36)]

/-- The tokens of a record as these are stored, other than the header and the trailer. -/
inductive Stored where
  | fixed (type : UInt8) (body : Bytes)
  | text (type : UInt8) (before s : Bytes)
  | address (type : UInt8) (before s : Bytes)
  | data (format : UInt8) (values : Bytes)
  | groups (new : Bool) (ids : List Nat)
  | strings (env : Bool) (ss : List Bytes)
  | socket (domain type localPort : Nat) (localAddress : Bytes) (remotePort : Nat) (remoteAddress : Bytes)
  | unix (family : Nat) (path : Bytes)

def Stored.bytes : Stored → Bytes
  | .fixed t body => t :: body
  | .text t before s => [[t], before, beBytes 2 s.length, s].flatten
  | .address t before s => [[t], before, beBytes 4 s.length, s].flatten
  | .data f values => [[0x21], [f], [0], [UInt8.ofNat values.length], values].flatten
  | .groups new ids => [[if new then 0x3b else 0x34], beBytes 4 ids.length, ids.flatMap (beBytes 4)].flatten
  | .strings env ss => [[if env then 0x3d else 0x3c], beBytes 4 ss.length, ss.flatMap (· ++ [0])].flatten
  | .socket d t p a q b => [[0x7f], beBytes 2 d, beBytes 2 t, beBytes 2 a.length, beBytes 2 p, a, beBytes 2 q, b].flatten
  | .unix f path => [[0x82], beBytes 2 f, path, [0]].flatten

def Stored.Ok : Stored → Prop
  | .fixed t body => (t, body.length) ∈ fixedTokens
  | .text t before s => (t, before.length) ∈ stringTokens ∧ s.length < 2 ^ 16
  | .address t before s => (t, before.length) ∈ addressTokens ∧ s.length < 2 ^ 32
  | .data _ values => values.length < 256
  | .groups _ ids => ids.length < 2 ^ 32
  | .strings _ ss => ss.length < 2 ^ 32 ∧ ∀ s ∈ ss, ∀ b ∈ s, b ≠ 0
  | .socket _ _ _ a _ b => a.length < 2 ^ 16 ∧ b.length = a.length
  | .unix _ path => ∀ b ∈ path, b ≠ 0

def Stored.type : Stored → Nat
  | .fixed t _ => t.toNat
  | .text t _ _ => t.toNat
  | .address t _ _ => t.toNat
  | .data _ _ => 0x21
  | .groups new _ => if new then 0x3b else 0x34
  | .strings env _ => if env then 0x3d else 0x3c
  | .socket .. => 0x7f
  | .unix .. => 0x82

/-- A record as it is stored: the kind of header (of 64 bits or not, with an address or not), the values of it, and
the tokens. -/
structure Record where
  wide : Bool
  address : Option Bytes
  event : Bytes
  times : Bytes
  tokens : List Stored

def Record.headerType (r : Record) : Nat :=
  if r.wide then (if r.address.isSome then 0x79 else 0x74) else (if r.address.isSome then 0x15 else 0x14)

def addressBytes : Option Bytes → Bytes
  | none => []
  | some a => beBytes 4 a.length ++ a

def Record.headerSize (r : Record) : Nat := 10 + (addressBytes r.address).length + r.times.length

def Record.size (r : Record) : Nat := r.headerSize + (r.tokens.flatMap (·.bytes)).length + 7

def Record.header (r : Record) : Bytes :=
  [[UInt8.ofNat r.headerType], beBytes 4 r.size, [11], r.event, addressBytes r.address, r.times].flatten

def trailer (size : Nat) : Bytes := [[0x13], [0xb1, 0x05], beBytes 4 size].flatten

def Record.bytes (r : Record) : Bytes := r.header ++ r.tokens.flatMap (·.bytes) ++ trailer r.size

def Record.Ok (text : Bytes → Bool) (r : Record) : Prop :=
  r.event.length = 4 ∧ r.times.length = (if r.wide then 16 else 8) ∧ (∀ a, r.address = some a → a.length < 2 ^ 32) ∧
    r.size < 2 ^ 32 ∧ (∀ t ∈ r.tokens, t.Ok ∧ text t.bytes) ∧ text r.header ∧ text (trailer r.size)

/-- The tokens that are to be read of a record. -/
def Record.values (r : Record) : List Token :=
  ⟨r.headerType, r.headerSize, some r.size, some 11⟩ ::
    (r.tokens.map (fun t => ⟨t.type, t.bytes.length, none, none⟩) ++ [⟨0x13, 7, some r.size, none⟩])

/-! ## Proofs -/

theorem be_field (pre : List Bytes) (w v : Nat) (rest : List Bytes) (tail : Bytes) (a b : Nat)
    (ha : a = pre.flatten.length) (hb : b = a + w) (hv : v < 256 ^ w) :
    be ([pre.flatten, beBytes w v, rest.flatten].flatten ++ tail) a b = v := by
  unfold be
  have := beField pre w v (rest ++ [tail]) a b (by rw [ha, List.length_flatten]) hb.symm hv
  simpa using this

theorem stringsSize_bytes (ss : List Bytes) (h : ∀ s ∈ ss, ∀ b ∈ s, b ≠ 0) (rest : Bytes) :
    stringsSize ss.length (ss.flatMap (· ++ [0]) ++ rest) = some (ss.flatMap (· ++ [0])).length := by
  induction ss with
  | nil => rfl
  | cons s ss ih =>
    have e : (s :: ss).flatMap (· ++ [0]) ++ rest = s ++ (0 : UInt8) :: (ss.flatMap (· ++ [0]) ++ rest) := by simp
    rw [e, List.length_cons, stringsSize, cstr_append _ _ (h s (by simp))]
    dsimp only
    have hd : (s ++ (0 : UInt8) :: (ss.flatMap (· ++ [0]) ++ rest)).drop (s.length + 1) =
        ss.flatMap (· ++ [0]) ++ rest := by
      rw [← List.drop_drop, List.drop_left]
      rfl
    rw [hd, ih (fun t ht => h t (by simp [ht]))]
    simp
    omega

theorem be_type (t : UInt8) (b : Bytes) : be (t :: b) 0 1 = t.toNat := by
  simp [be, slice, beNat]

theorem flatMap_be_length (ids : List Nat) : (ids.flatMap (beBytes 4)).length = 4 * ids.length := by
  induction ids with
  | nil => rfl
  | cons i ids ih => rw [List.flatMap_cons, List.length_append, ih, List.length_cons, beBytes_length]; omega

theorem tokenSize_stored (s : Stored) (h : s.Ok) (rest : Bytes) : tokenSize (s.bytes ++ rest) = some s.bytes.length := by
  cases s with
  | fixed t body =>
    simp only [Stored.Ok, fixedTokens, List.mem_cons, List.not_mem_nil, or_false, Prod.mk.injEq] at h
    unfold tokenSize
    rw [show Stored.bytes (.fixed t body) ++ rest = t :: (body ++ rest) from rfl, be_type]
    rcases h with ⟨rfl, h⟩ | ⟨rfl, h⟩ | ⟨rfl, h⟩ | ⟨rfl, h⟩ | ⟨rfl, h⟩ | ⟨rfl, h⟩ | ⟨rfl, h⟩ | ⟨rfl, h⟩ | ⟨rfl, h⟩ |
      ⟨rfl, h⟩ | ⟨rfl, h⟩ | ⟨rfl, h⟩ | ⟨rfl, h⟩ | ⟨rfl, h⟩ | ⟨rfl, h⟩ | ⟨rfl, h⟩ | ⟨rfl, h⟩ | ⟨rfl, h⟩ <;>
      simp [Stored.bytes, h]
  | text t before s =>
    obtain ⟨h, hs⟩ := h
    have hf : be (Stored.bytes (.text t before s) ++ rest) (1 + before.length) (1 + before.length + 2) = s.length := by
      have := be_field [[t], before] 2 s.length [s] rest (1 + before.length) _ (by simp; omega) rfl (by omega)
      rw [← this]
      simp [Stored.bytes]
    have hl : (Stored.bytes (.text t before s)).length = 3 + before.length + s.length := by
      simp [Stored.bytes]; omega
    rw [hl]
    simp only [stringTokens, List.mem_cons, List.not_mem_nil, or_false, Prod.mk.injEq] at h
    unfold tokenSize
    rw [show be (Stored.bytes (.text t before s) ++ rest) 0 1 = t.toNat from be_type _ _]
    rcases h with ⟨rfl, h⟩ | ⟨rfl, h⟩ | ⟨rfl, h⟩ | ⟨rfl, h⟩ | ⟨rfl, h⟩ | ⟨rfl, h⟩ | ⟨rfl, h⟩ <;> rw [h] at hf ⊢ <;>
      exact congrArg some (by rw [hf])
  | address t before s =>
    obtain ⟨h, hs⟩ := h
    have hf : be (Stored.bytes (.address t before s) ++ rest) (1 + before.length) (1 + before.length + 4) = s.length := by
      have := be_field [[t], before] 4 s.length [s] rest (1 + before.length) _ (by simp; omega) rfl (by omega)
      rw [← this]
      simp [Stored.bytes]
    have hl : (Stored.bytes (.address t before s)).length = 5 + before.length + s.length := by
      simp [Stored.bytes]; omega
    rw [hl]
    simp only [addressTokens, List.mem_cons, List.not_mem_nil, or_false, Prod.mk.injEq] at h
    unfold tokenSize
    rw [show be (Stored.bytes (.address t before s) ++ rest) 0 1 = t.toNat from be_type _ _]
    rcases h with ⟨rfl, h⟩ | ⟨rfl, h⟩ | ⟨rfl, h⟩ | ⟨rfl, h⟩ <;> rw [h] at hf ⊢ <;>
      exact congrArg some (by rw [hf])
  | data f values =>
    unfold tokenSize
    rw [show be (Stored.bytes (.data f values) ++ rest) 0 1 = 0x21 from be_type _ _]
    have hf : be (Stored.bytes (.data f values) ++ rest) 3 4 = values.length := by
      have h : values.length < 256 := h
      simp [Stored.bytes, be, slice, beNat]
      omega
    simp only [hf]
    simp [Stored.bytes]
    omega
  | groups new ids =>
    have h : ids.length < 2 ^ 32 := h
    have hf : be (Stored.bytes (.groups new ids) ++ rest) 1 5 = ids.length := by
      have := be_field [[if new then 0x3b else 0x34]] 4 ids.length [ids.flatMap (beBytes 4)] rest 1 5 rfl rfl (by omega)
      rw [← this]
      simp [Stored.bytes]
    have hl : (Stored.bytes (.groups new ids)).length = 5 + 4 * ids.length := by
      simp only [Stored.bytes, List.flatten_cons, List.flatten_nil, List.append_nil, List.length_append,
        flatMap_be_length, beBytes_length, List.length_singleton]
      omega
    unfold tokenSize
    rw [show be (Stored.bytes (.groups new ids) ++ rest) 0 1 = (if new then 0x3b else 0x34 : UInt8).toNat from
      be_type _ _, hl]
    cases new <;> exact congrArg some (by rw [hf])
  | strings env ss =>
    obtain ⟨h1, h2⟩ := h
    have hf : be (Stored.bytes (.strings env ss) ++ rest) 1 5 = ss.length := by
      have := be_field [[if env then 0x3d else 0x3c]] 4 ss.length [ss.flatMap (· ++ [0])] rest 1 5 rfl rfl (by omega)
      rw [← this]
      simp [Stored.bytes]
    have hd : (Stored.bytes (.strings env ss) ++ rest).drop 5 = ss.flatMap (· ++ [0]) ++ rest := by
      have e : Stored.bytes (.strings env ss) ++ rest =
          ((if env then 0x3d else 0x3c) :: beBytes 4 ss.length) ++ (ss.flatMap (· ++ [0]) ++ rest) := by
        simp [Stored.bytes]
      rw [e]
      exact List.drop_left' (by simp)
    have hl : (Stored.bytes (.strings env ss)).length = 5 + (ss.flatMap (· ++ [0])).length := by
      simp only [Stored.bytes, List.flatten_cons, List.flatten_nil, List.append_nil, List.length_append,
        beBytes_length, List.length_singleton]
      omega
    have hs := stringsSize_bytes ss h2 rest
    unfold tokenSize
    rw [show be (Stored.bytes (.strings env ss) ++ rest) 0 1 = (if env then 0x3d else 0x3c : UInt8).toNat from
      be_type _ _, hl, hf, hd, hs]
    cases env <;> rfl
  | socket d t p a q b =>
    obtain ⟨h1, h2⟩ := h
    have hf : be (Stored.bytes (.socket d t p a q b) ++ rest) 5 7 = a.length := by
      have := be_field [[0x7f], beBytes 2 d, beBytes 2 t] 2 a.length [beBytes 2 p, a, beBytes 2 q, b] rest 5 7
        (by simp) rfl (by omega)
      rw [← this]
      simp [Stored.bytes]
    have hl : (Stored.bytes (.socket d t p a q b)).length = 11 + 2 * a.length := by
      simp [Stored.bytes]; omega
    unfold tokenSize
    rw [show be (Stored.bytes (.socket d t p a q b) ++ rest) 0 1 = 0x7f from be_type _ _, hl]
    exact congrArg some (by rw [hf])
  | unix f path =>
    have hd : (Stored.bytes (.unix f path) ++ rest).drop 3 = path ++ (0 : UInt8) :: rest := by
      have e : Stored.bytes (.unix f path) ++ rest = ((0x82 : UInt8) :: beBytes 2 f) ++ (path ++ (0 : UInt8) :: rest) := by
        simp [Stored.bytes]
      rw [e]
      exact List.drop_left' (by simp)
    unfold tokenSize
    rw [show be (Stored.bytes (.unix f path) ++ rest) 0 1 = 0x82 from be_type _ _, hd]
    show (cstr (path ++ (0 : UInt8) :: rest)).map _ = _
    rw [cstr_append _ _ h]
    simp [Stored.bytes]
    omega

theorem tokenSize_header (text : Bytes → Bool) (r : Record) (h : r.Ok text) (rest : Bytes) :
    tokenSize (r.header ++ rest) = some r.headerSize ∧ r.header.length = r.headerSize := by
  obtain ⟨h1, h2, h3, h4, h5, h6⟩ := h
  have hl : r.header.length = r.headerSize := by
    simp [Record.header, Record.headerSize, h1]
    omega
  refine ⟨?_, hl⟩
  unfold tokenSize
  rw [show be (r.header ++ rest) 0 1 = (UInt8.ofNat r.headerType).toNat from be_type _ _]
  have hf : ∀ a, r.address = some a → be (r.header ++ rest) 10 14 = a.length := by
    intro a ha
    have := be_field [[UInt8.ofNat r.headerType], beBytes 4 r.size, [11], r.event] 4 a.length [a, r.times] rest 10 14
      (by simp [h1]) rfl (by have := h3 a ha; omega)
    simpa [Record.header, ha, addressBytes] using this
  unfold Record.headerType Record.headerSize
  cases hw : r.wide <;> cases ha : r.address <;> simp only [hw, Bool.false_eq_true, if_false, if_true] at h2
  · simp [h2, addressBytes]
  · rename_i a
    simp [h2, addressBytes, hf a ha]
    omega
  · simp [h2, addressBytes]
  · rename_i a
    simp [h2, addressBytes, hf a ha]
    omega

theorem readToken_bytes (text : Bytes → Bool) (b : Bytes) (hb : b ≠ []) (ht : text b) (pre post : Bytes)
    (h : tokenSize (b ++ post) = some b.length) :
    readToken text (pre ++ b ++ post) pre.length = .ok (mapToken b, (pre ++ b).length) := by
  have hpos : 0 < b.length := List.length_pos_iff.mpr hb
  unfold readToken
  rw [if_neg (by simp only [List.length_append]; omega)]
  have hd : (pre ++ b ++ post).drop pre.length = b ++ post := by rw [List.append_assoc, List.drop_left]
  have hs : slice (pre ++ b ++ post) pre.length (pre.length + b.length) = b := by
    rw [slice_at _ _ _ _ (Nat.le_refl _), List.take_length]
  rw [hd, h]
  dsimp only
  rw [hs, if_pos ⟨by simp, ht⟩]
  simp

theorem stored_type (s : Stored) (h : s.Ok) : s.bytes ≠ [] ∧ mapToken s.bytes = ⟨s.type, s.bytes.length, none, none⟩ ∧
    s.type ≠ 0x13 := by
  have key : ∀ t (b : Bytes), s.bytes = t :: b → t.toNat = s.type → s.type ∉ headerTypes → s.type ≠ 0x13 →
      s.bytes ≠ [] ∧ mapToken s.bytes = ⟨s.type, s.bytes.length, none, none⟩ ∧ s.type ≠ 0x13 := by
    intro t b e h1 h2 h3
    refine ⟨by rw [e]; simp, ?_, h3⟩
    unfold mapToken
    rw [show be s.bytes 0 1 = s.type by rw [e, be_type, h1]]
    dsimp only
    rw [if_neg h2, if_neg h3]
  cases s with
  | fixed t body =>
    simp only [Stored.Ok, fixedTokens, List.mem_cons, List.not_mem_nil, or_false, Prod.mk.injEq] at h
    refine key t _ rfl rfl ?_ ?_ <;>
    rcases h with ⟨rfl, h⟩ | ⟨rfl, h⟩ | ⟨rfl, h⟩ | ⟨rfl, h⟩ | ⟨rfl, h⟩ | ⟨rfl, h⟩ | ⟨rfl, h⟩ | ⟨rfl, h⟩ | ⟨rfl, h⟩ |
      ⟨rfl, h⟩ | ⟨rfl, h⟩ | ⟨rfl, h⟩ | ⟨rfl, h⟩ | ⟨rfl, h⟩ | ⟨rfl, h⟩ | ⟨rfl, h⟩ | ⟨rfl, h⟩ | ⟨rfl, h⟩ <;>
      simp [Stored.type, headerTypes]
  | text t before s =>
    have h := h.1
    simp only [stringTokens, List.mem_cons, List.not_mem_nil, or_false, Prod.mk.injEq] at h
    refine key t _ rfl rfl ?_ ?_ <;>
    rcases h with ⟨rfl, h⟩ | ⟨rfl, h⟩ | ⟨rfl, h⟩ | ⟨rfl, h⟩ | ⟨rfl, h⟩ | ⟨rfl, h⟩ | ⟨rfl, h⟩ <;>
      simp [Stored.type, headerTypes]
  | address t before s =>
    have h := h.1
    simp only [addressTokens, List.mem_cons, List.not_mem_nil, or_false, Prod.mk.injEq] at h
    refine key t _ rfl rfl ?_ ?_ <;>
    rcases h with ⟨rfl, h⟩ | ⟨rfl, h⟩ | ⟨rfl, h⟩ | ⟨rfl, h⟩ <;> simp [Stored.type, headerTypes]
  | data f values => exact key 0x21 _ rfl rfl (by simp [Stored.type, headerTypes]) (by simp [Stored.type])
  | groups new ids =>
    refine key (if new then 0x3b else 0x34) _ rfl ?_ ?_ ?_ <;> cases new <;> simp [Stored.type, headerTypes]
  | strings env ss =>
    refine key (if env then 0x3d else 0x3c) _ rfl ?_ ?_ ?_ <;> cases env <;> simp [Stored.type, headerTypes]
  | socket d t p a q b => exact key 0x7f _ rfl rfl (by simp [Stored.type, headerTypes]) (by simp [Stored.type])
  | unix f path => exact key 0x82 _ rfl rfl (by simp [Stored.type, headerTypes]) (by simp [Stored.type])

theorem header_token (text : Bytes → Bool) (r : Record) (h : r.Ok text) :
    mapToken r.header = ⟨r.headerType, r.headerSize, some r.size, some 11⟩ ∧ r.headerType ∈ headerTypes ∧
      r.headerType ≠ 0x13 := by
  obtain ⟨h1, h2, h3, h4, h5, h6⟩ := h
  have hl : r.header.length = r.headerSize := by simp [Record.header, Record.headerSize, h1]; omega
  have hm : r.headerType ∈ headerTypes ∧ r.headerType ≠ 0x13 ∧ r.headerType < 256 := by
    unfold Record.headerType headerTypes
    cases r.wide <;> cases r.address <;> simp
  have ht : be r.header 0 1 = r.headerType := by
    rw [show be r.header 0 1 = (UInt8.ofNat r.headerType).toNat from be_type _ _, UInt8.toNat_ofNat']
    omega
  have f1 : be r.header 1 5 = r.size := by
    have := be_field [[UInt8.ofNat r.headerType]] 4 r.size [[11], r.event, addressBytes r.address, r.times] [] 1 5 rfl rfl
      (by omega)
    simpa [Record.header] using this
  have f2 : be r.header 5 6 = 11 := by
    have : slice r.header 5 6 = [11] := slice_fields [[UInt8.ofNat r.headerType], beBytes 4 r.size] [11] _ 5 6 (by simp) rfl
    unfold be
    rw [this]
    rfl
  refine ⟨?_, hm.1, hm.2.1⟩
  unfold mapToken
  rw [ht]
  dsimp only
  rw [if_pos hm.1, hl, f1, f2]

theorem trailer_token (size : Nat) (h : size < 2 ^ 32) (rest : Bytes) :
    tokenSize (trailer size ++ rest) = some 7 ∧ mapToken (trailer size) = ⟨0x13, 7, some size, none⟩ := by
  have hs : ∀ rest, be (trailer size ++ rest) 1 3 = 0xb105 := fun rest => by
    simp [trailer, be, slice, beNat, beBytes, leBytes]
  constructor
  · unfold tokenSize
    rw [show be (trailer size ++ rest) 0 1 = 0x13 from be_type _ _]
    show (if be (trailer size ++ rest) 1 3 = 0xb105 then some 7 else none) = some 7
    rw [if_pos (hs rest)]
  · unfold mapToken
    rw [show be (trailer size) 0 1 = 0x13 from be_type _ _]
    have f : be (trailer size) 3 7 = size := by
      have := be_field [[0x13], [0xb1, 0x05]] 4 size [] [] 3 7 rfl rfl (by omega)
      simpa [trailer] using this
    dsimp only
    rw [if_neg (by decide), if_pos rfl, f]
    simp [trailer]

theorem readTokens_stored (text : Bytes → Bool) (tokens : List Stored) (size : Nat) (hs : size < 2 ^ 32) :
    ∀ (pre post : Bytes) (stop : Nat) (last : Token) (acc : List Token) (fuel : Nat),
      (∀ t ∈ tokens, t.Ok ∧ text t.bytes) → text (trailer size) →
      (pre ++ tokens.flatMap (·.bytes)).length < stop → tokens.length < fuel →
      readTokens text (pre ++ tokens.flatMap (·.bytes) ++ trailer size ++ post) stop fuel pre.length last acc =
        some (.ok (⟨0x13, 7, some size, none⟩, (pre ++ tokens.flatMap (·.bytes) ++ trailer size).length,
          acc ++ (tokens.map (fun t => ⟨t.type, t.bytes.length, none, none⟩) ++ [⟨0x13, 7, some size, none⟩]))) := by
  induction tokens with
  | nil =>
    intro pre post stop last acc fuel _ ht hstop hf
    obtain ⟨k, rfl⟩ : ∃ k, fuel = k + 1 := ⟨fuel - 1, by simp at hf; omega⟩
    simp only [List.flatMap_nil, List.append_nil] at hstop ⊢
    obtain ⟨g1, g2⟩ := trailer_token size hs post
    have := readToken_bytes text (trailer size) (by simp [trailer]) ht pre post (by rw [g1]; simp [trailer])
    rw [readTokens, if_pos hstop, this]
    dsimp only
    rw [g2, if_pos rfl]
    simp
  | cons t tokens ih =>
    intro pre post stop last acc fuel h ht hstop hf
    obtain ⟨k, rfl⟩ : ∃ k, fuel = k + 1 := ⟨fuel - 1, by simp at hf; omega⟩
    have h0 := h t (by simp)
    obtain ⟨g1, g2, g3⟩ := stored_type t h0.1
    have e : pre ++ (t :: tokens).flatMap (·.bytes) ++ trailer size ++ post =
        pre ++ t.bytes ++ (tokens.flatMap (·.bytes) ++ trailer size ++ post) := by simp
    have e2 : pre ++ (t :: tokens).flatMap (·.bytes) ++ trailer size ++ post =
        (pre ++ t.bytes) ++ tokens.flatMap (·.bytes) ++ trailer size ++ post := by simp
    have := readToken_bytes text t.bytes g1 h0.2 pre (tokens.flatMap (·.bytes) ++ trailer size ++ post)
      (tokenSize_stored t h0.1 _)
    rw [← e] at this
    simp only [List.flatMap_cons, List.length_append] at hstop
    rw [readTokens, if_pos (by omega), this]
    dsimp only
    rw [g2, if_neg g3, e2, ih _ _ _ _ _ _ (fun u hu => h u (by simp [hu])) ht (by simp only [List.length_append]; omega)
      (by simp at hf; omega)]
    simp

theorem readRecord_bytes (text : Bytes → Bool) (r : Record) (h : r.Ok text) (pre post : Bytes) (fuel : Nat)
    (hf : r.tokens.length + 1 < fuel) :
    readRecord text (pre ++ r.bytes ++ post) fuel pre.length = some (.ok (r.values, (pre ++ r.bytes).length)) := by
  obtain ⟨g1, g2⟩ := tokenSize_header text r h (r.tokens.flatMap (·.bytes) ++ trailer r.size ++ post)
  obtain ⟨k1, k2, k3⟩ := header_token text r h
  obtain ⟨h1, h2, h3, h4, h5, h6, h7⟩ := h
  have e : pre ++ r.bytes ++ post = pre ++ r.header ++ (r.tokens.flatMap (·.bytes) ++ trailer r.size ++ post) := by
    simp [Record.bytes]
  have e2 : pre ++ r.bytes ++ post = (pre ++ r.header) ++ r.tokens.flatMap (·.bytes) ++ trailer r.size ++ post := by
    simp [Record.bytes]
  have ht := readToken_bytes text r.header (by simp [Record.header]) h6 pre _ (by rw [g1, g2])
  rw [← e] at ht
  have hsize : 0 < r.size := by unfold Record.size; omega
  have htl : (trailer r.size).length = 7 := by simp [trailer]
  obtain ⟨k, rfl⟩ : ∃ k, fuel = k + 1 := ⟨fuel - 1, by omega⟩
  unfold readRecord
  rw [ht]
  dsimp only
  rw [k1, if_pos ⟨k2, rfl⟩]
  unfold readBody
  rw [if_neg (by simp only [Option.getD_some]; omega), readTokens, if_pos (by simp only [Option.getD_some]; omega), ht]
  dsimp only
  rw [k1, if_neg k3, e2, readTokens_stored text r.tokens r.size h4 _ _ _ _ _ _ h5 h7
    (by simp only [Option.getD_some, List.length_append, g2]; unfold Record.size; omega) (by omega)]
  simp [checkLast, Record.values, Record.bytes]

/-! ## C49 -/

/-- All records are read, in order, with all of their tokens. -/
theorem C49_records (text : Bytes → Bool) (records : List Record) (h : ∀ r ∈ records, r.Ok text) (fuel : Nat)
    (hf : records.length < fuel) :
    readFile text (records.flatMap (·.bytes)) fuel 0 [] = some (.ok (records.map (·.values))) := by
  have key : ∀ (records : List Record) (pre : Bytes) (acc : List (List Token)) (fuel : Nat),
      (∀ r ∈ records, r.Ok text) → records.length < fuel →
      readFile text (pre ++ records.flatMap (·.bytes)) fuel pre.length acc =
        some (.ok (acc ++ records.map (·.values))) := by
    intro records
    induction records with
    | nil =>
      intro pre acc fuel _ hf
      obtain ⟨k, rfl⟩ : ∃ k, fuel = k + 1 := ⟨fuel - 1, by simp at hf; omega⟩
      rw [readFile, if_neg (by simp)]
      simp
    | cons r records ih =>
      intro pre acc fuel h hf
      obtain ⟨k, rfl⟩ : ∃ k, fuel = k + 1 := ⟨fuel - 1, by simp at hf; omega⟩
      have hr := h r (by simp)
      have e : pre ++ (r :: records).flatMap (·.bytes) = pre ++ r.bytes ++ records.flatMap (·.bytes) := by simp
      have hlen : ∀ ts : List Stored, (∀ t ∈ ts, t.Ok) → ts.length ≤ (ts.flatMap (·.bytes)).length := by
        intro ts hts
        induction ts with
        | nil => simp
        | cons t ts ih =>
          have h1 := List.length_pos_iff.mpr (stored_type t (hts t (by simp))).1
          have h2 := ih (fun u hu => hts u (by simp [hu]))
          simp only [List.length_cons, List.flatMap_cons, List.length_append]
          omega
      have h1 := hlen r.tokens (fun t ht => (hr.2.2.2.2.1 t ht).1)
      have h2 : r.bytes.length = r.header.length + (r.tokens.flatMap (·.bytes)).length + 7 := by
        simp [Record.bytes, trailer]
        omega
      rw [e, readFile, if_pos (by simp only [List.length_append]; omega),
        readRecord_bytes text r hr _ _ _ (by simp only [List.length_append]; omega)]
      dsimp only
      rw [ih _ _ _ (fun t ht => h t (by simp [ht])) (by simp at hf; omega)]
      simp
  simpa using key records [] [] fuel h hf

theorem tokenSize_pos (b : Bytes) (n : Nat) (h : tokenSize b = some n) : 0 < n := by
  unfold tokenSize at h
  split at h <;> first
    | (cases h; omega)
    | (split at h <;> cases h; omega)
    | (rw [Option.map_eq_some_iff] at h; obtain ⟨m, _, rfl⟩ := h; omega)
    | cases h

theorem readToken_forward (text : Bytes → Bool) (data : Bytes) (off : Nat) (t : Token) (next : Nat)
    (h : readToken text data off = .ok (t, next)) : off < next ∧ next ≤ data.length := by
  unfold readToken at h
  split at h
  · cases h
  · split at h
    · cases h
    · rename_i n hn
      have := tokenSize_pos _ _ hn
      split at h
      · rename_i hc
        cases h
        exact ⟨by omega, hc.1⟩
      · cases h

theorem readTokens_ends (text : Bytes → Bool) (data : Bytes) (stop : Nat) (fuel : Nat) : ∀ off last acc,
    off ≤ data.length → data.length - off < fuel →
    ∃ r, readTokens text data stop fuel off last acc = some r ∧
      ∀ l next ts, r = .ok (l, next, ts) → off ≤ next ∧ next ≤ data.length ∧ (off < stop → off < next) := by
  induction fuel with
  | zero => intro off last acc _ h; omega
  | succ fuel ih =>
    intro off last acc hle hf
    rw [readTokens]
    split
    · cases ht : readToken text data off with
      | error e => exact ⟨_, rfl, fun l next ts he => by cases he⟩
      | ok x =>
        obtain ⟨t, next⟩ := x
        have hx := readToken_forward text data off t next ht
        dsimp only
        split
        · exact ⟨_, rfl, fun l n ts he => by cases he; omega⟩
        · obtain ⟨r, hr, hr'⟩ := ih next t (acc ++ [t]) hx.2 (by omega)
          exact ⟨r, hr, fun l n ts he => by have := hr' l n ts he; omega⟩
    · exact ⟨_, rfl, fun l next ts he => by cases he; omega⟩

theorem readRecord_ends (text : Bytes → Bool) (data : Bytes) (off : Nat) :
    ∃ r, readRecord text data (data.length + 1) off = some r ∧
      ∀ ts next, r = .ok (ts, next) → off < next ∧ next ≤ data.length := by
  unfold readRecord
  cases ht : readToken text data off with
  | error e => exact ⟨_, rfl, fun ts next he => by cases he⟩
  | ok x =>
    obtain ⟨t, next⟩ := x
    have hx := readToken_forward text data off t next ht
    dsimp only
    split
    · unfold readBody
      split
      · exact ⟨_, rfl, fun ts n he => by cases he; exact hx⟩
      · rename_i hne
        obtain ⟨r, hr, hr'⟩ := readTokens_ends text data (off + t.recordSize.getD 0) (data.length + 1) off t []
          (by omega) (by omega)
        rw [hr]
        cases r with
        | error e => exact ⟨_, rfl, fun ts next he => by cases he⟩
        | ok y =>
          obtain ⟨l, n, ts⟩ := y
          have hy := hr' l n ts rfl
          dsimp only
          split
          · exact ⟨_, rfl, fun ts next he => by cases he⟩
          · exact ⟨_, rfl, fun ts next he => by cases he; omega⟩
    · exact ⟨_, rfl, fun ts next he => by cases he⟩

/-- Reading ends for every file. -/
theorem C49_terminates (text : Bytes → Bool) (data : Bytes) : readFile text data (data.length + 1) 0 [] ≠ none := by
  have key : ∀ fuel off acc, data.length - off < fuel → readFile text data fuel off acc ≠ none := by
    intro fuel
    induction fuel with
    | zero => intro off acc h; omega
    | succ fuel ih =>
      intro off acc h
      rw [readFile]
      split
      · obtain ⟨r, hr, hr'⟩ := readRecord_ends text data off
        rw [hr]
        cases r with
        | error e => simp
        | ok x =>
          have := hr' x.1 x.2 rfl
          exact ih _ _ (by omega)
      · simp
  exact key _ _ _ (by omega)

/-- A run of tokens that are stored one after another, as `readToken` reads each. -/
inductive Run (text : Bytes → Bool) (data : Bytes) : Nat → List Token → Nat → Prop
  | nil (off : Nat) : Run text data off [] off
  | cons (off next stop : Nat) (t : Token) (ts : List Token) :
      readToken text data off = .ok (t, next) → Run text data next ts stop → Run text data off (t :: ts) stop

theorem readTokens_run (text : Bytes → Bool) (data : Bytes) (stop : Nat) (fuel : Nat) :
    ∀ off last acc l next out, readTokens text data stop fuel off last acc = some (.ok (l, next, out)) →
      ∃ ts, out = acc ++ ts ∧ Run text data off ts next ∧ (last :: ts).getLast? = some l ∧
        (l.type = 0x13 ∧ ts ≠ [] ∨ stop ≤ next) ∧ (off < stop → ts ≠ []) := by
  induction fuel with
  | zero => intro off last acc l next out h; simp [readTokens] at h
  | succ fuel ih =>
    intro off last acc l next out h
    rw [readTokens] at h
    split at h
    · split at h
      · cases h
      · rename_i t n ht
        split at h
        · rename_i htr
          simp only [Option.some.injEq, Except.ok.injEq, Prod.mk.injEq] at h
          obtain ⟨rfl, rfl, rfl⟩ := h
          exact ⟨[_], rfl, .cons _ _ _ _ _ ht (.nil _), rfl, Or.inl ⟨htr, by simp⟩, by simp⟩
        · obtain ⟨ts, h1, h2, h3, h4, _⟩ := ih _ _ _ _ _ _ h
          refine ⟨t :: ts, by rw [h1]; simp, .cons _ _ _ _ _ ht h2, ?_, ?_, by simp⟩
          · rw [List.getLast?_cons_cons]
            exact h3
          · rcases h4 with h4 | h4
            · exact Or.inl ⟨h4.1, by simp⟩
            · exact Or.inr h4
    · rename_i hn
      cases h
      exact ⟨[], by simp, .nil _, rfl, Or.inr (by omega), fun hc => absurd hc hn⟩

/-- What is accepted as a record begins with a header, ends with a trailer and has the same size in both. -/
def C49_framing_claim : Prop :=
  ∀ text data fuel off tokens next, readRecord text data fuel off = some (.ok (tokens, next)) →
    ∃ h l, tokens.head? = some h ∧ tokens.getLast? = some l ∧ h.type ∈ headerTypes ∧ l.type = 0x13 ∧
      h.recordSize = l.recordSize

/-- A record that is only a header is accepted. -/
theorem C49_header_only : readRecord (fun _ => true) ([0x14, 0, 0, 0, 18, 11] ++ List.replicate 12 0) 19 0 =
    some (.ok ([⟨0x14, 18, some 18, some 11⟩], 18)) := by decide +kernel

theorem C49_framing_claim_false : ¬ C49_framing_claim := by
  intro h
  obtain ⟨a, l, _, h2, _, h4, _⟩ := h _ _ _ _ _ _ C49_header_only
  cases h2
  exact absurd h4 (by decide)

theorem mapToken_size (b : Bytes) (s : Nat) (h : (mapToken b).recordSize = some s) :
    (mapToken b).type ∈ headerTypes ∨ (mapToken b).type = 0x13 := by
  unfold mapToken at h ⊢
  dsimp only at h ⊢
  split
  · rename_i hc
    exact Or.inl hc
  · rename_i hc
    rw [if_neg hc] at h
    split
    · rename_i hd
      exact Or.inr hd
    · rename_i hd
      rw [if_neg hd] at h
      cases h

theorem readToken_size (text : Bytes → Bool) (data : Bytes) (off : Nat) (t : Token) (next s : Nat)
    (h : readToken text data off = .ok (t, next)) (hs : t.recordSize = some s) : t.type ∈ headerTypes ∨ t.type = 0x13 := by
  unfold readToken at h
  split at h
  · cases h
  · split at h
    · cases h
    · split at h
      · cases h
        exact mapToken_size _ _ hs
      · cases h

theorem run_mem (text : Bytes → Bool) (data : Bytes) (off stop : Nat) (ts : List Token) (h : Run text data off ts stop)
    (t : Token) (ht : t ∈ ts) : ∃ o n, readToken text data o = .ok (t, n) := by
  induction h with
  | nil => cases ht
  | cons off next stop u ts hr _ ih =>
    rcases List.mem_cons.mp ht with he | ht
    · exact ⟨_, _, he ▸ hr⟩
    · exact ih ht

/-- What is accepted as a record has tokens that follow one another; the first is a header of version 11 with the size
of the record, the last is a trailer or a header, with the same size. It is a trailer if there is another token than
the first and none of these is a header; the record has no tokens only if its size is 0. -/
theorem C49_framing_partial (text : Bytes → Bool) (data : Bytes) (fuel off : Nat) (tokens : List Token) (next : Nat)
    (hr : readRecord text data fuel off = some (.ok (tokens, next))) :
    ∃ h after size, readToken text data off = .ok (h, after) ∧ h.type ∈ headerTypes ∧ h.formatVersion = some 11 ∧
      h.recordSize.getD 0 = size ∧
      (size = 0 ∧ tokens = [] ∧ next = after ∨
        ∃ l, Run text data off tokens next ∧ tokens.head? = some h ∧ tokens.getLast? = some l ∧
          l.recordSize = some size ∧ (l.type = 0x13 ∨ l.type ∈ headerTypes ∧ off + size ≤ next) ∧
          (1 < tokens.length → (∀ t ∈ tokens.tail, t.type ∉ headerTypes) → l.type = 0x13)) := by
  unfold readRecord at hr
  split at hr
  · cases hr
  · rename_i h after ht
    split at hr
    · rename_i hc
      refine ⟨h, after, _, ht, hc.1, hc.2, rfl, ?_⟩
      unfold readBody at hr
      split at hr
      · rename_i h0
        cases hr
        exact Or.inl ⟨h0, rfl, rfl⟩
      · rename_i h0
        right
        split at hr
        · cases hr
        · cases hr
        · rename_i l n ts hts
          split at hr
          · cases hr
          · rename_i hck
            cases hr
            obtain ⟨ts, he, h1, h2, h3, h4⟩ := readTokens_run _ _ _ _ _ _ _ _ _ _ hts
            rw [List.nil_append] at he
            subst he
            have hne : tokens ≠ [] := h4 (by omega)
            have hl : tokens.getLast? = some l := by
              rw [← h2]
              cases tokens with
              | nil => exact absurd rfl hne
              | cons t ts => rw [List.getLast?_cons_cons]
            have hls : l.recordSize = some (h.recordSize.getD 0) := by
              unfold checkLast at hck
              split at hck
              · cases hck
              · rename_i s hs
                split at hck
                · rename_i hs2
                  rw [hs, hs2]
                · cases hck
            have hlm : l ∈ tokens := List.mem_of_getLast? hl
            obtain ⟨o, n, hlr⟩ := run_mem text data off next tokens h1 l hlm
            have hty := readToken_size text data o l n _ hlr hls
            refine ⟨l, h1, ?_, hl, hls, ?_, ?_⟩
            · cases h1 with
              | nil => exact absurd rfl hne
              | cons _ _ _ t ts hr _ =>
                rw [ht] at hr
                cases hr
                rfl
            · rcases hty with hty | hty
              · rcases h3 with h3 | h3
                · exact Or.inl h3.1
                · exact Or.inr ⟨hty, h3⟩
              · exact Or.inl hty
            · intro hlen hno
              rcases hty with hty | hty
              · refine absurd hty (hno l ?_)
                match tokens, hlen, hl with
                | _ :: u :: us, _, hl =>
                  rw [List.getLast?_cons_cons] at hl
                  exact List.mem_of_getLast? hl
              · exact hty
    · cases hr

/-- A record ends where its size says. -/
def C49_tiling_claim : Prop :=
  ∀ text data fuel off tokens next h, readRecord text data fuel off = some (.ok (tokens, next)) →
    tokens.head? = some h → next = off + h.recordSize.getD 0

/-- A trailer ends it wherever it is. -/
theorem C49_tiling_claim_false : ¬ C49_tiling_claim := by
  intro h
  have hr : readRecord (fun _ => true) ([0x14, 0, 0, 0, 30, 11] ++ List.replicate 12 0 ++
      [0x13, 0xb1, 0x05, 0, 0, 0, 30, 1, 2, 3, 4, 5]) 31 0 =
      some (.ok ([⟨0x14, 18, some 30, some 11⟩, ⟨0x13, 7, some 30, none⟩], 25)) := by decide +kernel
  exact absurd (h _ _ _ _ _ _ _ hr rfl) (by decide)

/-- A file of two records, with strings, groups and an address. -/
example : ∃ out, readFile (fun _ => true) ([(⟨false, none, [0, 1, 0, 0], List.replicate 8 0,
    [.text 0x23 [] [47, 0], .groups true [1, 2], .strings false [[97], [98, 99]], .fixed 0x27 [0, 0, 0, 0, 0]]⟩ : Record),
    ⟨true, some [1, 2, 3, 4], [0, 2, 0, 0], List.replicate 16 0,
      [.socket 1 2 3 [1, 2, 3, 4] 5 [6, 7, 8, 9], .unix 1 [47], .address 0x7a (List.replicate 32 0) [1, 2, 3, 4]]⟩].flatMap
        (·.bytes)) 3 0 [] = some (.ok out) ∧ out.map (·.map (·.type)) =
          [[0x14, 0x23, 0x3b, 0x3c, 0x27, 0x13], [0x79, 0x7f, 0x82, 0x7a, 0x13]] := by
  refine ⟨_, C49_records (fun _ => true) _ ?_ 3 (by decide), by decide⟩
  intro r hr
  simp only [List.mem_cons, List.not_mem_nil, or_false] at hr
  rcases hr with rfl | rfl <;> refine ⟨rfl, rfl, by simp, by decide, ?_, rfl, rfl⟩ <;> intro t ht <;>
    simp only [List.mem_cons, List.not_mem_nil, or_false] at ht
  · rcases ht with rfl | rfl | rfl | rfl <;> refine ⟨?_, rfl⟩ <;> simp [Stored.Ok, stringTokens, fixedTokens]
  · rcases ht with rfl | rfl | rfl <;> refine ⟨?_, rfl⟩ <;> simp [Stored.Ok, addressTokens]

/-! ## C96 -/

/-- The size of an element of a data token, by its type: bytes, and integers of 16, 32 and 64 bits. -/
def elementSize : Nat → Nat
  | 0 => 1
  | 1 => 2
  | 2 => 4
  | 3 => 8
  | _ => 1

/-- The whole of a data token is read, for all types of elements. -/
def C96_claim : Prop :=
  ∀ (format type : UInt8) (values pre post : Bytes) (n : Nat), type.toNat ≤ 3 → n < 256 →
    values.length = n * elementSize type.toNat →
    ∃ t, readToken (fun _ => true) (pre ++ ([0x21, format, type, UInt8.ofNat n] ++ values) ++ post) pre.length =
      .ok (t, pre.length + 4 + values.length)

/-- The type is not looked at: as many bytes as elements are read. -/
theorem C96_elements (format type : UInt8) (values pre post : Bytes) (n : Nat) (hn : n < 256) (h : n ≤ values.length) :
    ∃ t, readToken (fun _ => true) (pre ++ ([0x21, format, type, UInt8.ofNat n] ++ values) ++ post) pre.length =
      .ok (t, pre.length + 4 + n) := by
  have e : pre ++ ([0x21, format, type, UInt8.ofNat n] ++ values) ++ post =
      pre ++ ([0x21, format, type, UInt8.ofNat n] ++ values.take n) ++ (values.drop n ++ post) := by
    rw [← List.append_assoc _ (values.drop n), List.append_assoc pre (_ ++ List.take n values), List.append_assoc _
      (List.take n values), List.take_append_drop]
  refine ⟨mapToken ([0x21, format, type, UInt8.ofNat n] ++ values.take n), ?_⟩
  rw [e, readToken_bytes _ _ (by simp) rfl]
  · simp
    omega
  · unfold tokenSize
    rw [show be ([0x21, format, type, UInt8.ofNat n] ++ values.take n ++ (values.drop n ++ post)) 0 1 = 0x21 from
      be_type _ _]
    have hf : be ([0x21, format, type, UInt8.ofNat n] ++ values.take n ++ (values.drop n ++ post)) 3 4 = n := by
      simp [be, slice, beNat]
      omega
    simp only [hf]
    simp
    omega

theorem C96_bytes_partial (format : UInt8) (values pre post : Bytes) (h : values.length < 256) :
    ∃ t, readToken (fun _ => true) (pre ++ ([0x21, format, 0, UInt8.ofNat values.length] ++ values) ++ post) pre.length =
      .ok (t, pre.length + 4 + values.length) :=
  C96_elements format 0 values pre post values.length h (Nat.le_refl _)

theorem C96_claim_false : ¬ C96_claim := by
  intro h
  obtain ⟨t, ht⟩ := h 0 1 [0, 1] [] [] 1 (by decide) (by decide) rfl
  obtain ⟨u, hu⟩ := C96_elements 0 1 [0, 1] [] [] 1 (by decide) (by decide)
  rw [ht] at hu
  cases hu

end Dtf.Bsm
