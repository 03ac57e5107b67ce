import Verif.Py

/-!
# UTF-8 and UTF-16 (C189)

The other modules have the decoders of Python, `decode("utf-8")` and `decode("utf-16-le")`, as parameters.  Here they are:
strict decoders that accept what is well-formed by the Unicode standard (table 3-7 for UTF-8) and nothing else, which is
what Python documents.  `Utf/Texts.lean` puts them in the place of the parameters.
-/

namespace Dtf.Utf
open Py

/-! ## Model -/

/-- A byte that continues a sequence. -/
def cont (b : UInt8) : Bool := 0x80 ≤ b.toNat ∧ b.toNat < 0xC0

/-- `bytes.decode("utf-8")`, as in dtformats/asl.py 216, dtformats/utmp.py 43 and, through dtfabric, for the strings with
`encoding: utf8`, as in dtformats/fseventsd.yaml; `none` is a `UnicodeDecodeError`. -/
def decode8 : Bytes → Option (List Char)
  | [] => some []
  | a :: l1 =>
    if a.toNat < 0x80 then (decode8 l1).map (Char.ofNat a.toNat :: ·)
    else
      match l1 with
      | [] => none
      | b :: l2 =>
        if !cont b then none
        else if 0xC2 ≤ a.toNat ∧ a.toNat < 0xE0 then
          (decode8 l2).map (Char.ofNat ((a.toNat - 0xC0) * 64 + (b.toNat - 0x80)) :: ·)
        else
          match l2 with
          | [] => none
          | c :: l3 =>
            if !cont c then none
            else if 0xE0 ≤ a.toNat ∧ a.toNat < 0xF0 then
              let n := (a.toNat - 0xE0) * 4096 + (b.toNat - 0x80) * 64 + (c.toNat - 0x80)
              if 0x800 ≤ n ∧ n.isValidChar then (decode8 l3).map (Char.ofNat n :: ·) else none
            else
              match l3 with
              | [] => none
              | d :: l4 =>
                if !cont d then none
                else if 0xF0 ≤ a.toNat ∧ a.toNat < 0xF8 then
                  let n := (a.toNat - 0xF0) * 262144 + (b.toNat - 0x80) * 4096 + (c.toNat - 0x80) * 64 + (d.toNat - 0x80)
                  if 0x10000 ≤ n ∧ n.isValidChar then (decode8 l4).map (Char.ofNat n :: ·) else none
                else none

/-- The code units that `decode("utf-16-le")` decodes; `none` is a `UnicodeDecodeError`. -/
def decodeUnits : List Nat → Option (List Char)
  | [] => some []
  | u :: l1 =>
    if u < 0xD800 ∨ (0xE000 ≤ u ∧ u < 0x10000) then (decodeUnits l1).map (Char.ofNat u :: ·)
    else if u < 0xDC00 then
      match l1 with
      | [] => none
      | v :: l2 =>
        if 0xDC00 ≤ v ∧ v < 0xE000 then
          (decodeUnits l2).map (Char.ofNat (0x10000 + (u - 0xD800) * 1024 + (v - 0xDC00)) :: ·)
        else none
    else none

/-- The code units of bytes; `none` if there is a byte left. -/
def unitsOf : Bytes → Option (List Nat)
  | [] => some []
  | [_] => none
  | a :: b :: l => (unitsOf l).map ((a.toNat + 256 * b.toNat) :: ·)

/-- `bytes.decode("utf-16-le")`, through dtfabric for the strings with `encoding: utf-16-le`, as in dtformats/recycle_bin.yaml
and dtformats/wmi_repository.yaml. -/
def decode16 (b : Bytes) : Option (List Char) := (unitsOf b).bind decodeUnits

/-! ## Specification -/

/-- The bytes of a character in UTF-8. -/
def char8 (c : Char) : List Nat :=
  let n := c.toNat
  if n < 0x80 then [n]
  else if n < 0x800 then [0xC0 + n / 64, 0x80 + n % 64]
  else if n < 0x10000 then [0xE0 + n / 4096, 0x80 + n / 64 % 64, 0x80 + n % 64]
  else [0xF0 + n / 262144, 0x80 + n / 4096 % 64, 0x80 + n / 64 % 64, 0x80 + n % 64]

def encode8 (s : List Char) : Bytes := s.flatMap (fun c => (char8 c).map UInt8.ofNat)

/-- The code units of a character in UTF-16. -/
def char16 (c : Char) : List Nat :=
  let n := c.toNat
  if n < 0x10000 then [n] else [0xD800 + (n - 0x10000) / 1024, 0xDC00 + (n - 0x10000) % 1024]

def units16 (s : List Char) : List Nat := s.flatMap char16

def encode16 (s : List Char) : Bytes := (units16 s).flatMap (fun u => [UInt8.ofNat (u % 256), UInt8.ofNat (u / 256)])

/-! ## Characters -/

theorem toNat_ofNat (n : Nat) (h : n.isValidChar) : (Char.ofNat n).toNat = n := by
  rw [Char.ofNat, dif_pos h]
  show (BitVec.ofNatLT n _).toNat = n
  rw [BitVec.toNat_ofNatLT]

theorem toNat_valid (c : Char) : c.toNat < 0xD800 ∨ (0xDFFF < c.toNat ∧ c.toNat < 0x110000) := c.valid

theorem byte_toNat (n : Nat) (h : n < 256) : (UInt8.ofNat n).toNat = n := by
  rw [UInt8.toNat_ofNat']
  omega

theorem byte_ofNat (b : UInt8) (n : Nat) (h : n = b.toNat) : UInt8.ofNat n = b := by
  rw [h]
  exact UInt8.ofNat_toNat

theorem cont_iff (b : UInt8) : cont b = true ↔ 0x80 ≤ b.toNat ∧ b.toNat < 0xC0 := by
  simp [cont]

/-! ## UTF-8 -/

theorem decode8_char (c : Char) (rest : Bytes) :
    decode8 ((char8 c).map UInt8.ofNat ++ rest) = (decode8 rest).map (c :: ·) := by
  have hv := toNat_valid c
  unfold char8
  dsimp only
  split
  · rename_i h1
    rw [List.map_cons, List.map_nil, List.singleton_append, decode8.eq_def]
    dsimp only
    rw [if_pos (by rw [byte_toNat _ (by omega)]; exact h1),
      byte_toNat _ (by omega), Char.ofNat_toNat]
  · split
    · rename_i h1 h2
      have ha : (UInt8.ofNat (0xC0 + c.toNat / 64)).toNat = 0xC0 + c.toNat / 64 := byte_toNat _ (by omega)
      have hb : (UInt8.ofNat (0x80 + c.toNat % 64)).toNat = 0x80 + c.toNat % 64 := byte_toNat _ (by omega)
      have cb : cont (UInt8.ofNat (0x80 + c.toNat % 64)) = true := by rw [cont_iff, hb]; omega
      rw [List.map_cons, List.map_cons, List.map_nil, List.cons_append, List.cons_append, List.nil_append, decode8.eq_def]
      dsimp only
      rw [if_neg (by rw [ha]; omega)]
      rw [cb, if_neg (by simp), if_pos (by rw [ha]; omega), ha, hb]
      rw [show (0xC0 + c.toNat / 64 - 0xC0) * 64 + (0x80 + c.toNat % 64 - 0x80) = c.toNat by omega, Char.ofNat_toNat]
    · split
      · rename_i h1 h2 h3
        have ha : (UInt8.ofNat (0xE0 + c.toNat / 4096)).toNat = 0xE0 + c.toNat / 4096 := byte_toNat _ (by omega)
        have hb : (UInt8.ofNat (0x80 + c.toNat / 64 % 64)).toNat = 0x80 + c.toNat / 64 % 64 := byte_toNat _ (by omega)
        have hc : (UInt8.ofNat (0x80 + c.toNat % 64)).toNat = 0x80 + c.toNat % 64 := byte_toNat _ (by omega)
        have cb : cont (UInt8.ofNat (0x80 + c.toNat / 64 % 64)) = true := by rw [cont_iff, hb]; omega
        have cc : cont (UInt8.ofNat (0x80 + c.toNat % 64)) = true := by rw [cont_iff, hc]; omega
        simp only [List.map_cons, List.map_nil, List.cons_append, List.nil_append]
        rw [decode8.eq_def]
        dsimp only
        rw [if_neg (by rw [ha]; omega)]
        rw [cb, if_neg (by simp), if_neg (by rw [ha]; omega), cc, if_neg (by simp), if_pos (by rw [ha]; omega), ha, hb, hc]
        rw [show (0xE0 + c.toNat / 4096 - 0xE0) * 4096 + (0x80 + c.toNat / 64 % 64 - 0x80) * 64 +
          (0x80 + c.toNat % 64 - 0x80) = c.toNat by omega, if_pos ⟨by omega, c.valid⟩, Char.ofNat_toNat]
      · rename_i h1 h2 h3
        have ha : (UInt8.ofNat (0xF0 + c.toNat / 262144)).toNat = 0xF0 + c.toNat / 262144 := byte_toNat _ (by omega)
        have hb : (UInt8.ofNat (0x80 + c.toNat / 4096 % 64)).toNat = 0x80 + c.toNat / 4096 % 64 := byte_toNat _ (by omega)
        have hc : (UInt8.ofNat (0x80 + c.toNat / 64 % 64)).toNat = 0x80 + c.toNat / 64 % 64 := byte_toNat _ (by omega)
        have hd : (UInt8.ofNat (0x80 + c.toNat % 64)).toNat = 0x80 + c.toNat % 64 := byte_toNat _ (by omega)
        have cb : cont (UInt8.ofNat (0x80 + c.toNat / 4096 % 64)) = true := by rw [cont_iff, hb]; omega
        have cc : cont (UInt8.ofNat (0x80 + c.toNat / 64 % 64)) = true := by rw [cont_iff, hc]; omega
        have cd : cont (UInt8.ofNat (0x80 + c.toNat % 64)) = true := by rw [cont_iff, hd]; omega
        simp only [List.map_cons, List.map_nil, List.cons_append, List.nil_append]
        rw [decode8.eq_def]
        dsimp only
        rw [if_neg (by rw [ha]; omega)]
        rw [cb, if_neg (by simp), if_neg (by rw [ha]; omega), cc, if_neg (by simp), if_neg (by rw [ha]; omega),
          cd, if_neg (by simp), if_pos (by rw [ha]; omega), ha, hb, hc, hd]
        rw [show (0xF0 + c.toNat / 262144 - 0xF0) * 262144 + (0x80 + c.toNat / 4096 % 64 - 0x80) * 4096 +
          (0x80 + c.toNat / 64 % 64 - 0x80) * 64 + (0x80 + c.toNat % 64 - 0x80) = c.toNat by omega,
          if_pos ⟨by omega, c.valid⟩, Char.ofNat_toNat]

/-- Every text that is stored in UTF-8 is decoded to it. -/
theorem C189_utf8 (s : List Char) : decode8 (encode8 s) = some s := by
  induction s with
  | nil => rfl
  | cons c s ih =>
    rw [encode8, List.flatMap_cons, decode8_char, show List.flatMap _ s = encode8 s from rfl, ih]
    rfl

theorem encode8_cons (c : Char) (s : List Char) : encode8 (c :: s) = (char8 c).map UInt8.ofNat ++ encode8 s := rfl

/-- Nothing else is decoded: bytes that are decoded are those of the text. -/
theorem C189_utf8_only (b : Bytes) (s : List Char) (h : decode8 b = some s) : b = encode8 s := by
  fun_induction decode8 b generalizing s with
  | case1 => cases h; rfl
  | case2 a l1 ha ih =>
    obtain ⟨t, ht, rfl⟩ := Option.map_eq_some_iff.mp h
    rw [encode8_cons, ← ih t ht]
    have hn := toNat_ofNat a.toNat (.inl (by omega))
    unfold char8
    dsimp only
    rw [hn, if_pos ha]
    simp
  | case3 => cases h
  | case4 => cases h
  | case5 a h1 b l2 hb ha ih =>
    obtain ⟨t, ht, rfl⟩ := Option.map_eq_some_iff.mp h
    rw [encode8_cons, ← ih t ht]
    have hb' := (cont_iff b).mp (by simpa using hb)
    have hn := toNat_ofNat ((a.toNat - 0xC0) * 64 + (b.toNat - 0x80)) (.inl (by omega))
    unfold char8
    dsimp only
    rw [hn, if_neg (by omega), if_pos (by omega)]
    simp only [List.map_cons, List.map_nil, List.cons_append, List.nil_append]
    rw [byte_ofNat a _ (by omega), byte_ofNat b _ (by omega)]
  | case6 => cases h
  | case7 => cases h
  | case8 a h1 b hb ha c l3 hc ha2 n hn ih =>
    obtain ⟨t, ht, rfl⟩ := Option.map_eq_some_iff.mp h
    rw [encode8_cons, ← ih t ht]
    have hb' := (cont_iff b).mp (by simpa using hb)
    have hc' := (cont_iff c).mp (by simpa using hc)
    have hn' := toNat_ofNat n hn.2
    unfold char8
    dsimp only
    have hd : n = (a.toNat - 0xE0) * 4096 + (b.toNat - 0x80) * 64 + (c.toNat - 0x80) := rfl
    rw [hn', if_neg (by omega), if_neg (by omega), if_pos (by omega)]
    simp only [List.map_cons, List.map_nil, List.cons_append, List.nil_append]
    rw [byte_ofNat a _ (by omega), byte_ofNat b _ (by omega), byte_ofNat c _ (by omega)]
  | case9 => cases h
  | case10 => cases h
  | case11 => cases h
  | case12 a h1 b hb ha c hc ha2 d l4 hd ha3 n hn ih =>
    obtain ⟨t, ht, rfl⟩ := Option.map_eq_some_iff.mp h
    rw [encode8_cons, ← ih t ht]
    have hb' := (cont_iff b).mp (by simpa using hb)
    have hc' := (cont_iff c).mp (by simpa using hc)
    have hd' := (cont_iff d).mp (by simpa using hd)
    have hn' := toNat_ofNat n hn.2
    have hv : n < 0xD800 ∨ (0xDFFF < n ∧ n < 0x110000) := hn.2
    unfold char8
    dsimp only
    have hdef : n = (a.toNat - 0xF0) * 262144 + (b.toNat - 0x80) * 4096 + (c.toNat - 0x80) * 64 + (d.toNat - 0x80) := rfl
    rw [hn', if_neg (by omega), if_neg (by omega), if_neg (by omega)]
    simp only [List.map_cons, List.map_nil, List.cons_append, List.nil_append]
    rw [byte_ofNat a _ (by omega), byte_ofNat b _ (by omega), byte_ofNat c _ (by omega), byte_ofNat d _ (by omega)]
  | case13 => cases h
  | case14 => cases h

/-- Two texts have two encodings. -/
theorem C189_utf8_injective (s t : List Char) (h : encode8 s = encode8 t) : s = t := by
  have := C189_utf8 s
  rw [h, C189_utf8] at this
  exact (Option.some.inj this).symm

/-! ## UTF-16 -/

theorem decodeUnits_char (c : Char) (rest : List Nat) :
    decodeUnits (char16 c ++ rest) = (decodeUnits rest).map (c :: ·) := by
  have hv := toNat_valid c
  unfold char16
  dsimp only
  split
  · rw [List.singleton_append, decodeUnits.eq_def]
    dsimp only
    rw [if_pos (by omega), Char.ofNat_toNat]
  · simp only [List.cons_append, List.nil_append]
    rw [decodeUnits.eq_def]
    dsimp only
    rw [if_neg (by omega), if_pos (by omega), if_pos (by omega)]
    rw [show 0x10000 + (0xD800 + (c.toNat - 0x10000) / 1024 - 0xD800) * 1024 + (0xDC00 + (c.toNat - 0x10000) % 1024 - 0xDC00) =
      c.toNat by omega, Char.ofNat_toNat]

theorem decodeUnits_units (s : List Char) : decodeUnits (units16 s) = some s := by
  induction s with
  | nil => rfl
  | cons c s ih =>
    rw [units16, List.flatMap_cons, decodeUnits_char, show List.flatMap _ s = units16 s from rfl, ih]
    rfl

theorem units16_lt (s : List Char) : ∀ u ∈ units16 s, u < 0x10000 := by
  intro u hu
  obtain ⟨c, _, hc⟩ := List.mem_flatMap.mp hu
  have hv := toNat_valid c
  unfold char16 at hc
  dsimp only at hc
  split at hc <;> simp only [List.mem_cons, List.not_mem_nil, or_false] at hc <;> omega

theorem unitsOf_bytes (l : List Nat) (h : ∀ u ∈ l, u < 0x10000) :
    unitsOf (l.flatMap (fun u => [UInt8.ofNat (u % 256), UInt8.ofNat (u / 256)])) = some l := by
  induction l with
  | nil => rfl
  | cons u l ih =>
    have hu := h u (by simp)
    simp only [List.flatMap_cons, List.cons_append, List.nil_append, unitsOf]
    rw [ih (fun v hv => h v (by simp [hv])), byte_toNat _ (by omega), byte_toNat _ (by omega), Option.map_some,
      show u % 256 + 256 * (u / 256) = u by omega]

/-- Every text that is stored in UTF-16 is decoded to it. -/
theorem C189_utf16 (s : List Char) : decode16 (encode16 s) = some s := by
  rw [decode16, encode16, unitsOf_bytes _ (units16_lt s)]
  exact decodeUnits_units s

theorem units16_cons (c : Char) (s : List Char) : units16 (c :: s) = char16 c ++ units16 s := rfl

theorem decodeUnits_only (l : List Nat) (s : List Char) (h : decodeUnits l = some s) : l = units16 s := by
  fun_induction decodeUnits l generalizing s with
  | case1 => cases h; rfl
  | case2 u l1 hu ih =>
    obtain ⟨t, ht, rfl⟩ := Option.map_eq_some_iff.mp h
    have hn := toNat_ofNat u (by unfold Nat.isValidChar; omega)
    rw [units16_cons, ← ih t ht]
    unfold char16
    dsimp only
    rw [hn, if_pos (by omega)]
    rfl
  | case3 => cases h
  | case4 u hu hu2 v l2 hv ih =>
    obtain ⟨t, ht, rfl⟩ := Option.map_eq_some_iff.mp h
    have hn := toNat_ofNat (0x10000 + (u - 0xD800) * 1024 + (v - 0xDC00)) (by unfold Nat.isValidChar; omega)
    rw [units16_cons, ← ih t ht]
    unfold char16
    dsimp only
    rw [hn, if_neg (by omega)]
    simp only [List.cons_append, List.nil_append, List.cons.injEq, and_true]
    omega
  | case5 => cases h
  | case6 => cases h

theorem unitsOf_only (b : Bytes) (l : List Nat) (h : unitsOf b = some l) :
    b = l.flatMap (fun u => [UInt8.ofNat (u % 256), UInt8.ofNat (u / 256)]) := by
  fun_induction unitsOf b generalizing l with
  | case1 => cases h; rfl
  | case2 => cases h
  | case3 a b l' ih =>
    obtain ⟨t, ht, rfl⟩ := Option.map_eq_some_iff.mp h
    have ha := a.toNat_lt
    rw [List.flatMap_cons, ← ih t ht, byte_ofNat a _ (by omega), byte_ofNat b _ (by omega)]
    rfl

/-- Nothing else is decoded. -/
theorem C189_utf16_only (b : Bytes) (s : List Char) (h : decode16 b = some s) : b = encode16 s := by
  obtain ⟨l, hl, hs⟩ := Option.bind_eq_some_iff.mp h
  rw [unitsOf_only b l hl, decodeUnits_only l s hs, encode16]

theorem C189_utf16_injective (s t : List Char) (h : encode16 s = encode16 t) : s = t := by
  have := C189_utf16 s
  rw [h, C189_utf16] at this
  exact (Option.some.inj this).symm

/-! ## Terminators -/

/-- Only the character U+0000 has a zero byte in UTF-8. -/
theorem encode8_zero (s : List Char) : 0 ∈ encode8 s ↔ Char.ofNat 0 ∈ s := by
  have h0 : ∀ c : Char, (0 : UInt8) ∈ (char8 c).map UInt8.ofNat ↔ c = Char.ofNat 0 := by
    intro c
    have hv := toNat_valid c
    have hb : ∀ n, 0 < n → n < 256 → (0 : UInt8) ≠ UInt8.ofNat n := by
      intro n hn hl e
      have := congrArg UInt8.toNat e
      rw [byte_toNat n hl] at this
      simp at this
      omega
    unfold char8
    dsimp only
    constructor
    · intro hm
      split at hm
      · simp only [List.map_cons, List.map_nil, List.mem_singleton] at hm
        have := congrArg UInt8.toNat hm
        rw [byte_toNat _ (by omega)] at this
        rw [← Char.ofNat_toNat c, ← this]
        rfl
      · exfalso
        split at hm
        · simp only [List.map_cons, List.map_nil, List.mem_cons, List.not_mem_nil, or_false] at hm
          rcases hm with h | h
          · exact hb _ (by omega) (by omega) h
          · exact hb _ (by omega) (by omega) h
        · split at hm
          · simp only [List.map_cons, List.map_nil, List.mem_cons, List.not_mem_nil, or_false] at hm
            rcases hm with h | h | h
            · exact hb _ (by omega) (by omega) h
            · exact hb _ (by omega) (by omega) h
            · exact hb _ (by omega) (by omega) h
          · simp only [List.map_cons, List.map_nil, List.mem_cons, List.not_mem_nil, or_false] at hm
            rcases hm with h | h | h | h
            · exact hb _ (by omega) (by omega) h
            · exact hb _ (by omega) (by omega) h
            · exact hb _ (by omega) (by omega) h
            · exact hb _ (by omega) (by omega) h
    · rintro rfl
      decide
  unfold encode8
  rw [List.mem_flatMap]
  constructor
  · rintro ⟨c, hc, h⟩
    rw [h0] at h
    exact h ▸ hc
  · intro h
    exact ⟨_, h, (h0 _).mpr rfl⟩

/-- Only the character U+0000 has a zero code unit in UTF-16. -/
theorem units16_zero (s : List Char) : 0 ∈ units16 s ↔ Char.ofNat 0 ∈ s := by
  have h0 : ∀ c : Char, 0 ∈ char16 c ↔ c = Char.ofNat 0 := by
    intro c
    have hv := toNat_valid c
    unfold char16
    dsimp only
    constructor
    · intro hm
      split at hm
      · simp only [List.mem_singleton] at hm
        rw [← Char.ofNat_toNat c, ← hm]
      · simp only [List.mem_cons, List.not_mem_nil, or_false] at hm
        omega
    · rintro rfl
      decide
  unfold units16
  rw [List.mem_flatMap]
  constructor
  · rintro ⟨c, hc, h⟩
    rw [h0] at h
    exact h ▸ hc
  · intro h
    exact ⟨_, h, (h0 _).mpr rfl⟩

/-! ## Witnesses -/

example : decode8 [0x41, 0xC3, 0xA9, 0xE2, 0x82, 0xAC, 0xF0, 0x9F, 0x98, 0x80] = some "Aé€😀".toList := by decide +kernel
example : decode8 [0xC0, 0x80] = none ∧ decode8 [0xED, 0xA0, 0x80] = none ∧ decode8 [0xE2, 0x82] = none := by decide
example : decode16 [0x41, 0x00, 0x3D, 0xD8, 0x00, 0xDE] = some "A😀".toList := by decide +kernel
example : decode16 [0x00, 0xD8] = none ∧ decode16 [0x41] = none := by decide

end Dtf.Utf
