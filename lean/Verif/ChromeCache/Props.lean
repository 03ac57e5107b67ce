import Verif.ChromeCache.Model
import Mathlib.Data.Nat.Bitwise

/-!
# Properties of the Chrome cache reader (C11, C12, C13)
-/

namespace Dtf.ChromeCache
open Py

/-! ## C11: SuperFastHash -/

/-- Specification: 16-bit little-endian load into a 32-bit word (`get16bits`). -/
def get16 (a b : UInt8) : BitVec 32 := (BitVec.ofNat 32 b.toNat <<< 8) + BitVec.ofNat 32 a.toNat

/-- Specification: SuperFastHash as published by Paul Hsieh, on 32-bit words.
`conv` is the conversion of the remaining odd byte: `(signed char)` in the publication. -/
def sfhRounds (conv : UInt8 → BitVec 32) (hash : BitVec 32) : Bytes → BitVec 32
  | d0 :: d1 :: d2 :: d3 :: rest =>
    let hash := hash + get16 d0 d1
    let tmp := (get16 d2 d3 <<< 11) ^^^ hash
    let hash := (hash <<< 16) ^^^ tmp
    let hash := hash + (hash >>> 11)
    sfhRounds conv hash rest
  | [d0, d1, d2] =>
    let hash := hash + get16 d0 d1
    let hash := hash ^^^ (hash <<< 16)
    let hash := hash ^^^ (conv d2 <<< 18)
    hash + (hash >>> 11)
  | [d0, d1] =>
    let hash := hash + get16 d0 d1
    let hash := hash ^^^ (hash <<< 11)
    hash + (hash >>> 17)
  | [d0] =>
    let hash := hash + conv d0
    let hash := hash ^^^ (hash <<< 10)
    hash + (hash >>> 1)
  | [] => hash

/-- Specification: the published final mixing. -/
def sfhAvalanche (hash : BitVec 32) : BitVec 32 :=
  let hash := hash ^^^ (hash <<< 3)
  let hash := hash + (hash >>> 5)
  let hash := hash ^^^ (hash <<< 4)
  let hash := hash + (hash >>> 17)
  let hash := hash ^^^ (hash <<< 25)
  hash + (hash >>> 6)

/-- Specification: the published algorithm with a given conversion of the odd byte. -/
def sfhPublished (conv : UInt8 → BitVec 32) (data : Bytes) : BitVec 32 :=
  if data = [] then 0
  else sfhAvalanche (sfhRounds conv (BitVec.ofNat 32 data.length) data)

/-- `(signed char)` conversion to a 32-bit word: sign extension. -/
def signedChar (b : UInt8) : BitVec 32 := b.toBitVec.signExtend 32
/-- `(unsigned char)` conversion to a 32-bit word. -/
def unsignedChar (b : UInt8) : BitVec 32 := b.toBitVec.zeroExtend 32

theorem mask32_eq (n : Nat) : mask32 n = n % 2 ^ 32 := by
  unfold mask32
  exact Nat.and_two_pow_sub_one_eq_mod n 32

theorem mask_add (x y : BitVec 32) : mask32 (x.toNat + y.toNat) = (x + y).toNat := by
  rw [mask32_eq, BitVec.toNat_add]

theorem mask_add_nat (x : BitVec 32) (n : Nat) :
    mask32 (x.toNat + n) = (x + BitVec.ofNat 32 n).toNat := by
  rw [mask32_eq, BitVec.toNat_add, BitVec.toNat_ofNat]
  omega

theorem mask_shl (x : BitVec 32) (k : Nat) : mask32 (x.toNat <<< k) = (x <<< k).toNat := by
  rw [mask32_eq, BitVec.toNat_shiftLeft]

theorem shr_toNat (x : BitVec 32) (k : Nat) : x.toNat >>> k = (x >>> k).toNat := by
  rw [BitVec.toNat_ushiftRight]

theorem xor_toNat (x y : BitVec 32) : x.toNat ^^^ y.toNat = (x ^^^ y).toNat := by
  rw [BitVec.toNat_xor]

theorem get16_toNat (a b : UInt8) : (get16 a b).toNat = a.toNat + (b.toNat <<< 8) := by
  have ha := a.toNat_lt
  have hb := b.toNat_lt
  simp only [get16, BitVec.toNat_add, BitVec.toNat_shiftLeft, BitVec.toNat_ofNat,
    Nat.shiftLeft_eq]
  omega

theorem unsignedChar_toNat (b : UInt8) : (unsignedChar b).toNat = b.toNat := by
  have hb := b.toNat_lt
  simp only [unsignedChar, BitVec.truncate_eq_setWidth, BitVec.toNat_setWidth, UInt8.toNat_toBitVec]
  omega

theorem sfhLoop_eq (hash : BitVec 32) (data : Bytes) :
    sfhLoop hash.toNat data = (sfhRounds unsignedChar hash data).toNat := by
  fun_induction sfhRounds unsignedChar hash data with
  | case1 hash d0 d1 d2 d3 rest h1 tmp h2 h3 ih =>
    rw [sfhLoop]
    simp only [← get16_toNat, mask_add, mask_shl, shr_toNat, xor_toNat]
    exact ih
  | case2 hash d0 d1 d2 =>
    simp only [sfhLoop, ← get16_toNat, ← unsignedChar_toNat d2, mask_add, mask_shl, shr_toNat,
      xor_toNat]
    rfl
  | case3 hash d0 d1 =>
    simp only [sfhLoop, ← get16_toNat, mask_add, mask_shl, shr_toNat, xor_toNat]
    rfl
  | case4 hash d0 =>
    simp only [sfhLoop, ← unsignedChar_toNat, mask_add, mask_shl, shr_toNat, xor_toNat]
    rfl
  | case5 hash => simp [sfhLoop]

theorem sfhFinal_eq (hash : BitVec 32) : sfhFinal hash.toNat = (sfhAvalanche hash).toNat := by
  simp only [sfhFinal, sfhAvalanche, mask_add, mask_shl, shr_toNat, xor_toNat]

theorem length_mask (n : Nat) : mask32 n = (BitVec.ofNat 32 n).toNat := by
  rw [mask32_eq, BitVec.toNat_ofNat]

/-- C11.  For every key, the code computes the published algorithm where the odd byte is taken as
an unsigned char. -/
theorem C11_unsigned_variant (key : Bytes) :
    superFastHash key = (sfhPublished unsignedChar key).toNat := by
  cases key with
  | nil => simp [superFastHash, sfhPublished]
  | cons a l =>
    rw [superFastHash, sfhPublished, if_neg (by simp), length_mask, sfhLoop_eq, sfhFinal_eq]
    simp

/-- C11.  The hash is a 32-bit value. -/
theorem C11_is_32_bit (key : Bytes) : superFastHash key < 2 ^ 32 := by
  rw [C11_unsigned_variant]
  exact BitVec.isLt _

/-- C11 as stated: the code computes the published algorithm with sign extension. -/
def C11_claim : Prop := ∀ key, superFastHash key = (sfhPublished signedChar key).toNat

/-- C11 is false of the code: the odd byte is not sign-extended. -/
theorem C11_sign_extension_missing : ¬ C11_claim := by
  intro h
  have := h [0x80]
  revert this
  decide +kernel

theorem signedChar_ascii (b : UInt8) (h : b.toNat < 128) : signedChar b = unsignedChar b := by
  have : ∀ n : Fin 256, n.val < 128 →
      signedChar (UInt8.ofNat n.val) = unsignedChar (UInt8.ofNat n.val) := by decide +kernel
  have := this ⟨b.toNat, b.toNat_lt⟩ h
  simpa using this

theorem sfhRounds_congr (hash : BitVec 32) (data : Bytes)
    (h : data.length % 2 = 1 → ∀ b, data.getLast? = some b → b.toNat < 128) :
    sfhRounds unsignedChar hash data = sfhRounds signedChar hash data := by
  fun_induction sfhRounds unsignedChar hash data with
  | case1 hash d0 d1 d2 d3 rest h1 tmp h2 h3 ih =>
    rw [sfhRounds]
    apply ih
    intro hodd b hb
    apply h (by simp only [List.length_cons]; omega)
    cases rest with
    | nil => simp at hodd
    | cons r rs => simpa using hb
  | case2 hash d0 d1 d2 =>
    have e := signedChar_ascii d2 (h (by simp) d2 (by simp))
    unfold sfhRounds
    rw [e]
  | case3 hash d0 d1 => unfold sfhRounds; rfl
  | case4 hash d0 =>
    have e := signedChar_ascii d0 (h (by simp) d0 (by simp))
    unfold sfhRounds
    rw [e]
  | case5 hash => simp only [sfhRounds]

/-- C11, the part that holds: for every key of even length, and every key of odd length whose
last byte is below 0x80 (so for every ASCII key), the code computes the published algorithm.
Missing: odd lengths with a last byte of 0x80 or more. -/
theorem C11_published_partial (key : Bytes)
    (h : key.length % 2 = 1 → ∀ b, key.getLast? = some b → b.toNat < 128) :
    superFastHash key = (sfhPublished signedChar key).toNat := by
  rw [C11_unsigned_variant, sfhPublished, sfhPublished, sfhRounds_congr _ _ h]

example : ([0x68, 0x74, 0x74] : Bytes).length % 2 = 1 ∧
    superFastHash [0x68, 0x74, 0x74] = (sfhPublished signedChar [0x68, 0x74, 0x74]).toNat := by
  decide +kernel

/-! ## C12: cache addresses -/

/-- The named bit fields of a cache address, written with division and remainder. -/
def typeField (a : Nat) : Nat := a / 2 ^ 28 % 8
def reservedField (a : Nat) : Nat := a / 2 ^ 26 % 4
def countField (a : Nat) : Nat := a / 2 ^ 24 % 4
def selectorField (a : Nat) : Nat := a / 2 ^ 16 % 256
def numberField (a : Nat) : Nat := a % 2 ^ 16

/-- Block size of each block file type, from the format documentation. -/
def unit : Nat → Nat
  | 1 => 36
  | 2 => 256
  | 3 => 1024
  | 4 => 4096
  | _ => 0

theorem and_mask (a k w : Nat) : (a &&& ((2 ^ w - 1) <<< k)) >>> k = a / 2 ^ k % 2 ^ w := by
  rw [Nat.shiftRight_and_distrib, Nat.shiftLeft_shiftRight, Nat.and_two_pow_sub_one_eq_mod,
    Nat.shiftRight_eq_div_pow]

theorem type_bits (a : Nat) : (a &&& 0x70000000) >>> 28 = typeField a := and_mask a 28 3
theorem selector_bits (a : Nat) : (a &&& 0x00FF0000) >>> 16 = selectorField a := and_mask a 16 8
theorem count_bits (a : Nat) : (a &&& 0x03000000) >>> 24 = countField a := and_mask a 24 2
theorem number_bits (a : Nat) : a &&& 0x0000FFFF = numberField a :=
  Nat.and_two_pow_sub_one_eq_mod a 16
theorem separate_bits (a : Nat) : a &&& 0x0FFFFFFF = a % 2 ^ 28 :=
  Nat.and_two_pow_sub_one_eq_mod a 28

theorem init_bits (a : Nat) : (a &&& 0x80000000 ≠ 0) ↔ a / 2 ^ 31 % 2 = 1 := by
  have h := and_mask a 31 1
  have hz : a &&& 0x80000000 = 0 ∨ a &&& 0x80000000 = 0x80000000 := by
    have := Nat.and_two_pow a 31
    cases hb : a.testBit 31 <;> simp [hb] at this <;> simp [this]
  rcases hz with hz | hz
  · simp only [show (2 ^ 1 - 1) <<< 31 = 0x80000000 from rfl, hz] at h
    simp only [hz]
    simp at h ⊢
    omega
  · simp only [show (2 ^ 1 - 1) <<< 31 = 0x80000000 from rfl, hz] at h
    simp only [hz]
    simp at h ⊢
    omega

theorem type_lt (a : Nat) : typeField a < 8 := Nat.mod_lt _ (by decide)

theorem unit_eq (t : Nat) (h : t ∈ [1, 2, 3, 4]) : blockSizes.getD t 0 = unit t := by
  simp only [List.mem_cons, List.not_mem_nil, or_false] at h
  rcases h with h | h | h | h <;> subst h <;> rfl

/-- C12.  For every address the initialised flag and the file type are the documented fields. -/
theorem C12_flag_and_type (a : Nat) :
    ((cacheAddress a).isInitialized = true ↔ a / 2 ^ 31 % 2 = 1) ∧
      (cacheAddress a).fileType = a / 2 ^ 28 % 8 := by
  have ht := type_bits a
  have hi := init_bits a
  unfold cacheAddress
  simp only [ht]
  constructor
  · split
    · split
      · simpa using hi
      · split <;> simpa using hi
    · simpa using hi
  · split
    · split
      · rfl
      · split <;> rfl
    · rfl

/-- C12.  A separate-file address names the file after its 28-bit number. -/
theorem C12_separate_file (a : Nat) (h0 : a ≠ 0) (ht : a / 2 ^ 28 % 8 = 0) :
    (cacheAddress a).filename =
      some ("f_".toList ++ Text.zpad 6 (Text.digits 16 (a % 2 ^ 28))) ∧
    (cacheAddress a).blockOffset = none ∧ (cacheAddress a).blockSize = none := by
  have ht' : (a &&& 0x70000000) >>> 28 = 0 := (type_bits a).trans ht
  unfold cacheAddress
  simp only [ht', separate_bits, h0, ne_eq, not_false_eq_true, if_true]
  exact ⟨trivial, trivial, trivial⟩

/-- C12.  A block address yields selector, offset and size from which the address can be rebuilt,
together with its flag, type and reserved bits. -/
theorem C12_block_address (a : Nat) (ha : a < 2 ^ 32) (ht : a / 2 ^ 28 % 8 ∈ [1, 2, 3, 4]) :
    ∃ selector number count, selector < 256 ∧ number < 65536 ∧ count < 4 ∧
      (cacheAddress a).filename = some ("data_".toList ++ Text.digits 10 selector) ∧
      (cacheAddress a).blockNumber = some number ∧
      (cacheAddress a).blockOffset = some (8192 + number * unit (a / 2 ^ 28 % 8)) ∧
      (cacheAddress a).blockSize = some (count * unit (a / 2 ^ 28 % 8)) ∧
      a = (a / 2 ^ 31) * 2 ^ 31 + (a / 2 ^ 28 % 8) * 2 ^ 28 + (a / 2 ^ 26 % 4) * 2 ^ 26 +
        count * 2 ^ 24 + selector * 2 ^ 16 + number := by
  have ht' : (a &&& 0x70000000) >>> 28 = a / 2 ^ 28 % 8 := type_bits a
  have h0 : a ≠ 0 := by
    intro h
    subst h
    revert ht
    decide
  have hne : a / 2 ^ 28 % 8 ≠ 0 := by
    intro h
    rw [h] at ht
    revert ht
    decide
  refine ⟨selectorField a, numberField a, countField a, ?_, ?_, ?_, ?_, ?_, ?_, ?_, ?_⟩
  · exact Nat.mod_lt _ (by decide)
  · exact Nat.mod_lt _ (by decide)
  · exact Nat.mod_lt _ (by decide)
  · unfold cacheAddress
    simp only [ht', h0, hne, ht, selector_bits, ne_eq, not_false_eq_true, if_true, if_false]
  · unfold cacheAddress
    simp only [ht', h0, hne, ht, number_bits, ne_eq, not_false_eq_true, if_true, if_false]
  · unfold cacheAddress
    simp only [ht', h0, hne, ht, number_bits, ne_eq, not_false_eq_true, if_true, if_false,
      unit_eq _ ht]
  · unfold cacheAddress
    simp only [ht', h0, hne, ht, count_bits, ne_eq, not_false_eq_true, if_true, if_false,
      unit_eq _ ht]
  · unfold selectorField numberField countField
    omega

/-- What a decoded address denotes: the file and, for block files, the range in it. -/
def denotes (a : Nat) : Option (List Char) × Option Nat × Option Nat :=
  ((cacheAddress a).filename, (cacheAddress a).blockOffset, (cacheAddress a).blockSize)

/-- Addresses of a known type with the initialised flag set. -/
def Known (a : Nat) : Prop := a < 2 ^ 32 ∧ a / 2 ^ 31 % 2 = 1 ∧ a / 2 ^ 28 % 8 ≤ 4

/-- C12 as stated: two different initialised addresses never denote the same range. -/
def C12_claim : Prop := ∀ a b, Known a → Known b → denotes a = denotes b → a = b

/-- C12 is false of the code: the first block of a 36-byte and of a 256-byte block file with the
same selector both decode to an empty range at offset 8192 of the same file. -/
theorem C12_collision : ¬ C12_claim := by
  intro h
  have := h 0x90000000 0xA0000000 (by unfold Known; decide) (by unfold Known; decide)
    (by decide +kernel)
  omega

/-- C12 is also false because reserved bits are ignored. -/
theorem C12_reserved_bits_collide : denotes 0x90000001 = denotes 0x94000001 := by
  decide +kernel

theorem data_ne_f (x y : List Char) : "f_".toList ++ x ≠ "data_".toList ++ y := by
  intro h
  simp at h

theorem zpad_digits16_inj {m n : Nat}
    (h : Text.zpad 6 (Text.digits 16 m) = Text.zpad 6 (Text.digits 16 n)) : m = n :=
  Text.zpad_digits_injective 16 _ (by decide) (by decide) _ _ h

/-- C12, the part that holds: different initialised addresses of known type whose reserved bits
are clear and whose block range is not empty denote different files or ranges.
Missing: reserved bits, and ranges that the code takes to be empty (single blocks). -/
theorem C12_no_collision_partial (a b : Nat) (ha : Known a) (hb : Known b)
    (ra : a / 2 ^ 28 % 8 ≠ 0 → a / 2 ^ 26 % 4 = 0) (rb : b / 2 ^ 28 % 8 ≠ 0 → b / 2 ^ 26 % 4 = 0)
    (ne : a / 2 ^ 28 % 8 = b / 2 ^ 28 % 8 ∨ (cacheAddress a).blockSize ≠ some 0)
    (h : denotes a = denotes b) : a = b := by
  obtain ⟨al, ai, at'⟩ := ha
  obtain ⟨bl, bi, bt⟩ := hb
  have mem : ∀ t, t ≤ 4 → t ≠ 0 → t ∈ [1, 2, 3, 4] := by
    intro t h1 h2
    simp only [List.mem_cons, List.not_mem_nil, or_false]
    omega
  simp only [denotes, Prod.mk.injEq] at h
  obtain ⟨hf, ho, hs⟩ := h
  by_cases ta : a / 2 ^ 28 % 8 = 0
  · have fa := C12_separate_file a (by omega) ta
    by_cases tb : b / 2 ^ 28 % 8 = 0
    · have fb := C12_separate_file b (by omega) tb
      rw [fa.1, fb.1] at hf
      have := zpad_digits16_inj (List.append_cancel_left (Option.some.inj hf))
      omega
    · obtain ⟨s, n, c, -, -, -, fb, -⟩ := C12_block_address b bl (mem _ bt tb)
      rw [fa.1, fb] at hf
      exact absurd (Option.some.inj hf) (data_ne_f _ _)
  · obtain ⟨s, n, c, -, -, hc, fa, -, oa, sa, ea⟩ := C12_block_address a al (mem _ at' ta)
    by_cases tb : b / 2 ^ 28 % 8 = 0
    · have fb := C12_separate_file b (by omega) tb
      rw [fa, fb.1] at hf
      exact absurd (Option.some.inj hf).symm (data_ne_f _ _)
    · obtain ⟨s', n', c', -, -, hc', fb, -, ob, sb, eb⟩ := C12_block_address b bl (mem _ bt tb)
      rw [fa, fb] at hf
      rw [oa, ob] at ho
      rw [sa, sb] at hs
      rw [sa] at ne
      have es : s = s' := Text.digits_injective 10 (by decide) (by decide) _ _
        (List.append_cancel_left (Option.some.inj hf))
      have eo := Option.some.inj ho
      have ec := Option.some.inj hs
      have ra' := ra ta
      have rb' := rb tb
      generalize hta : a / 2 ^ 28 % 8 = x at *
      generalize htb : b / 2 ^ 28 % 8 = y at *
      have hx : x = 1 ∨ x = 2 ∨ x = 3 ∨ x = 4 := by omega
      have hy : y = 1 ∨ y = 2 ∨ y = 3 ∨ y = 4 := by omega
      have ne' : x = y ∨ c * unit x ≠ 0 := by
        rcases ne with h | h
        · exact .inl h
        · exact .inr fun e => h (by rw [e])
      rcases hx with hx | hx | hx | hx <;> rcases hy with hy | hy | hy | hy <;> subst hx <;>
        subst hy <;> simp only [unit] at eo ec ne' <;> omega

example : Known 0x91000001 ∧ Known 0xA1000001 ∧ 0x91000001 / 2 ^ 26 % 4 = 0 ∧
    (cacheAddress 0x91000001).blockSize ≠ some 0 ∧ denotes 0x91000001 ≠ denotes 0xA1000001 := by
  unfold Known
  decide +kernel

/-- C12 (total): describing any decoded address returns. -/
def C12_describe_claim : Prop := ∀ a, a < 2 ^ 32 → getDebugStringOutcome (cacheAddress a) = .ok ()

/-- C12: describing an address of type 5, 6 or 7 raises TypeError. -/
theorem C12_describe_unknown_type (a : Nat) (ht : 5 ≤ a / 2 ^ 28 % 8) :
    getDebugStringOutcome (cacheAddress a) = .error .typeError := by
  have ht' : (a &&& 0x70000000) >>> 28 = a / 2 ^ 28 % 8 := type_bits a
  have h0 : a ≠ 0 := by omega
  have hne : a / 2 ^ 28 % 8 ≠ 0 := by omega
  have hnm : a / 2 ^ 28 % 8 ∉ [1, 2, 3, 4] := by
    simp only [List.mem_cons, List.not_mem_nil, or_false]
    omega
  unfold cacheAddress getDebugStringOutcome
  simp only [ht', h0, hne, hnm, ne_eq, not_false_eq_true, if_true, if_false]

theorem C12_describe_not_total : ¬ C12_describe_claim := by
  intro h
  have h1 := h 0x50000000 (by decide)
  rw [C12_describe_unknown_type _ (by decide)] at h1
  cases h1

/-- C12, the part that holds: describing an address of a known type returns. -/
theorem C12_describe_partial (a : Nat) (ht : a / 2 ^ 28 % 8 ≤ 4) :
    getDebugStringOutcome (cacheAddress a) = .ok () := by
  have ht' : (a &&& 0x70000000) >>> 28 = a / 2 ^ 28 % 8 := type_bits a
  unfold cacheAddress getDebugStringOutcome
  by_cases h0 : a = 0
  · simp [h0]
  · by_cases h1 : a / 2 ^ 28 % 8 = 0
    · simp only [ht', h0, h1, ne_eq, not_false_eq_true, if_true, if_false]
    · have hm : a / 2 ^ 28 % 8 ∈ [1, 2, 3, 4] := by
        simp only [List.mem_cons, List.not_mem_nil, or_false]
        omega
      simp only [ht', h0, h1, hm, ne_eq, not_false_eq_true, if_true, if_false]

/-! ## C53: documented size of a block range -/

/-- C53: the format documentation says that a count field of 0 stands for one block and 3 for
four blocks. -/
def C53_claim : Prop := ∀ a, Known a → a / 2 ^ 28 % 8 ∈ [1, 2, 3, 4] →
  (cacheAddress a).blockSize = some ((a / 2 ^ 24 % 4 + 1) * unit (a / 2 ^ 28 % 8))

/-- C53: the code always reports one block less, for every block address. -/
theorem C53_size_one_block_short (a : Nat) (ht : a / 2 ^ 28 % 8 ∈ [1, 2, 3, 4]) :
    ∃ n, (cacheAddress a).blockSize = some n ∧
      n + unit (a / 2 ^ 28 % 8) = (a / 2 ^ 24 % 4 + 1) * unit (a / 2 ^ 28 % 8) := by
  have ht' : (a &&& 0x70000000) >>> 28 = a / 2 ^ 28 % 8 := type_bits a
  have h0 : a ≠ 0 := by
    intro h
    subst h
    revert ht
    decide
  have hne : a / 2 ^ 28 % 8 ≠ 0 := by
    intro h
    rw [h] at ht
    revert ht
    decide
  refine ⟨countField a * unit (a / 2 ^ 28 % 8), ?_, ?_⟩
  · unfold cacheAddress
    simp only [ht', h0, hne, ht, count_bits, ne_eq, not_false_eq_true, if_true, if_false,
      unit_eq _ ht]
  · unfold countField
    rw [Nat.add_mul, Nat.one_mul]

theorem C53_documented_size_false : ¬ C53_claim := by
  intro h
  have := h 0x90000000 (by unfold Known; decide) (by decide)
  revert this
  decide +kernel

/-! ## C13: allocation bitmap -/

/-- The bits of the bitmap in block order: 32 per word, least significant first. -/
def bitsOf (words : List Nat) : List Bool :=
  words.flatMap fun w => (List.range 32).map fun i => w.testBit i

/-- Specification: `ranges` are the maximal runs of set bits, in increasing order, where the end
of a range is exclusive. -/
def MaximalRuns (set : Nat → Prop) (ranges : List (Nat × Nat)) : Prop :=
  (∀ p ∈ ranges, p.1 < p.2) ∧
  ranges.Pairwise (fun p q => p.2 < q.1) ∧
  ∀ i, set i ↔ ∃ p ∈ ranges, p.1 ≤ i ∧ i < p.2

/-- C13 as stated. -/
def C13_claim : Prop := ∀ words,
  MaximalRuns (fun i => (bitsOf words).getD i false = true) (bitmapRanges words)

/-- C13 is false of the code: a run that reaches the end of the bitmap is never reported. -/
theorem C13_last_run_lost : ¬ C13_claim := by
  intro h
  have h1 := (h [0xFFFFFFFF]).2.2 0
  have h2 : bitmapRanges [0xFFFFFFFF] = [] := by decide +kernel
  rw [h2] at h1
  have h3 : (bitsOf [0xFFFFFFFF]).getD 0 false = true := by decide +kernel
  have := h1.mp h3
  simp at this

theorem getD_snoc (bs : List Bool) (b : Bool) (i : Nat) :
    (bs ++ [b]).getD i false =
      if i < bs.length then bs.getD i false else if i = bs.length then b else false := by
  simp only [List.getD_eq_getElem?_getD]
  split
  · rename_i h
    rw [List.getElem?_append_left h]
  · rename_i h
    rw [List.getElem?_append_right (by omega)]
    split
    · rename_i h'
      subst h'
      simp
    · rename_i h'
      rw [List.getElem?_eq_none (by simp; omega)]
      rfl

/-- Invariant of the loop after the bits `bs`. -/
structure Inv (s : BitmapState) (bs : List Bool) : Prop where
  number : s.number = bs.length
  pos : ∀ p ∈ s.out, p.1 < p.2
  sorted : s.out.Pairwise (fun p q => q.2 < p.1)
  ended : ∀ p ∈ s.out, p.2 < bs.length ∧ bs.getD p.2 false = false
  open_ : s.inRange = true → s.start < s.stop ∧ s.stop = bs.length ∧
    (∀ p ∈ s.out, p.2 < s.start) ∧ ∀ i, s.start ≤ i → i < bs.length → bs.getD i false = true
  cover : ∀ i, bs.getD i false = true ↔
    (∃ p ∈ s.out, p.1 ≤ i ∧ i < p.2) ∨ (s.inRange = true ∧ s.start ≤ i ∧ i < bs.length)

theorem getD_lt {bs : List Bool} {i : Nat} (h : bs.getD i false = true) : i < bs.length := by
  rcases Nat.lt_or_ge i bs.length with h' | h'
  · exact h'
  · rw [List.getD_eq_getElem?_getD, List.getElem?_eq_none h'] at h
    simp at h

theorem inv_step (s : BitmapState) (bs : List Bool) (b : Bool) (h : Inv s bs) :
    Inv (bitmapStep s b) (bs ++ [b]) := by
  obtain ⟨hn, hp, hs, he, ho, hc⟩ := h
  have he' : ∀ p ∈ s.out, p.2 < (bs ++ [b]).length ∧ (bs ++ [b]).getD p.2 false = false := by
    intro p hpm
    have := he p hpm
    refine ⟨by simp; omega, ?_⟩
    rw [getD_snoc, if_pos this.1]
    exact this.2
  have lt_of_cover : ∀ i, (∃ p ∈ s.out, p.1 ≤ i ∧ i < p.2) → i < bs.length := by
    rintro i ⟨p, hpm, h1, h2⟩
    have := (he p hpm).1
    omega
  cases b with
  | true =>
    cases hr : s.inRange with
    | false =>
      have : bitmapStep s true = { s with start := s.number, stop := s.number + 1, inRange := true, number := s.number + 1 } := by
        simp [bitmapStep, hr]
      rw [this]
      refine ⟨by simp [hn], hp, hs, he', ?_, ?_⟩
      · intro _
        refine ⟨by simp, by simp [hn], ?_, ?_⟩
        · intro p hpm
          have := (he p hpm).1
          simp only
          omega
        · intro i h1 h2
          simp only [hn] at h1
          simp only [List.length_append, List.length_singleton] at h2
          rw [getD_snoc, if_neg (by omega), if_pos (by omega)]
      · intro i
        rw [getD_snoc]
        have hci := hc i
        simp only [hr] at hci
        simp only [List.length_append, List.length_singleton, hn]
        split
        · rename_i hi
          rw [hci]
          constructor
          · rintro (h | h)
            · exact .inl h
            · simp at h
          · rintro (h | h)
            · exact .inl h
            · omega
        · rename_i hi
          split
          · rename_i hi'
            constructor
            · intro _
              exact .inr ⟨by simp, by omega, by omega⟩
            · intro _
              rfl
          · rename_i hi'
            constructor
            · intro h
              simp at h
            · rintro (h | h)
              · have := lt_of_cover i h
                omega
              · omega
    | true =>
      obtain ⟨o1, o2, o3, o4⟩ := ho hr
      have : bitmapStep s true = { s with stop := s.stop + 1, number := s.number + 1 } := by
        simp [bitmapStep, hr]
      rw [this]
      refine ⟨by simp [hn], hp, hs, he', ?_, ?_⟩
      · intro _
        refine ⟨by simp only; omega, by simp [o2], o3, ?_⟩
        intro i h1 h2
        simp only at h1
        simp only [List.length_append, List.length_singleton] at h2
        rw [getD_snoc]
        split
        · rename_i hi
          exact o4 i h1 hi
        · rw [if_pos (by omega)]
      · intro i
        rw [getD_snoc]
        have hci := hc i
        simp only [List.length_append, List.length_singleton]
        split
        · rename_i hi
          rw [hci]
          constructor
          · rintro (h | h)
            · exact .inl h
            · exact .inr ⟨h.1, h.2.1, by omega⟩
          · rintro (h | h)
            · exact .inl h
            · exact .inr ⟨h.1, h.2.1, hi⟩
        · rename_i hi
          split
          · rename_i hi'
            constructor
            · intro _
              exact .inr ⟨hr, by omega, by omega⟩
            · intro _
              rfl
          · rename_i hi'
            constructor
            · intro h
              simp at h
            · rintro (h | h)
              · have := lt_of_cover i h
                omega
              · omega
  | false =>
    cases hr : s.inRange with
    | false =>
      have : bitmapStep s false = { s with number := s.number + 1 } := by
        simp [bitmapStep, hr]
      rw [this]
      refine ⟨by simp [hn], hp, hs, he', ?_, ?_⟩
      · intro h
        simp [hr] at h
      · intro i
        rw [getD_snoc]
        have hci := hc i
        simp only [hr] at hci
        split
        · rename_i hi
          rw [hci]
          simp [hr]
        · rename_i hi
          split
          · constructor
            · intro h
              simp at h
            · rintro (h | h)
              · have := lt_of_cover i h
                omega
              · simp [hr] at h
          · constructor
            · intro h
              simp at h
            · rintro (h | h)
              · have := lt_of_cover i h
                omega
              · simp [hr] at h
    | true =>
      obtain ⟨o1, o2, o3, o4⟩ := ho hr
      have : bitmapStep s false = { s with inRange := false, out := (s.start, s.stop) :: s.out, number := s.number + 1 } := by
        simp [bitmapStep, hr]
      rw [this]
      refine ⟨by simp [hn], ?_, ?_, ?_, ?_, ?_⟩
      · intro p hpm
        rcases List.mem_cons.mp hpm with h | h
        · subst h
          exact o1
        · exact hp p h
      · exact List.pairwise_cons.mpr ⟨fun p hpm => o3 p hpm, hs⟩
      · intro p hpm
        rcases List.mem_cons.mp hpm with h | h
        · subst h
          refine ⟨by simp [o2], ?_⟩
          rw [getD_snoc, if_neg (by simp only; omega), if_pos (by simp only; omega)]
        · exact he' p h
      · intro h
        simp at h
      · intro i
        rw [getD_snoc]
        have hci := hc i
        split
        · rename_i hi
          rw [hci]
          constructor
          · rintro (⟨p, hpm, h⟩ | h)
            · exact .inl ⟨p, List.mem_cons_of_mem _ hpm, h⟩
            · exact .inl ⟨_, List.mem_cons_self .., h.2.1, by simp only; omega⟩
          · rintro (⟨p, hpm, h⟩ | h)
            · rcases List.mem_cons.mp hpm with h' | h'
              · subst h'
                exact .inr ⟨hr, h.1, hi⟩
              · exact .inl ⟨p, h', h⟩
            · simp at h
        · rename_i hi
          have aux : ¬ ((∃ p ∈ (s.start, s.stop) :: s.out, p.1 ≤ i ∧ i < p.2) ∨
              (false = true ∧ s.start ≤ i ∧ i < (bs ++ [false]).length)) := by
            rintro (⟨p, hpm, h⟩ | h)
            · rcases List.mem_cons.mp hpm with h' | h'
              · subst h'
                simp only at h
                omega
              · have := lt_of_cover i ⟨p, h', h⟩
                omega
            · simp at h
          split
          · exact ⟨fun h => by simp at h, fun h => absurd h aux⟩
          · exact ⟨fun h => by simp at h, fun h => absurd h aux⟩

theorem inv_foldl (post pre : List Bool) (s : BitmapState) (h : Inv s pre) :
    Inv (post.foldl bitmapStep s) (pre ++ post) := by
  induction post generalizing pre s with
  | nil => simpa using h
  | cons b post ih =>
    have := ih (pre ++ [b]) (bitmapStep s b) (inv_step s pre b h)
    simpa using this

theorem bitmapWord_eq (s : BitmapState) (w n : Nat) :
    bitmapWord s w n = ((List.range n).map fun i => w.testBit i).foldl bitmapStep s := by
  induction n generalizing s w with
  | zero => rfl
  | succ n ih =>
    rw [bitmapWord, ih, List.range_succ_eq_map, List.map_cons, List.foldl_cons, List.map_map]
    congr 1
    · simp only [Nat.testBit_zero, Nat.and_one_is_mod]
      congr 1
      apply Bool.eq_iff_iff.mpr
      simp only [decide_eq_true_eq]
      omega
    · apply List.map_congr_left
      intro i _
      simp only [Function.comp, Nat.testBit_shiftRight]
      rw [Nat.add_comm]

theorem bitmap_foldl (words : List Nat) (s : BitmapState) :
    words.foldl (fun s w => bitmapWord s w 32) s = (bitsOf words).foldl bitmapStep s := by
  induction words generalizing s with
  | nil => rfl
  | cons w ws ih =>
    have e : bitsOf (w :: ws) = ((List.range 32).map fun i => w.testBit i) ++ bitsOf ws := rfl
    rw [List.foldl_cons, ih, e, List.foldl_append, bitmapWord_eq]

theorem bitmap_inv (words : List Nat) :
    Inv (words.foldl (fun s w => bitmapWord s w 32) ⟨0, 0, 0, false, []⟩) (bitsOf words) := by
  rw [bitmap_foldl]
  have := inv_foldl (bitsOf words) [] ⟨0, 0, 0, false, []⟩
    ⟨rfl, by simp, by simp, by simp, by simp, by simp⟩
  simpa using this

/-- C13, exact behaviour: for every bitmap the reported ranges are the maximal runs of the set
bits that have a clear bit after them. -/
theorem C13_runs_before_last_clear_bit (words : List Nat) :
    MaximalRuns (fun i => (bitsOf words).getD i false = true ∧
        ∃ j, i < j ∧ j < (bitsOf words).length ∧ (bitsOf words).getD j false = false)
      (bitmapRanges words) := by
  have inv := bitmap_inv words
  unfold bitmapRanges
  generalize words.foldl (fun s w => bitmapWord s w 32) ⟨0, 0, 0, false, []⟩ = s at inv
  generalize bitsOf words = bs at inv
  obtain ⟨hn, hp, hs, he, ho, hc⟩ := inv
  refine ⟨fun p hpm => hp p (by simpa using hpm), ?_, ?_⟩
  · rw [List.pairwise_reverse]
    exact hs
  · intro i
    simp only [List.mem_reverse]
    constructor
    · rintro ⟨hi, j, hij, hj, hz⟩
      rcases (hc i).mp hi with h | h
      · exact h
      · have := (ho h.1).2.2.2 j (by omega) hj
        rw [hz] at this
        simp at this
    · rintro ⟨p, hpm, h1, h2⟩
      have := he p hpm
      exact ⟨(hc i).mpr (.inl ⟨p, hpm, h1, h2⟩), p.2, h2, this.1, this.2⟩

/-- C13, the part that holds: when the last block is not allocated the report is complete.
Missing: bitmaps whose last bit is set. -/
theorem C13_complete_partial (words : List Nat)
    (h : (bitsOf words).getLast? ≠ some true) :
    MaximalRuns (fun i => (bitsOf words).getD i false = true) (bitmapRanges words) := by
  obtain ⟨h1, h2, h3⟩ := C13_runs_before_last_clear_bit words
  refine ⟨h1, h2, fun i => ?_⟩
  rw [← h3 i]
  constructor
  · intro hi
    refine ⟨hi, (bitsOf words).length - 1, ?_, ?_, ?_⟩
    · have := getD_lt hi
      rcases Nat.lt_or_ge i ((bitsOf words).length - 1) with h' | h'
      · exact h'
      · have e : i = (bitsOf words).length - 1 := by omega
        rw [List.getLast?_eq_getElem?, ← e] at h
        rw [List.getD_eq_getElem?_getD] at hi
        cases hq : (bitsOf words)[i]? with
        | none => simp [hq] at hi
        | some b => cases b <;> simp [hq] at hi h
    · have := getD_lt hi
      omega
    · have := getD_lt hi
      rw [List.getLast?_eq_getElem?] at h
      rw [List.getD_eq_getElem?_getD]
      cases hq : (bitsOf words)[(bitsOf words).length - 1]? with
      | none => rfl
      | some b => cases b <;> simp [hq] at h ⊢
  · exact fun hi => hi.1

example : (bitsOf [0x00000F0D, 3]).getLast? ≠ some true ∧
    bitmapRanges [0x00000F0D, 3] = [(0, 1), (2, 4), (8, 12), (32, 34)] := by decide +kernel

/-! ## C54: index table and entry chains -/

/-- Specification: the 32-bit little-endian value at position `i` of the table. -/
def tableValue (data : Bytes) (i : Nat) : Nat := leNat ((data.drop (4 * i)).take 4)

theorem readIndexTable_mem (data : Bytes) (base i : Nat) (c : CacheAddress) :
    (i, c) ∈ readIndexTable base data ↔
      ∃ k, i = base + k ∧ 4 * k + 4 ≤ data.length ∧ tableValue data k ≠ 0 ∧
        c = cacheAddress (tableValue data k) := by
  fun_induction readIndexTable base data with
  | case1 base b0 b1 b2 b3 rest v hv ih =>
    rw [List.mem_cons, ih]
    constructor
    · rintro (h | ⟨k, h1, h2, h3, h4⟩)
      · obtain ⟨rfl, rfl⟩ := Prod.mk.inj h
        exact ⟨0, by simp, by simp, by simpa [tableValue] using hv, by simp [tableValue, v]⟩
      · refine ⟨k + 1, by omega, by simp only [List.length_cons]; omega, ?_, ?_⟩
        · simpa [tableValue, Nat.mul_add] using h3
        · simpa [tableValue, Nat.mul_add] using h4
    · rintro ⟨k, h1, h2, h3, h4⟩
      cases k with
      | zero =>
        left
        simp only [tableValue] at h4
        simp [h1, h4, v]
      | succ k =>
        right
        refine ⟨k, by omega, by simp only [List.length_cons] at h2; omega, ?_, ?_⟩
        · simpa [tableValue, Nat.mul_add] using h3
        · simpa [tableValue, Nat.mul_add] using h4
  | case2 base b0 b1 b2 b3 rest v hv ih =>
    rw [ih]
    constructor
    · rintro ⟨k, h1, h2, h3, h4⟩
      refine ⟨k + 1, by omega, by simp only [List.length_cons]; omega, ?_, ?_⟩
      · simpa [tableValue, Nat.mul_add] using h3
      · simpa [tableValue, Nat.mul_add] using h4
    · rintro ⟨k, h1, h2, h3, h4⟩
      cases k with
      | zero =>
        exfalso
        apply hv
        simpa [tableValue, v] using h3
      | succ k =>
        refine ⟨k, by omega, by simp only [List.length_cons] at h2; omega, ?_, ?_⟩
        · simpa [tableValue, Nat.mul_add] using h3
        · simpa [tableValue, Nat.mul_add] using h4
  | case3 data base hne =>
    constructor
    · intro h
      simp at h
    · rintro ⟨k, h1, h2, -⟩
      exfalso
      match data, hne with
      | [], _ => simp at h2
      | [_], _ => simp at h2
      | [_, _], _ => simp at h2
      | [_, _, _], _ => simp at h2
      | a :: b :: c :: d :: r, hne => exact hne a b c d r rfl

/-- C54.  For every table the entries are exactly the complete non-zero 32-bit values, each under
its own position; an incomplete last value is ignored. -/
theorem C54_index_table_entries (data : Bytes) (i : Nat) (c : CacheAddress) :
    (i, c) ∈ readIndexTable 0 data ↔
      4 * i + 4 ≤ data.length ∧ tableValue data i ≠ 0 ∧ c = cacheAddress (tableValue data i) := by
  rw [readIndexTable_mem]
  constructor
  · rintro ⟨k, h, h'⟩
    have : i = k := by omega
    subst this
    exact h'
  · intro h
    exact ⟨i, by omega, h⟩

theorem readIndexTable_sorted (data : Bytes) (base : Nat) :
    (readIndexTable base data).Pairwise (fun p q => p.1 < q.1) := by
  fun_induction readIndexTable base data with
  | case1 base b0 b1 b2 b3 rest v hv ih =>
    refine List.pairwise_cons.mpr ⟨?_, ih⟩
    rintro ⟨j, c⟩ hm
    obtain ⟨k, hk, -⟩ := (readIndexTable_mem rest (base + 1) j c).mp hm
    simp only
    omega
  | case2 base b0 b1 b2 b3 rest v hv ih => exact ih
  | case3 base data hne => exact List.Pairwise.nil

/-- C54.  The entries come in increasing order of position. -/
theorem C54_index_table_order (data : Bytes) :
    (readIndexTable 0 data).Pairwise (fun p q => p.1 < q.1) :=
  readIndexTable_sorted data 0

example : (readIndexTable 0 [0, 0, 0, 0, 1, 0, 0, 0xA0, 9, 9]).map (·.1) = [1] := by decide +kernel

/-- Specification: `l` is the chain of entries that starts at `a`. -/
inductive Chain (lookup : Nat → Option Nat) : Nat → List Nat → Prop
  | zero : Chain lookup 0 []
  | missing (a : Nat) : lookup a = none → Chain lookup a []
  | next (a b : Nat) (l : List Nat) : a ≠ 0 → lookup a = some b → Chain lookup b l →
      Chain lookup a (a :: l)

/-- C54.  Following a chain stops after at most 64 entries, also on a cycle. -/
theorem C54_chain_bounded (lookup : Nat → Option Nat) (a : Nat) :
    (parseChain lookup a).length ≤ 64 := by
  have : ∀ n a, (entryChain lookup n a).length ≤ n := by
    intro n
    induction n with
    | zero => intro a; simp [entryChain]
    | succ n ih =>
      intro a
      rw [entryChain]
      split
      · simp
      · split
        · simp
        · have := ih ‹_›
          simp only [List.length_cons]
          omega
  exact this 64 a

/-- C54.  The entries read are the first 64 entries of the chain, for every finite chain. -/
theorem C54_chain_prefix (lookup : Nat → Option Nat) (a : Nat) (l : List Nat)
    (h : Chain lookup a l) : parseChain lookup a = l.take 64 := by
  have : ∀ n, entryChain lookup n a = l.take n := by
    intro n
    induction n generalizing a l with
    | zero => simp [entryChain]
    | succ n ih =>
      rw [entryChain]
      cases h with
      | zero => simp
      | missing _ h1 => simp [h1]
      | next _ b l' h1 h2 h3 => simp [h1, h2, ih _ _ h3]
  exact this 64

example : Chain (fun a => if a = 5 then some 7 else if a = 7 then some 0 else none) 5 [5, 7] :=
  .next 5 7 _ (by decide) rfl (.next 7 0 _ (by decide) rfl .zero)

end Dtf.ChromeCache
