import Verif.LevelDB.Model

/-!
# Variable size integers of LevelDB (C14)
-/

namespace Dtf.LevelDB
open Py

/-- Specification: the base-128 varint encoding of a number, low groups first, with the high bit
set on all bytes but the last. -/
def encodeVarint (n : Nat) : Bytes :=
  if h : n < 128 then [UInt8.ofNat n]
  else UInt8.ofNat (n % 128 + 128) :: encodeVarint (n / 128)
termination_by n
decreasing_by omega

/-- What a varint at the front of some bytes means: value and length. -/
def varintValue : Bytes → Nat × Nat
  | [] => (0, 0)
  | b :: rest =>
    if b.toNat < 128 then (b.toNat, 1)
    else (b.toNat - 128 + 128 * (varintValue rest).1, (varintValue rest).2 + 1)

theorem high_bit (b : UInt8) : (b.toNat &&& 0x80 ≠ 0) ↔ ¬ b.toNat < 128 := by
  have : ∀ n : Fin 256, (n.val &&& 0x80 ≠ 0) ↔ ¬ n.val < 128 := by decide +kernel
  exact this ⟨b.toNat, b.toNat_lt⟩

theorem low_bits (b : UInt8) : b.toNat &&& 0x7F = b.toNat % 128 :=
  Nat.and_two_pow_sub_one_eq_mod b.toNat 7

theorem or_shift (v x s : Nat) (h : v < 2 ^ s) : v ||| (x <<< s) = v + 2 ^ s * x := by
  rw [Nat.or_comm, ← Nat.shiftLeft_add_eq_or_of_lt h, Nat.shiftLeft_eq, Nat.add_comm, Nat.mul_comm]

theorem varintLoop_eq (value shift : Nat) (b : UInt8) (n : Nat) (rest : Bytes)
    (h : value < 2 ^ (shift + 7)) :
    varintLoop value shift b n rest =
      if b.toNat < 128 then (value, n)
      else (value + 2 ^ (shift + 7) * (varintValue rest).1, n + (varintValue rest).2) := by
  induction rest generalizing value shift b n with
  | nil =>
    rw [varintLoop]
    split <;> simp [varintValue]
  | cons c rest ih =>
    rw [varintLoop]
    by_cases hb : b.toNat < 128
    · rw [if_neg (by rw [high_bit]; omega), if_pos hb]
    · rw [if_pos ((high_bit b).mpr hb), if_neg hb, low_bits, or_shift _ _ _ h]
      have hp : 2 ^ (shift + 7 + 7) = 2 ^ (shift + 7) * 128 := by rw [Nat.pow_add]
      have hc : c.toNat % 128 ≤ 127 := by omega
      have hm : 2 ^ (shift + 7) * (c.toNat % 128) ≤ 2 ^ (shift + 7) * 127 :=
        Nat.mul_le_mul_left _ hc
      rw [ih _ _ _ _ (by rw [hp]; omega), varintValue]
      have hcl := c.toNat_lt
      by_cases hc' : c.toNat < 128
      · rw [if_pos hc', if_pos hc', Nat.mod_eq_of_lt hc']
      · rw [if_neg hc', if_neg hc']
        have e1 : c.toNat % 128 = c.toNat - 128 := by omega
        rw [e1, hp, Nat.mul_add, Nat.mul_assoc]
        simp only [Prod.mk.injEq]
        omega

theorem readVarint_cons (b : UInt8) (rest : Bytes) :
    readVarint (b :: rest) = .ok (varintValue (b :: rest)) := by
  have hb := b.toNat_lt
  rw [readVarint, low_bits, varintLoop_eq _ _ _ _ _ (by omega), varintValue]
  by_cases h : b.toNat < 128
  · rw [if_pos h, if_pos h, Nat.mod_eq_of_lt h]
  · rw [if_neg h, if_neg h]
    have e1 : b.toNat % 128 = b.toNat - 128 := by omega
    rw [e1, Nat.add_comm 1]

theorem varintValue_encode (n : Nat) (rest : Bytes) :
    varintValue (encodeVarint n ++ rest) = (n, (encodeVarint n).length) := by
  fun_induction encodeVarint n with
  | case1 n h =>
    have e : (UInt8.ofNat n).toNat = n := by rw [UInt8.toNat_ofNat']; omega
    simp [varintValue, e, h]
  | case2 n h ih =>
    have e : (UInt8.ofNat (n % 128 + 128)).toNat = n % 128 + 128 := by
      rw [UInt8.toNat_ofNat']
      omega
    rw [List.cons_append, varintValue, e, if_neg (by omega), ih]
    simp only [List.length_cons, Prod.mk.injEq, and_true]
    omega

theorem encodeVarint_ne_nil (n : Nat) : encodeVarint n ≠ [] := by
  rw [encodeVarint]
  split <;> simp

theorem encodeVarint_length_pos (n : Nat) : 0 < (encodeVarint n).length :=
  List.length_pos_iff.mpr (encodeVarint_ne_nil n)

/-- C14.  Every number survives encoding and decoding, with any bytes after it, and exactly the
encoding is consumed. -/
theorem C14_round_trip (n : Nat) (rest : Bytes) :
    readVarint (encodeVarint n ++ rest) = .ok (n, (encodeVarint n).length) := by
  rw [← varintValue_encode n rest]
  cases h : encodeVarint n ++ rest with
  | nil => simp [encodeVarint_ne_nil] at h
  | cons b l => exact readVarint_cons b l

/-- C14.  Decoding fails exactly on no data, and otherwise consumes at least one byte and never
more bytes than there are. -/
theorem C14_consumes_available (data : Bytes) :
    (readVarint data = .error .indexError ∧ data = []) ∨
      ∃ v n, readVarint data = .ok (v, n) ∧ 1 ≤ n ∧ n ≤ data.length := by
  cases data with
  | nil => exact .inl ⟨rfl, rfl⟩
  | cons b rest =>
    right
    have hle : ∀ l : Bytes, (varintValue l).2 ≤ l.length := by
      intro l
      induction l with
      | nil => simp [varintValue]
      | cons c l ih =>
        rw [varintValue]
        split
        · simp
        · simpa using ih
    refine ⟨(varintValue (b :: rest)).1, (varintValue (b :: rest)).2, readVarint_cons b rest, ?_,
      hle _⟩
    simp only [varintValue]
    split <;> simp

/-- C14.  Different numbers have different encodings, and no encoding is the start of another:
the decoder reads the same number back whatever follows. -/
theorem C14_prefix_free (m n : Nat) (a b : Bytes)
    (h : encodeVarint m ++ a = encodeVarint n ++ b) : m = n ∧ a = b := by
  have h1 := C14_round_trip m a
  rw [h, C14_round_trip n b] at h1
  have e : n = m := by
    have := Except.ok.inj h1
    exact (Prod.mk.inj this).1
  subst e
  exact ⟨rfl, List.append_cancel_left h⟩

example : readVarint [0xAC, 0x02, 0xFF] = .ok (300, 2) := by decide
example : encodeVarint 300 = [0xAC, 0x02] := by simp [encodeVarint]

/-- The decoder stops at the end of the data even when the last byte has the high bit set: a
truncated encoding is accepted with the value of the groups that are there. -/
theorem C14_truncation_accepted (b : UInt8) (h : 128 ≤ b.toNat) :
    readVarint [b] = .ok (b.toNat - 128, 1) := by
  rw [readVarint_cons]
  have h' : ¬ b.toNat < 128 := by omega
  simp [varintValue, h']

end Dtf.LevelDB
