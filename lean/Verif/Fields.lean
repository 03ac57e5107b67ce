import Verif.DataFormat.Sized

/-!
# Fields of structures

A structure is the concatenation of its fields; a slice at the offset of a field is that field.
-/

namespace Py

theorem slice_fields (a : List Bytes) (x : Bytes) (b : List Bytes) (n m : Nat)
    (hn : (a.map List.length).sum = n) (hm : n + x.length = m) :
    slice (a ++ x :: b).flatten n m = x := by
  have ha : a.flatten.length = n := by rw [List.length_flatten, hn]
  rw [slice_eq_take_drop, List.flatten_append, List.flatten_cons, List.drop_left' ha,
    show m - n = x.length by omega, List.take_left]

theorem beNat_beBytes_of_lt (w n : Nat) (h : n < 256 ^ w) : beNat (beBytes w n) = n := by
  rw [beNat_beBytes, Nat.mod_eq_of_lt h]

theorem leNat_leBytes_of_lt (w n : Nat) (h : n < 256 ^ w) : leNat (leBytes w n) = n := by
  rw [leNat_leBytes, Nat.mod_eq_of_lt h]

@[simp] theorem length_beBytes (w n : Nat) : (beBytes w n).length = w := by simp [beBytes]

/-- The value of a big-endian field at its offset. -/
theorem beField (a : List Bytes) (w v : Nat) (b : List Bytes) (n m : Nat)
    (hn : (a.map List.length).sum = n) (hm : n + w = m) (hv : v < 256 ^ w) :
    beNat (slice (a ++ beBytes w v :: b).flatten n m) = v := by
  rw [slice_fields a (beBytes w v) b n m hn (by simpa using hm), beNat_beBytes_of_lt w v hv]

/-- The value of a little-endian field at its offset. -/
theorem leField (a : List Bytes) (w v : Nat) (b : List Bytes) (n m : Nat)
    (hn : (a.map List.length).sum = n) (hm : n + w = m) (hv : v < 256 ^ w) :
    leNat (slice (a ++ leBytes w v :: b).flatten n m) = v := by
  rw [slice_fields a (leBytes w v) b n m hn (by simpa using hm), leNat_leBytes_of_lt w v hv]

/-- The signed value of an unsigned integer of `w` bytes (two's complement). -/
def signed (w n : Nat) : Int := if 2 * n < 256 ^ w then n else (n : Int) - (256 ^ w : Nat)

/-- The unsigned integer of `w` bytes with a signed value. -/
def unsigned (w : Nat) (i : Int) : Nat := (i % (256 ^ w : Nat)).toNat

theorem unsigned_lt (w : Nat) (i : Int) : unsigned w i < 256 ^ w := by
  have h : (0 : Int) < (256 ^ w : Nat) := by exact_mod_cast Nat.pow_pos (by decide : 0 < 256)
  have h1 := Int.emod_lt_of_pos i h
  have h2 := Int.emod_nonneg i (Int.ne_of_gt h)
  unfold unsigned
  omega

theorem signed_unsigned (w : Nat) (i : Int) (h1 : -(256 ^ w : Nat) ≤ 2 * i)
    (h2 : 2 * i < (256 ^ w : Nat)) : signed w (unsigned w i) = i := by
  unfold signed unsigned
  generalize 256 ^ w = m at *
  by_cases hi : 0 ≤ i
  · rw [Int.emod_eq_of_lt hi (by omega), if_pos (by omega)]
    omega
  · have : i % (m : Int) = i + m := by
      rw [← Int.add_emod_right, Int.emod_eq_of_lt (by omega) (by omega)]
    rw [this, if_neg (by omega)]
    omega

end Py
