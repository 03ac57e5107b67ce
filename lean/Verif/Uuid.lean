import Verif.Scripts.Analyzer
import Verif.Unified.Decoders
import Verif.Tzif

/-!
# The text of identifiers

An identifier (GUID) is stored as a 32-bit and two 16-bit little-endian integers followed by eight bytes.  Its text is that of
the integers and the bytes in hexadecimal.
-/

namespace Dtf.Uuid
open Py Text Formats

theorem hexw_one (n : Nat) (h : n < 16) : hexw 1 n = [digitChar n] := by
  unfold hexw
  rw [digits_eq, if_neg (by omega)]
  rfl

theorem hexw_succ (w n : Nat) (hw : 0 < w) : hexw (w + 1) n = hexw w (n / 16) ++ [digitChar (n % 16)] := by
  unfold hexw
  rw [digits_eq 16 n]
  by_cases h : n < 16
  · rw [if_neg (by omega), Nat.div_eq_of_lt h, Nat.mod_eq_of_lt h, digits_eq 16 0, if_neg (by omega)]
    obtain ⟨w, rfl⟩ : ∃ k, w = k + 1 := ⟨w - 1, by omega⟩
    have : digitChar 0 = '0' := rfl
    rw [this]
    simp only [zpad, List.length_singleton, Nat.add_sub_cancel]
    rw [List.replicate_succ']
  · rw [if_pos (by omega)]
    simp only [zpad, List.length_append, List.length_singleton, Nat.add_sub_add_right, List.append_assoc]

theorem hexw_split (w : Nat) (hw : 0 < w) : ∀ (k n : Nat), hexw (w + (k + 1)) n = hexw w (n / 16 ^ (k + 1)) ++ hexw (k + 1) (n % 16 ^ (k + 1)) := by
  intro k
  induction k with
  | zero =>
    intro n
    have h : n % 16 < 16 := Nat.mod_lt _ (by decide)
    rw [hexw_succ w n hw, ← hexw_one _ h]
    simp
  | succ k ih =>
    intro n
    rw [← Nat.add_assoc, hexw_succ _ n (by omega), ih, hexw_succ (k + 1) _ (by omega), Nat.pow_succ 16 (k + 1), Nat.mul_comm (16 ^ (k + 1)) 16,
      Nat.mod_mul_right_div_self, Nat.mod_mul_right_mod, Nat.div_div_eq_div_mul, List.append_assoc]

theorem hexw_join (w k a c : Nat) (hw : 0 < w) (hk : 0 < k) (hc : c < 16 ^ k) : hexw (w + k) (a * 16 ^ k + c) = hexw w a ++ hexw k c := by
  obtain ⟨k, rfl⟩ : ∃ j, k = j + 1 := ⟨k - 1, by omega⟩
  have hp : 0 < 16 ^ (k + 1) := Nat.pow_pos (by decide)
  rw [hexw_split w hw, Nat.mul_comm, Nat.mul_add_div hp, Nat.div_eq_of_lt hc, Nat.add_zero, Nat.mul_add_mod, Nat.mod_eq_of_lt hc]

/-- The text of an identifier: its 32-bit integer, its two 16-bit integers, the first two and the last six bytes, each as
hexadecimal digits. -/
def text (a b c : Nat) (d : Bytes) : List Char :=
  hexw 8 a ++ '-' :: hexw 4 b ++ '-' :: hexw 4 c ++ '-' :: (d.take 2).flatMap (fun x => hexw 2 x.toNat) ++
    '-' :: (d.drop 2).flatMap (fun x => hexw 2 x.toNat)

theorem beNat_lt (b : Bytes) : beNat b < 16 ^ (2 * b.length) := by
  induction b with
  | nil => simp [beNat]
  | cons x b ih =>
    have e : beNat (x :: b) = x.toNat * 256 ^ b.length + beNat b := by
      have := Tzif.beNat_append [x] b
      simpa [beNat] using this
    rw [e, List.length_cons, Nat.mul_succ, Nat.pow_add]
    have h2 : (256 : Nat) ^ b.length = 16 ^ (2 * b.length) := by rw [Nat.pow_mul]
    have h3 := x.toNat_lt
    rw [h2]
    generalize 16 ^ (2 * b.length) = m at *
    have : x.toNat * m ≤ 255 * m := Nat.mul_le_mul_right _ (by omega)
    omega

theorem hexw_bytes : ∀ b : Bytes, b ≠ [] → hexw (2 * b.length) (beNat b) = b.flatMap (fun x => hexw 2 x.toNat)
  | [], h => absurd rfl h
  | [x], _ => by simp [beNat]
  | x :: y :: b, _ => by
    have ih := hexw_bytes (y :: b) (by simp)
    have e : beNat (x :: y :: b) = x.toNat * 256 ^ (y :: b).length + beNat (y :: b) := by
      have := Tzif.beNat_append [x] (y :: b)
      simpa [beNat] using this
    have h2 : (256 : Nat) ^ (y :: b).length = 16 ^ (2 * (y :: b).length) := by rw [Nat.pow_mul]
    rw [e, h2, List.length_cons, Nat.mul_succ, Nat.add_comm, hexw_join 2 _ _ _ (by decide) (by simp) (beNat_lt _), ih]
    rfl

theorem beNat_reverse_leBytes (w n : Nat) (h : n < 256 ^ w) : beNat (leBytes w n).reverse = n := by
  have := beNat_beBytes_of_lt w n h
  exact this

/-- C171.  The text of a stored identifier is that of its parts. -/
theorem C171_identifier (a b c : Nat) (d : Bytes) (ha : a < 2 ^ 32) (hb : b < 2 ^ 16) (hc : c < 2 ^ 16) (hd : d.length = 8) :
    Analyzer.uuidString (Analyzer.ordered (leBytes 4 a ++ leBytes 2 b ++ leBytes 2 c ++ d)) = text a b c d := by
  have e : Analyzer.ordered (leBytes 4 a ++ leBytes 2 b ++ leBytes 2 c ++ d) =
      (leBytes 4 a).reverse ++ ((leBytes 2 b).reverse ++ ((leBytes 2 c).reverse ++ (d.take 2 ++ d.drop 2))) := by
    have h0 : leBytes 4 a ++ leBytes 2 b ++ leBytes 2 c ++ d = [leBytes 4 a, leBytes 2 b, leBytes 2 c, d].flatten := by simp
    unfold Analyzer.ordered
    have h1 : slice (leBytes 4 a ++ leBytes 2 b ++ leBytes 2 c ++ d) 4 6 = leBytes 2 b := by
      rw [h0]; exact slice_fields [leBytes 4 a] _ [leBytes 2 c, d] 4 6 (by simp) (by simp)
    have h2 : slice (leBytes 4 a ++ leBytes 2 b ++ leBytes 2 c ++ d) 6 8 = leBytes 2 c := by
      rw [h0]; exact slice_fields [leBytes 4 a, leBytes 2 b] _ [d] 6 8 (by simp) (by simp)
    have h3 : (leBytes 4 a ++ leBytes 2 b ++ leBytes 2 c ++ d).take 4 = leBytes 4 a := by
      rw [List.append_assoc, List.append_assoc]; exact List.take_left' (by simp)
    have h4 : (leBytes 4 a ++ leBytes 2 b ++ leBytes 2 c ++ d).drop 8 = d := List.drop_left' (by simp)
    rw [h1, h2, h3, h4, List.take_append_drop]
    simp
  have l1 : (d.take 2).length = 2 := by simp; omega
  have l2 : (d.drop 2).length = 6 := by simp; omega
  have b1 := beNat_lt (d.take 2)
  have b2 := beNat_lt (d.drop 2)
  rw [l1] at b1
  rw [l2] at b2
  have e2 : hexw 32 (beNat (Analyzer.ordered (leBytes 4 a ++ leBytes 2 b ++ leBytes 2 c ++ d))) =
      hexw 8 a ++ (hexw 4 b ++ (hexw 4 c ++ (hexw 4 (beNat (d.take 2)) ++ hexw 12 (beNat (d.drop 2))))) := by
    rw [e]
    simp only [Tzif.beNat_append, List.length_append, List.length_reverse, leBytes_length, l1, l2,
      beNat_reverse_leBytes 4 a (by simpa using ha), beNat_reverse_leBytes 2 b (by simpa using hb), beNat_reverse_leBytes 2 c (by simpa using hc)]
    have j1 := hexw_join 4 12 (beNat (d.take 2)) (beNat (d.drop 2)) (by decide) (by decide) b2
    have j2 := hexw_join 4 16 c (beNat (d.take 2) * 16 ^ 12 + beNat (d.drop 2)) (by decide) (by decide) (by norm_num at b1 b2 ⊢; omega)
    have j3 := hexw_join 4 20 b (c * 16 ^ 16 + (beNat (d.take 2) * 16 ^ 12 + beNat (d.drop 2))) (by decide) (by decide)
      (by norm_num at b1 b2 hc ⊢; omega)
    have j4 := hexw_join 8 24 a (b * 16 ^ 20 + (c * 16 ^ 16 + (beNat (d.take 2) * 16 ^ 12 + beNat (d.drop 2)))) (by decide) (by decide)
      (by norm_num at b1 b2 hc hb ⊢; omega)
    rw [← j1, ← j2, ← j3, ← j4]
    norm_num
  have x1 := hexw_bytes (d.take 2) (by intro h; rw [h] at l1; simp at l1)
  have x2 := hexw_bytes (d.drop 2) (by intro h; rw [h] at l2; simp at l2)
  rw [l1] at x1
  rw [l2] at x2
  have m1 := Unified.hexw_length 8 a (by decide) (by simpa using ha)
  have m2 := Unified.hexw_length 4 b (by decide) (by simpa using hb)
  have m3 := Unified.hexw_length 4 c (by decide) (by simpa using hc)
  have m4 := Unified.hexw_length 4 _ (by decide) b1
  have m5 := Unified.hexw_length 12 _ (by decide) b2
  unfold Analyzer.uuidString text
  rw [← x1, ← x2]
  simp only [e2]
  generalize hexw 8 a = p1 at *
  generalize hexw 4 b = p2 at *
  generalize hexw 4 c = p3 at *
  generalize h4 : hexw 4 (beNat (d.take 2)) = p4 at *
  generalize h5 : hexw 12 (beNat (d.drop 2)) = p5 at *
  have s1 : slice (p1 ++ (p2 ++ (p3 ++ (p4 ++ p5)))) 0 8 = p1 := by
    rw [slice_eq_take_drop]; exact List.take_left' m1
  have s2 : slice (p1 ++ (p2 ++ (p3 ++ (p4 ++ p5)))) 8 12 = p2 := by
    rw [slice_eq_take_drop, List.drop_left' m1]; exact List.take_left' m2
  have s3 : slice (p1 ++ (p2 ++ (p3 ++ (p4 ++ p5)))) 12 16 = p3 := by
    rw [slice_eq_take_drop, ← List.append_assoc, List.drop_left' (by simp [m1, m2])]; exact List.take_left' m3
  have s4 : slice (p1 ++ (p2 ++ (p3 ++ (p4 ++ p5)))) 16 20 = p4 := by
    rw [slice_eq_take_drop, ← List.append_assoc, ← List.append_assoc, List.drop_left' (by simp [m1, m2, m3])]; exact List.take_left' m4
  have s5 : slice (p1 ++ (p2 ++ (p3 ++ (p4 ++ p5)))) 20 32 = p5 := by
    rw [slice_eq_take_drop, ← List.append_assoc, ← List.append_assoc, ← List.append_assoc, List.drop_left' (by simp [m1, m2, m3, m4])]
    exact List.take_of_length_le (by omega)
  rw [s1, s2, s3, s4, s5]
  simp

end Dtf.Uuid
