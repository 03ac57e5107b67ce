import Mathlib.Data.Int.Log
import Mathlib.Algebra.Order.Round
import Mathlib.Data.Rat.Floor
import Mathlib.Tactic.Linarith
import Mathlib.Tactic.NormNum
import Mathlib.Tactic.Ring
import Mathlib.Tactic.FieldSimp
import Mathlib.Tactic.Positivity
import Mathlib.Tactic.GCongr

/-!
# Double precision numbers

The values of Python's `float` that are neither negative, infinite, subnormal nor not-a-number, as rational numbers:
every operation gives the exact result rounded to 53 bits, to the nearest, ties to even.  The code uses `float` where
it scales times (`_GetTimestamp` of dtformats/unified_logging.py 3335-3371); its numbers are far from the limits of the
exponent: numerator and denominator of a time base have 32 bits, times 64 bits.
-/

namespace Dtf.Double

/-- The nearest integer, ties to even. -/
def nearest (x : ℚ) : ℤ :=
  if x - ⌊x⌋ < 1 / 2 then ⌊x⌋
  else if x - ⌊x⌋ = 1 / 2 ∧ ⌊x⌋ % 2 = 0 then ⌊x⌋
  else ⌊x⌋ + 1

/-- The unit in the last place of a positive number with 53 bits. -/
def ulp (q : ℚ) : ℚ := 2 ^ (Int.log 2 q - 52)

/-- The nearest number with 53 bits. -/
def round53 (q : ℚ) : ℚ := if q ≤ 0 then 0 else nearest (q / ulp q) * ulp q

/-! ## The nearest integer -/

theorem nearest_int (n : ℤ) : nearest n = n := by
  unfold nearest
  rw [Int.floor_intCast, if_pos (by rw [sub_self]; norm_num)]

theorem nearest_error (x : ℚ) : |(nearest x : ℚ) - x| ≤ 1 / 2 := by
  have h1 := Int.floor_le x
  have h2 := Int.lt_floor_add_one x
  unfold nearest
  rw [abs_le]
  by_cases h : x - ⌊x⌋ < 1 / 2
  · rw [if_pos h]
    constructor <;> linarith
  · rw [if_neg h]
    push Not at h
    by_cases h' : x - ⌊x⌋ = 1 / 2 ∧ ⌊x⌋ % 2 = 0
    · rw [if_pos h']
      have := h'.1
      constructor <;> linarith
    · rw [if_neg h']
      push_cast
      constructor <;> linarith

theorem floor_le_nearest (x : ℚ) : ⌊x⌋ ≤ nearest x := by
  unfold nearest
  split
  · exact le_refl _
  · split
    · exact le_refl _
    · omega

theorem nearest_le_floor (x : ℚ) : nearest x ≤ ⌊x⌋ + 1 := by
  unfold nearest
  split
  · omega
  · split <;> omega

theorem nearest_mono {x y : ℚ} (h : x ≤ y) : nearest x ≤ nearest y := by
  have hf := Int.floor_le_floor h
  rcases hf.eq_or_lt with he | hl
  · unfold nearest
    rw [← he]
    by_cases hy1 : y - ⌊x⌋ < 1 / 2
    · rw [if_pos hy1, if_pos (by linarith)]
    · rw [if_neg hy1]
      push Not at hy1
      by_cases hy2 : y - ⌊x⌋ = 1 / 2 ∧ ⌊x⌋ % 2 = 0
      · rw [if_pos hy2]
        by_cases hx1 : x - ⌊x⌋ < 1 / 2
        · rw [if_pos hx1]
        · rw [if_neg hx1, if_pos]
          push Not at hx1
          exact ⟨by linarith [hy2.1], hy2.2⟩
      · rw [if_neg hy2]
        split
        · omega
        · split <;> omega
  · exact (nearest_le_floor x).trans ((by omega : ⌊x⌋ + 1 ≤ ⌊y⌋).trans (floor_le_nearest y))

theorem nearest_le_int {x : ℚ} {n : ℤ} (h : x ≤ n) : nearest x ≤ n := by
  have := nearest_mono h
  rwa [nearest_int] at this

theorem int_le_nearest {x : ℚ} {n : ℤ} (h : (n : ℚ) ≤ x) : n ≤ nearest x := by
  have := nearest_mono h
  rwa [nearest_int] at this

/-! ## Rounding to 53 bits -/

theorem ulp_pos (q : ℚ) : 0 < ulp q := zpow_pos (by norm_num) _

theorem ulp_spec {q : ℚ} (h : 0 < q) : 2 ^ 52 * ulp q ≤ q ∧ q < 2 ^ 53 * ulp q := by
  have h1 := Int.zpow_log_le_self (b := 2) (by norm_num) h
  have h2 := Int.lt_zpow_succ_log_self (b := 2) (by norm_num) q
  have e1 : (2 : ℚ) ^ (52 : ℕ) * ulp q = ((2 : ℕ) : ℚ) ^ Int.log 2 q := by
    unfold ulp
    rw [← zpow_natCast, ← zpow_add₀ (by norm_num)]
    congr 1
    push_cast
    ring
  have e2 : (2 : ℚ) ^ (53 : ℕ) * ulp q = ((2 : ℕ) : ℚ) ^ (Int.log 2 q + 1) := by
    unfold ulp
    rw [← zpow_natCast, ← zpow_add₀ (by norm_num)]
    congr 1
    push_cast
    ring
  rw [e1, e2]
  exact ⟨h1, h2⟩

theorem ulp_eq {q : ℚ} {k : ℤ} (h1 : (2 : ℚ) ^ k ≤ q) (h2 : q < 2 ^ (k + 1)) : ulp q = 2 ^ (k - 52) := by
  have hq : 0 < q := lt_of_lt_of_le (zpow_pos (by norm_num) _) h1
  have a := (Int.zpow_le_iff_le_log (b := 2) (by norm_num) hq).1 (by push_cast; exact h1)
  have b := (Int.lt_zpow_iff_log_lt (b := 2) (by norm_num) hq).1 (by push_cast; exact h2)
  unfold ulp
  rw [show Int.log 2 q = k by omega]

theorem round53_zero : round53 0 = 0 := if_pos (le_refl _)

theorem round53_nonneg (q : ℚ) : 0 ≤ round53 q := by
  unfold round53
  split
  · exact le_refl _
  · rename_i h
    push Not at h
    have : 0 ≤ nearest (q / ulp q) := int_le_nearest (by push_cast; exact (div_pos h (ulp_pos q)).le)
    exact mul_nonneg (by exact_mod_cast this) (ulp_pos q).le

/-- The relative error of rounding. -/
theorem round53_error {q : ℚ} (h : 0 ≤ q) : |round53 q - q| ≤ q / 2 ^ 53 := by
  rcases h.eq_or_lt with rfl | hp
  · rw [round53_zero]
    norm_num
  · unfold round53
    rw [if_neg (not_le.2 hp)]
    have hu := ulp_pos q
    have h1 := (ulp_spec hp).1
    have e : (nearest (q / ulp q) : ℚ) * ulp q - q = (nearest (q / ulp q) - q / ulp q) * ulp q := by
      field_simp
    rw [e, abs_mul, abs_of_pos hu]
    have := mul_le_mul_of_nonneg_right (nearest_error (q / ulp q)) hu.le
    refine this.trans ?_
    rw [le_div_iff₀ (by norm_num)]
    linarith

/-- Numbers that have 53 bits are not changed. -/
theorem round53_int {n : ℕ} (h : n ≤ 2 ^ 53) : round53 n = n := by
  rcases Nat.eq_zero_or_pos n with rfl | hp
  · simp [round53_zero]
  · have hq : (0 : ℚ) < n := by exact_mod_cast hp
    unfold round53
    rw [if_neg (not_le.2 hq)]
    have hu := ulp_pos (n : ℚ)
    have key : ∃ m : ℤ, (n : ℚ) / ulp n = m := by
      by_cases hn : n = 2 ^ 53
      · refine ⟨2 ^ 52, ?_⟩
        subst hn
        rw [ulp_eq (k := 53) (by norm_num) (by norm_num)]
        norm_num
      · have hl : Int.log 2 (n : ℚ) ≤ 52 := by
          have hlt : (n : ℚ) < ((2 : ℕ) : ℚ) ^ (53 : ℤ) := by
            have : n < 2 ^ 53 := lt_of_le_of_ne h hn
            have : (n : ℚ) < 2 ^ 53 := by exact_mod_cast this
            norm_num at this ⊢
            exact this
          have := (Int.lt_zpow_iff_log_lt (b := 2) (by norm_num) hq).1 hlt
          omega
        refine ⟨n * 2 ^ (52 - Int.log 2 (n : ℚ)).toNat, ?_⟩
        unfold ulp
        rw [div_eq_mul_inv, ← zpow_neg, show -(Int.log 2 (n : ℚ) - 52) = ((52 - Int.log 2 (n : ℚ)).toNat : ℤ) by omega,
          zpow_natCast]
        push_cast
        rfl
    obtain ⟨m, hm⟩ := key
    rw [hm, nearest_int, ← hm]
    field_simp

/-- Rounding keeps the order. -/
theorem round53_mono {p q : ℚ} (h : p ≤ q) : round53 p ≤ round53 q := by
  by_cases hp : p ≤ 0
  · rw [show round53 p = 0 from if_pos hp]
    exact round53_nonneg q
  · push Not at hp
    have hq : 0 < q := lt_of_lt_of_le hp h
    have hup := ulp_pos p
    have huq := ulp_pos q
    unfold round53
    rw [if_neg (not_le.2 hp), if_neg (not_le.2 hq)]
    rcases (Int.log_mono_right (b := 2) hp h).eq_or_lt with he | hl
    · have hu : ulp p = ulp q := by
        unfold ulp
        rw [he]
      rw [hu]
      refine mul_le_mul_of_nonneg_right ?_ huq.le
      have := nearest_mono (div_le_div_of_nonneg_right h huq.le)
      exact_mod_cast this
    · have hp2 := (ulp_spec hp).2
      have hq1 := (ulp_spec hq).1
      have a : nearest (p / ulp p) ≤ 2 ^ 53 := nearest_le_int (by
        push_cast
        rw [div_le_iff₀ hup]
        exact hp2.le)
      have b : 2 ^ 52 ≤ nearest (q / ulp q) := int_le_nearest (by
        push_cast
        rw [le_div_iff₀ huq]
        exact hq1)
      have c : 2 * ulp p ≤ ulp q := by
        have e : 2 * ulp p = 2 ^ (Int.log 2 p - 52 + 1) := by
          unfold ulp
          rw [zpow_add₀ (by norm_num : (2 : ℚ) ≠ 0), zpow_one, mul_comm]
        rw [e]
        unfold ulp
        exact zpow_le_zpow_right₀ (by norm_num) (by omega)
      have a' : (nearest (p / ulp p) : ℚ) ≤ 2 ^ 53 := by exact_mod_cast a
      have b' : (2 : ℚ) ^ 52 ≤ (nearest (q / ulp q) : ℚ) := by exact_mod_cast b
      calc (nearest (p / ulp p) : ℚ) * ulp p ≤ 2 ^ 53 * ulp p := mul_le_mul_of_nonneg_right a' hup.le
        _ = 2 ^ 52 * (2 * ulp p) := by ring
        _ ≤ 2 ^ 52 * ulp q := mul_le_mul_of_nonneg_left c (by norm_num)
        _ ≤ _ := mul_le_mul_of_nonneg_right b' huq.le

/-- What rounding gives, from the binade of the number and the nearest integer. -/
theorem round53_eq {q : ℚ} (k : ℤ) (h1 : (2 : ℚ) ^ k ≤ q) (h2 : q < 2 ^ (k + 1)) :
    round53 q = nearest (q / 2 ^ (k - 52)) * 2 ^ (k - 52) := by
  have hq : 0 < q := lt_of_lt_of_le (zpow_pos (by norm_num) _) h1
  unfold round53
  rw [if_neg (not_le.2 hq), ulp_eq h1 h2]

/-- The nearest integer of a number that is not a tie. -/
theorem nearest_eq {x : ℚ} (n : ℤ) (h : |x - n| < 1 / 2) : nearest x = n := by
  rw [abs_lt] at h
  have e := nearest_error x
  rw [abs_le] at e
  have h1 : (nearest x : ℚ) < n + 1 := by linarith
  have h2 : (n : ℚ) < nearest x + 1 := by linarith
  have h1' : nearest x < n + 1 := by exact_mod_cast h1
  have h2' : n < nearest x + 1 := by exact_mod_cast h2
  omega

end Dtf.Double
