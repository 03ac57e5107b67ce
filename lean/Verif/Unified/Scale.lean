import Verif.Double
import Verif.Unified.Dumps
import Verif.Unified.Trace

/-!
# Scaling of continuous times (C126)

`_GetTimestamp` of dtformats/unified_logging.py 3335-3371 with the time base as Python computes it: in double
precision.
-/

namespace Dtf.Unified
open Py Formats Text DataFormat
open Dtf.Double

/-! ## Model -/

/-- The time base: `numerator / denominator` (unified_logging.py 4892-4895, 5001-5003) is the quotient rounded to 53
bits. -/
def timebase (base : Nat × Nat) : ℚ := round53 ((base.1 : ℚ) / base.2)

/-- `int(continuous_time * timebase)` (unified_logging.py 3349-3359): the time is rounded to 53 bits, as is the product,
and what is after the point is dropped. -/
def scaleTime (base : Nat × Nat) (time : Nat) : Int := ⌊round53 (round53 time * timebase base)⌋

/-! ## Specification -/

/-- The number of nanoseconds of a time: the unit of time is `numerator / denominator` nanoseconds (documentation,
section on the timesync boot record). -/
def nanoseconds (base : Nat × Nat) (time : Nat) : Int := ((time * base.1 / base.2 : Nat) : Int)

/-- The claim of C126: the timestamp of an entry is the number of nanoseconds since the record used. -/
def C126_exact_claim : Prop := ∀ (base : Nat × Nat) (time : Nat), base.1 < 2 ^ 32 → base.2 < 2 ^ 32 → 0 < base.2 →
  time < 2 ^ 64 → scaleTime base time = nanoseconds base time

/-! ## Proofs -/

theorem timebase_nonneg (base : Nat × Nat) : 0 ≤ timebase base := round53_nonneg _

/-- **C126**: a later time does not give an earlier timestamp. -/
theorem C126_order (base : Nat × Nat) (s t : Nat) (h : s ≤ t) : scaleTime base s ≤ scaleTime base t := by
  unfold scaleTime
  apply Int.floor_le_floor
  apply round53_mono
  exact mul_le_mul_of_nonneg_right (round53_mono (by exact_mod_cast h)) (timebase_nonneg base)

/-- **C126**: entries of one boot and one record are in the order of their times. -/
theorem C126_order_of_entries (ht : Int) (hb : Nat × Nat) (st : TimeState) (s t : Nat) (h : s ≤ t)
    (hr : timesyncRecord st s = timesyncRecord st t) :
    timestamp scaleTime ht hb st s ≤ timestamp scaleTime ht hb st t := by
  unfold timestamp
  rw [hr]
  cases timesyncRecord st t with
  | some r =>
    simp only
    have := C126_order st.timebase (s - r.kernelTime) (t - r.kernelTime) (by omega)
    omega
  | none =>
    simp only
    cases st.boot with
    | some b =>
      simp only
      have := C126_order st.timebase s t h
      omega
    | none =>
      simp only
      have := C126_order hb s t h
      omega

theorem scale_bounds (base : Nat × Nat) (time : Nat) :
    (time : ℚ) * (base.1 / base.2) * (1 - 1 / 2 ^ 53) ^ 3 ≤ round53 (round53 time * timebase base) ∧
      round53 (round53 time * timebase base) ≤ (time : ℚ) * (base.1 / base.2) * (1 + 1 / 2 ^ 53) ^ 3 := by
  have ht : (0 : ℚ) ≤ time := by exact_mod_cast Nat.zero_le _
  have hb : (0 : ℚ) ≤ (base.1 : ℚ) / base.2 := by positivity
  have e1 := abs_le.1 (round53_error ht)
  have e2 := abs_le.1 (round53_error hb)
  have n1 := round53_nonneg (time : ℚ)
  have n2 := timebase_nonneg base
  have e3 := abs_le.1 (round53_error (mul_nonneg n1 n2))
  have l1 : (time : ℚ) * (1 - 1 / 2 ^ 53) ≤ round53 time := by linarith [e1.1]
  have u1 : round53 time ≤ (time : ℚ) * (1 + 1 / 2 ^ 53) := by linarith [e1.2]
  have l2 : (base.1 : ℚ) / base.2 * (1 - 1 / 2 ^ 53) ≤ timebase base := by
    unfold timebase
    linarith [e2.1]
  have u2 : timebase base ≤ (base.1 : ℚ) / base.2 * (1 + 1 / 2 ^ 53) := by
    unfold timebase
    linarith [e2.2]
  have l3 : round53 time * timebase base * (1 - 1 / 2 ^ 53) ≤ round53 (round53 time * timebase base) := by
    linarith [e3.1]
  have u3 : round53 (round53 time * timebase base) ≤ round53 time * timebase base * (1 + 1 / 2 ^ 53) := by
    linarith [e3.2]
  have c : (0 : ℚ) ≤ 1 - 1 / 2 ^ 53 := by norm_num
  have c' : (0 : ℚ) ≤ 1 + 1 / 2 ^ 53 := by norm_num
  constructor
  · have m : (time : ℚ) * (1 - 1 / 2 ^ 53) * ((base.1 : ℚ) / base.2 * (1 - 1 / 2 ^ 53)) ≤ round53 time * timebase base :=
      mul_le_mul l1 l2 (mul_nonneg hb c) n1
    have := mul_le_mul_of_nonneg_right m c
    refine le_trans (le_of_eq ?_) (this.trans l3)
    ring
  · have m : round53 time * timebase base ≤ (time : ℚ) * (1 + 1 / 2 ^ 53) * ((base.1 : ℚ) / base.2 * (1 + 1 / 2 ^ 53)) :=
      mul_le_mul u1 u2 n2 (mul_nonneg ht c')
    have := mul_le_mul_of_nonneg_right m c'
    refine le_trans (u3.trans this) (le_of_eq ?_)
    ring

/-- **C126**: how far a timestamp can be off, for every time base and time. -/
theorem C126_error (base : Nat × Nat) (time : Nat) :
    (time : ℚ) * (base.1 / base.2) * (1 - 1 / 2 ^ 53) ^ 3 - 1 < scaleTime base time ∧
      (scaleTime base time : ℚ) ≤ (time : ℚ) * (base.1 / base.2) * (1 + 1 / 2 ^ 53) ^ 3 := by
  obtain ⟨h1, h2⟩ := scale_bounds base time
  unfold scaleTime
  have f1 := Int.floor_le (round53 (round53 time * timebase base))
  have f2 := Int.lt_floor_add_one (round53 (round53 time * timebase base))
  constructor <;> linarith

/-- **C126** (partial): a timestamp is off by at most one nanosecond for times of less than 2 ^ 51 nanoseconds, which is
26 days. -/
theorem C126_exact_partial (base : Nat × Nat) (time : Nat) (hd : 0 < base.2) (h : time * base.1 < 2 ^ 51 * base.2) :
    nanoseconds base time - 1 ≤ scaleTime base time ∧ scaleTime base time ≤ nanoseconds base time + 1 := by
  obtain ⟨h1, h2⟩ := C126_error base time
  have hd' : (0 : ℚ) < base.2 := by exact_mod_cast hd
  have hx : (time : ℚ) * (base.1 / base.2) < 2 ^ 51 := by
    rw [← mul_div_assoc, div_lt_iff₀ hd']
    exact_mod_cast h
  have hx0 : (0 : ℚ) ≤ (time : ℚ) * (base.1 / base.2) := by positivity
  have hn : (nanoseconds base time : ℚ) = ((time * base.1 / base.2 : Nat) : ℚ) := Int.cast_natCast _
  have hn1 : (nanoseconds base time : ℚ) ≤ (time : ℚ) * (base.1 / base.2) := by
    rw [hn, ← mul_div_assoc, le_div_iff₀ hd']
    exact_mod_cast Nat.div_mul_le_self (time * base.1) base.2
  have hn2 : (time : ℚ) * (base.1 / base.2) < nanoseconds base time + 1 := by
    rw [hn, ← mul_div_assoc, div_lt_iff₀ hd', mul_comm (_ + 1)]
    exact_mod_cast Nat.lt_mul_div_succ (time * base.1) hd
  generalize (time : ℚ) * (base.1 / base.2) = x at *
  have k1 : x - 1 ≤ x * (1 - 1 / 2 ^ 53) ^ 3 := by nlinarith
  have k2 : x * (1 + 1 / 2 ^ 53) ^ 3 < x + 1 := by nlinarith
  have r1 : (nanoseconds base time : ℚ) < scaleTime base time + 2 := by linarith
  have r2 : (scaleTime base time : ℚ) < nanoseconds base time + 2 := by linarith
  have r1' : nanoseconds base time < scaleTime base time + 2 := by exact_mod_cast r1
  have r2' : scaleTime base time < nanoseconds base time + 2 := by exact_mod_cast r2
  omega

/-- **C126** (partial): where the unit of time is a nanosecond timestamps are exact for times of at most 2 ^ 53
nanoseconds. -/
theorem C126_unit_partial (n time : Nat) (hn : 0 < n) (h : time ≤ 2 ^ 53) :
    scaleTime (n, n) time = nanoseconds (n, n) time := by
  have hn' : (n : ℚ) ≠ 0 := by exact_mod_cast hn.ne'
  have h1 : timebase (n, n) = 1 := by
    unfold timebase
    rw [div_self hn']
    have := round53_int (n := 1) (by norm_num)
    simpa using this
  unfold scaleTime nanoseconds
  rw [h1, mul_one, round53_int h, round53_int h, Int.floor_natCast]
  simp only
  rw [Nat.mul_div_cancel _ hn]

theorem timebase_silicon : timebase (125, 3) = 5864062014805333 / 2 ^ 47 := by
  unfold timebase
  rw [round53_eq 5 (by norm_num) (by norm_num), nearest_eq 5864062014805333 (by norm_num [abs_lt])]
  norm_num

/-- **C126** is false: with the unit of time of current processors 195 units are 8125 nanoseconds, but 8124 come
out. -/
theorem C126_exact_claim_false : ¬ C126_exact_claim := by
  intro h
  have := h (125, 3) 195 (by norm_num) (by norm_num) (by norm_num) (by norm_num)
  unfold scaleTime at this
  rw [timebase_silicon] at this
  have e : round53 ((195 : Nat) : ℚ) = 195 := by
    have := round53_int (n := 195) (by norm_num)
    simpa using this
  rw [e, round53_eq 12 (by norm_num) (by norm_num), nearest_eq 8933531975679999 (by norm_num [abs_lt])] at this
  norm_num [nanoseconds] at this

/-- Times that meet the hypotheses of the theorems: an hour, in units of 125 / 3 nanoseconds. -/
example : 86400000000 * 125 < 2 ^ 51 * 3 ∧ 86400000000 * 125 / 3 = 3600 * 10 ^ 9 := by decide

end Dtf.Unified
