import Verif.Prefetch.Model

/-!
# Properties of the prefetch hashes (C09, C10)
-/

namespace Dtf.Prefetch
open Py

/-- Specification: the polynomial hash with multiplier 37 over unbounded integers. -/
def poly (start : Int) : Bytes → Int
  | [] => start
  | b :: bs => poly (start * 37 + b.toNat) bs

/-- Specification: the value of 32 bits read as a signed integer. -/
def signed32 (n : Int) : Int := if n % 2 ^ 32 < 2 ^ 31 then n % 2 ^ 32 else n % 2 ^ 32 - 2 ^ 32

theorem poly_congr (bs : Bytes) (h k : Int) (e : h % 0x100000000 = k % 0x100000000) :
    poly h bs % 0x100000000 = poly k bs % 0x100000000 := by
  induction bs generalizing h k with
  | nil => exact e
  | cons b bs ih => exact ih _ _ (by omega)

theorem foldl_poly (bs : Bytes) (h : Int) (hr : h % 0x100000000 = h) :
    bs.foldl (fun (h : Int) b => ((h * 37) + b.toNat) % 0x100000000) h =
      poly h bs % 0x100000000 := by
  induction bs generalizing h with
  | nil => exact hr.symm
  | cons b bs ih =>
    rw [List.foldl_cons, ih _ (by omega), poly]
    exact poly_congr bs _ _ (by omega)

theorem tail2008_poly (bs : Bytes) (h : Int) (hr : h % 0x100000000 = h) :
    tail2008 h bs = poly h bs % 0x100000000 := by
  induction bs generalizing h with
  | nil => exact hr.symm
  | cons b bs ih =>
    rw [tail2008, ih _ (by omega), poly]
    exact poly_congr bs _ _ (by omega)

theorem loop2008_poly (h : Int) (bs : Bytes) (hr : h % 0x100000000 = h) :
    loop2008 h bs = poly h bs % 0x100000000 := by
  fun_induction loop2008 h bs with
  | case1 h b0 b1 b2 b3 b4 b5 b6 b7 b8 rest block block1 block2 block3 block4 block5 block6 block7 ih =>
    rw [ih (by omega)]
    conv => rhs; rw [poly, poly, poly, poly, poly, poly, poly, poly]
    apply poly_congr
    omega
  | case2 h bs hne => exact tail2008_poly bs h hr

/-- C09.  The Vista hash is the polynomial hash modulo 2^32, for every path. -/
theorem C09_vista_is_polynomial (path : Bytes) :
    hashVista path = poly 314159 path % 2 ^ 32 :=
  foldl_poly path 314159 (by decide)

/-- C09.  The 2008 hash, which takes eight bytes at a time, is the same polynomial hash. -/
theorem C09_2008_is_polynomial (path : Bytes) :
    hash2008 path = poly 314159 path % 2 ^ 32 :=
  loop2008_poly 314159 path (by decide)

/-- C09.  The two hashes agree on every path. -/
theorem C09_2008_eq_vista (path : Bytes) : hash2008 path = hashVista path := by
  rw [C09_2008_is_polynomial, C09_vista_is_polynomial]

/-- C09.  The XP hash is the absolute value of the signed 32-bit product of the polynomial
hash, reduced by the prime. -/
theorem C09_xp_is_signed_product (path : Bytes) :
    hashXP path = (signed32 (poly 0 path * 314159269)).natAbs % 1000000007 := by
  unfold hashXP signed32
  simp only [foldl_poly path 0 (by decide)]
  have e : (poly 0 path % 0x100000000 * 314159269) % 0x100000000 =
      (poly 0 path * 314159269) % 2 ^ 32 := by omega
  rw [e]
  generalize poly 0 path * 314159269 = z
  have hz : 0 ≤ z % 2 ^ 32 ∧ z % 2 ^ 32 < 2 ^ 32 := by omega
  generalize z % 2 ^ 32 = y at hz
  have key : (if y > 0x80000000 then 0x100000000 - y else y).natAbs =
      (if y < 2 ^ 31 then y else y - 2 ^ 32).natAbs := by
    split <;> split <;> omega
  rw [key]
  omega

/-- C10.  The XP hash is below 1000000007. -/
theorem C10_xp_range (path : Bytes) : 0 ≤ hashXP path ∧ hashXP path < 1000000007 := by
  rw [C09_xp_is_signed_product]
  omega

/-- C10.  The Vista and 2008 hashes have at most eight hexadecimal digits. -/
theorem C10_vista_range (path : Bytes) : 0 ≤ hashVista path ∧ hashVista path < 16 ^ 8 := by
  rw [C09_vista_is_polynomial]
  omega

theorem C10_2008_range (path : Bytes) : 0 ≤ hash2008 path ∧ hash2008 path < 16 ^ 8 := by
  rw [C09_2008_is_polynomial]
  omega

/-- The hashes are not constant: some of the bytes of a path. -/
example : hashVista [67, 0, 58, 0, 92, 0, 65, 0, 66, 0] = 4121708907 ∧
    hash2008 [67, 0, 58, 0, 92, 0, 65, 0, 66, 0] = 4121708907 ∧
    hashXP [67, 0, 58, 0] ≠ hashXP [68, 0, 58, 0] := by decide

end Dtf.Prefetch
