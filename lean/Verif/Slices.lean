import Verif.Sequence

/-!
# Parts of parts of bytes
-/

namespace Py

theorem slice_take {α : Type} (l : List α) (n a b : Nat) (h : b ≤ n) : slice (l.take n) a b = slice l a b := by
  simp only [slice, List.take_take]
  rw [Nat.min_eq_left h]

theorem slice_at {α : Type} (pre s post : List α) (n : Nat) (h : n ≤ s.length) :
    slice (pre ++ s ++ post) pre.length (pre.length + n) = s.take n := by
  rw [slice_eq_take_drop, List.append_assoc, List.drop_left, Nat.add_sub_cancel_left,
    List.take_append_of_le_length h]

theorem slice_slice {α : Type} (l : List α) (a b c d : Nat) (h : a + d ≤ b) :
    slice (slice l a b) c d = slice l (a + c) (a + d) := by
  simp only [slice_eq_take_drop, List.drop_take, List.drop_drop, List.take_take]
  congr 1
  omega

/-- A string of bytes with a terminator: the part before the terminator. -/
def cstr : Bytes → Option Bytes
  | [] => none
  | b :: l => if b = 0 then some [] else (cstr l).map (b :: ·)

theorem cstr_append (s rest : Bytes) (h : ∀ b ∈ s, b ≠ 0) : cstr (s ++ 0 :: rest) = some s := by
  induction s with
  | nil => rfl
  | cons b s ih =>
    rw [List.cons_append, cstr, if_neg (h b (by simp)), ih (fun c hc => h c (by simp [hc]))]
    rfl

theorem cstr_length (b s : Bytes) (h : cstr b = some s) : s.length + 1 ≤ b.length := by
  induction b generalizing s with
  | nil => simp [cstr] at h
  | cons c b ih =>
    rw [cstr] at h
    split at h
    · cases h; simp
    · simp only [Option.map_eq_some_iff] at h
      obtain ⟨t, ht, rfl⟩ := h
      have := ih t ht
      simp only [List.length_cons]
      omega

end Py

namespace Dtf.DataFormat
open Py

/-- A structure of a fixed size that was read. -/
theorem structAt_fixed_ok {τ : Type} (n : Nat) (f : Bytes → Option τ) (data : Bytes) (off : Nat) (y : τ) (k : Int)
    (hn : 0 < n) (h : structAt ((fixedMap n id).refine f) data off = .ok (y, k)) :
    off + n ≤ data.length ∧ f (slice data off (off + n)) = some y ∧ k = n := by
  rw [structAt_refine, structAt_fixed _ _ _ _ hn] at h
  split at h
  · cases h
  · rename_i x m hx
    split at hx
    · cases hx
    · rename_i hlt
      cases hx
      split at h
      · rename_i z hz
        cases h
        refine ⟨by omega, ?_, rfl⟩
        rw [slice_eq_take_drop, Nat.add_sub_cancel_left]
        exact hz
      · cases h

/-- A structure of which the size is in its first part that was read. -/
theorem structAt_sized_ok {τ : Type} (n : Nat) (extra : Bytes → Nat) (f : Bytes → Option τ) (data : Bytes) (off : Nat)
    (y : τ) (k : Int) (hn : 0 < n) (h : structAt ((sizedMap n extra id).refine f) data off = .ok (y, k)) :
    off + k ≤ data.length ∧ f (slice data off (off + k.toNat)) = some y ∧
      k = (n + extra (slice data off (off + n)) : Nat) := by
  rw [structAt_refine, structAt_sized _ _ _ _ _ hn] at h
  split at h
  · cases h
  · rename_i x m hx
    split at hx
    · cases hx
    · split at hx
      · cases hx
      · rename_i hlt
        cases hx
        split at h
        · rename_i z hz
          cases h
          simp only [slice_eq_take_drop, Nat.add_sub_cancel_left]
          exact ⟨by omega, hz, trivial⟩
        · cases h

end Dtf.DataFormat
