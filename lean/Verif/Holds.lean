import Verif.Slices

/-!
# Things that are at a place of a file

A way to say what a file has without saying how the rest of it is laid out.
-/

namespace Dtf
open Py DataFormat

/-- Some bytes are at a place. -/
def Holds (data : Bytes) (off : Nat) (b : Bytes) : Prop := ∃ pre post, data = pre ++ b ++ post ∧ pre.length = off

theorem holds_slice (data : Bytes) (off : Nat) (b : Bytes) (h : Holds data off b) :
    slice data off (off + b.length) = b ∧ off + b.length ≤ data.length := by
  obtain ⟨pre, post, rfl, rfl⟩ := h
  refine ⟨?_, by simp⟩
  rw [slice_at _ _ _ _ (Nat.le_refl _), List.take_length]

theorem encodes_holds {σ : Type} (m : DataTypeMap σ) (b : Bytes) (x : σ) (h : Encodes m b x) (data : Bytes) (off : Nat)
    (hh : Holds data off b) : structAt m data off = .ok (x, (b.length : Int)) := by
  obtain ⟨pre, post, rfl, rfl⟩ := hh
  exact h pre post

theorem holds_prefix (data : Bytes) (off : Nat) (a b : Bytes) (h : Holds data off (a ++ b)) : Holds data off a := by
  obtain ⟨pre, post, rfl, rfl⟩ := h
  exact ⟨pre, b ++ post, by simp, rfl⟩

theorem holds_suffix (data : Bytes) (off : Nat) (a b : Bytes) (h : Holds data off (a ++ b)) :
    Holds data (off + a.length) b := by
  obtain ⟨pre, post, rfl, rfl⟩ := h
  exact ⟨pre ++ a, post, by simp, by simp⟩

theorem holds_drop (data : Bytes) (off : Nat) (b : Bytes) (h : Holds data off b) : ∃ post, data.drop off = b ++ post := by
  obtain ⟨pre, post, rfl, rfl⟩ := h
  exact ⟨post, by rw [List.append_assoc, List.drop_left]⟩

theorem holds_of_slice (data : Bytes) (off : Nat) (b : Bytes) (h : slice data off (off + b.length) = b)
    (ho : off ≤ data.length) : Holds data off b := by
  refine ⟨data.take off, data.drop (off + b.length), ?_, by simp; omega⟩
  rw [slice_eq_take_drop, Nat.add_sub_cancel_left] at h
  conv => lhs; rw [← List.take_append_drop off data, ← List.take_append_drop b.length (data.drop off)]
  rw [h, List.drop_drop, List.append_assoc]

/-- Bytes are at a place of some data that is itself at a place. -/
theorem holds_holds (data : Bytes) (off : Nat) (b : Bytes) (off' : Nat) (b' : Bytes) (h : Holds data off b)
    (h' : Holds b off' b') : Holds data (off + off') b' := by
  obtain ⟨pre, post, rfl, rfl⟩ := h
  obtain ⟨pre', post', rfl, rfl⟩ := h'
  exact ⟨pre ++ pre', post' ++ post, by simp, by simp⟩

theorem zip_all {α β : Type} (P : α → β → Prop) (as : List α) (bs : List β) (h : ∀ p ∈ as.zip bs, P p.1 p.2) :
    ∀ (i : Nat) a b, as[i]? = some a → bs[i]? = some b → P a b := by
  intro i a b ha hb
  refine h (a, b) ?_
  rw [List.mem_iff_getElem?]
  exact ⟨i, by rw [List.getElem?_zip_eq_some]; exact ⟨ha, hb⟩⟩

theorem zip_all3 {α β γ : Type} (P : α → β → γ → Prop) (as : List α) (bs : List β) (cs : List γ)
    (h : ∀ p ∈ as.zip (bs.zip cs), P p.1 p.2.1 p.2.2) :
    ∀ (i : Nat) a b c, as[i]? = some a → bs[i]? = some b → cs[i]? = some c → P a b c := by
  intro i a b c ha hb hc
  refine zip_all (fun a p => P a p.1 p.2) as (bs.zip cs) h i a (b, c) ha ?_
  rw [List.getElem?_zip_eq_some]; exact ⟨hb, hc⟩

/-! ## Sequences of integers -/

/-- A number of integers of `w` bytes in big-endian. -/
def beNats (w : Nat) : Nat → Bytes → List Nat
  | 0, _ => []
  | n + 1, b => beNat (b.take w) :: beNats w n (b.drop w)

/-- A number of integers of `w` bytes in little-endian. -/
def leNats (w : Nat) : Nat → Bytes → List Nat
  | 0, _ => []
  | n + 1, b => leNat (b.take w) :: leNats w n (b.drop w)

theorem flatMap_fixed_length {α : Type} (w : Nat) (f : α → Bytes) (hf : ∀ x, (f x).length = w) (l : List α) :
    (l.flatMap f).length = w * l.length := by
  induction l with
  | nil => rfl
  | cons i l ih => rw [List.flatMap_cons, List.length_append, ih, List.length_cons, hf, Nat.mul_succ]; omega

theorem beNats_flatMap (w : Nat) (l : List Nat) (h : ∀ n ∈ l, n < 256 ^ w) (rest : Bytes) :
    beNats w l.length (l.flatMap (beBytes w) ++ rest) = l := by
  induction l with
  | nil => rfl
  | cons n l ih =>
    have e : (n :: l).flatMap (beBytes w) ++ rest = beBytes w n ++ (l.flatMap (beBytes w) ++ rest) := by simp
    rw [e, List.length_cons, beNats, List.take_left' (by simp), List.drop_left' (by simp),
      ih (fun m hm => h m (by simp [hm])), beNat_beBytes_of_lt _ _ (h n (by simp))]

theorem leNats_flatMap (w : Nat) (l : List Nat) (h : ∀ n ∈ l, n < 256 ^ w) (rest : Bytes) :
    leNats w l.length (l.flatMap (leBytes w) ++ rest) = l := by
  induction l with
  | nil => rfl
  | cons n l ih =>
    have e : (n :: l).flatMap (leBytes w) ++ rest = leBytes w n ++ (l.flatMap (leBytes w) ++ rest) := by simp
    rw [e, List.length_cons, leNats, List.take_left' (by simp), List.drop_left' (by simp),
      ih (fun m hm => h m (by simp [hm])), leNat_leBytes_of_lt _ _ (h n (by simp))]

end Dtf
