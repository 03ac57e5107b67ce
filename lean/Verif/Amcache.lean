import Verif.Text
import Verif.Py

/-!
# File references in the AMCache (C106)
-/

namespace Dtf.Amcache
open Py Text

/-! ## Model -/

/-- `"0000"`. -/
def sep : List Char := ['0', '0', '0', '0']

/-- `name.split("0000")`: cuts at the leftmost occurrences that do not overlap. -/
def split : List Char → List (List Char)
  | '0' :: '0' :: '0' :: '0' :: l => [] :: split l
  | c :: l =>
    match split l with
    | [] => [[c]]
    | p :: ps => (c :: p) :: ps
  | [] => [[]]

/-- The heading of a file reference key in `_ReadFileReferenceKey` (amcache.py 131-145): the MFT entry and the sequence
number that are shown, or none of them.  `int(x, 16)` is modelled for digits in lower case; Python accepts further
forms. -/
def shownReference (name : List Char) : Res (Option (Nat × Nat)) :=
  if sep <:+: name then
    match split name with
    | [s, m] =>
      match parseDigits 16 m, parseDigits 16 s with
      | some m, some s => .ok (some (m, s))
      | _, _ => .error .valueError
    | _ => .error .valueError
  else .ok none

/-! ## The specification -/

/-- The name of the key of a file on NTFS (documentation, "Volume sub key"): the sequence number, the separator and the
MFT entry. -/
def name (sequence entry : Nat) : List Char := digits 16 sequence ++ sep ++ digits 16 entry

/-- The MFT entry and the sequence number that are shown are those of the file. -/
def C106_claim : Prop := ∀ sequence entry, 0 < sequence → sequence < 2 ^ 16 → 0 < entry → entry < 2 ^ 48 →
  shownReference (name sequence entry) = .ok (some (entry, sequence))

/-- A key name does not make reading the file fail. -/
def C106_errors_claim : Prop := ∀ sequence entry, 0 < sequence → sequence < 2 ^ 16 → 0 < entry → entry < 2 ^ 48 →
  ∃ r, shownReference (name sequence entry) = .ok r

/-! ## Proofs -/

theorem split_ne_nil (l : List Char) : split l ≠ [] := by
  unfold split
  split
  · simp
  · split <;> simp
  · simp

theorem split_cons (c : Char) (l : List Char) (h : ¬ sep <+: c :: l) :
    ∃ p ps, split l = p :: ps ∧ split (c :: l) = (c :: p) :: ps := by
  cases hs : split l with
  | nil => exact absurd hs (split_ne_nil l)
  | cons p ps =>
    refine ⟨p, ps, rfl, ?_⟩
    rw [split]
    · rw [hs]
    · intro l' h1 h2
      apply h
      rw [h1, h2]
      exact ⟨l', rfl⟩

theorem split_free (l : List Char) (h : ¬ sep <:+: l) : split l = [l] := by
  induction l with
  | nil => rfl
  | cons c l ih =>
    rw [List.infix_cons_iff, not_or] at h
    obtain ⟨p, ps, h1, h2⟩ := split_cons c l h.1
    rw [ih h.2] at h1
    cases h1
    exact h2

theorem split_length (l : List Char) (h : sep <:+: l) : 2 ≤ (split l).length := by
  induction l with
  | nil =>
    have := h.length_le
    simp [sep] at this
  | cons c l ih =>
    by_cases hp : sep <+: c :: l
    · obtain ⟨t, ht⟩ := hp
      rw [← ht]
      show 2 ≤ (split ('0' :: '0' :: '0' :: '0' :: t)).length
      rw [split]
      have := List.length_pos_iff.mpr (split_ne_nil t)
      simp only [List.length_cons]
      omega
    · rw [List.infix_cons_iff] at h
      obtain ⟨p, ps, h1, h2⟩ := split_cons c l hp
      have := ih (h.resolve_left hp)
      rw [h1] at this
      rw [h2]
      exact this

/-- A text that does not end with a zero is cut at its end. -/
theorem split_first (a l : List Char) (h : ¬ sep <:+: a) (hz : a.getLast? ≠ some '0') :
    split (a ++ sep ++ l) = a :: split l := by
  induction a with
  | nil =>
    show split ('0' :: '0' :: '0' :: '0' :: l) = _
    rw [split]
  | cons c a ih =>
    rw [List.infix_cons_iff, not_or] at h
    have hn : ¬ sep <+: c :: (a ++ sep ++ l) := by
      intro hp
      match a, h, hz, hp with
      | [], _, hz, hp => simp [sep, List.cons_prefix_cons] at hp; simp [← hp] at hz
      | [x], _, hz, hp => simp [sep, List.cons_prefix_cons] at hp; simp [← hp] at hz
      | [x, y], _, hz, hp => simp [sep, List.cons_prefix_cons] at hp; simp [← hp] at hz
      | x :: y :: z :: a, h, _, hp =>
        apply h.1
        simp [sep, List.cons_prefix_cons] at hp ⊢
        exact hp
    obtain ⟨p, ps, h1, h2⟩ := split_cons c (a ++ sep ++ l) hn
    have hz' : a.getLast? ≠ some '0' := by
      cases a with
      | nil => simp
      | cons x a => simpa [List.getLast?_cons_cons] using hz
    rw [ih h.2 hz'] at h1
    cases h1
    exact h2

theorem digitChar_zero (d : Nat) (h : d < 16) (h0 : digitChar d = '0') : d = 0 := by
  have h1 := digitVal_digitChar d (by omega)
  rw [h0] at h1
  have h2 : digitVal '0' = some 0 := by decide
  rw [h2] at h1
  exact (Option.some.inj h1).symm

theorem digits_last (n : Nat) (h : n % 16 ≠ 0) : (digits 16 n).getLast? ≠ some '0' := by
  rw [digits_eq]
  split
  · rw [List.getLast?_append]
    intro h0
    simp only [List.getLast?_singleton, Option.some_or, Option.some.injEq] at h0
    exact h (digitChar_zero _ (by omega) h0)
  · intro h0
    simp only [List.getLast?_singleton, Option.some.injEq] at h0
    have := digitChar_zero n (by omega) h0
    omega

theorem digits_head (n : Nat) (h : n ≠ 0) : (digits 16 n).head? ≠ some '0' := by
  induction n using Nat.strongRecOn with
  | _ n ih =>
    rw [digits_eq]
    split
    · rename_i hn
      have := ih (n / 16) (by omega) (by omega)
      cases hd : digits 16 (n / 16) with
      | nil => exact absurd hd (digits_ne_nil _ _)
      | cons c l => rw [hd] at this; simpa using this
    · intro h0
      simp only [List.head?_cons, Option.some.injEq] at h0
      exact h (digitChar_zero n (by omega) h0)

theorem digits_zeros (a k : Nat) (h : a ≠ 0) : digits 16 (a * 16 ^ k) = digits 16 a ++ List.replicate k '0' := by
  induction k with
  | zero => simp
  | succ k ih =>
    rw [Nat.pow_succ, ← Nat.mul_assoc]
    have hp : 0 < a * 16 ^ k := Nat.mul_pos (by omega) (Nat.pow_pos (by decide))
    rw [digits_eq, if_pos ⟨by decide, by omega⟩, Nat.mul_div_cancel _ (by decide), ih, Nat.mul_mod_left]
    rw [List.append_assoc, List.replicate_succ', show digitChar 0 = '0' by decide]

/-- The last digits of a number that are zero, and the others. -/
theorem strip (n : Nat) (h : n ≠ 0) : ∃ a k, n = a * 16 ^ k ∧ a % 16 ≠ 0 := by
  induction n using Nat.strongRecOn with
  | _ n ih =>
    by_cases h0 : n % 16 = 0
    · obtain ⟨a, k, h1, h2⟩ := ih (n / 16) (by omega) (by omega)
      refine ⟨a, k + 1, ?_, h2⟩
      rw [Nat.pow_succ, ← Nat.mul_assoc, ← h1]
      omega
    · exact ⟨n, 0, by simp, h0⟩

theorem sep_short (l : List Char) (hl : l.length ≤ 4) (hz : l.getLast? ≠ some '0') : ¬ sep <:+: l := by
  intro h
  have := h.eq_of_length (Nat.le_antisymm h.length_le hl)
  rw [← this] at hz
  exact hz rfl

theorem sep_zeros (k : Nat) (hk : k ≤ 3) (b : List Char) (hb : b.head? ≠ some '0') :
    sep <:+: List.replicate k '0' ++ b ↔ sep <:+: b := by
  have key : ∀ j, j ≤ 3 → ¬ sep <+: List.replicate j '0' ++ b := by
    intro j hj hp
    match j, hj with
    | 0, _ | 1, _ | 2, _ | 3, _ =>
      cases b with
      | nil => simp [sep, List.replicate, List.cons_prefix_cons] at hp
      | cons c b =>
        simp only [sep, List.replicate, List.cons_append, List.nil_append, List.cons_prefix_cons, true_and] at hp
        exact hb (by rw [List.head?_cons, hp.1])
  induction k with
  | zero => simp
  | succ k ih =>
    have ih' := ih (Nat.le_of_succ_le hk)
    have := key (k + 1) hk
    rw [List.replicate_succ, List.cons_append] at this ⊢
    rw [List.infix_cons_iff]
    exact ⟨fun h => ih'.mp (h.resolve_left this), fun h => Or.inr (ih'.mpr h)⟩

/-- How a name is cut. -/
theorem split_name (a k m : Nat) (ha : a % 16 ≠ 0) (h : a * 16 ^ k < 2 ^ 16) (hm : m ≠ 0) :
    split (name (a * 16 ^ k) m) = digits 16 a :: split (List.replicate k '0' ++ digits 16 m) ∧
      (sep <:+: List.replicate k '0' ++ digits 16 m ↔ sep <:+: digits 16 m) := by
  have ha0 : a ≠ 0 := by intro h0; simp [h0] at ha
  have hk : k ≤ 3 := by
    apply Nat.le_of_not_lt
    intro hk
    have h1 : 16 ^ 4 ≤ 16 ^ k := Nat.pow_le_pow_right (by decide) hk
    have h2 : 1 * 16 ^ k ≤ a * 16 ^ k := Nat.mul_le_mul_right _ (by omega)
    omega
  have hal : a < 2 ^ 16 := by
    have h2 : a * 1 ≤ a * 16 ^ k := Nat.mul_le_mul_left _ (Nat.pow_pos (by decide))
    omega
  refine ⟨?_, sep_zeros k hk _ (digits_head m hm)⟩
  unfold name
  rw [digits_zeros a k ha0]
  have e : digits 16 a ++ List.replicate k '0' ++ sep ++ digits 16 m =
      digits 16 a ++ sep ++ (List.replicate k '0' ++ digits 16 m) := by
    have : List.replicate k '0' ++ sep = sep ++ List.replicate k '0' := by
      show List.replicate k '0' ++ List.replicate 4 '0' = List.replicate 4 '0' ++ List.replicate k '0'
      rw [List.replicate_append_replicate, List.replicate_append_replicate, Nat.add_comm]
    simp only [List.append_assoc] at this ⊢
    rw [← List.append_assoc (List.replicate k '0'), this, List.append_assoc]
  rw [e]
  exact split_first _ _ (sep_short _ (digits_length_le 16 a 3 (by decide) (by omega)) (digits_last a ha)) (digits_last a ha)

theorem sep_name (s m : Nat) : sep <:+: name s m := ⟨digits 16 s, digits 16 m, rfl⟩

/-- If the MFT entry has no four zeros in a row, it is shown, and of the sequence number what is before its last zeros. -/
theorem C106_shown (a k m : Nat) (ha : a % 16 ≠ 0) (h : a * 16 ^ k < 2 ^ 16) (hm : m ≠ 0)
    (hf : ¬ ['0', '0', '0', '0'] <:+: digits 16 m) : shownReference (name (a * 16 ^ k) m) = .ok (some (m, a)) := by
  obtain ⟨h1, h2⟩ := split_name a k m ha h hm
  rw [split_free _ (fun hx => hf (h2.mp hx))] at h1
  unfold shownReference
  rw [if_pos (sep_name _ _), h1]
  dsimp only
  have hp : parseDigits 16 (List.replicate k '0' ++ digits 16 m) = some m := by
    have := parse_zpad_digits 16 m (k + (digits 16 m).length) (by decide) (by decide)
    rwa [zpad, Nat.add_sub_cancel] at this
  rw [hp, parse_digits 16 a (by decide) (by decide)]

/-- If the MFT entry has four zeros in a row, reading fails with an error that is not a parse error. -/
theorem C106_error (s m : Nat) (hs : s ≠ 0) (h : s < 2 ^ 16) (hm : m ≠ 0) (hf : ['0', '0', '0', '0'] <:+: digits 16 m) :
    shownReference (name s m) = .error .valueError := by
  obtain ⟨a, k, rfl, ha⟩ := strip s hs
  obtain ⟨h1, h2⟩ := split_name a k m ha h hm
  have h3 := split_length _ (h2.mpr hf)
  unfold shownReference
  rw [if_pos (sep_name _ _), h1]
  match hx : split (List.replicate k '0' ++ digits 16 m), h3 with
  | [], h3 => simp at h3
  | [_], h3 => simp at h3
  | _ :: _ :: _, _ => rfl

/-- What is shown is right exactly if the sequence number does not end with a zero and the MFT entry has no four zeros in
a row. -/
theorem C106_exact_partial (s m : Nat) (hs : s ≠ 0) (h : s < 2 ^ 16) (hm : m ≠ 0) :
    shownReference (name s m) = .ok (some (m, s)) ↔ s % 16 ≠ 0 ∧ ¬ ['0', '0', '0', '0'] <:+: digits 16 m := by
  by_cases hf : ['0', '0', '0', '0'] <:+: digits 16 m
  · rw [C106_error s m hs h hm hf]
    simp [hf]
  · obtain ⟨a, k, rfl, ha⟩ := strip s hs
    rw [C106_shown a k m ha h hm hf]
    simp only [Except.ok.injEq, Option.some.injEq, Prod.mk.injEq, true_and, hf, not_false_iff, and_true]
    cases k with
    | zero => simp [ha]
    | succ k =>
      have ha0 : 0 < a := by omega
      have h1 : a * 2 ≤ a * 16 ^ (k + 1) := Nat.mul_le_mul_left _ (by
        rw [Nat.pow_succ]
        have : 1 ≤ 16 ^ k := Nat.pow_pos (by decide)
        omega)
      have h2 : a * 16 ^ (k + 1) % 16 = 0 := by rw [Nat.pow_succ, ← Nat.mul_assoc]; exact Nat.mul_mod_left _ _
      rw [h2]
      simp
      omega

/-- Names of other file systems that have no four zeros in a row are shown as they are. -/
theorem C106_other (n : List Char) (h : ¬ ['0', '0', '0', '0'] <:+: n) : shownReference n = .ok none := by
  unfold shownReference
  exact if_neg h

/-- The sequence number 16 is shown as 1. -/
theorem C106_claim_false : ¬ C106_claim := by
  intro h
  have h1 := h 16 0x430d (by decide) (by decide) (by decide) (by decide)
  have h2 := C106_shown 1 1 0x430d (by decide) (by decide) (by decide) (by decide)
  rw [show 16 = 1 * 16 ^ 1 by decide, h2] at h1
  revert h1
  decide

/-- MFT entry 65536 makes reading fail. -/
theorem C106_errors_claim_false : ¬ C106_errors_claim := by
  intro h
  obtain ⟨r, h1⟩ := h 1 65536 (by decide) (by decide) (by decide) (by decide)
  rw [C106_error 1 65536 (by decide) (by decide) (by decide) (by decide +kernel)] at h1
  cases h1

/-- The name in the documentation. -/
example : shownReference "100001605a".toList = .ok (some (90202, 1)) := by decide +kernel

example : name 1 90202 = "100001605a".toList ∧ shownReference (name 1 90202) = .ok (some (90202, 1)) :=
  ⟨by decide +kernel, (C106_exact_partial 1 90202 (by decide) (by decide) (by decide)).mpr ⟨by decide, by decide +kernel⟩⟩

end Dtf.Amcache
