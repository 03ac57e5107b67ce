import Mathlib.Tactic.Ring
import Mathlib.Tactic.NormNum
import Mathlib.Tactic.FinCases
import Verif.Spotlight.Model

/-!
# Spotlight variable size integers (C24) and lists of them (C59)
-/

namespace Dtf.Spotlight
open Py DataFormat

/-! ## Specification -/

/-- The byte starts with exactly `n` one bits. -/
def LeadingOnes (b n : Nat) : Prop :=
  (n = 8 ∧ b = 255) ∨ (n < 8 ∧ 256 - 2 ^ (8 - n) ≤ b ∧ b < 256 - 2 ^ (7 - n))

/-- The encodings of a value: `n` leading one bits announce `n` more bytes.  With up to four more
bytes the rest of the first byte holds the highest bits of the value. -/
def encodeVarInt (n v : Nat) : Bytes :=
  if n ≤ 4 then UInt8.ofNat (256 - 2 ^ (8 - n) + v / 256 ^ n) :: beBytes n v
  else UInt8.ofNat (256 - 2 ^ (8 - n)) :: beBytes n v

/-- The value fits the encoding with `n` more bytes. -/
def Fits (n v : Nat) : Prop := (n ≤ 4 ∧ v < 2 ^ (7 * n + 7)) ∨ (4 < n ∧ n ≤ 8 ∧ v < 256 ^ n)

/-! ## Proofs -/

theorem countLoop_table : ∀ b : Fin 256, ∀ n : Fin 9,
    ((n.val = 8 ∧ b.val = 255) ∨
      (n.val < 8 ∧ 256 - 2 ^ (8 - n.val) ≤ b.val ∧ b.val < 256 - 2 ^ (7 - n.val))) →
    (countLoop b.val bitmasks 0 0).1 = n.val ∧
      (n.val ≤ 4 → n.val > 0 →
        b.val &&& ((countLoop b.val bitmasks 0 0).2 ^^^ 0xFF) = b.val - (256 - 2 ^ (8 - n.val))) := by
  decide +kernel

theorem additionalLoop_eq (data : Bytes) (n v k : Nat) :
    additionalLoop data n v k =
      if data.length < k + n ∧ 0 < n then .error .indexError
      else .ok (v * 256 ^ n + beNat ((data.drop k).take n), k + n) := by
  induction n generalizing v k with
  | zero => simp [additionalLoop, beNat]
  | succ n ih =>
    rw [additionalLoop]
    by_cases hk : k < data.length
    · rw [List.getElem?_eq_getElem hk]
      dsimp only
      rw [ih]
      by_cases h2 : data.length < k + 1 + n ∧ 0 < n
      · rw [if_pos h2, if_pos (by omega)]
      · rw [if_neg h2]
        have h3 : ¬ (data.length < k + (n + 1) ∧ 0 < n + 1) := by omega
        rw [if_neg h3]
        have hd : data.drop k = data[k] :: data.drop (k + 1) := List.drop_eq_getElem_cons hk
        have hb : ∀ (x : UInt8) (l : Bytes), beNat (x :: l) = x.toNat * 256 ^ l.length + beNat l := by
          intro x l
          rw [beNat_eq_leNat_reverse, List.reverse_cons, leNat_append, beNat_eq_leNat_reverse]
          simp [leNat]
          ring
        rw [hd, List.take_succ_cons, hb]
        have hl : ((data.drop (k + 1)).take n).length = n := by simp; omega
        rw [hl]
        congr 2
        · ring
        · omega
    · rw [List.getElem?_eq_none (by omega), if_pos (by omega)]

/-- **C24**: reading takes exactly one byte more than the first byte has leading one bits, gives the
big-endian value of those bytes, and raises `IndexError` exactly when the data is too short. -/
theorem C24_decodes (b : UInt8) (n : Nat) (tail : Bytes) (h : LeadingOnes b.toNat n) :
    readVarInt (b :: tail) =
      if tail.length < n then .error .indexError
      else .ok ((if n ≤ 4 then b.toNat - (256 - 2 ^ (8 - n)) else 0) * 256 ^ n +
        beNat (tail.take n), n + 1) := by
  have hn : n < 9 := by rcases h with h | h <;> omega
  have ht := countLoop_table ⟨b.toNat, b.toNat_lt⟩ ⟨n, hn⟩ h
  simp only at ht
  generalize hc : countLoop b.toNat bitmasks 0 0 = c at ht
  obtain ⟨cn, mask⟩ := c
  simp only at ht
  obtain ⟨rfl, ht2⟩ := ht
  simp only [readVarInt, List.getElem?_cons_zero, hc, additionalLoop_eq, List.length_cons,
    List.drop_succ_cons, List.drop_zero]
  have e : (if cn > 4 then 0 else if cn > 0 then b.toNat &&& (mask ^^^ 0xFF) else b.toNat) =
      (if cn ≤ 4 then b.toNat - (256 - 2 ^ (8 - cn)) else 0) := by
    by_cases h4 : cn ≤ 4
    · rw [if_neg (by omega), if_pos h4]
      by_cases h0 : cn > 0
      · rw [if_pos h0, ht2 h4 h0]
      · have : cn = 0 := by omega
        subst this
        simp
    · rw [if_pos (by omega), if_neg h4]
  rw [e]
  by_cases hl : tail.length < cn
  · rw [if_pos hl, if_pos (by omega)]
  · rw [if_neg hl, if_neg (by omega), Nat.add_comm 1 cn]

/-- Every byte has a number of leading one bits. -/
theorem leadingOnes_exists (b : UInt8) : ∃ n, n ≤ 8 ∧ LeadingOnes b.toNat n := by
  have : ∀ b : Fin 256, ∃ n : Fin 9, (n.val = 8 ∧ b.val = 255) ∨
      (n.val < 8 ∧ 256 - 2 ^ (8 - n.val) ≤ b.val ∧ b.val < 256 - 2 ^ (7 - n.val)) := by
    decide +kernel
  obtain ⟨n, hn⟩ := this ⟨b.toNat, b.toNat_lt⟩
  exact ⟨n.val, by omega, hn⟩

/-- Reading empty data raises `IndexError`. -/
theorem C24_empty : readVarInt [] = .error .indexError := rfl

theorem readVarInt_bounds (data : Bytes) (v n : Nat) (h : readVarInt data = .ok (v, n)) :
    1 ≤ n ∧ n ≤ 9 ∧ n ≤ data.length := by
  cases data with
  | nil => simp [readVarInt] at h
  | cons b t =>
    obtain ⟨k, hk8, hk⟩ := leadingOnes_exists b
    rw [C24_decodes b k t hk] at h
    split at h
    · simp at h
    · simp only [Except.ok.injEq, Prod.mk.injEq] at h
      simp only [List.length_cons]
      omega

theorem fits_first (n v : Nat) (h : n ≤ 4) (hv : v < 2 ^ (7 * n + 7)) : v / 256 ^ n < 2 ^ (7 - n) := by
  have : n = 0 ∨ n = 1 ∨ n = 2 ∨ n = 3 ∨ n = 4 := by omega
  rcases this with rfl | rfl | rfl | rfl | rfl <;> norm_num at hv ⊢ <;> omega

theorem beBytes_length (n v : Nat) : (beBytes n v).length = n := by simp [beBytes]

theorem encodeVarInt_length (n v : Nat) : (encodeVarInt n v).length = n + 1 := by
  unfold encodeVarInt
  split <;> simp [beBytes_length]

/-- **C24** (round trip): a value stored in any of the sizes it fits is read back, whatever follows
it, and exactly its bytes are consumed. -/
theorem C24_round_trip (n v : Nat) (rest : Bytes) (h : Fits n v) :
    readVarInt (encodeVarInt n v ++ rest) = .ok (v, (encodeVarInt n v).length) := by
  have hn : n ≤ 8 := by rcases h with h | h <;> omega
  have hp1 : ∀ k ≤ 8, 2 ^ k ≤ 256 := by
    intro k hk
    calc 2 ^ k ≤ 2 ^ 8 := Nat.pow_le_pow_right (by omega) hk
      _ = 256 := by norm_num
  have hp2 : n < 8 → 2 ^ (8 - n) = 2 * 2 ^ (7 - n) := by
    intro h
    rw [show 8 - n = (7 - n) + 1 by omega, pow_succ]; ring
  rw [encodeVarInt_length]
  unfold encodeVarInt
  by_cases h4 : n ≤ 4
  · have hv : v < 2 ^ (7 * n + 7) := by rcases h with h | h <;> omega
    have hf := fits_first n v h4 hv
    have := hp1 (8 - n) (by omega)
    have := hp2 (by omega)
    have := Nat.two_pow_pos (7 - n)
    rw [if_pos h4, List.cons_append]
    generalize hq : v / 256 ^ n = q at hf ⊢
    have hb : (UInt8.ofNat (256 - 2 ^ (8 - n) + q)).toNat =
        256 - 2 ^ (8 - n) + q := by
      rw [UInt8.toNat_ofNat', Nat.mod_eq_of_lt (by omega)]
    rw [C24_decodes _ n _ (by right; rw [hb]; omega), hb, if_neg (by simp [beBytes_length]),
      if_pos h4, List.take_left' (beBytes_length n v), beNat_beBytes]
    have e : 256 - 2 ^ (8 - n) + q - (256 - 2 ^ (8 - n)) = q := by omega
    rw [e, ← hq, Nat.mul_comm, Nat.div_add_mod]
  · have hv : v < 256 ^ n := by rcases h with h | h <;> omega
    have := hp1 (8 - n) (by omega)
    have := Nat.two_pow_pos (8 - n)
    rw [if_neg h4, List.cons_append]
    have hb : (UInt8.ofNat (256 - 2 ^ (8 - n))).toNat = 256 - 2 ^ (8 - n) := by
      rw [UInt8.toNat_ofNat', Nat.mod_eq_of_lt (by omega)]
    have hl : LeadingOnes (256 - 2 ^ (8 - n)) n := by
      by_cases h8 : n = 8
      · left; subst h8; simp
      · right
        have := hp2 (by omega)
        have := Nat.two_pow_pos (7 - n)
        omega
    rw [C24_decodes _ n _ (by rw [hb]; exact hl), if_neg (by simp [beBytes_length]),
      if_neg h4, List.take_left' (beBytes_length n v), beNat_beBytes, Nat.mod_eq_of_lt hv]
    simp

/-- The largest values of each size, and that the sizes hold more and more values. -/
example : Fits 0 127 ∧ Fits 1 128 ∧ Fits 4 (2 ^ 35 - 1) ∧ ¬ Fits 4 (2 ^ 35) ∧
    Fits 5 (2 ^ 40 - 1) ∧ Fits 8 (2 ^ 64 - 1) := by
  unfold Fits; norm_num

/-- The full claim of C24: different encodings of the same length decode to different values. -/
def C24_injective_claim : Prop :=
  ∀ (s t : Bytes) (v : Nat), s.length = t.length → readVarInt s = .ok (v, s.length) →
    readVarInt t = .ok (v, t.length) → s = t

/-- The claim is false: with five or six leading one bits the rest of the first byte is dropped. -/
theorem C24_spare_bits_dropped : ¬ C24_injective_claim := by
  intro h
  have := h [0xF8, 0, 0, 0, 0, 1] [0xF9, 0, 0, 0, 0, 1] 1 rfl (by decide) (by decide)
  exact absurd this (by decide)

theorem beNat_injective (a b : Bytes) (hl : a.length = b.length) (h : beNat a = beNat b) : a = b := by
  rw [beNat_eq_leNat_reverse, beNat_eq_leNat_reverse] at h
  have h1 := leBytes_leNat a.reverse
  have h2 := leBytes_leNat b.reverse
  rw [h] at h1
  simp only [List.length_reverse] at h1 h2
  rw [hl] at h1
  exact List.reverse_inj.mp (h1.symm.trans h2)

/-- **C24** (partial): different encodings of the same length decode to different values for all
lengths other than six and seven bytes.  For those two lengths the claim is false, see
`C24_spare_bits_dropped`. -/
theorem C24_injective_partial (s t : Bytes) (v : Nat) (hl : s.length = t.length)
    (h6 : s.length ≠ 6) (h7 : s.length ≠ 7)
    (hs : readVarInt s = .ok (v, s.length)) (ht : readVarInt t = .ok (v, t.length)) : s = t := by
  cases s with
  | nil => simp [readVarInt] at hs
  | cons a s =>
  cases t with
  | nil => simp [readVarInt] at ht
  | cons b t =>
    obtain ⟨n, hn8, hn⟩ := leadingOnes_exists a
    obtain ⟨m, hm8, hm⟩ := leadingOnes_exists b
    rw [C24_decodes a n s hn] at hs
    rw [C24_decodes b m t hm] at ht
    split at hs
    · simp at hs
    split at ht
    · simp at ht
    simp only [Except.ok.injEq, Prod.mk.injEq, List.length_cons] at hs ht hl h6 h7
    obtain ⟨hs1, hs2⟩ := hs
    obtain ⟨ht1, ht2⟩ := ht
    have hnm : n = m := by omega
    subst hnm
    have e1 : s.take n = s := List.take_of_length_le (by omega)
    have e2 : t.take n = t := List.take_of_length_le (by omega)
    rw [e1] at hs1
    rw [e2] at ht1
    have l1 := beNat_lt s
    have l2 := beNat_lt t
    rw [show s.length = n by omega] at l1
    rw [show t.length = n by omega] at l2
    have key : ∀ (p q x y B : Nat), x < B → y < B → p * B + x = q * B + y → p = q ∧ x = y := by
      intro p q x y B hx hy hxy
      have hB : 0 < B := by omega
      have h1 : (p * B + x) / B = p := by
        rw [Nat.mul_comm, Nat.mul_add_div hB, Nat.div_eq_of_lt hx]; omega
      have h2 : (q * B + y) / B = q := by
        rw [Nat.mul_comm, Nat.mul_add_div hB, Nat.div_eq_of_lt hy]; omega
      have : p = q := by rw [← h1, ← h2, hxy]
      subst this
      exact ⟨rfl, by omega⟩
    obtain ⟨k1, k2⟩ := key _ _ _ _ _ l1 l2 (hs1.trans ht1.symm)
    have hst : s = t := beNat_injective s t (by omega) k2
    have hab : a.toNat = b.toNat := by
      by_cases h4 : n ≤ 4
      · rw [if_pos h4, if_pos h4] at k1
        rcases hn with hn | hn
        · omega
        rcases hm with hm | hm
        · omega
        omega
      · have : n = 7 ∨ n = 8 := by omega
        rcases this with rfl | rfl
        · unfold LeadingOnes at hn hm
          norm_num at hn hm
          omega
        · unfold LeadingOnes at hn hm
          omega
    rw [hst, UInt8.toNat_inj.mp hab]

/-- Three bytes with two leading one bits. -/
example : readVarInt [0xC1, 0x02, 0x03, 0xFF] = .ok (0x10203, 3) := by decide

/-! ## Lists of integers -/

/-- A list of integers as stored: the size in bytes, and the integers, each in some size. -/
def encodeList (l : List (Nat × Nat)) : Bytes := l.flatMap (fun p => encodeVarInt p.1 p.2)

/-- The full claim of C59: a list of integers is read back, and exactly its bytes are consumed. -/
def C59_list_claim : Prop :=
  ∀ (k : Nat) (l : List (Nat × Nat)) (rest : Bytes), Fits k (encodeList l).length →
    (∀ p ∈ l, Fits p.1 p.2) →
    readIntValue 2 (encodeVarInt k (encodeList l).length ++ encodeList l ++ rest) =
      .ok (.ints (l.map (·.2)), (encodeVarInt k (encodeList l).length ++ encodeList l).length)

/-- The claim is false: the list starts with the size of the list and lacks its end. -/
theorem C59_list_starts_with_size : ¬ C59_list_claim := by
  intro h
  have := h 0 [(0, 5), (0, 6)] [] (by left; decide)
    (by intro p hp; left; fin_cases hp <;> decide)
  exact absurd this (by decide)

theorem intListLoop_mono (data : Bytes) (size : Nat) (fuel : Nat) (off : Nat) (acc : List Nat)
    (r : Res (List Nat)) (h : intListLoop data size fuel off acc = some r) :
    intListLoop data size (fuel + 1) off acc = some r := by
  induction fuel generalizing off acc with
  | zero => simp [intListLoop] at h
  | succ fuel ih =>
    rw [intListLoop] at h ⊢
    split at h
    · rename_i hlt
      rw [if_pos hlt]
      split at h
      · exact h
      · exact ih _ _ h
    · rename_i hlt
      rw [if_neg hlt]
      exact h

/-- Reading a list of integers ends, whatever the size of the list says. -/
theorem intListLoop_terminates (data : Bytes) (size fuel off : Nat) (acc : List Nat)
    (h : data.length < off + fuel) (hf : 0 < fuel) : intListLoop data size fuel off acc ≠ none := by
  induction fuel generalizing off acc with
  | zero => omega
  | succ fuel ih =>
    rw [intListLoop]
    split
    · split
      · simp
      · rename_i v n hv
        obtain ⟨h1, _, h3⟩ := readVarInt_bounds _ _ _ hv
        simp only [slice, List.length_drop, List.length_take] at h3
        by_cases h0 : fuel = 0
        · omega
        · exact ih _ _ (by omega) (by omega)
    · simp

/-- **C59** (partial): reading a list of integers always ends, and a list that is read consumes the
size it announces.  Its contents are those of the bytes from the size on, not from after the size,
see `C59_list_starts_with_size`. -/
theorem C59_list_size_partial (p : Nat) (data : Bytes) (hp : p &&& 2 ≠ 0) (v : Val) (n : Nat)
    (h : readIntValue p data = .ok (v, n)) :
    ∃ size k l, readVarInt data = .ok (size, k) ∧ n = k + size ∧ v = .ints l := by
  unfold readIntValue at h
  rw [if_neg hp] at h
  split at h
  · simp at h
  · rename_i size k hs
    split at h
    · simp at h
    · simp at h
    · simp only [Except.ok.injEq, Prod.mk.injEq] at h
      exact ⟨size, k, _, hs, h.2.symm, h.1.symm⟩

example : readIntValue 2 [2, 5, 6] = .ok (.ints [2, 5], 3) := by decide

/-- The integers of the loop from an offset on, when they are stored from there up to the size. -/
theorem intListLoop_encode (pre post : Bytes) (l : List (Nat × Nat)) (acc : List Nat) (fuel : Nat)
    (hl : ∀ p ∈ l, Fits p.1 p.2) (hf : l.length < fuel) :
    intListLoop (pre ++ encodeList l ++ post) (pre ++ encodeList l).length fuel pre.length acc =
      some (.ok (acc ++ l.map (·.2))) := by
  induction l generalizing pre acc fuel with
  | nil =>
    cases fuel with
    | zero => omega
    | succ fuel => simp [intListLoop, encodeList]
  | cons p l ih =>
    cases fuel with
    | zero => omega
    | succ fuel =>
      have hlen := encodeVarInt_length p.1 p.2
      have e1 : encodeList (p :: l) = encodeVarInt p.1 p.2 ++ encodeList l := by simp [encodeList]
      rw [intListLoop, if_pos (by rw [e1]; simp only [List.length_append]; omega)]
      have e2 : slice (pre ++ encodeList (p :: l) ++ post) pre.length
          (pre ++ encodeList (p :: l)).length = encodeVarInt p.1 p.2 ++ encodeList l := by
        rw [slice, List.take_left, List.drop_left, e1]
      rw [e2, C24_round_trip _ _ _ (hl p (by simp))]
      dsimp only
      have := ih (pre ++ encodeVarInt p.1 p.2) (acc ++ [p.2]) fuel
        (fun q hq => hl q (List.mem_cons_of_mem _ hq)) (by simp at hf; omega)
      rw [e1]
      simp only [List.append_assoc, List.length_append] at this ⊢
      rw [this]
      simp

/-- **C59** (what is read): the list read is made of the integers stored in the first bytes of the
value, its own size first.  Here the size takes `k + 1` bytes and the last integers of the list,
those in the last `k + 1` bytes, are lost. -/
theorem C59_list_shifted (k : Nat) (front back : List (Nat × Nat)) (rest : Bytes)
    (hk : Fits k (encodeList (front ++ back)).length) (hl : ∀ p ∈ front ++ back, Fits p.1 p.2)
    (hb : (encodeList back).length = k + 1) :
    readIntValue 2 (encodeVarInt k (encodeList (front ++ back)).length ++
        encodeList (front ++ back) ++ rest) =
      .ok (.ints ((encodeList (front ++ back)).length :: front.map (·.2)),
        (encodeVarInt k (encodeList (front ++ back)).length ++
          encodeList (front ++ back)).length) := by
  have hlen := encodeVarInt_length k (encodeList (front ++ back)).length
  have ea : encodeList (front ++ back) = encodeList front ++ encodeList back := by
    simp [encodeList]
  have hsz : (encodeList (front ++ back)).length = (encodeList front).length + (k + 1) := by
    rw [ea, List.length_append, hb]
  generalize hS : (encodeList (front ++ back)).length = S at hk hlen hsz ⊢
  unfold readIntValue
  rw [if_neg (by decide), List.append_assoc, C24_round_trip _ _ _ hk]
  dsimp only
  have key := intListLoop_encode [] (encodeList back ++ rest) ((k, S) :: front) []
    ((encodeVarInt k S ++ (encodeList (front ++ back) ++ rest)).length + 1)
    (by
      intro p hp
      rcases List.mem_cons.mp hp with rfl | hp
      · exact hk
      · exact hl p (List.mem_append_left _ hp))
    (by
      have : ∀ l : List (Nat × Nat), l.length ≤ (encodeList l).length := by
        intro l
        induction l with
        | nil => simp
        | cons p l ih =>
          have := encodeVarInt_length p.1 p.2
          have e : encodeList (p :: l) = encodeVarInt p.1 p.2 ++ encodeList l := by simp [encodeList]
          rw [e, List.length_append, List.length_cons]; omega
      have := this front
      rw [ea]
      simp only [List.length_cons, List.length_append]
      omega)
  have e3 : encodeList ((k, S) :: front) = encodeVarInt k S ++ encodeList front := by simp [encodeList]
  rw [e3] at key
  have e4 : ([] ++ (encodeVarInt k S ++ encodeList front)).length = S := by
    simp only [List.nil_append, List.length_append]; omega
  rw [e4] at key
  simp only [List.nil_append, List.length_nil, List.append_assoc] at key
  rw [ea]
  rw [ea] at key
  simp only [List.append_assoc] at key ⊢
  rw [key]
  simp only [List.map_cons, List.length_append, Except.ok.injEq, Prod.mk.injEq, true_and]
  rw [hlen, hb]
  omega

example : readIntValue 2 (encodeVarInt 0 2 ++ encodeList [(0, 5), (0, 6)] ++ []) =
    .ok (.ints (2 :: [5]), 3) := by decide

end Dtf.Spotlight
