import Verif.ChromeCache.Files
import Verif.Calendar
import Verif.Holds

/-!
# The allocation bitmap of a Chrome cache data block file in debug mode (C180)
-/

namespace Dtf.ChromeCache.Bitmap
open Py DataFormat Formats

abbrev Str := List Char

/-! ## Model -/

/-- The variables of `_DebugPrintAllocationBitmap` and the ranges that were written, the last first. -/
structure State where
  number : Nat
  start : Nat
  stop : Nat
  inRange : Bool
  written : List (Nat × Nat)
deriving DecidableEq, Repr

def initial : State := ⟨0, 0, 0, false, []⟩

/-- One bit (chrome_cache.py 243-266). -/
def bitStep (s : State) (set : Bool) : State :=
  if set then
    if s.inRange then { s with stop := s.stop + 1, number := s.number + 1 }
    else { s with start := s.number, stop := s.number + 1, inRange := true, number := s.number + 1 }
  else if s.inRange then { s with inRange := false, written := (s.start, s.stop) :: s.written, number := s.number + 1 }
  else { s with number := s.number + 1 }

/-- So many bits of a value (chrome_cache.py 243-266). -/
def wordLoop : Nat → Nat → State → State
  | 0, _, s => s
  | n + 1, value, s => wordLoop n (value >>> 1) (bitStep s (value &&& 1 ≠ 0))

/-- `_DebugPrintAllocationBitmap` (chrome_cache.py 231-266): the ranges that are written. -/
def ranges (bitmap : List Nat) : List (Nat × Nat) :=
  (bitmap.foldl (fun s value => wordLoop 32 value s) initial).written.reverse

/-- A line (chrome_cache.py 256-263). -/
def rangeLine (r : Nat × Nat) : Str :=
  formatValue "Block range".toList (dec r.1 ++ " - ".toList ++ dec r.2 ++ " (".toList ++ dec (r.2 - r.1) ++ ")".toList)

/-- `_DebugPrintFileHeader` (chrome_cache.py 309-322): no attribute of the header is shown, see C162. -/
def headerText (b : Bytes) : Str := ['\n'] ++ (ranges (leNats 4 2028 (b.drop 80))).flatMap rangeLine ++ ['\n']

/-- `chrome_cache_data_block_file_header` before the test on the version. -/
def anyHeaderMap : DataTypeMap Bytes :=
  (fixedMap 8192 id).refine fun b => if leNat (slice b 0 4) = 0xC104CAC3 then some b else none

/-- `ReadFileObject` in debug mode (chrome_cache.py 350-377): what was written and what is read. -/
def readBlocksDebug (data : Bytes) : Str × Res (Nat × Nat) :=
  match structAt anyHeaderMap data 0 with
  | .error e => ([], .error e)
  | .ok (b, _) =>
    (headerText b, if supported b then .ok (leNat (slice b 12 16), leNat (slice b 16 20)) else .error .parseError)

/-! ## Specification -/

/-- The block is allocated: the bit of its number, with the lowest bit of a value first; nothing if there is no such block. -/
def allocated (bitmap : List Nat) (block : Nat) : Option Bool := bitmap[block / 32]?.map fun value => value.testBit (block % 32)

/-- The blocks from the first number up to but not including the second are allocated, and there is none before or after them. -/
def IsRange (bitmap : List Nat) (i j : Nat) : Prop :=
  i < j ∧ (∀ k, i ≤ k → k < j → allocated bitmap k = some true) ∧ allocated bitmap j ≠ some true ∧
    (i = 0 ∨ allocated bitmap (i - 1) = some false)

/-! ## Proofs -/

/-- The same with a list of bits. -/
theorem wordLoop_eq (n value : Nat) (s : State) : wordLoop n value s = ((List.range n).map value.testBit).foldl bitStep s := by
  induction n generalizing value s with
  | zero => rfl
  | succ n ih =>
    rw [wordLoop, ih, List.range_succ_eq_map, List.map_cons, List.foldl_cons, List.map_map]
    have h : (decide (value &&& 1 ≠ 0)) = value.testBit 0 := by
      rw [Nat.and_one_is_mod, Nat.testBit_zero]
      congr 1
      exact propext (by omega)
    rw [h]
    congr 2
    funext i
    rw [Function.comp_apply, Nat.testBit_shiftRight, Nat.succ_eq_add_one, Nat.add_comm]

def bits (bitmap : List Nat) : List Bool := bitmap.flatMap fun value => (List.range 32).map value.testBit

theorem fold_eq (bitmap : List Nat) (s : State) :
    bitmap.foldl (fun s value => wordLoop 32 value s) s = (bits bitmap).foldl bitStep s := by
  induction bitmap generalizing s with
  | nil => rfl
  | cons v l ih => 
    have e : bits (v :: l) = (List.range 32).map v.testBit ++ bits l := rfl
    rw [List.foldl_cons, ih, e, List.foldl_append, wordLoop_eq]

theorem bits_get (bitmap : List Nat) (k : Nat) : (bits bitmap)[k]? = allocated bitmap k := by
  induction bitmap generalizing k with
  | nil => simp [bits, allocated]
  | cons v l ih =>
    rw [bits, List.flatMap_cons]
    by_cases h : k < 32
    · rw [List.getElem?_append_left (by simpa using h)]
      unfold allocated
      rw [Nat.div_eq_of_lt h, Nat.mod_eq_of_lt h]
      simp [h]
    · rw [List.getElem?_append_right (by simpa using h)]
      have := ih (k - 32)
      rw [bits] at this
      simp only [List.length_map, List.length_range]
      rw [this]
      unfold allocated
      have h1 : k / 32 = (k - 32) / 32 + 1 := by omega
      have h2 : k % 32 = (k - 32) % 32 := by omega
      rw [h1, h2, List.getElem?_cons_succ]

/-- What the rest of the bits adds, in order. -/
def rest : Nat → Option Nat → List Bool → List (Nat × Nat)
  | _, _, [] => []
  | k, none, true :: l => rest (k + 1) (some k) l
  | k, none, false :: l => rest (k + 1) none l
  | k, some a, true :: l => rest (k + 1) (some a) l
  | k, some a, false :: l => (a, k) :: rest (k + 1) none l

theorem fold_rest (l : List Bool) (s : State) (h : s.inRange = true → s.stop = s.number) :
    (l.foldl bitStep s).written.reverse = s.written.reverse ++ rest s.number (if s.inRange then some s.start else none) l := by
  induction l generalizing s with
  | nil => cases hs : s.inRange <;> simp [rest]
  | cons b l ih =>
    obtain ⟨number, start, stop, inRange, written⟩ := s
    rw [List.foldl_cons]
    cases b <;> cases inRange
    · rw [bitStep, if_neg (by decide), if_neg (by rintro ⟨⟩), ih _ (fun h => by cases h)]
      rfl
    · have hs : stop = number := h rfl
      subst hs
      rw [bitStep, if_neg (by decide), if_pos rfl, ih _ (fun h => by cases h)]
      simp [rest]
    · rw [bitStep, if_pos rfl, if_neg (by rintro ⟨⟩), ih _ (fun _ => rfl)]
      rfl
    · have hs : stop = number := h rfl
      subst hs
      rw [bitStep, if_pos rfl, if_pos rfl, ih _ (fun _ => rfl)]
      rfl

theorem ranges_eq (bitmap : List Nat) : ranges bitmap = rest 0 none (bits bitmap) := by
  unfold ranges
  rw [fold_eq, fold_rest _ _ (fun h => by cases h)]
  rfl

theorem mem_rest (l : List Bool) (B : Nat → Option Bool) (k : Nat) (hB : ∀ i, B (k + i) = l[i]?) (i j : Nat) :
    ((i, j) ∈ rest k none l ↔
      k ≤ i ∧ i < j ∧ (∀ n, i ≤ n → n < j → B n = some true) ∧ B j = some false ∧ (i = k ∨ B (i - 1) = some false)) ∧
    ∀ a, a < k → ((i, j) ∈ rest k (some a) l ↔
      (i = a ∧ k ≤ j ∧ (∀ n, k ≤ n → n < j → B n = some true) ∧ B j = some false) ∨
      (k < i ∧ i < j ∧ (∀ n, i ≤ n → n < j → B n = some true) ∧ B j = some false ∧ B (i - 1) = some false)) := by
  induction l generalizing k with
  | nil =>
    have none_of : ∀ n, k ≤ n → B n = none := by
      intro n hn
      have := hB (n - k)
      rw [show k + (n - k) = n by omega] at this
      rw [this]
      rfl
    refine ⟨⟨fun h => absurd h List.not_mem_nil, fun ⟨h1, h2, _, h3, _⟩ => ?_⟩, fun a ha => ⟨fun h => absurd h List.not_mem_nil, ?_⟩⟩
    · rw [none_of j (by omega)] at h3
      cases h3
    · rintro (⟨_, h1, _, h3⟩ | ⟨h1, h2, _, h3, _⟩)
      · rw [none_of j h1] at h3
        cases h3
      · rw [none_of j (by omega)] at h3
        cases h3
  | cons b l ih =>
    have hk : B k = some b := hB 0
    obtain ⟨ih1, ih2⟩ := ih (k + 1) (fun i => by rw [Nat.add_assoc, Nat.add_comm 1 i, hB (i + 1)]; rfl)
    cases b with
    | false =>
      have mem_none : (i, j) ∈ rest (k + 1) none l ↔
          k ≤ i ∧ i < j ∧ (∀ n, i ≤ n → n < j → B n = some true) ∧ B j = some false ∧ (i = k ∨ B (i - 1) = some false) := by
        rw [ih1]
        constructor
        · rintro ⟨h1, h2, h3, h4, h5⟩
          refine ⟨by omega, h2, h3, h4, ?_⟩
          rcases h5 with rfl | h5
          · exact .inr hk
          · exact .inr h5
        · rintro ⟨h1, h2, h3, h4, h5⟩
          have hne : i ≠ k := by
            rintro rfl
            have := h3 i (Nat.le_refl _) h2
            rw [hk] at this
            cases this
          refine ⟨by omega, h2, h3, h4, .inr ?_⟩
          rcases h5 with rfl | h5
          · exact absurd rfl hne
          · exact h5
      refine ⟨mem_none, fun a ha => ?_⟩
      rw [rest, List.mem_cons, mem_none]
      constructor
      · rintro (h | ⟨h1, h2, h3, h4, h5⟩)
        · cases h
          exact .inl ⟨rfl, Nat.le_refl _, fun n h1 h2 => by omega, hk⟩
        · have hne : i ≠ k := by
            rintro rfl
            have := h3 i (Nat.le_refl _) h2
            rw [hk] at this
            cases this
          rcases h5 with rfl | h5
          · exact absurd rfl hne
          · exact .inr ⟨by omega, h2, h3, h4, h5⟩
      · rintro (⟨rfl, h1, h3, h4⟩ | ⟨h1, h2, h3, h4, h5⟩)
        · have : j = k := by
            rcases Nat.lt_or_ge k j with h | h
            · have := h3 k (Nat.le_refl _) h
              rw [hk] at this
              cases this
            · omega
          rw [this]
          exact .inl rfl
        · exact .inr ⟨by omega, h2, h3, h4, .inr h5⟩
    | true =>
      have hj : B j = some false → j ≠ k := by
        rintro h rfl
        rw [hk] at h
        cases h
      refine ⟨?_, fun a ha => ?_⟩
      · rw [rest, ih2 k (by omega)]
        constructor
        · rintro (⟨rfl, h1, h3, h4⟩ | ⟨h1, h2, h3, h4, h5⟩)
          · refine ⟨Nat.le_refl _, by omega, fun n h5 h6 => ?_, h4, .inl rfl⟩
            rcases Nat.lt_or_ge i n with h | h
            · exact h3 n h h6
            · rw [show n = i by omega, hk]
          · exact ⟨by omega, h2, h3, h4, .inr h5⟩
        · rintro ⟨h1, h2, h3, h4, h5⟩
          rcases Nat.lt_or_ge k i with h | h
          · rcases h5 with rfl | h5
            · omega
            · refine .inr ⟨?_, h2, h3, h4, h5⟩
              rcases Nat.lt_or_ge (k + 1) i with h' | h'
              · exact h'
              · rw [show i - 1 = k by omega, hk] at h5
                cases h5
          · exact .inl ⟨by omega, by omega, fun n h6 h7 => h3 n (by omega) h7, h4⟩
      · rw [rest, ih2 a (by omega)]
        constructor
        · rintro (⟨rfl, h1, h3, h4⟩ | ⟨h1, h2, h3, h4, h5⟩)
          · refine .inl ⟨rfl, by omega, fun n h5 h6 => ?_, h4⟩
            rcases Nat.lt_or_ge k n with h | h
            · exact h3 n h h6
            · rw [show n = k by omega, hk]
          · exact .inr ⟨by omega, h2, h3, h4, h5⟩
        · rintro (⟨rfl, h1, h3, h4⟩ | ⟨h1, h2, h3, h4, h5⟩)
          · have := hj h4
            exact .inl ⟨rfl, by omega, fun n h5 h6 => h3 n (by omega) h6, h4⟩
          · refine .inr ⟨?_, h2, h3, h4, h5⟩
            rcases Nat.lt_or_ge (k + 1) i with h' | h'
            · exact h'
            · rw [show i - 1 = k by omega, hk] at h5
              cases h5

theorem rest_sorted (l : List Bool) (k : Nat) (a : Option Nat) (ha : ∀ x ∈ a, x < k) :
    (rest k a l).Pairwise (fun x y => x.2 < y.1) ∧ ∀ x ∈ rest k a l, k ≤ x.2 ∧ (∀ y ∈ a, y ≤ x.1) ∧ (a = none → k ≤ x.1) := by
  induction l generalizing k a with
  | nil =>
    rw [rest]
    exact ⟨.nil, fun _ h => absurd h List.not_mem_nil⟩
  | cons b l ih =>
    cases a with
    | none =>
      cases b with
      | true =>
        rw [rest]
        obtain ⟨h1, h2⟩ := ih (k + 1) (some k) (fun x hx => by cases hx; omega)
        refine ⟨h1, fun x hx => ?_⟩
        obtain ⟨h3, h4, _⟩ := h2 x hx
        exact ⟨by omega, fun y hy => (by cases hy), fun _ => h4 k rfl⟩
      | false =>
        rw [rest]
        obtain ⟨h1, h2⟩ := ih (k + 1) none (fun x hx => by cases hx)
        refine ⟨h1, fun x hx => ?_⟩
        obtain ⟨h3, _, h4⟩ := h2 x hx
        have := h4 rfl
        exact ⟨by omega, fun y hy => (by cases hy), fun _ => by omega⟩
    | some a =>
      have hak := ha a rfl
      cases b with
      | true =>
        rw [rest]
        obtain ⟨h1, h2⟩ := ih (k + 1) (some a) (fun x hx => by cases hx; omega)
        refine ⟨h1, fun x hx => ?_⟩
        obtain ⟨h3, h4, _⟩ := h2 x hx
        exact ⟨by omega, h4, fun h => (by cases h)⟩
      | false =>
        rw [rest]
        obtain ⟨h1, h2⟩ := ih (k + 1) none (fun x hx => by cases hx)
        refine ⟨List.pairwise_cons.mpr ⟨fun x hx => ?_, h1⟩, fun x hx => ?_⟩
        · have := (h2 x hx).2.2 rfl
          dsimp only
          omega
        · rcases List.mem_cons.mp hx with rfl | hx
          · exact ⟨Nat.le_refl _, fun y hy => by cases hy; exact Nat.le_refl _, fun h => (by cases h)⟩
          · obtain ⟨h3, _, h4⟩ := h2 x hx
            have := h4 rfl
            exact ⟨by omega, fun y hy => by cases hy; omega, fun h => (by cases h)⟩

/-! ## C180 -/

/-- C180, as a user reads it: what is written are the ranges of allocated blocks. -/
def C180_ranges_claim : Prop := ∀ bitmap i j, (i, j) ∈ ranges bitmap ↔ IsRange bitmap i j

/-- C180.  The ranges that are written are those of allocated blocks that do not reach the last block.  Missing: the range at the end,
see `C180_ranges_claim_false` and `C180_last`. -/
theorem C180_ranges_partial (bitmap : List Nat) (i j : Nat) :
    (i, j) ∈ ranges bitmap ↔ IsRange bitmap i j ∧ j < 32 * bitmap.length := by
  have hr := (mem_rest (bits bitmap) (allocated bitmap) 0 (fun k => by rw [Nat.zero_add, bits_get]) i j).1
  have hj : (∃ b, allocated bitmap j = some b) ↔ j < 32 * bitmap.length := by
    unfold allocated
    constructor
    · rintro ⟨b, hb⟩
      rw [Option.map_eq_some_iff] at hb
      obtain ⟨v, hv, _⟩ := hb
      have := (List.getElem?_eq_some_iff.mp hv).1
      omega
    · intro h
      have h' : j / 32 < bitmap.length := by omega
      rw [List.getElem?_eq_getElem h']
      exact ⟨_, rfl⟩
  rw [ranges_eq, hr]
  unfold IsRange
  constructor
  · rintro ⟨_, h2, h3, h4, h5⟩
    exact ⟨⟨h2, h3, by rw [h4]; decide, h5⟩, hj.mp ⟨_, h4⟩⟩
  · rintro ⟨⟨h2, h3, h4, h5⟩, h6⟩
    obtain ⟨b, hb⟩ := hj.mpr h6
    refine ⟨Nat.zero_le _, h2, h3, ?_, h5⟩
    cases b with
    | true => exact absurd hb h4
    | false => exact hb

/-- C180.  A range that reaches the last block is not written. -/
theorem C180_last (bitmap : List Nat) (i j : Nat) (h : 32 * bitmap.length ≤ j) : (i, j) ∉ ranges bitmap := by
  intro hm
  have := ((C180_ranges_partial bitmap i j).mp hm).2
  omega

/-- C180.  False of the code: the range is missing if the last block is allocated. -/
theorem C180_ranges_claim_false : ¬ C180_ranges_claim := by
  intro h
  refine C180_last [0x80000000] 31 32 (by decide) ((h _ _ _).mpr ⟨by decide, ?_, by decide, .inr (by decide)⟩)
  intro k h1 h2
  have : k = 31 := by omega
  subst this
  decide

/-- C180.  The ranges are written in the order of the blocks, with a block that is not allocated between two of them. -/
theorem C180_order (bitmap : List Nat) : (ranges bitmap).Pairwise fun x y => x.2 < y.1 := by
  rw [ranges_eq]
  exact (rest_sorted _ _ _ (fun x hx => by cases hx)).1

/-- C180.  An allocated block that has a block after it that is not allocated is in exactly one of the ranges; others are in none. -/
theorem C180_block (bitmap : List Nat) (k : Nat) :
    (∃ r ∈ ranges bitmap, r.1 ≤ k ∧ k < r.2) ↔ allocated bitmap k = some true ∧ ∃ j, k < j ∧ allocated bitmap j = some false := by
  constructor
  · rintro ⟨⟨i, j⟩, hr, h1, h2⟩
    obtain ⟨⟨h3, h4, h5, _⟩, h6⟩ := (C180_ranges_partial bitmap i j).mp hr
    refine ⟨h4 k h1 h2, j, h2, ?_⟩
    have h' : j / 32 < bitmap.length := by omega
    unfold allocated at h5 ⊢
    rw [List.getElem?_eq_getElem h'] at h5 ⊢
    simpa using h5
  · rintro ⟨hk, j, hj, hf⟩
    -- the first block after it that is not allocated
    have up : ∀ d, (∀ n, k ≤ n → n < k + d → allocated bitmap n = some true) →
        (∃ e, k + d ≤ e ∧ e ≤ j ∧ allocated bitmap e ≠ some true) →
        ∃ e, k ≤ e ∧ e ≤ j ∧ allocated bitmap e ≠ some true ∧ ∀ n, k ≤ n → n < e → allocated bitmap n = some true := by
      intro d
      induction hm : j - (k + d) generalizing d with
      | zero =>
        rintro h1 ⟨e, h2, h3, h4⟩
        exact ⟨e, by omega, h3, h4, fun n hn he => h1 n hn (by omega)⟩
      | succ m ih =>
        rintro h1 ⟨e, h2, h3, h4⟩
        by_cases hd : allocated bitmap (k + d) = some true
        · refine ih (d + 1) (by omega) (fun n hn he => ?_) ⟨e, ?_, h3, h4⟩
          · rcases Nat.lt_or_ge n (k + d) with h | h
            · exact h1 n hn h
            · rw [show n = k + d by omega, hd]
          · rcases Nat.lt_or_ge (k + d) e with h | h
            · omega
            · rw [show e = k + d by omega] at h4
              exact absurd hd h4
        · exact ⟨k + d, by omega, by omega, hd, h1⟩
    obtain ⟨e, e1, e2, e3, e4⟩ := up 0 (fun n h1 h2 => by omega) ⟨j, by omega, Nat.le_refl _, by rw [hf]; decide⟩
    have hke : k < e := by
      rcases Nat.lt_or_ge k e with h | h
      · exact h
      · rw [show e = k by omega] at e3
        exact absurd hk e3
    -- the first block of the range
    have down : ∀ i, i ≤ k → (∀ n, i ≤ n → n < e → allocated bitmap n = some true) →
        ∃ i, i ≤ k ∧ (∀ n, i ≤ n → n < e → allocated bitmap n = some true) ∧ (i = 0 ∨ allocated bitmap (i - 1) ≠ some true) := by
      intro i
      induction i with
      | zero => exact fun h1 h2 => ⟨0, h1, h2, .inl rfl⟩
      | succ i ih =>
        intro h1 h2
        by_cases hd : allocated bitmap i = some true
        · refine ih (by omega) fun n hn he => ?_
          rcases Nat.lt_or_ge i n with h | h
          · exact h2 n h he
          · rw [show n = i by omega, hd]
        · exact ⟨i + 1, h1, h2, .inr hd⟩
    obtain ⟨i, i1, i2, i3⟩ := down k (Nat.le_refl _) e4
    have hlen : j < 32 * bitmap.length := by
      unfold allocated at hf
      rw [Option.map_eq_some_iff] at hf
      obtain ⟨v, hv, _⟩ := hf
      have := (List.getElem?_eq_some_iff.mp hv).1
      omega
    refine ⟨(i, e), (C180_ranges_partial bitmap i e).mpr ⟨⟨by omega, i2, e3, ?_⟩, by omega⟩, i1, hke⟩
    rcases i3 with rfl | i3
    · exact .inl rfl
    · refine .inr ?_
      have h' : (i - 1) / 32 < bitmap.length := by omega
      unfold allocated at i3 ⊢
      rw [List.getElem?_eq_getElem h'] at i3 ⊢
      simpa using i3

/-- C180.  A data block file is read in debug mode as otherwise, and for every file with the size and the signature the ranges of
its bitmap are written, also if the version is not supported. -/
theorem C180_file (data : Bytes) : (readBlocksDebug data).2 = readBlocks data ∧
    (8192 ≤ data.length → leNat (slice data 0 4) = 0xC104CAC3 → (readBlocksDebug data).1 =
      "\n".toList ++ ((ranges (leNats 4 2028 (slice data 80 8192))).map rangeLine).flatten ++ "\n".toList) := by
  have h0 : structAt anyHeaderMap data 0 = if data.length < 8192 then .error .parseError
      else if leNat (slice data 0 4) = 0xC104CAC3 then .ok (data.take 8192, 8192) else .error .parseError := by
    unfold anyHeaderMap
    rw [structAt_refine, show (0 : Int) = ((0 : Nat) : Int) from rfl, structAt_fixed _ _ _ _ (by omega), Nat.zero_add]
    by_cases h : data.length < 8192
    · rw [if_pos h, if_pos h]
    · rw [if_neg h, if_neg h]
      dsimp only [id]
      rw [slice_zero _ _ _ _ (by omega), List.drop_zero]
      by_cases h2 : leNat (slice data 0 4) = 0xC104CAC3
      · rw [if_pos h2, if_pos h2]
        rfl
      · rw [if_neg h2, if_neg h2]
  have h1 : readBlocks data = if data.length < 8192 then .error .parseError
      else if leNat (slice data 0 4) = 0xC104CAC3 ∧ supported (data.take 8192) then
        .ok (leNat (slice (data.take 8192) 12 16), leNat (slice (data.take 8192) 16 20)) else .error .parseError := by
    unfold readBlocks blockHeaderMap
    rw [structAt_refine, show (0 : Int) = ((0 : Nat) : Int) from rfl, structAt_fixed _ _ _ _ (by omega), Nat.zero_add]
    by_cases h : data.length < 8192
    · rw [if_pos h, if_pos h]
    · rw [if_neg h, if_neg h]
      dsimp only [id]
      unfold parseBlockHeader
      rw [slice_zero _ _ _ _ (by omega), List.drop_zero]
      by_cases h2 : leNat (slice data 0 4) = 0xC104CAC3 ∧ supported (data.take 8192) = true
      · rw [if_pos h2, if_pos h2]
      · rw [if_neg h2, if_neg h2]
  unfold readBlocksDebug
  rw [h0, h1]
  by_cases h : data.length < 8192
  · rw [if_pos h, if_pos h]
    exact ⟨rfl, fun h' => by omega⟩
  rw [if_neg h, if_neg h]
  by_cases h2 : leNat (slice data 0 4) = 0xC104CAC3
  · rw [if_pos h2]
    refine ⟨?_, fun _ _ => ?_⟩
    · by_cases h3 : supported (data.take 8192) = true
      · rw [if_pos ⟨h2, h3⟩]
        dsimp only
        rw [if_pos h3]
      · rw [if_neg (fun h => h3 h.2)]
        dsimp only
        rw [if_neg h3]
    · rfl
  · rw [if_neg h2, if_neg (fun h => h2 h.1)]
    exact ⟨rfl, fun _ h => absurd h h2⟩

theorem leNats_get (w n : Nat) (b : Bytes) (i : Nat) (h : i < n) : (leNats w n b)[i]? = some (leNat ((b.drop (w * i)).take w)) := by
  induction n generalizing b i with
  | zero => omega
  | succ n ih =>
    cases i with
    | zero => simp [leNats]
    | succ i =>
      rw [leNats, List.getElem?_cons_succ, ih _ _ (by omega), List.drop_drop, Nat.mul_succ, Nat.add_comm]

theorem leNat_bit (b : Bytes) (k : Nat) : (leNat b).testBit k = (b[k / 8]?.getD 0).toNat.testBit (k % 8) := by
  induction b generalizing k with
  | nil => simp [leNat]
  | cons x b ih =>
    have hx : x.toNat < 2 ^ 8 := x.toNat_lt
    rw [leNat, Nat.add_comm, show 256 = 2 ^ 8 from rfl, Nat.testBit_two_pow_mul_add _ hx]
    by_cases h : k < 8
    · rw [if_pos h, Nat.div_eq_of_lt h, Nat.mod_eq_of_lt h]
      rfl
    · rw [if_neg h, ih]
      have h1 : k / 8 = (k - 8) / 8 + 1 := by omega
      have h2 : k % 8 = (k - 8) % 8 := by omega
      rw [h1, h2, List.getElem?_cons_succ]

/-- C180.  Whether a block is allocated is a bit of the file: bit `k % 8` of byte `k / 8` of the bitmap at offset 80. -/
theorem C180_bit (data : Bytes) (h : 8192 ≤ data.length) (k : Nat) (hk : k < 64896) :
    allocated (leNats 4 2028 (slice data 80 8192)) k = some ((data[80 + k / 8]?.getD 0).toNat.testBit (k % 8)) := by
  unfold allocated
  rw [leNats_get _ _ _ _ (by omega), Option.map_some, leNat_bit]
  congr 1
  have h1 : ((slice data 80 8192).drop (4 * (k / 32))).take 4 = ((data.drop (80 + 4 * (k / 32))).take 4) := by
    unfold slice
    rw [List.drop_drop, List.drop_take, List.take_take]
    congr 1
    omega
  have h2 : k % 32 / 8 < 4 := by omega
  rw [h1, List.getElem?_take, if_pos h2, List.getElem?_drop]
  have h3 : 80 + 4 * (k / 32) + k % 32 / 8 = 80 + k / 8 := by omega
  have h4 : k % 32 % 8 = k % 8 := by omega
  rw [h3, h4]

/-- C180.  The line of `n` blocks from block `i` on: the first block, the one after the last and their number. -/
theorem C180_shown (i n : Nat) : rangeLine (i, i + n) =
    "Block range\t\t\t\t\t\t\t\t: ".toList ++ (Text.digits 10 i ++ (" - ".toList ++ (Text.digits 10 (i + n) ++
      (" (".toList ++ (Text.digits 10 n ++ ")\n".toList))))) := by
  unfold rangeLine formatValue dec
  dsimp only
  rw [Nat.add_sub_cancel_left]
  simp only [List.append_assoc]
  rfl

/-- C180.  Lines determine their ranges. -/
theorem C180_line (r s : Nat × Nat) (h : rangeLine r = rangeLine s) : r = s := by
  unfold rangeLine formatValue at h
  simp only [List.append_assoc, List.append_cancel_left_eq] at h
  have h1 := Calendar.cut (c := ' ') (dec_notMem _ _ (by decide)) (dec_notMem _ _ (by decide)) h
  have h2 := dec_injective _ _ h1.1
  have h3 := List.append_cancel_left (as := "- ".toList) h1.2
  have h4 := Calendar.cut (c := ' ') (dec_notMem _ _ (by decide)) (dec_notMem _ _ (by decide)) h3
  exact Prod.ext h2 (dec_injective _ _ h4.1)

example : ranges [0b1011, 0, 0x80000000, 1] = [(0, 2), (3, 4), (95, 97)] := by decide +kernel

end Dtf.ChromeCache.Bitmap
