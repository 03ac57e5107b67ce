import Verif.Unified.Reader
import Mathlib.Data.List.Basic
import Mathlib.Data.List.Perm.Basic
import Mathlib.Data.List.GetD

/-!
# The order in which log entries are shown (C149)

scripts/unified_logging.py pushes all log entries on a heap and pops them.  The heap is that of the `heapq` module, of
which the algorithm is modelled step by step, with `<` as `LogEntry.__lt__` defines it (dtformats/unified_logging.py
202-213): by the timestamp, which is always a number.
-/

namespace Dtf.Heap
open Py

variable {α : Type}

/-! ## Model -/

/-- The loop of `_siftdown(heap, 0, pos)` of `heapq`: parents that are greater than the item in hand move down, and the
item is written where the loop ends.  `key` is the timestamp.  There are no more rounds than `pos`. -/
def siftdownLoop [Inhabited α] (key : α → Int) (item : α) : Nat → List α → Nat → List α
  | 0, h, pos => h.set pos item
  | fuel + 1, h, pos =>
    if 0 < pos then
      if key item < key (h.getD ((pos - 1) / 2) default) then
        siftdownLoop key item fuel (h.set pos (h.getD ((pos - 1) / 2) default)) ((pos - 1) / 2)
      else h.set pos item
    else h.set pos item

def siftdown [Inhabited α] (key : α → Int) (item : α) (h : List α) (pos : Nat) : List α := siftdownLoop key item pos h pos

/-- The loop of `_siftup` of `heapq`: the smaller child moves up until there is none. -/
def siftupLoop [Inhabited α] (key : α → Int) : Nat → List α → Nat → List α × Nat
  | 0, h, pos => (h, pos)
  | fuel + 1, h, pos =>
    if 2 * pos + 1 < h.length then
      let child := if 2 * pos + 2 < h.length ∧ ¬ key (h.getD (2 * pos + 1) default) < key (h.getD (2 * pos + 2) default)
        then 2 * pos + 2 else 2 * pos + 1
      siftupLoop key fuel (h.set pos (h.getD child default)) child
    else (h, pos)

/-- `_siftup(heap, 0)` of `heapq`, with the item that is at the start. -/
def siftup [Inhabited α] (key : α → Int) (item : α) (h : List α) : List α :=
  let (h, pos) := siftupLoop key h.length h 0
  siftdown key item (h.set pos item) pos

/-- `PushLogEntry` (scripts/unified_logging.py 53-59). -/
def push [Inhabited α] (key : α → Int) (h : List α) (item : α) : List α := siftdown key item (h ++ [item]) h.length

/-- `PopLogEntry` (scripts/unified_logging.py 41-51); `none` is for an empty heap. -/
def pop [Inhabited α] (key : α → Int) (h : List α) : Option (α × List α) :=
  match h.getLast? with
  | none => none
  | some last =>
    match h.dropLast with
    | [] => some (last, [])
    | first :: rest => some (first, siftup key last (last :: rest))

/-- `PopLogEntries` (scripts/unified_logging.py 30-39).  A log entry is true, as it has neither length nor truth value.
`none` is out of fuel. -/
def popAll [Inhabited α] (key : α → Int) : Nat → List α → Option (List α)
  | 0, _ => none
  | fuel + 1, h =>
    match pop key h with
    | none => some []
    | some (x, h) => (popAll key fuel h).map (x :: ·)

/-- The order in which the script shows entries (scripts/unified_logging.py 240-257). -/
def shown [Inhabited α] (key : α → Int) (entries : List α) : Option (List α) :=
  popAll key (entries.length + 1) (entries.foldl (push key) [])

/-! ## Specification -/

/-- The claim of C149: each entry is shown once, in order of time, and entries of the same time in the order of the
file. -/
def C149_order_claim : Prop := ∀ entries : List (Int × Nat), ∃ out, shown Prod.fst entries = some out ∧
  out.Perm entries ∧ out.Pairwise (fun a b => a.1 ≤ b.1) ∧
    ∀ t, out.filter (fun e => e.1 = t) = entries.filter (fun e => e.1 = t)

/-! ## Proofs -/

/-- The order of a heap. -/
def Heaped (f : Nat → Int) (n : Nat) : Prop := ∀ i, 0 < i → i < n → f ((i - 1) / 2) ≤ f i

/-- The order of a heap apart from one position, that may be too small. -/
def Near (f : Nat → Int) (n pos : Nat) : Prop :=
  (∀ i, 0 < i → i < n → i ≠ pos → f ((i - 1) / 2) ≤ f i) ∧
    ∀ i, 0 < i → i < n → (i - 1) / 2 = pos → 0 < pos → f ((pos - 1) / 2) ≤ f i

theorem near_zero (f : Nat → Int) (n : Nat) (h : Near f n 0) : Heaped f n := fun i h0 hn => h.1 i h0 hn (by omega)

theorem near_done (f : Nat → Int) (n pos : Nat) (h : Near f n (pos + 1)) (hle : f (pos / 2) ≤ f (pos + 1)) :
    Heaped f n := by
  intro i h0 hn
  by_cases hi : i = pos + 1
  · subst hi
    simpa using hle
  · exact h.1 i h0 hn hi

theorem near_step (f g : Nat → Int) (n pos : Nat) (h : Near f n (pos + 1)) (hlt : f (pos + 1) < f (pos / 2))
    (hpos : pos + 1 < n)
    (hg : ∀ j, g j = if j = pos / 2 then f (pos + 1) else if j = pos + 1 then f (pos / 2) else f j) :
    Near g n (pos / 2) := by
  obtain ⟨h1, h2⟩ := h
  constructor
  · intro i h0 hn hi
    by_cases hp : i = pos + 1
    · subst hp
      rw [hg, hg, if_pos (by omega), if_neg hi, if_pos rfl]
      omega
    · have hb := h1 i h0 hn hp
      rw [hg i, if_neg hi, if_neg hp, hg]
      by_cases hq : (i - 1) / 2 = pos / 2
      · rw [if_pos hq]
        rw [hq] at hb
        omega
      · rw [if_neg hq]
        by_cases hr : (i - 1) / 2 = pos + 1
        · rw [if_pos hr]
          have := h2 i h0 hn hr (by omega)
          simpa using this
        · rw [if_neg hr]
          exact hb
  · intro i h0 hn hi hq
    have hparent := h1 (pos / 2) hq (by omega) (by omega)
    rw [hg, if_neg (by omega), if_neg (by omega), hg i, if_neg (by omega)]
    split
    · exact hparent
    · rename_i hp
      have hb := h1 i h0 hn hp
      rw [hi] at hb
      omega

theorem getD_set [Inhabited α] (h : List α) (i j : Nat) (x : α) (hi : i < h.length) :
    (h.set i x).getD j default = if j = i then x else h.getD j default := by
  simp only [List.getD_eq_getElem?_getD, List.getElem?_set]
  by_cases hj : j = i
  · subst hj
    simp [hi]
  · simp [hj, Ne.symm hj]

theorem hole_move [Inhabited α] (h : List α) (pos q : Nat) (item : α) (hp : pos < h.length) (hq : q < h.length)
    (hne : q ≠ pos) :
    (item :: (h.set pos (h.getD q default)).eraseIdx q).Perm (item :: h.eraseIdx pos) := by
  refine List.Perm.cons _ ?_
  have hq' : q < (h.set pos (h.getD q default)).length := by simpa using hq
  have h1 := List.getElem_cons_eraseIdx_perm hq'
  have h2 : (h.set pos (h.getD q default))[q] = h.getD q default := by
    rw [List.getElem_set_ne (Ne.symm hne)]
    simp [hq]
  rw [h2] at h1
  have h3 := List.set_perm_cons_eraseIdx hp (h.getD q default)
  exact List.Perm.cons_inv (h1.trans h3)

theorem siftdownLoop_perm [Inhabited α] (key : α → Int) (item : α) (fuel : Nat) (h : List α) (pos : Nat)
    (hp : pos < h.length) : (siftdownLoop key item fuel h pos).Perm (item :: h.eraseIdx pos) := by
  induction fuel generalizing h pos with
  | zero => exact List.set_perm_cons_eraseIdx hp item
  | succ fuel ih =>
    rw [siftdownLoop]
    split
    · split
      · refine (ih _ _ (by simp; omega)).trans ?_
        exact hole_move h pos ((pos - 1) / 2) item hp (by omega) (by omega)
      · exact List.set_perm_cons_eraseIdx hp item
    · exact List.set_perm_cons_eraseIdx hp item

theorem siftdown_perm [Inhabited α] (key : α → Int) (item : α) (h : List α) (pos : Nat) (hp : pos < h.length) :
    (siftdown key item h pos).Perm (item :: h.eraseIdx pos) := siftdownLoop_perm key item pos h pos hp

theorem siftdownLoop_heaped [Inhabited α] (key : α → Int) (item : α) (fuel : Nat) (h : List α) (pos : Nat)
    (hp : pos < h.length) (hf : pos ≤ fuel)
    (hn : Near (fun i => key ((h.set pos item).getD i default)) h.length pos) :
    Heaped (fun i => key ((siftdownLoop key item fuel h pos).getD i default)) h.length := by
  induction fuel generalizing h pos with
  | zero =>
    obtain rfl : pos = 0 := by omega
    exact near_zero _ _ hn
  | succ fuel ih =>
    rw [siftdownLoop]
    cases pos with
    | zero =>
      rw [if_neg (by omega)]
      exact near_zero _ _ hn
    | succ pos =>
      have hself : ∀ j, j ≠ pos + 1 → (h.set (pos + 1) item).getD j default = h.getD j default := fun j hj => by
        rw [getD_set _ _ _ _ hp, if_neg hj]
      rw [if_pos (by omega), Nat.add_sub_cancel]
      split
      · rename_i hlt
        have := ih (h.set (pos + 1) (h.getD (pos / 2) default)) (pos / 2) (by simp; omega) (by omega) ?_
        · simpa using this
        · rw [List.length_set]
          refine near_step _ _ _ pos hn ?_ hp ?_
          · rw [hself (pos / 2) (by omega), getD_set _ _ _ _ hp, if_pos rfl]
            exact hlt
          · intro j
            rw [getD_set _ _ _ _ (by simp; omega), getD_set _ _ _ _ hp, getD_set _ _ _ _ hp, getD_set _ _ _ _ hp,
              getD_set _ _ _ _ hp]
            split
            · simp
            · split
              · rw [if_neg (by omega)]
              · rfl
      · rename_i hlt
        refine near_done _ _ pos hn ?_
        rw [hself (pos / 2) (by omega), getD_set _ _ _ _ hp, if_pos rfl]
        omega

theorem siftdown_heaped [Inhabited α] (key : α → Int) (item : α) (h : List α) (pos : Nat) (hp : pos < h.length)
    (hn : Near (fun i => key ((h.set pos item).getD i default)) h.length pos) :
    Heaped (fun i => key ((siftdown key item h pos).getD i default)) h.length :=
  siftdownLoop_heaped key item pos h pos hp (Nat.le_refl _) hn

theorem push_perm [Inhabited α] (key : α → Int) (h : List α) (item : α) : (push key h item).Perm (item :: h) := by
  refine (siftdown_perm key item _ _ (by simp)).trans ?_
  rw [List.eraseIdx_append_of_length_le (by omega)]
  simp

theorem push_length [Inhabited α] (key : α → Int) (h : List α) (item : α) : (push key h item).length = h.length + 1 := by
  simpa using (push_perm key h item).length_eq

theorem push_heaped [Inhabited α] (key : α → Int) (h : List α) (item : α)
    (hh : Heaped (fun i => key (h.getD i default)) h.length) :
    Heaped (fun i => key ((push key h item).getD i default)) (push key h item).length := by
  rw [push_length]
  have := siftdown_heaped key item (h ++ [item]) h.length (by simp) ?_
  · simpa [push] using this
  · have hset : (h ++ [item]).set h.length item = h ++ [item] := by simp
    rw [hset]
    constructor
    · intro i h0 hn hi
      simp only [List.length_append, List.length_cons, List.length_nil] at hn
      dsimp only
      rw [List.getD_append _ _ _ _ (by omega), List.getD_append _ _ _ _ (by omega)]
      exact hh i h0 (by omega)
    · intro i h0 hn hi hp
      simp only [List.length_append, List.length_cons, List.length_nil] at hn
      omega

/-- A heap with a hole: apart from what is at the position. -/
def Hollow (f : Nat → Int) (n pos : Nat) : Prop :=
  (∀ i, 0 < i → i < n → i ≠ pos → (i - 1) / 2 ≠ pos → f ((i - 1) / 2) ≤ f i) ∧
    ∀ i, 0 < i → i < n → (i - 1) / 2 = pos → 0 < pos → f ((pos - 1) / 2) ≤ f i

theorem hollow_step (f g : Nat → Int) (n pos child : Nat) (h : Hollow f n pos) (hc : (child - 1) / 2 = pos)
    (h0 : 0 < child) (hmin : ∀ i, 0 < i → i < n → (i - 1) / 2 = pos → f child ≤ f i) (hcn : child < n)
    (hg : ∀ j, g j = if j = pos then f child else f j) : Hollow g n child := by
  obtain ⟨h1, h2⟩ := h
  constructor
  · intro i hi hn hne hpc
    rw [hg, hg]
    by_cases hp : (i - 1) / 2 = pos
    · rw [if_pos hp, if_neg (by omega)]
      exact hmin i hi hn hp
    · rw [if_neg hp]
      split
      · rename_i hip
        have := h2 child h0 hcn hc (by omega)
        rw [← hip] at this
        exact this
      · rename_i hip
        exact h1 i hi hn hip hp
  · intro i hi hn hic hc0
    rw [hg, if_pos hc, hg, if_neg (by omega)]
    have := h1 i hi hn (by omega) (by omega)
    rwa [hic] at this

theorem siftupLoop_spec [Inhabited α] (key : α → Int) (item : α) (fuel : Nat) (h : List α) (pos : Nat)
    (hp : pos < h.length) (hf : h.length < fuel + pos + 1) (hh : Hollow (fun i => key (h.getD i default)) h.length pos) :
    (siftupLoop key fuel h pos).1.length = h.length ∧ (siftupLoop key fuel h pos).2 < h.length ∧
      h.length ≤ 2 * (siftupLoop key fuel h pos).2 + 1 ∧
      Hollow (fun i => key ((siftupLoop key fuel h pos).1.getD i default)) h.length (siftupLoop key fuel h pos).2 ∧
      (item :: (siftupLoop key fuel h pos).1.eraseIdx (siftupLoop key fuel h pos).2).Perm (item :: h.eraseIdx pos) := by
  induction fuel generalizing h pos with
  | zero => omega
  | succ fuel ih =>
    rw [siftupLoop]
    split
    · rename_i hlt
      dsimp only
      generalize hc : (if 2 * pos + 2 < h.length ∧
        ¬ key (h.getD (2 * pos + 1) default) < key (h.getD (2 * pos + 2) default) then 2 * pos + 2 else 2 * pos + 1) = child
      have hchild : (child = 2 * pos + 1 ∨ child = 2 * pos + 2) ∧ child < h.length ∧
          ∀ i, 0 < i → i < h.length → (i - 1) / 2 = pos → key (h.getD child default) ≤ key (h.getD i default) := by
        split at hc
        · rename_i hr
          subst hc
          refine ⟨.inr rfl, hr.1, fun i h0 hn hi => ?_⟩
          have : i = 2 * pos + 1 ∨ i = 2 * pos + 2 := by omega
          rcases this with rfl | rfl
          · omega
          · omega
        · rename_i hr
          subst hc
          refine ⟨.inl rfl, hlt, fun i h0 hn hi => ?_⟩
          have : i = 2 * pos + 1 ∨ i = 2 * pos + 2 := by omega
          rcases this with rfl | rfl
          · omega
          · have : ¬ ¬ key (h.getD (2 * pos + 1) default) < key (h.getD (2 * pos + 2) default) := fun hn' => hr ⟨hn, hn'⟩
            omega
      obtain ⟨hor, hcn, hmin⟩ := hchild
      have := ih (h.set pos (h.getD child default)) child (by simpa using hcn) (by simp; omega) (by
        rw [List.length_set]
        refine hollow_step _ _ _ pos child hh (by omega) (by omega) hmin hcn ?_
        intro j
        rw [getD_set _ _ _ _ hp]
        split <;> rfl)
      rw [List.length_set] at this
      refine ⟨this.1, this.2.1, this.2.2.1, this.2.2.2.1, this.2.2.2.2.trans ?_⟩
      exact hole_move h pos child item hp hcn (by omega)
    · rename_i hlt
      exact ⟨rfl, hp, by omega, hh, List.Perm.refl _⟩

theorem siftup_spec [Inhabited α] (key : α → Int) (item first : α) (rest : List α)
    (hh : Heaped (fun i => key ((first :: rest).getD i default)) (rest.length + 1)) :
    (siftup key item (item :: rest)).Perm (item :: rest) ∧
      Heaped (fun i => key ((siftup key item (item :: rest)).getD i default)) (rest.length + 1) := by
  have hs := siftupLoop_spec key item (item :: rest).length (item :: rest) 0 (by simp) (by simp) (by
    constructor
    · intro i h0 hn hne hp
      have h1 := hh i h0 (by simpa using hn)
      obtain ⟨j, rfl⟩ : ∃ j, i = j + 1 := ⟨i - 1, by omega⟩
      obtain ⟨k, hk⟩ : ∃ k, (j + 1 - 1) / 2 = k + 1 := ⟨(j + 1 - 1) / 2 - 1, by omega⟩
      dsimp only at h1 ⊢
      rw [hk] at h1 ⊢
      simpa using h1
    · intro i h0 hn hp hpos
      omega)
  obtain ⟨h1, h2, h3, h4, h5⟩ := hs
  rw [siftup]
  generalize siftupLoop key (item :: rest).length (item :: rest) 0 = r at h1 h2 h3 h4 h5
  obtain ⟨h, pos⟩ := r
  dsimp only at h1 h2 h3 h4 h5 ⊢
  rw [← h1] at h2 h3 h4
  have hl : h.length = rest.length + 1 := by simpa using h1
  have hlen : pos < (h.set pos item).length := by simpa using h2
  constructor
  · refine (siftdown_perm key item _ pos hlen).trans ?_
    rw [List.eraseIdx_set_eq]
    exact h5.trans (by simp)
  · have := siftdown_heaped key item (h.set pos item) pos hlen ?_
    · simpa [hl] using this
    · rw [List.length_set]
      obtain ⟨ha, hb⟩ := h4
      have hg : ∀ i, i ≠ pos → ((h.set pos item).set pos item).getD i default = h.getD i default := by
        intro i hi
        rw [getD_set _ _ _ _ hlen, if_neg hi, getD_set _ _ _ _ h2, if_neg hi]
      constructor
      · intro i h0 hn hi
        dsimp only
        rw [hg i hi, hg _ (by omega)]
        exact ha i h0 hn hi (by omega)
      · intro i h0 hn hi hp
        omega

theorem heaped_first (f : Nat → Int) (n : Nat) (h : Heaped f n) (i : Nat) (hi : i < n) : f 0 ≤ f i := by
  induction i using Nat.strongRecOn with
  | _ i ih =>
    by_cases h0 : i = 0
    · subst h0
      omega
    · have h1 := h i (by omega) hi
      have h2 := ih ((i - 1) / 2) (by omega) (by omega)
      omega

theorem pop_spec [Inhabited α] (key : α → Int) (h : List α) (hh : Heaped (fun i => key (h.getD i default)) h.length) :
    (h = [] ∧ pop key h = none) ∨ ∃ x h', pop key h = some (x, h') ∧ h.Perm (x :: h') ∧ (∀ y ∈ h', key x ≤ key y) ∧
      Heaped (fun i => key (h'.getD i default)) h'.length := by
  rcases List.eq_nil_or_concat h with rfl | ⟨init, last, rfl⟩
  · exact .inl ⟨rfl, rfl⟩
  · refine .inr ?_
    cases init with
    | nil => exact ⟨last, [], rfl, by simp, by simp, fun i h0 hn => by simp at hn⟩
    | cons first rest =>
      have hd : pop key ((first :: rest).concat last) = some (first, siftup key last (last :: rest)) := by
        rw [pop, List.concat_eq_append, List.getLast?_concat, List.dropLast_concat]
      have hinit : Heaped (fun i => key ((first :: rest).getD i default)) (rest.length + 1) := by
        intro i h0 hn
        have := hh i h0 (by simp; omega)
        dsimp only at this ⊢
        rw [List.concat_eq_append, List.getD_append _ _ _ _ (by simp; omega), List.getD_append _ _ _ _ (by simp; omega)] at this
        exact this
      obtain ⟨hp, hq⟩ := siftup_spec key last first rest hinit
      refine ⟨first, _, hd, ?_, ?_, ?_⟩
      · rw [List.concat_eq_append]
        refine List.Perm.trans ?_ (hp.symm.cons first)
        simp only [List.cons_append]
        exact (List.perm_append_singleton last rest).cons first
      · intro y hy
        have hy' : y ∈ (first :: rest).concat last := by
          have := hp.mem_iff.mp hy
          simp only [List.concat_eq_append, List.mem_append, List.mem_cons, List.not_mem_nil, or_false] at this ⊢
          tauto
        obtain ⟨i, hi, rfl⟩ := List.getElem_of_mem hy'
        have := heaped_first _ _ hh i hi
        rw [List.getD_eq_getElem _ _ hi] at this
        simpa using this
      · rw [hp.length_eq]
        simpa using hq

theorem popAll_spec [Inhabited α] (key : α → Int) (fuel : Nat) (h : List α) (hf : h.length < fuel)
    (hh : Heaped (fun i => key (h.getD i default)) h.length) :
    ∃ out, popAll key fuel h = some out ∧ out.Perm h ∧ out.Pairwise (fun a b => key a ≤ key b) := by
  induction fuel generalizing h with
  | zero => omega
  | succ fuel ih =>
    rw [popAll]
    rcases pop_spec key h hh with ⟨rfl, hn⟩ | ⟨x, h', hx, hp, hmin, hh'⟩
    · rw [hn]
      exact ⟨[], rfl, List.Perm.refl _, .nil⟩
    · rw [hx]
      have hl := hp.length_eq
      obtain ⟨out, ho, hop, hos⟩ := ih h' (by simp at hl; omega) hh'
      dsimp only
      rw [ho]
      refine ⟨x :: out, rfl, (hop.cons x).trans hp.symm, ?_⟩
      rw [List.pairwise_cons]
      exact ⟨fun y hy => hmin y (hop.mem_iff.mp hy), hos⟩

theorem foldl_push [Inhabited α] (key : α → Int) (entries h : List α)
    (hh : Heaped (fun i => key (h.getD i default)) h.length) :
    (entries.foldl (push key) h).Perm (entries ++ h) ∧
      Heaped (fun i => key ((entries.foldl (push key) h).getD i default)) (entries.foldl (push key) h).length := by
  induction entries generalizing h with
  | nil => exact ⟨List.Perm.refl _, hh⟩
  | cons e es ih =>
    obtain ⟨h1, h2⟩ := ih (push key h e) (push_heaped key h e hh)
    refine ⟨h1.trans ?_, h2⟩
    refine ((push_perm key h e).append_left es).trans ?_
    exact List.perm_middle

/-- **C149**, partial: each entry is shown once, in order of time.  What is missing is the order of entries of the same
time. -/
theorem C149_order_partial [Inhabited α] (key : α → Int) (entries : List α) :
    ∃ out, shown key entries = some out ∧ out.Perm entries ∧ out.Pairwise (fun a b => key a ≤ key b) := by
  obtain ⟨h1, h2⟩ := foldl_push key entries [] (fun i h0 hn => by simp at hn)
  obtain ⟨out, ho, hp, hs⟩ := popAll_spec key (entries.length + 1) _ (by
    have := h1.length_eq
    simp at this
    omega) h2
  exact ⟨out, ho, hp.trans (by simpa using h1), hs⟩

/-- **C149**: entries of different times are shown in the only order there is. -/
theorem C149_distinct [Inhabited α] (key : α → Int) (entries sorted : List α) (hp : sorted.Perm entries)
    (hs : sorted.Pairwise (fun a b => key a < key b)) : shown key entries = some sorted := by
  obtain ⟨out, ho, hop, hos⟩ := C149_order_partial key entries
  rw [ho]
  congr 1
  have hperm : out.Perm sorted := hop.trans hp.symm
  refine hperm.eq_of_pairwise (le := fun a b => key a ≤ key b) ?_ hos (hs.imp (fun h => by omega))
  intro a b ha hb hab hba
  obtain ⟨i, hi, rfl⟩ := List.getElem_of_mem (hperm.mem_iff.mp ha)
  obtain ⟨j, hj, rfl⟩ := List.getElem_of_mem hb
  rw [List.pairwise_iff_getElem] at hs
  rcases Nat.lt_trichotomy i j with h | h | h
  · have := hs i j hi hj h
    omega
  · subst h
    rfl
  · have := hs j i hj hi h
    omega

/-- **C149** is false of the code: of four entries of the same time the third is shown second. -/
theorem C149_order_claim_false : ¬ C149_order_claim := by
  intro h
  obtain ⟨out, ho, _, _, hf⟩ := h [(5, 0), (5, 1), (5, 2), (5, 3)]
  have hr : shown Prod.fst [((5 : Int), 0), (5, 1), (5, 2), (5, 3)] = some [(5, 0), (5, 2), (5, 1), (5, 3)] := by
    decide +kernel
  rw [hr] at ho
  cases ho
  have := hf 5
  revert this
  decide

/-- Entries out of order. -/
example : shown id [(3 : Int), 1, 2, 5, 4] = some [1, 2, 3, 4, 5] :=
  C149_distinct id _ _ (by decide) (by decide)

end Dtf.Heap
