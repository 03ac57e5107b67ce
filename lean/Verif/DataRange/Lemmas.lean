import Verif.DataRange.Spec

namespace Dtf.DataRange
open Py Spec

theorem window_length (data : Bytes) (o s : Nat) :
    (window data o s).length = min s (data.length - o) := by
  simp [window]

theorem window_drop (data : Bytes) (o s p n : Nat) (hn : p + n ≤ s) :
    ((window data o s).drop p).take n = (data.drop (o + p)).take n := by
  unfold window
  rw [List.drop_take, List.drop_drop, List.take_take]
  congr 1
  omega

theorem window_drop_all (data : Bytes) (o s p : Nat) :
    (window data o s).drop p = (data.drop (o + p)).take (s - p) := by
  unfold window
  rw [List.drop_take, List.drop_drop]

theorem read_eq (f : File) (o s p : Nat) (size : Option Int) (hp : p < s)
    (hsz : ∀ n, size = some n → 0 ≤ n) :
    read f ⟨o, s, p⟩ size =
      (.ok ((f.data.drop (o + p)).take (match size with | none => s - p | some n => min n.toNat (s - p))),
       ⟨f.data, o + p + min (match size with | none => s - p | some n => min n.toNat (s - p)) (f.data.length - (o + p))⟩,
       ⟨o, s, (p + min (match size with | none => s - p | some n => min n.toNat (s - p)) (f.data.length - (o + p)) : Nat)⟩) := by
  have h1 : ¬ ((o : Int) < 0) := by omega
  have h2 : ¬ ((s : Int) < 0) := by omega
  have h3 : ¬ ((p : Int) ≥ s) := by omega
  have h4 : ¬ ((o : Int) + p < 0) := by omega
  have h5 : ((o : Int) + p).toNat = o + p := by omega
  unfold read
  simp only [h1, h2, h3, h4, if_false, File.seekSet, File.read, h5]
  cases size with
  | none =>
    have h6 : (if (p : Int) + (Option.getD none (s : Int)) > s then (s : Int) - p
      else Option.getD none (s : Int)) = ((s - p : Nat) : Int) := by
      simp only [Option.getD_none]
      split <;> omega
    have h7 : ¬ (((s - p : Nat) : Int) < 0) := by omega
    simp only [h6, h7, if_false, Int.toNat_natCast, List.length_take, List.length_drop]
    simp
  | some n =>
    have hn := hsz n rfl
    have h6 : (if (p : Int) + (Option.getD (some n) (s : Int)) > s then (s : Int) - p
      else Option.getD (some n) (s : Int)) = ((min n.toNat (s - p) : Nat) : Int) := by
      simp only [Option.getD_some]
      split <;> omega
    have h7 : ¬ (((min n.toNat (s - p) : Nat) : Int) < 0) := by omega
    simp only [h6, h7, if_false, Int.toNat_natCast, List.length_take, List.length_drop]
    simp

theorem read_past (f : File) (o s p : Nat) (size : Option Int) (hp : s ≤ p) :
    read f ⟨o, s, p⟩ size = (.ok [], f, ⟨o, s, p⟩) := by
  have h1 : ¬ ((o : Int) < 0) := by omega
  have h2 : ¬ ((s : Int) < 0) := by omega
  have h3 : ((p : Int) ≥ s) := by omega
  unfold read
  simp only [h1, h2, h3, if_false, if_true]

/-- One call: the same output, and the states stay related. -/
theorem call_sim (f : File) (o s p : Nat) (c : Call) (hc : c.Nonneg) :
    ∃ p' pos', call f ⟨o, s, p⟩ c =
      ((specCall (absFile f.data o s p) c).1, ⟨f.data, pos'⟩, ⟨o, s, (p' : Nat)⟩) ∧
      (specCall (absFile f.data o s p) c).2 = absFile f.data o s p' := by
  cases c with
  | tell => exact ⟨p, f.pos, rfl, rfl⟩
  | getSize => exact ⟨p, f.pos, rfl, rfl⟩
  | seek offset whence =>
    have h2 : ¬ ((s : Int) < 0) := by omega
    have key : ∀ b : Int,
        (if whence = 1 then Except.ok (offset + (p : Int)) else if whence = 2 then .ok (offset + (s : Int))
          else if whence ≠ 0 then .error .osError else .ok offset) = (.ok (b + offset) : Res Int) →
        (if whence = 0 then some 0 else if whence = 1 then some (p : Int)
          else if whence = 2 then some (s : Int) else none) = some b →
        ∃ p' pos', call f ⟨o, s, p⟩ (.seek offset whence) =
          ((specCall (absFile f.data o s p) (.seek offset whence)).1, ⟨f.data, pos'⟩, ⟨o, s, (p' : Nat)⟩) ∧
          (specCall (absFile f.data o s p) (.seek offset whence)).2 = absFile f.data o s p' := by
      intro b e1 e2
      by_cases hneg : b + offset < 0
      · refine ⟨p, f.pos, ?_, ?_⟩ <;>
          simp only [call, seek, specCall, MemFile.seek, absFile, h2, if_false, e1, e2, hneg,
            Option.bind_some, show ¬ (0 ≤ b + offset) by omega, if_true]
      · refine ⟨(b + offset).toNat, f.pos, ?_, ?_⟩ <;>
          simp only [call, seek, specCall, MemFile.seek, absFile, h2, if_false, e1, e2, hneg,
            Option.bind_some, show (0 ≤ b + offset) by omega, if_true]
        rw [Int.toNat_of_nonneg (by omega)]
    by_cases w1 : whence = 1
    · exact key p (by simp [w1, Int.add_comm]) (by simp [w1])
    · by_cases w2 : whence = 2
      · exact key s (by simp [w2, Int.add_comm]) (by simp [w2])
      · by_cases w0 : whence = 0
        · exact key 0 (by simp [w0]) (by simp [w0])
        · refine ⟨p, f.pos, ?_, ?_⟩ <;>
            simp [call, seek, specCall, MemFile.seek, absFile, w0, w1, w2]
  | read size =>
    have hsz : ∀ n, size = some n → 0 ≤ n := by
      intro n hn; subst hn; exact hc
    by_cases hp : p < s
    · unfold call specCall
      simp only [read_eq f o s p size hp hsz]
      refine ⟨_, _, Prod.ext ?_ rfl, ?_⟩
      · cases size with
        | none => simp [MemFile.read, absFile, window_drop_all]
        | some n =>
          simp only [MemFile.read, absFile, Option.map_some, window_drop_all, List.take_take]
      · cases size with
        | none => simp [MemFile.read, absFile, window_length]; omega
        | some n => simp [MemFile.read, absFile, window_length]; omega
    · unfold call specCall
      simp only [read_past f o s p size (by omega)]
      have hl : (window f.data o s).length ≤ p := by rw [window_length]; omega
      refine ⟨p, f.pos, Prod.ext ?_ rfl, ?_⟩
      · cases size <;> simp [MemFile.read, absFile, List.drop_eq_nil_of_le hl]
      · cases size with
        | none => simp [MemFile.read, absFile, window_length]; omega
        | some n => simp [MemFile.read, absFile, window_length]; omega

theorem run_sim (es : List Event) (hes : ∀ e ∈ es, e.Nonneg) (data : Bytes) (pos : Nat)
    (ws : List (Nat × Nat × Nat)) (i o s p : Nat) (hi : ws[i]? = some (o, s, p)) :
    outputsOf i (run ⟨data, pos⟩ (ws.map fun w => ⟨w.1, w.2.1, (w.2.2 : Nat)⟩) es) =
      specRun (absFile data o s p) (callsOf i es) := by
  induction es generalizing pos ws o s p with
  | nil => rfl
  | cons e es ih =>
    have hes' : ∀ e ∈ es, e.Nonneg := fun e he => hes e (List.mem_cons_of_mem _ he)
    cases e with
    | parentMoved q =>
      simp only [run, step, callsOf]
      exact ih hes' q ws o s p hi
    | call j c =>
      have hc : c.Nonneg := hes (.call j c) List.mem_cons_self
      cases hj : ws[j]? with
      | none =>
        have hne : j ≠ i := by rintro rfl; rw [hi] at hj; cases hj
        simp only [run, step, List.getElem?_map, hj, Option.map_none, callsOf, hne, if_false]
        exact ih hes' pos ws o s p hi
      | some w =>
        obtain ⟨o', s', p'⟩ := w
        obtain ⟨q, pos', h1, h2⟩ := call_sim ⟨data, pos⟩ o' s' p' c hc
        have hset : (ws.map fun w => (⟨w.1, w.2.1, (w.2.2 : Nat)⟩ : Range)).set j ⟨o', s', (q : Nat)⟩ =
            (ws.set j (o', s', q)).map fun w => ⟨w.1, w.2.1, (w.2.2 : Nat)⟩ := by
          rw [List.map_set]
        simp only [run, step, List.getElem?_map, hj, Option.map_some, h1, hset]
        by_cases hji : j = i
        · subst hji
          rw [hi] at hj
          simp only [Option.some.injEq, Prod.mk.injEq] at hj
          obtain ⟨rfl, rfl, rfl⟩ := hj
          have hlen : j < ws.length := by
            rcases Nat.lt_or_ge j ws.length with h | h
            · exact h
            · rw [List.getElem?_eq_none h] at hi
              cases hi
          have := ih hes' pos' (ws.set j (o, s, q)) o s q (by simp [hlen])
          simp only [outputsOf, List.filter_cons, decide_true, if_true, List.map_cons, callsOf,
            specRun] at this ⊢
          rw [this, h2]
        · have := ih hes' pos' (ws.set j (o', s', q)) o s p (by
            rw [List.getElem?_set_ne hji]; exact hi)
          simp only [outputsOf, List.filter_cons, hji, decide_false, callsOf, if_false] at this ⊢
          simpa using this

theorem readChunks_spec (ns : List Nat) (hns : ∀ n ∈ ns, 0 < n) (f : File) (o s p : Nat) :
    ∃ p' pos', (readChunks f ⟨o, s, p⟩ ns).2 = (⟨f.data, pos'⟩, ⟨o, s, (p' : Nat)⟩) ∧ p ≤ p' ∧
      (readChunks f ⟨o, s, p⟩ ns).1.flatten =
        ((window f.data o s).drop p).take (p' - p) ∧
      ((window f.data o s).length ≤ p' ∨ p' - p = ns.sum) := by
  induction ns generalizing f p with
  | nil => exact ⟨p, f.pos, rfl, Nat.le_refl _, by simp [readChunks], Or.inr (by simp)⟩
  | cons n ns ih =>
    have hn : 0 < n := hns n List.mem_cons_self
    have hns' : ∀ n ∈ ns, 0 < n := fun m hm => hns m (List.mem_cons_of_mem _ hm)
    by_cases hp : p < s
    · have hr := read_eq f o s p (some (n : Int)) hp (by intro m hm; cases hm; omega)
      simp only [Int.toNat_natCast] at hr
      by_cases hempty : (f.data.drop (o + p)).take (min n (s - p)) = []
      · have hlen : min (min n (s - p)) (f.data.length - (o + p)) = 0 := by
          have := congrArg List.length hempty
          simpa using this
        have hr' : readChunks f ⟨o, s, p⟩ (n :: ns) =
            ([], ⟨f.data, o + p + 0⟩, ⟨o, s, ((p + 0 : Nat) : Int)⟩) := by
          rw [readChunks, hr, hempty, hlen]
        refine ⟨p, o + p, by rw [hr']; simp, Nat.le_refl _, by rw [hr']; simp, Or.inl ?_⟩
        rw [window_length]; omega
      · obtain ⟨x, xs, hx⟩ := List.exists_cons_of_ne_nil hempty
        have hr' : readChunks f ⟨o, s, p⟩ (n :: ns) =
            ((x :: xs) :: (readChunks ⟨f.data, o + p + min (min n (s - p)) (f.data.length - (o + p))⟩
              ⟨o, s, (p + min (min n (s - p)) (f.data.length - (o + p)) : Nat)⟩ ns).1,
              (readChunks ⟨f.data, o + p + min (min n (s - p)) (f.data.length - (o + p))⟩
              ⟨o, s, (p + min (min n (s - p)) (f.data.length - (o + p)) : Nat)⟩ ns).2) := by
          rw [readChunks, hr, hx]
        obtain ⟨p', pos', e1, e2, e3, e4⟩ := ih hns' ⟨f.data, o + p + min (min n (s - p)) (f.data.length - (o + p))⟩
          (p + min (min n (s - p)) (f.data.length - (o + p)))
        refine ⟨p', pos', by rw [hr']; exact e1, by omega, ?_, ?_⟩
        · rw [hr', List.flatten_cons, e3, ← hx]
          simp only [window_drop_all, List.take_take]
          have hd : f.data.drop (o + (p + min (min n (s - p)) (f.data.length - (o + p)))) =
              (f.data.drop (o + p)).drop (min n (s - p)) := by
            rw [List.drop_drop]
            by_cases hle : min n (s - p) ≤ f.data.length - (o + p)
            · rw [Nat.min_eq_left hle]; congr 1; omega
            · rw [List.drop_eq_nil_of_le (by omega), List.drop_eq_nil_of_le (by omega)]
          rw [hd]
          generalize hL : f.data.drop (o + p) = L
          have hLlen : L.length = f.data.length - (o + p) := by rw [← hL]; simp
          rw [← hLlen] at e2 ⊢
          generalize hm : min n (s - p) = m at *
          by_cases hle : m ≤ L.length
          · rw [Nat.min_eq_left hle] at e2 ⊢
            have : min (p' - p) (s - p) = m + min (p' - (p + m)) (s - (p + m)) := by omega
            rw [this, List.take_add]
          · have t1 : L.take m = L := List.take_of_length_le (by omega)
            have t2 : L.drop m = [] := List.drop_eq_nil_of_le (by omega)
            have t3 : L.take (min (p' - p) (s - p)) = L := List.take_of_length_le (by omega)
            rw [t1, t2, t3]
            simp
        · rcases e4 with e4 | e4
          · exact Or.inl e4
          · by_cases hfull : min (min n (s - p)) (f.data.length - (o + p)) = n
            · right
              rw [List.sum_cons]
              omega
            · left
              rw [window_length]
              omega
    · have hr' : readChunks f ⟨o, s, p⟩ (n :: ns) = ([], f, ⟨o, s, (p : Nat)⟩) := by
        rw [readChunks, read_past f o s p _ (by omega)]
      refine ⟨p, f.pos, by rw [hr'], Nat.le_refl _, by rw [hr']; simp, Or.inl ?_⟩
      rw [window_length]; omega

end Dtf.DataRange
