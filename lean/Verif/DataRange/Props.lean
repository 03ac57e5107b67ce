import Verif.DataRange.Lemmas

/-!
# Properties of data ranges (C01, C02, C03, C04, C23)
-/

namespace Dtf.DataRange
open Py Spec

/-- C01 and C23.  Any number of data ranges over one parent file, used in any
interleaving and with other users moving the position of the parent in between: each
range gives its user exactly the outputs of an independent file in memory that holds
the bytes of its window.  Read sizes are absent or non-negative. -/
theorem C01_ranges_refine_memory_files (data : Bytes) (pos : Nat) (windows : List (Nat × Nat))
    (events : List Event) (hev : ∀ e ∈ events, e.Nonneg) (i o s : Nat)
    (hi : windows[i]? = some (o, s)) :
    outputsOf i (run ⟨data, pos⟩ (windows.map fun w => init w.1 w.2) events) =
      specRun ⟨window data o s, s, 0⟩ (callsOf i events) := by
  have h := run_sim events hev data pos (windows.map fun w => (w.1, w.2, 0)) i o s 0
    (by simp [hi])
  simpa [List.map_map, Function.comp_def, init, absFile] using h

/-- The hypotheses are met by two overlapping ranges with interleaved calls, and the
outputs are not trivial. -/
example :
    let events : List Event := [.call 0 (.read (some 2)), .call 1 (.seek (-1) 2), .parentMoved 7,
      .call 0 (.read none), .call 1 (.read (some 9)), .call 1 (.seek (-9) 1), .call 1 .tell]
    (∀ e ∈ events, e.Nonneg) ∧
    run ⟨[1, 2, 3, 4, 5, 6], 3⟩ ([(1, 4), (0, 3)].map fun w => init w.1 w.2) events =
      [(0, .bytes [2, 3]), (1, .unit), (0, .bytes [4, 5]), (1, .bytes [3]),
       (1, .raised .osError), (1, .int 3)] := by
  refine ⟨?_, by decide⟩
  simp [Event.Nonneg, Call.Nonneg]

/-- C23.  The outputs of a range do not depend on the other ranges, on their calls or on
the position of the parent: two histories that make the same calls on a window get the
same answers from it. -/
theorem C23_members_are_isolated (data : Bytes) (pos pos' : Nat) (ws ws' : List (Nat × Nat))
    (es es' : List Event) (h : ∀ e ∈ es, e.Nonneg) (h' : ∀ e ∈ es', e.Nonneg) (i j o s : Nat)
    (hi : ws[i]? = some (o, s)) (hj : ws'[j]? = some (o, s)) (hcalls : callsOf i es = callsOf j es') :
    outputsOf i (run ⟨data, pos⟩ (ws.map fun w => init w.1 w.2) es) =
      outputsOf j (run ⟨data, pos'⟩ (ws'.map fun w => init w.1 w.2) es') := by
  rw [C01_ranges_refine_memory_files data pos ws es h i o s hi,
    C01_ranges_refine_memory_files data pos' ws' es' h' j o s hj, hcalls]

example : callsOf 1 [.call 0 (.read none), .call 1 (.read (some 2)), .parentMoved 3] =
    callsOf 0 [.call 0 (.read (some 2))] := by decide

/-- C01.  A range whose window is invalid refuses to read. -/
theorem C01_invalid_window_refuses (f : File) (r : Range) (size : Option Int)
    (h : r.dataOffset < 0 ∨ r.dataSize < 0) : read f r size = (.error .osError, f, r) := by
  unfold read
  by_cases h1 : r.dataOffset < 0
  · simp [h1]
  · rcases h with h | h
    · exact absurd h h1
    · simp [h1, h]

example : (init (-1) 5).dataOffset < 0 ∨ (init (-1) 5).dataSize < 0 := by decide

/-- The claim of C02: whatever the size passed, the bytes read are in the window. -/
def C02_claim : Prop :=
  ∀ (data : Bytes) (pos o s p : Nat) (size : Option Int) (b : Bytes) (f' : File) (r' : Range),
    read ⟨data, pos⟩ ⟨o, s, p⟩ size = (.ok b, f', r') →
      (∃ n, b = ((window data o s).drop p).take n) ∧ (p ≤ s → r'.cur ≤ s)

/-- C02 is false of the code: with size -1 the parent is read to its end. -/
theorem C02_negative_size_escapes : ¬ C02_claim := by
  intro h
  have := h [1, 2, 3, 4] 0 0 2 0 (some (-1)) [1, 2, 3, 4] ⟨[1, 2, 3, 4], 4⟩ ⟨0, 2, 4⟩ (by decide)
  exact absurd (this.2 (by decide)) (by decide)

/-- C02 for sizes that are absent or not negative: the bytes read are bytes of the
window and the position does not leave the window. -/
theorem C02_contained_partial (data : Bytes) (pos o s p : Nat) (size : Option Int)
    (hsize : ∀ n, size = some n → 0 ≤ n) (b : Bytes) (f' : File) (r' : Range)
    (h : read ⟨data, pos⟩ ⟨o, s, p⟩ size = (.ok b, f', r')) :
    (∃ n, b = ((window data o s).drop p).take n) ∧ (p ≤ s → r'.cur ≤ s) ∧
      r'.cur = p + b.length ∧ f'.data = data := by
  by_cases hp : p < s
  · rw [read_eq _ _ _ _ _ hp hsize] at h
    simp only [Prod.mk.injEq, Except.ok.injEq] at h
    obtain ⟨rfl, rfl, rfl⟩ := h
    refine ⟨⟨_, (window_drop data o s p _ ?_).symm⟩, ?_, ?_, rfl⟩
    · cases size <;> simp only <;> omega
    · cases size <;> simp only <;> omega
    · simp only [List.length_take, List.length_drop]
      cases size <;> simp only <;> omega
  · rw [read_past _ _ _ _ _ (by omega)] at h
    simp only [Prod.mk.injEq, Except.ok.injEq] at h
    obtain ⟨rfl, rfl, rfl⟩ := h
    exact ⟨⟨0, by simp⟩, by simp, by simp, rfl⟩

example : read ⟨[1, 2, 3, 4], 0⟩ ⟨1, 2, 1⟩ (some 7) = (.ok [3], ⟨[1, 2, 3, 4], 3⟩, ⟨1, 2, 2⟩) := by
  decide

/-- C02, the excluded case: a negative size returns everything the parent holds after
the position, in or out of the window. -/
theorem C02_negative_size_reads_parent (data : Bytes) (pos o s p : Nat) (n : Int) (hn : n < 0)
    (hp : p < s) :
    (read ⟨data, pos⟩ ⟨o, s, p⟩ (some n)).1 = .ok (data.drop (o + p)) := by
  have h1 : ¬ ((o : Int) < 0) := by omega
  have h2 : ¬ ((s : Int) < 0) := by omega
  have h3 : ¬ ((p : Int) ≥ s) := by omega
  have h4 : ¬ ((o : Int) + p < 0) := by omega
  have h5 : ((o : Int) + p).toNat = o + p := by omega
  have h6 : ¬ ((p : Int) + n > s) := by omega
  unfold read
  simp only [h1, h2, h3, h4, h5, h6, if_false, Option.getD_some, File.seekSet, File.read, hn,
    if_true]

example : (-1 : Int) < 0 ∧ 0 < 2 := by decide

/-- C03.  A call that raises leaves the range, and so everything a later call returns,
as it was. -/
theorem C03_failed_call_has_no_effect (f : File) (r : Range) (c : Call) (e : Err) (f' : File)
    (r' : Range) (h : call f r c = (.raised e, f', r')) : r' = r ∧ f' = f := by
  cases c with
  | tell => simp [call] at h
  | getSize => simp [call] at h
  | seek offset whence =>
    unfold call seek at h
    dsimp only at h
    split at h
    · simp at h
    · rename_i e' r'' hs
      simp only [Prod.mk.injEq, Out.raised.injEq] at h
      obtain ⟨_, rfl, rfl⟩ := h
      split at hs
      · simp_all
      · split at hs
        · simp_all
        · split at hs <;> simp_all
  | read size =>
    unfold call read at h
    dsimp only at h
    split at h
    · simp at h
    · rename_i e' f'' r'' hs
      simp only [Prod.mk.injEq, Out.raised.injEq] at h
      obtain ⟨_, rfl, rfl⟩ := h
      repeat' split at hs
      all_goals simp_all

example : call ⟨[1, 2], 0⟩ ⟨0, 2, 1⟩ (.seek (-5) 1) = (.raised .osError, ⟨[1, 2], 0⟩, ⟨0, 2, 1⟩) := by
  decide

/-- C03.  Which seeks fail on a valid range: an unknown whence or a negative target. -/
theorem C03_seek_fails_iff (f : File) (o s p : Nat) (offset whence : Int) :
    (call f ⟨o, s, p⟩ (.seek offset whence)).1 = .unit ↔
      (whence = 0 ∧ 0 ≤ offset) ∨ (whence = 1 ∧ 0 ≤ p + offset) ∨ (whence = 2 ∧ 0 ≤ s + offset) := by
  obtain ⟨p', pos', h, _⟩ := call_sim f o s p (.seek offset whence) trivial
  rw [h]
  simp only [specCall, MemFile.seek, absFile]
  by_cases w0 : whence = 0
  · by_cases hn : 0 ≤ offset <;> simp [w0, hn]
  · by_cases w1 : whence = 1
    · by_cases hn : 0 ≤ (p : Int) + offset <;> simp [w1, hn]
    · by_cases w2 : whence = 2
      · by_cases hn : 0 ≤ (s : Int) + offset <;> simp [w2, hn]
      · simp [w0, w1, w2]

/-- C04.  Reading from the start in chunks of any positive sizes that together reach the
end of the window yields exactly the window. -/
theorem C04_chunks_reassemble (f : File) (o s : Nat) (sizes : List Nat)
    (hpos : ∀ n ∈ sizes, 0 < n) (hsum : (window f.data o s).length ≤ sizes.sum) :
    (readChunks f (init o s) sizes).1.flatten = window f.data o s := by
  obtain ⟨p', pos', _, _, h, hend⟩ := readChunks_spec sizes hpos f o s 0
  have h0 : init (o : Int) (s : Int) = ⟨o, s, ((0 : Nat) : Int)⟩ := rfl
  rw [h0, h, List.drop_zero, List.take_of_length_le]
  rcases hend with h | h <;> omega

example : (∀ n ∈ [3, 1, 5], 0 < n) ∧ (window [1, 2, 3, 4, 5, 6] 1 4).length ≤ [3, 1, 5].sum ∧
    (readChunks ⟨[1, 2, 3, 4, 5, 6], 0⟩ (init 1 4) [3, 1, 5]).1 = [[2, 3, 4], [5]] := by decide

/-- C04.  With a positive size the result is empty only at the end of the window, so a
loop that reads until an empty result ends there and not before. -/
theorem C04_empty_only_at_end (f : File) (o s p n : Nat) (hn : 0 < n) :
    (read f ⟨o, s, p⟩ (some n)).1 = .ok [] ↔ (window f.data o s).length ≤ p := by
  by_cases hp : p < s
  · rw [read_eq f o s p (some (n : Int)) hp (by intro m hm; cases hm; omega)]
    simp only [Except.ok.injEq, window_length, Int.toNat_natCast]
    rw [← List.length_eq_zero_iff, List.length_take, List.length_drop]
    omega
  · rw [read_past f o s p _ (by omega)]
    simp [window_length]
    omega

/-- C04.  A read loop with positive sizes makes progress: it returns an empty result at
the latest after as many chunks as the window has bytes. -/
theorem C04_loop_ends (f : File) (o s : Nat) (sizes : List Nat) (hpos : ∀ n ∈ sizes, 0 < n) :
    (readChunks f (init o s) sizes).1.length ≤ (window f.data o s).length := by
  suffices h : ∀ (sizes : List Nat) (f : File) (p : Nat), (∀ n ∈ sizes, 0 < n) →
      (readChunks f ⟨o, s, (p : Nat)⟩ sizes).1.length ≤ (window f.data o s).length - p by
    exact h sizes f 0 hpos
  intro sizes
  induction sizes with
  | nil => intro f p _; simp [readChunks]
  | cons n ns ih =>
    intro f p hpos
    have hn : 0 < n := hpos n List.mem_cons_self
    by_cases hp : p < s
    · have hr := read_eq f o s p (some (n : Int)) hp (by intro m hm; cases hm; omega)
      simp only [Int.toNat_natCast] at hr
      rw [readChunks, hr]
      split
      · simp
      · rename_i b f' r' hne heq
        simp only [Prod.mk.injEq, Except.ok.injEq] at heq
        obtain ⟨hb, rfl, rfl⟩ := heq
        have := ih ⟨f.data, o + p + min (min n (s - p)) (f.data.length - (o + p))⟩
          (p + min (min n (s - p)) (f.data.length - (o + p)))
          (fun m hm => hpos m (List.mem_cons_of_mem _ hm))
        have hlen : 0 < min (min n (s - p)) (f.data.length - (o + p)) := by
          rcases Nat.eq_zero_or_pos (min (min n (s - p)) (f.data.length - (o + p))) with h0 | h0
          · exfalso
            have : (f.data.drop (o + p)).take (min n (s - p)) = [] := by
              rw [← List.length_eq_zero_iff, List.length_take, List.length_drop]; exact h0
            exact hne (by rw [← hb, this])
          · exact h0
        simp only [List.length_cons, window_length] at this ⊢
        omega
      · rename_i heq; simp at heq
    · rw [readChunks, read_past f o s p _ (by omega)]
      simp

example : ∀ n ∈ [2, 2, 2], 0 < n := by decide

end Dtf.DataRange
