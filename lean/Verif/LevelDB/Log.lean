import Verif.LevelDB.Varint

/-!
# LevelDB log files: fragmentation and termination (C15, C16)
-/

namespace Dtf.LevelDB
open Py DataFormat

/-! ## Specification: how a log file is laid out -/

/-- The bytes of one block: checksum, size, type and data. -/
def block (crc : Bytes) (type : Nat) (data : Bytes) : Bytes :=
  crc ++ leBytes 2 data.length ++ [UInt8.ofNat type] ++ data

/-- Fewer than seven bytes left in a page are skipped (`pad`), otherwise nothing is skipped.
Offsets are relative to the page; `off'` is where the next block starts. -/
def PageTail (off : Nat) (pad : Bytes) (off' : Nat) : Prop :=
  if 32768 - off < 7 then pad.length = 32768 - off ∧ off' = 0 else pad = [] ∧ off' = off

/-- `Fragments off first data bytes off'`: from page offset `off` on, `bytes` hold `data` as one or
more blocks none of which crosses a page, and the last one ends at page offset `off'`. -/
inductive Fragments : Nat → Bool → Bytes → Bytes → Nat → Prop
  | last (off : Nat) (first : Bool) (data crc : Bytes) :
      off + 7 + data.length ≤ 32768 → crc.length = 4 →
      Fragments off first data (block crc (if first then 1 else 4) data) (off + 7 + data.length)
  | more (off : Nat) (first : Bool) (a b crc pad bytes : Bytes) (off1 off2 : Nat) :
      off + 7 + a.length ≤ 32768 → crc.length = 4 → PageTail (off + 7 + a.length) pad off1 →
      Fragments off1 false b bytes off2 →
      Fragments off first (a ++ b) (block crc (if first then 2 else 3) a ++ pad ++ bytes) off2

/-- `LogFile off records bytes`: from page offset `off` on, `bytes` hold the records. -/
inductive LogFile : Nat → List Bytes → Bytes → Prop
  | done (off : Nat) : LogFile off [] []
  | record (off off1 off2 : Nat) (pad r bytes rest : Bytes) (rs : List Bytes) :
      PageTail off pad off1 → Fragments off1 true r bytes off2 → LogFile off2 rs rest →
      LogFile off (r :: rs) (pad ++ bytes ++ rest)

/-- Parsing the records one after the other until one fails. -/
def deliver {β : Type} (parse : Bytes → Res β) : List Bytes → List β × Option Err
  | [] => ([], none)
  | r :: rs =>
    match parse r with
    | .error e => ([], some e)
    | .ok b => (b :: (deliver parse rs).1, (deliver parse rs).2)

/-! ## Proofs -/

theorem block_length (crc : Bytes) (t : Nat) (data : Bytes) (h : crc.length = 4) :
    (block crc t data).length = 7 + data.length := by
  simp [block, h]
  omega

theorem readBlock_at (pre crc post data : Bytes) (t : Nat) (hc : crc.length = 4)
    (hd : data.length < 65536) (ht : t < 256) :
    structAt logBlockMap (pre ++ block crc t data ++ post) (pre.length : Nat) =
      .ok (⟨t, data⟩, ((7 + data.length : Nat) : Int)) := by
  have h4 : (block crc t data).take 7 = crc ++ leBytes 2 data.length ++ [UInt8.ofNat t] := by
    have e : (crc ++ leBytes 2 data.length ++ [UInt8.ofNat t]).length = 7 := by simp [hc]
    rw [block, ← e, List.take_left]
  have hs : slice ((block crc t data).take 7) 4 6 = leBytes 2 data.length := by
    rw [h4, slice]
    have e : (crc ++ leBytes 2 data.length).length = 6 := by simp [hc]
    rw [← e, List.take_left, ← hc, List.drop_left]
  have hx : leNat (slice ((block crc t data).take 7) 4 6) = data.length := by
    rw [hs, leNat_leBytes]
    omega
  have hlen := block_length crc t data hc
  have := structAt_sized_append 7 (fun h => leNat (slice h 4 6))
    (fun s => (⟨leNat (slice s 6 7), s.drop 7⟩ : LogBlock)) pre (block crc t data) post (by omega)
    (by omega) (by rw [hx, hlen])
  rw [logBlockMap, this, hlen]
  have e1 : (block crc t data).drop 7 = data := by
    have e : (crc ++ leBytes 2 data.length ++ [UInt8.ofNat t]).length = 7 := by simp [hc]
    rw [block, ← e, List.drop_left]
  have e2 : leNat (slice (block crc t data) 6 7) = t := by
    have e : slice (block crc t data) 6 7 = [UInt8.ofNat t] := by
      have e6 : (crc ++ leBytes 2 data.length).length = 6 := by simp [hc]
      rw [slice, h4, ← e6, List.drop_left]
    rw [e]
    simp only [leNat, UInt8.toNat_ofNat']
    omega
  simp only [e1, e2]

/-- Where the reader continues after a block that ends at `pos`, page offset `off`. -/
def nextPos (pos : Int) (off : Nat) : Int := if 32768 - off ≤ 6 then pos + (32768 - off : Nat) else pos
/-- The page size the reader continues with. -/
def nextSize (off : Nat) : Int := if 32768 - off ≤ 6 then 32768 else (32768 - off : Nat)

/-- The record data after a block of type `t`. -/
def gather (t : Nat) (acc data : Bytes) : Bytes :=
  if t = 1 ∨ t = 2 then data else if t = 3 ∨ t = 4 then acc ++ data else acc

theorem logLoop_step {β : Type} (parse : Bytes → Res β) (pre crc post data acc : Bytes)
    (t off fuel : Nat) (hc : crc.length = 4) (ho : off + 7 + data.length ≤ 32768) (ht : t < 256) :
    logLoop parse (pre ++ block crc t data ++ post) (fuel + 1) pre.length ((32768 - off : Nat) : Int)
        acc =
      match (if t = 1 ∨ t = 4 then
          match parse (gather t acc data) with
          | .ok r => Except.ok (some r)
          | .error e => .error e
        else .ok none : Res (Option β)) with
      | .error e => some ⟨[(pre.length : Int)], [], some e⟩
      | .ok r =>
        match logLoop parse (pre ++ block crc t data ++ post) fuel
            (nextPos ((pre ++ block crc t data).length : Nat) (off + 7 + data.length))
            (nextSize (off + 7 + data.length)) (gather t acc data) with
        | none => none
        | some run => some ⟨(pre.length : Int) :: run.blocks, r.toList ++ run.records, run.error⟩ := by
  have hlen := block_length crc t data hc
  rw [logLoop, if_pos (by simp only [List.length_append, hlen]; omega),
    readBlock_at pre crc post data t hc (by omega) ht]
  simp only
  have e1 : (pre.length : Int) + ((7 + data.length : Nat) : Int) =
      ((pre ++ block crc t data).length : Nat) := by
    simp only [List.length_append, hlen]
    omega
  have e2 : ((32768 - off : Nat) : Int) - ((7 + data.length : Nat) : Int) =
      ((32768 - (off + 7 + data.length) : Nat) : Int) := by omega
  rw [e1, e2]
  have e3 : (if decide (((32768 - (off + 7 + data.length) : Nat) : Int) ≤ 6) = true then
        (((pre ++ block crc t data).length : Nat) : Int) + ((32768 - (off + 7 + data.length) : Nat) : Int)
      else (((pre ++ block crc t data).length : Nat) : Int)) =
      nextPos ((pre ++ block crc t data).length : Nat) (off + 7 + data.length) := by
    unfold nextPos
    by_cases hx : 32768 - (off + 7 + data.length) ≤ 6
    · rw [if_pos hx, if_pos (by simp; omega)]
    · rw [if_neg hx, if_neg (by simp; omega)]
  have e4 : (if decide (((32768 - (off + 7 + data.length) : Nat) : Int) ≤ 6) = true then (32768 : Int)
      else ((32768 - (off + 7 + data.length) : Nat) : Int)) = nextSize (off + 7 + data.length) := by
    unfold nextSize
    by_cases hx : 32768 - (off + 7 + data.length) ≤ 6
    · rw [if_pos hx, if_pos (by simp; omega)]
    · rw [if_neg hx, if_neg (by simp; omega)]
  rw [e3, e4]
  rfl

theorem pageTail_next (off : Nat) (pad : Bytes) (off' : Nat) (h : PageTail off pad off')
    (pre : Bytes) (ho : off ≤ 32768) :
    nextPos (pre.length : Nat) off = ((pre ++ pad).length : Nat) ∧
      nextSize off = ((32768 - off' : Nat) : Int) ∧ off' + 7 ≤ 32768 := by
  unfold PageTail at h
  unfold nextPos nextSize
  by_cases hx : 32768 - off < 7
  · rw [if_pos hx] at h
    obtain ⟨h1, h2⟩ := h
    subst h2
    rw [if_pos (by omega), if_pos (by omega)]
    simp only [List.length_append, h1]
    omega
  · rw [if_neg hx] at h
    obtain ⟨h1, h2⟩ := h
    subst h1 h2
    rw [if_neg (by omega), if_neg (by omega)]
    simp
    omega

theorem fragments_run {β : Type} (parse : Bytes → Res β) (off : Nat) (first : Bool)
    (data bytes : Bytes) (off' : Nat) (h : Fragments off first data bytes off') :
    ∀ (pre post acc : Bytes), off ≤ 32768 →
      ∃ k, off' ≤ 32768 ∧
        (∀ e, parse ((if first then [] else acc) ++ data) = .error e →
          ∀ fuel, ∃ blocks, logLoop parse (pre ++ bytes ++ post) (fuel + k) pre.length
            ((32768 - off : Nat) : Int) acc = some ⟨blocks, [], some e⟩) ∧
        (∀ b, parse ((if first then [] else acc) ++ data) = .ok b →
          ∀ fuel run, logLoop parse (pre ++ bytes ++ post) fuel
              (nextPos ((pre ++ bytes).length : Nat) off') (nextSize off')
              ((if first then [] else acc) ++ data) = some run →
            ∃ blocks, logLoop parse (pre ++ bytes ++ post) (fuel + k) pre.length
              ((32768 - off : Nat) : Int) acc =
                some ⟨blocks ++ run.blocks, b :: run.records, run.error⟩) := by
  induction h with
  | last off first data crc ho hc =>
    intro pre post acc hoff
    refine ⟨1, ho, ?_, ?_⟩
    · intro e he fuel
      rw [logLoop_step parse pre crc post data acc _ off fuel hc ho (by split <;> omega)]
      cases first with
      | true =>
        simp only [if_true, List.nil_append] at he ⊢
        simp [gather, he]
      | false =>
        simp only [if_false, Bool.false_eq_true] at he ⊢
        simp [gather, he]
    · intro b hb fuel run hrun
      rw [logLoop_step parse pre crc post data acc _ off fuel hc ho (by split <;> omega)]
      refine ⟨[(pre.length : Int)], ?_⟩
      cases first with
      | true =>
        simp only [if_true, List.nil_append] at hb hrun ⊢
        simp only [gather, true_or, if_true, hb, hrun]
        rfl
      | false =>
        simp only [if_false, Bool.false_eq_true] at hb hrun ⊢
        have g : gather 4 acc data = acc ++ data := by simp [gather]
        simp only [g, or_true, if_true, hb, hrun]
        rfl
  | more off first a b crc pad bytes off1 off2 ho hc hp hf ih =>
    intro pre post acc hoff
    have hlen := fun t => block_length crc t a hc
    generalize ht : (if first then 2 else 3) = t
    have ht' : t < 256 := by subst ht; split <;> omega
    have ht14 : ¬ (t = 1 ∨ t = 4) := by subst ht; split <;> omega
    obtain ⟨n1, n2, n3⟩ := pageTail_next _ _ _ hp (pre ++ block crc t a) ho
    have hg : gather t acc a = (if first then [] else acc) ++ a := by
      subst ht
      cases first <;> simp [gather]
    obtain ⟨k, h1, h2, h3⟩ := ih (pre ++ block crc t a ++ pad) post ((if first then [] else acc) ++ a)
      (by omega)
    have assoc : pre ++ (block crc t a ++ pad ++ bytes) ++ post =
        pre ++ block crc t a ++ (pad ++ bytes ++ post) := by simp
    have assoc2 : pre ++ block crc t a ++ (pad ++ bytes ++ post) =
        pre ++ block crc t a ++ pad ++ bytes ++ post := by simp
    have assoc3 : pre ++ (block crc t a ++ pad ++ bytes) = pre ++ block crc t a ++ pad ++ bytes := by
      simp
    have assoc4 : (if first then [] else acc) ++ (a ++ b) =
        (if first then [] else acc) ++ a ++ b := by simp
    refine ⟨k + 1, h1, ?_, ?_⟩
    · intro e he fuel
      rw [assoc, ← Nat.add_assoc, logLoop_step parse pre crc _ a acc t off (fuel + k) hc ho ht',
        if_neg ht14, n1, n2, hg, assoc2]
      simp only
      obtain ⟨blocks, hb⟩ := h2 e (by
        rw [assoc4] at he
        simpa only [Bool.false_eq_true, if_false] using he) fuel
      rw [hb]
      exact ⟨_, rfl⟩
    · intro r hr fuel run hrun
      rw [assoc, ← Nat.add_assoc, logLoop_step parse pre crc _ a acc t off (fuel + k) hc ho ht',
        if_neg ht14, n1, n2, hg, assoc2]
      simp only
      rw [assoc, assoc2, assoc3, assoc4] at hrun
      obtain ⟨blocks, hb⟩ := h3 r (by
        rw [assoc4] at hr
        simpa only [Bool.false_eq_true, if_false] using hr) fuel run (by
        simpa only [Bool.false_eq_true, if_false] using hrun)
      rw [hb]
      exact ⟨_ :: blocks, rfl⟩

theorem logFile_run {β : Type} (parse : Bytes → Res β) (off : Nat) (records : List Bytes)
    (bytes : Bytes) (h : LogFile off records bytes) :
    ∀ (pre acc : Bytes), off ≤ 32768 →
      ∃ fuel run, logLoop parse (pre ++ bytes) fuel (nextPos (pre.length : Nat) off) (nextSize off)
        acc = some run ∧ (run.records, run.error) = deliver parse records := by
  induction h with
  | done off =>
    intro pre acc ho
    refine ⟨1, ⟨[], [], none⟩, ?_, rfl⟩
    rw [logLoop, if_neg]
    unfold nextPos
    split <;> simp <;> omega
  | record off off1 off2 pad r bytes rest rs hp hf hl ih =>
    intro pre acc ho
    obtain ⟨n1, n2, n3⟩ := pageTail_next _ _ _ hp pre ho
    have assoc : pre ++ (pad ++ bytes ++ rest) = pre ++ pad ++ bytes ++ rest := by simp
    rw [n1, n2, assoc]
    obtain ⟨k, h1, h2, h3⟩ := fragments_run parse _ _ _ _ _ hf (pre ++ pad) rest acc (by omega)
    simp only [if_true, List.nil_append] at h2 h3
    cases hr : parse r with
    | error e =>
      obtain ⟨blocks, hb⟩ := h2 e hr 0
      exact ⟨_, _, hb, by simp [deliver, hr]⟩
    | ok b =>
      obtain ⟨fuel, run, g1, g2⟩ := ih (pre ++ pad ++ bytes) r h1
      obtain ⟨blocks, hb⟩ := h3 b hr fuel run g1
      refine ⟨_, _, hb, ?_⟩
      simp only [deliver, hr, ← g2]

/-- More fuel does not change the outcome. -/
theorem logLoop_mono {β : Type} (parse : Bytes → Res β) (data : Bytes) (fuel : Nat) :
    ∀ (fo ps : Int) (acc : Bytes) (run : LogRun β), logLoop parse data fuel fo ps acc = some run →
      ∀ k, logLoop parse data (fuel + k) fo ps acc = some run := by
  induction fuel with
  | zero => intro fo ps acc run h; simp [logLoop] at h
  | succ fuel ih =>
    intro fo ps acc run h k
    rw [show fuel + 1 + k = fuel + k + 1 by omega]
    rw [logLoop] at h ⊢
    split
    · rename_i hlt
      rw [if_pos hlt] at h
      split
      · rename_i e he
        rw [he] at h
        exact h
      · rename_i blk n he
        rw [he] at h
        dsimp only at h ⊢
        split at h
        · exact h
        · split at h
          · simp at h
          · rename_i run' hrun'
            rw [ih _ _ _ _ hrun' k]
            exact h
    · rename_i hlt
      rw [if_neg hlt] at h
      exact h

/-- The position the reader keeps: it never stands in the last six bytes of a page. -/
def LogInv (fo ps : Int) : Prop := 0 ≤ fo ∧ 7 ≤ ps ∧ ps ≤ 32768 ∧ (fo + ps) % 32768 = 0

theorem logBlock_size (data : Bytes) (fo : Int) (h : 0 ≤ fo) (blk : LogBlock) (n : Int)
    (he : structAt logBlockMap data fo = .ok (blk, n)) : 7 ≤ n := by
  obtain ⟨o, rfl⟩ := Int.eq_ofNat_of_zero_le h
  rw [logBlockMap, structAt_sized _ _ _ _ _ (by omega)] at he
  split at he
  · simp at he
  · split at he
    · simp at he
    · simp only [Except.ok.injEq, Prod.mk.injEq] at he
      omega

theorem logInv_next (fo ps n : Int) (h : LogInv fo ps) (hn : 7 ≤ n) :
    LogInv (if decide (ps - n ≤ 6) = true then fo + n + (ps - n) else fo + n)
      (if decide (ps - n ≤ 6) = true then 32768 else ps - n) ∧
      fo + 7 ≤ (if decide (ps - n ≤ 6) = true then fo + n + (ps - n) else fo + n) := by
  obtain ⟨h1, h2, h3, h4⟩ := h
  unfold LogInv
  by_cases hx : ps - n ≤ 6
  · simp only [hx, decide_true, if_true]
    omega
  · simp only [hx, decide_false, Bool.false_eq_true, if_false]
    omega

theorem logLoop_terminates {β : Type} (parse : Bytes → Res β) (data : Bytes) (fuel : Nat) :
    ∀ (fo ps : Int) (acc : Bytes), LogInv fo ps → (data.length : Int) ≤ fo + 7 * fuel →
      logLoop parse data (fuel + 1) fo ps acc ≠ none := by
  induction fuel with
  | zero =>
    intro fo ps acc hi hf
    rw [logLoop, if_neg (by omega)]
    simp
  | succ fuel ih =>
    intro fo ps acc hi hf
    rw [logLoop]
    split
    · split
      · simp
      · rename_i blk n he
        have hn := logBlock_size data fo hi.1 blk n he
        obtain ⟨i1, i2⟩ := logInv_next fo ps n hi hn
        dsimp only
        split
        · simp
        · split
          · rename_i hrun
            exact absurd hrun (ih _ _ _ i1 (by omega))
          · simp
    · simp

theorem logLoop_blocks {β : Type} (parse : Bytes → Res β) (data : Bytes) (fuel : Nat) :
    ∀ (fo ps : Int) (acc : Bytes) (run : LogRun β), LogInv fo ps →
      logLoop parse data fuel fo ps acc = some run →
      (∀ o ∈ run.blocks, fo ≤ o ∧ o < data.length ∧ o % 32768 ≤ 32768 - 7) ∧
      run.blocks.Pairwise (fun a b => a + 7 ≤ b) ∧
      (run.blocks ≠ [] → fo + 7 * run.blocks.length < (data.length : Int) + 7) := by
  induction fuel with
  | zero => intro fo ps acc run _ h; simp [logLoop] at h
  | succ fuel ih =>
    intro fo ps acc run hi h
    have hfo : fo % 32768 ≤ 32768 - 7 := by
      obtain ⟨h1, h2, h3, h4⟩ := hi
      omega
    rw [logLoop] at h
    split at h
    · rename_i hlt
      have single : ∀ e, (some ⟨[fo], [], some e⟩ : Option (LogRun β)) = some run →
          (∀ o ∈ run.blocks, fo ≤ o ∧ o < data.length ∧ o % 32768 ≤ 32768 - 7) ∧
          run.blocks.Pairwise (fun a b => a + 7 ≤ b) ∧
          (run.blocks ≠ [] → fo + 7 * run.blocks.length < (data.length : Int) + 7) := by
        intro e he
        have := Option.some.inj he
        subst this
        refine ⟨?_, by simp, by simp; omega⟩
        intro o ho
        simp only [List.mem_singleton] at ho
        subst ho
        exact ⟨by omega, hlt, hfo⟩
      split at h
      · exact single _ h
      · rename_i blk n he
        have hn := logBlock_size data fo hi.1 blk n he
        obtain ⟨i1, i2⟩ := logInv_next fo ps n hi hn
        dsimp only at h
        split at h
        · exact single _ h
        · split at h
          · simp at h
          · rename_i run' hrun'
            have := Option.some.inj h
            subst this
            obtain ⟨b1, b2, b3⟩ := ih _ _ _ _ i1 hrun'
            refine ⟨?_, ?_, ?_⟩
            · intro o ho
              rcases List.mem_cons.mp ho with ho | ho
              · subst ho
                exact ⟨by omega, hlt, hfo⟩
              · have := b1 o ho
                omega
            · refine List.pairwise_cons.mpr ⟨?_, b2⟩
              intro o ho
              have := b1 o ho
              omega
            · intro _
              simp only [List.length_cons]
              by_cases hb : run'.blocks = []
              · rw [hb]
                simp
                omega
              · have := b3 hb
                omega
    · have := Option.some.inj h
      subst this
      simp

/-- C16.  Reading a log ends, for every contents of the file and every record parser. -/
theorem C16_terminates {β : Type} (parse : Bytes → Res β) (data : Bytes) :
    readLog parse data ≠ none := by
  apply logLoop_terminates
  · unfold LogInv
    omega
  · omega

/-- C16.  The blocks read start at least seven bytes apart, so there is at most one per seven bytes,
and none starts in the last six bytes of a page. -/
theorem C16_blocks {β : Type} (parse : Bytes → Res β) (data : Bytes) (run : LogRun β)
    (h : readLog parse data = some run) :
    (∀ o ∈ run.blocks, 0 ≤ o ∧ o < data.length ∧ o % 32768 ≤ 32768 - 7) ∧
      run.blocks.Pairwise (fun a b => a + 7 ≤ b) ∧
      7 * run.blocks.length ≤ data.length + 6 := by
  obtain ⟨h1, h2, h3⟩ := logLoop_blocks parse data _ 0 32768 [] run (by unfold LogInv; omega) h
  refine ⟨h1, h2, ?_⟩
  by_cases hb : run.blocks = []
  · simp [hb]
  · have := h3 hb
    omega

/-- The blocks are where they are said to be: a full record at offset 0 and one at offset 8. -/
example : readLog (fun b => .ok b) (block [1, 2, 3, 4] 1 [9] ++ block [0, 0, 0, 0] 1 []) =
    some ⟨[0, 8], [[9], []], none⟩ := by decide +kernel

/-- C15.  For every layout of records in a log file, reading the file hands exactly these records to
the record parser, in order, until one fails. -/
theorem C15_records_survive {β : Type} (parse : Bytes → Res β) (records : List Bytes)
    (data : Bytes) (h : LogFile 0 records data) :
    ∃ run, readLog parse data = some run ∧ (run.records, run.error) = deliver parse records := by
  obtain ⟨fuel, run, h1, h2⟩ := logFile_run parse 0 records data h [] [] (by omega)
  have e1 : nextPos (([] : Bytes).length : Nat) 0 = 0 := by simp [nextPos]
  have e2 : nextSize 0 = 32768 := by simp [nextSize]
  rw [e1, e2, List.nil_append] at h1
  cases hr : readLog parse data with
  | none => exact absurd hr (C16_terminates parse data)
  | some run' =>
    have m1 := logLoop_mono parse data _ _ _ _ _ h1 (data.length / 7 + 2)
    have m2 := logLoop_mono parse data _ _ _ _ _ hr fuel
    rw [Nat.add_comm] at m1
    rw [m1] at m2
    have := Option.some.inj m2
    subst this
    exact ⟨run, rfl, h2⟩

/-! ## The writer of LevelDB is such a layout -/

/-- Specification: `log::Writer::AddRecord` of LevelDB for a record that starts at page offset `off`
with at least seven bytes left in the page.  Returns the bytes and the page offset after them. -/
def writeRecord (crc : Nat → Bytes → Bytes) (off : Nat) (first : Bool) (data : Bytes) : Bytes × Nat :=
  let avail := 32768 - off - 7
  if h : data.length ≤ avail then
    let t := if first then 1 else 4
    (block (crc t data) t data, off + 7 + data.length)
  else
    let t := if first then 2 else 3
    let a := data.take avail
    let r := writeRecord crc 0 false (data.drop avail)
    (block (crc t a) t a ++ r.1, r.2)
termination_by data.length + (if off = 0 then 0 else 1)
decreasing_by
  simp only [List.length_drop]
  by_cases h0 : off = 0
  · simp only [h0, if_true]
    omega
  · simp only [h0, if_true, if_false]
    omega

/-- Specification: the LevelDB log writer, page offset `off`. -/
def writeLog (crc : Nat → Bytes → Bytes) (off : Nat) : List Bytes → Bytes
  | [] => []
  | r :: rs =>
    let pad := if 32768 - off < 7 then List.replicate (32768 - off) 0 else []
    let off := if 32768 - off < 7 then 0 else off
    let w := writeRecord crc off true r
    pad ++ w.1 ++ writeLog crc w.2 rs

theorem writeRecord_fragments (crc : Nat → Bytes → Bytes) (hc : ∀ t d, (crc t d).length = 4)
    (off : Nat) (first : Bool) (data : Bytes) (ho : off + 7 ≤ 32768) :
    Fragments off first data (writeRecord crc off first data).1 (writeRecord crc off first data).2 := by
  fun_induction writeRecord crc off first data with
  | case1 off first data avail h t => exact .last off first data _ (by omega) (hc _ _)
  | case2 off first data avail h t a r ih =>
    have hal : a.length = avail := by
      simp only [a, List.length_take]
      omega
    have hd : a ++ data.drop avail = data := List.take_append_drop avail data
    have := Fragments.more off first a (data.drop avail) (crc t a) [] r.1 0 r.2 (by omega) (hc _ _)
      (by
        unfold PageTail
        rw [if_pos (by omega)]
        simp only [List.length_nil, and_true]
        omega)
      (ih (by omega))
    rw [hd, List.append_nil] at this
    exact this

theorem fragments_end {off : Nat} {first : Bool} {data bytes : Bytes} {off' : Nat}
    (h : Fragments off first data bytes off') : off' ≤ 32768 := by
  induction h with
  | last => assumption
  | more _ _ _ _ _ _ _ _ _ _ _ _ _ ih => exact ih

/-- C15.  What the LevelDB log writer writes is such a layout, whatever the records and checksums. -/
theorem C15_writer_layout (crc : Nat → Bytes → Bytes) (hc : ∀ t d, (crc t d).length = 4)
    (records : List Bytes) : LogFile 0 records (writeLog crc 0 records) := by
  suffices h : ∀ off, off ≤ 32768 → LogFile off records (writeLog crc off records) from
    h 0 (by omega)
  induction records with
  | nil => intro off _; exact .done off
  | cons r rs ih =>
    intro off ho
    rw [writeLog]
    by_cases hx : 32768 - off < 7
    · simp only [if_pos hx]
      have hf := writeRecord_fragments crc hc 0 true r (by omega)
      exact .record off 0 _ _ r _ _ rs (by unfold PageTail; rw [if_pos hx]; simp) hf
        (ih _ (fragments_end hf))
    · simp only [if_neg hx]
      have hf := writeRecord_fragments crc hc off true r (by omega)
      exact .record off off _ _ r _ _ rs (by unfold PageTail; rw [if_neg hx]; simp) hf
        (ih _ (fragments_end hf))

/-- C15.  Reading what the LevelDB log writer wrote returns the records. -/
theorem C15_write_then_read (crc : Nat → Bytes → Bytes) (hc : ∀ t d, (crc t d).length = 4)
    (records : List Bytes) :
    (readLog (fun r => .ok r) (writeLog crc 0 records)).map (fun run => (run.records, run.error)) =
      some (records, none) := by
  obtain ⟨run, h1, h2⟩ := C15_records_survive (fun r => .ok r) records _ (C15_writer_layout crc hc records)
  rw [h1, Option.map_some, h2]
  have : ∀ rs : List Bytes, deliver (fun r => .ok r) rs = (rs, none) := by
    intro rs
    induction rs with
    | nil => rfl
    | cons r rs ih => simp [deliver, ih]
  rw [this]

end Dtf.LevelDB
