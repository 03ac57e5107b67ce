import Verif.Spotlight.VarInt

/-!
# Spotlight pages and streams maps (C58, C61, C62)
-/

namespace Dtf.Spotlight
open Py DataFormat

/-! ## LZ4 pages -/

/-- A block of an LZ4 page: data stored as is, or compressed data with what it stands for. -/
inductive Block
  | raw (d : Bytes)
  | packed (c d : Bytes)

def Block.content : Block → Bytes
  | .raw d => d
  | .packed _ d => d

def Block.bytes : Block → Bytes
  | .raw d => markerRaw ++ leBytes 4 d.length ++ d
  | .packed c d => markerCompressed ++ leBytes 4 d.length ++ leBytes 4 c.length ++ c

/-- The sizes fit their fields, and LZ4 turns the compressed data of every block into its contents,
given the contents of the block before it. -/
def BlocksOk (lz4 : Bytes → Nat → Option Bytes → Res Bytes) : Option Bytes → List Block → Prop
  | _, [] => True
  | prev, b :: bs =>
    b.content.length < 2 ^ 32 ∧
    (match b with
      | .raw _ => True
      | .packed c d => c.length < 2 ^ 32 ∧ lz4 c d.length prev = .ok d) ∧
    BlocksOk lz4 (some b.content) bs

theorem lz4Block_raw (lz4 : Bytes → Nat → Option Bytes → Res Bytes) (d rest : Bytes)
    (prev : Option Bytes) (hd : d.length < 2 ^ 32) (hr : 4 ≤ rest.length) :
    lz4Block lz4 ((Block.raw d).bytes ++ rest) prev = .ok (d, (Block.raw d).bytes.length) := by
  have hm : markerRaw.length = 4 := rfl
  have e0 : (Block.raw d).bytes ++ rest = markerRaw ++ (leBytes 4 d.length ++ (d ++ rest)) := by
    simp [Block.bytes]
  have hlen : (Block.raw d).bytes.length = 8 + d.length := by
    simp [Block.bytes, hm]; omega
  have hs : leNat (slice (markerRaw ++ (leBytes 4 d.length ++ (d ++ rest))) 4 8) = d.length := by
    rw [slice_eq_take_drop, List.drop_left' hm, List.take_left' (by simp), leNat_leBytes,
      Nat.mod_eq_of_lt (by omega)]
  unfold lz4Block
  rw [hlen, e0, if_neg (by simp [hm]; omega)]
  dsimp only
  rw [List.take_left' hm, hs, if_neg (by decide), if_pos rfl]
  congr 2
  rw [slice_eq_take_drop, ← List.append_assoc, List.drop_left' (by simp [hm])]
  rw [show 8 + d.length - 8 = d.length by omega, List.take_left]

theorem lz4Block_packed (lz4 : Bytes → Nat → Option Bytes → Res Bytes) (c d rest : Bytes)
    (prev : Option Bytes) (hd : d.length < 2 ^ 32) (hc : c.length < 2 ^ 32)
    (hz : lz4 c d.length prev = .ok d) :
    lz4Block lz4 ((Block.packed c d).bytes ++ rest) prev =
      .ok (d, (Block.packed c d).bytes.length) := by
  have hm : markerCompressed.length = 4 := rfl
  have e0 : (Block.packed c d).bytes ++ rest =
      markerCompressed ++ (leBytes 4 d.length ++ (leBytes 4 c.length ++ (c ++ rest))) := by
    simp [Block.bytes]
  have hlen : (Block.packed c d).bytes.length = 12 + c.length := by
    simp [Block.bytes, hm]; omega
  have hs : leNat (slice (markerCompressed ++ (leBytes 4 d.length ++ (leBytes 4 c.length ++
      (c ++ rest)))) 4 8) = d.length := by
    rw [slice_eq_take_drop, List.drop_left' hm, List.take_left' (by simp), leNat_leBytes,
      Nat.mod_eq_of_lt (by omega)]
  have hs2 : leNat (slice (markerCompressed ++ (leBytes 4 d.length ++ (leBytes 4 c.length ++
      (c ++ rest)))) 8 12) = c.length := by
    rw [slice_eq_take_drop, ← List.append_assoc, List.drop_left' (by simp [hm]),
      List.take_left' (by simp), leNat_leBytes, Nat.mod_eq_of_lt (by omega)]
  have hs3 : slice (markerCompressed ++ (leBytes 4 d.length ++ (leBytes 4 c.length ++
      (c ++ rest)))) 12 (12 + c.length) = c := by
    rw [slice_eq_take_drop, ← List.append_assoc, ← List.append_assoc,
      List.drop_left' (by simp [hm]), show 12 + c.length - 12 = c.length by omega, List.take_left]
  unfold lz4Block
  rw [hlen, e0, if_neg (by simp [hm]; omega)]
  dsimp only
  rw [List.take_left' hm, hs, hs2, hs3, if_pos rfl, hz]

theorem lz4Loop_blocks (lz4 : Bytes → Nat → Option Bytes → Res Bytes) (bs : List Block)
    (marker prev : Option Bytes) (acc rest : Bytes) (fuel : Nat) (h : BlocksOk lz4 prev bs)
    (hf : bs.length < fuel) :
    lz4Loop lz4 fuel (bs.flatMap Block.bytes ++ (markerEnd ++ rest)) marker prev acc =
      some (.ok (acc ++ bs.flatMap Block.content)) := by
  induction bs generalizing marker prev acc fuel with
  | nil =>
    cases fuel with
    | zero => omega
    | succ fuel =>
      rw [lz4Loop, if_neg (by simp [markerEnd])]
      simp [markerEnd]
  | cons b bs ih =>
    cases fuel with
    | zero => omega
    | succ fuel =>
      obtain ⟨h1, h2, h3⟩ := h
      have ih' := ih (some ((b.bytes ++ (bs.flatMap Block.bytes ++ (markerEnd ++ rest))).take 4))
        (some b.content) (acc ++ b.content) fuel h3 (by simp at hf; omega)
      rw [List.flatMap_cons, List.append_assoc, lz4Loop]
      have hne : b.bytes ++ (bs.flatMap Block.bytes ++ (markerEnd ++ rest)) ≠ [] := by
        cases b <;> simp [Block.bytes, markerRaw, markerCompressed]
      have hnm : (b.bytes ++ (bs.flatMap Block.bytes ++ (markerEnd ++ rest))).take 4 ≠ markerEnd := by
        cases b <;> simp [Block.bytes, markerRaw, markerCompressed, markerEnd]
      rw [if_neg hne, if_neg hnm]
      have hb : lz4Block lz4 (b.bytes ++ (bs.flatMap Block.bytes ++ (markerEnd ++ rest))) prev =
          .ok (b.content, b.bytes.length) := by
        cases b with
        | raw d =>
          exact lz4Block_raw lz4 d _ prev h1 (by simp [markerEnd]; omega)
        | packed c d => exact lz4Block_packed lz4 c d _ prev h1 h2.1 h2.2
      rw [hb]
      dsimp only
      rw [List.drop_left, ih']
      simp

/-- **C58**: the data of an LZ4 page is the concatenation of the contents of its blocks, in order,
compressed or not, and what follows the end marker does not matter. -/
theorem C58_page_contents (lz4 : Bytes → Nat → Option Bytes → Res Bytes) (bs : List Block)
    (rest : Bytes) (fuel : Nat) (h : BlocksOk lz4 none bs) (hf : bs.length < fuel) :
    lz4Page lz4 fuel (bs.flatMap Block.bytes ++ (markerEnd ++ rest)) =
      some (.ok (bs.flatMap Block.content)) := by
  unfold lz4Page
  rw [lz4Loop_blocks lz4 bs none none [] rest fuel h hf]
  simp

theorem lz4Block_progress (lz4 : Bytes → Nat → Option Bytes → Res Bytes) (data out : Bytes)
    (prev : Option Bytes) (n : Nat) (h : lz4Block lz4 data prev = .ok (out, n)) : 8 ≤ n := by
  unfold lz4Block at h
  split at h
  · simp at h
  · dsimp only at h
    split at h
    · split at h
      · simp at h
      · simp only [Except.ok.injEq, Prod.mk.injEq] at h; omega
    · split at h
      · simp only [Except.ok.injEq, Prod.mk.injEq] at h; omega
      · simp at h

theorem lz4Loop_terminates (lz4 : Bytes → Nat → Option Bytes → Res Bytes) (fuel : Nat)
    (data : Bytes) (marker prev : Option Bytes) (acc : Bytes) (h : data.length < fuel) :
    lz4Loop lz4 fuel data marker prev acc ≠ none := by
  induction fuel generalizing data marker prev acc with
  | zero => omega
  | succ fuel ih =>
    rw [lz4Loop]
    split
    · split
      · simp
      · split <;> simp
    · rename_i hne
      split
      · simp
      · split
        · simp
        · rename_i out n hb
          have := lz4Block_progress lz4 data out prev n hb
          have := List.length_pos_iff.mpr hne
          exact ih _ _ _ _ (by simp; omega)

/-- **C58** (termination): decompressing a page ends for all data. -/
theorem C58_terminates (lz4 : Bytes → Nat → Option Bytes → Res Bytes) (data : Bytes) :
    lz4Page lz4 (data.length + 1) data ≠ none :=
  lz4Loop_terminates lz4 _ _ _ _ _ (by omega)

theorem lz4Loop_end (lz4 : Bytes → Nat → Option Bytes → Res Bytes) (fuel : Nat)
    (data : Bytes) (marker prev : Option Bytes) (acc out : Bytes) (hm : marker ≠ some markerEnd)
    (h : lz4Loop lz4 fuel data marker prev acc = some (.ok out)) :
    ∃ a b, data = a ++ (markerEnd ++ b) := by
  induction fuel generalizing data marker prev acc with
  | zero => simp [lz4Loop] at h
  | succ fuel ih =>
    rw [lz4Loop] at h
    split at h
    · split at h
      · simp at h
      · simp [hm] at h
    · split at h
      · rename_i he
        exact ⟨[], data.drop 4, by rw [← he]; simp⟩
      · rename_i he
        split at h
        · simp at h
        · rename_i o n hb
          obtain ⟨a, b, hab⟩ := ih _ _ _ _ (by simpa using he) h
          exact ⟨data.take n ++ a, b, by rw [List.append_assoc, ← hab, List.take_append_drop]⟩

/-- **C58** (end marker): a page without an end marker is never accepted. -/
theorem C58_needs_end_marker (lz4 : Bytes → Nat → Option Bytes → Res Bytes) (data out : Bytes)
    (fuel : Nat) (h : lz4Page lz4 fuel data = some (.ok out)) :
    ∃ a b, data = a ++ (markerEnd ++ b) :=
  lz4Loop_end lz4 fuel data none none [] out (by simp) h

/-- Two blocks, the second one compressed with the first one as dictionary. -/
example : BlocksOk (fun c n p => if c = [1] ∧ n = 2 ∧ p = some [7, 8, 9] then .ok [7, 8] else
    .error .libraryError) none [.raw [7, 8, 9], .packed [1] [7, 8]] := by
  simp [BlocksOk, Block.content]

/-! ## Streams maps -/

/-- The offsets of values stored one after the other. -/
def offsetsOf : Nat → List Bytes → List Nat
  | _, [] => []
  | start, v :: vs => start :: offsetsOf (start + v.length) vs

/-- The full claim of C61: the values of a streams map are read back. -/
def C61_streams_claim : Prop :=
  ∀ (pre : Bytes) (values : List Bytes) (post : Bytes),
    streamValues (pre ++ values.flatten ++ post) (pre ++ values.flatten).length
      (streamRanges (pre ++ values.flatten).length (offsetsOf pre.length values)) = values

/-- The claim is false: when the last value is at offset 0 it is lost. -/
theorem C61_value_at_offset_0_lost : ¬ C61_streams_claim := by
  intro h
  have := h [] [[1, 2, 3]] []
  exact absurd this (by decide)

theorem sliceInt_nat {α : Type} (l : List α) (a b : Nat) :
    sliceInt l (a : Int) (b : Int) = slice l a b := by
  unfold sliceInt sliceIndex slice
  have h1 : ∀ n : Nat, ¬ ((n : Int) < 0) := by intro n; omega
  simp only [h1, if_false, Int.toNat_natCast]
  rcases Nat.le_total a l.length with ha | ha
  · rcases Nat.le_total b l.length with hb | hb
    · simp [Nat.min_eq_left ha, Nat.min_eq_left hb]
    · simp [Nat.min_eq_left ha, Nat.min_eq_right hb, List.take_of_length_le hb]
  · have e1 : (l.take b).drop a = [] := List.drop_eq_nil_of_le (by simp; omega)
    rw [e1]
    apply List.drop_eq_nil_of_le
    simp
    omega

/-- The last offset. -/
def lastOffset : Nat → List Bytes → Nat
  | start, [] => start
  | start, v :: vs => lastOffset (start + v.length) vs

theorem rangesLoop_offsets (start : Nat) (v : Bytes) (vs : List Bytes) :
    rangesLoop (offsetsOf (start + v.length) vs) start =
      ((List.zip (offsetsOf start ((v :: vs).dropLast)) ((v :: vs).dropLast)).map
          (fun p => ((p.1 : Int), (p.2.length : Int))),
        lastOffset start ((v :: vs).dropLast)) := by
  induction vs generalizing start v with
  | nil => simp [offsetsOf, rangesLoop, lastOffset]
  | cons w ws ih =>
    rw [offsetsOf, rangesLoop, ih]
    simp [List.dropLast, offsetsOf, lastOffset]

theorem slices_of_offsets (pre : Bytes) (vs : List Bytes) (post : Bytes) :
    ((List.zip (offsetsOf pre.length vs) vs).map
        (fun p => ((p.1 : Int), (p.2.length : Int)))).map
      (fun r => sliceInt (pre ++ vs.flatten ++ post) r.1 (r.1 + r.2)) = vs := by
  induction vs generalizing pre with
  | nil => simp [offsetsOf]
  | cons v vs ih =>
    have := ih (pre ++ v)
    simp only [offsetsOf, List.zip_cons_cons, List.map_cons, List.flatten_cons]
    congr 1
    · rw [show ((pre.length : Int) + (v.length : Int)) = ((pre.length + v.length : Nat) : Int) by simp,
        sliceInt_nat, slice_eq_take_drop]
      simp
    · rw [List.length_append] at this
      rw [show pre ++ (v ++ vs.flatten) ++ post = pre ++ v ++ vs.flatten ++ post by simp]
      exact this

theorem streamRanges_offsets (start size : Nat) (v : Bytes) (vs : List Bytes) :
    streamRanges size (offsetsOf start (v :: vs)) =
      (List.zip (offsetsOf start ((v :: vs).dropLast)) ((v :: vs).dropLast)).map
          (fun p => ((p.1 : Int), (p.2.length : Int))) ++
        (if lastOffset start ((v :: vs).dropLast) ≠ 0 then
          [((lastOffset start ((v :: vs).dropLast) : Int),
            (size : Int) - lastOffset start ((v :: vs).dropLast))] else []) := by
  simp only [offsetsOf, streamRanges, rangesLoop_offsets]
  split <;> simp

theorem lastOffset_eq (start : Nat) (vs : List Bytes) :
    lastOffset start vs = start + vs.flatten.length := by
  induction vs generalizing start with
  | nil => simp [lastOffset]
  | cons v vs ih => rw [lastOffset, ih]; simp; omega

theorem streamValues_eq (pre : Bytes) (init : List Bytes) (last post : Bytes) :
    streamValues (pre ++ (init ++ [last]).flatten ++ post) (pre ++ (init ++ [last]).flatten).length
      (streamRanges (pre ++ (init ++ [last]).flatten).length
        (offsetsOf pre.length (init ++ [last]))) =
      init ++ (if pre.length + init.flatten.length ≠ 0 then [last] else []) := by
  obtain ⟨v, vs, hvs⟩ : ∃ v vs, init ++ [last] = v :: vs := by
    cases init with
    | nil => exact ⟨last, [], rfl⟩
    | cons v vs => exact ⟨v, vs ++ [last], rfl⟩
  have hdl : (v :: vs).dropLast = init := by rw [← hvs]; simp
  have hfl : (v :: vs).flatten = init.flatten ++ last := by rw [← hvs]; simp
  rw [hvs, streamRanges_offsets, hdl, lastOffset_eq, streamValues]
  simp only [List.take_left, List.map_append, hfl]
  congr 1
  · have := slices_of_offsets pre init last
    rwa [List.append_assoc] at this
  · split
    · rw [List.map_cons, List.map_nil]
      congr 1
      dsimp only
      have e : ((pre.length + init.flatten.length : Nat) : Int) +
          (((pre ++ (init.flatten ++ last)).length : Nat) -
            ((pre.length + init.flatten.length : Nat) : Int)) =
          ((pre ++ (init.flatten ++ last)).length : Nat) := by omega
      rw [e, sliceInt_nat, slice, List.take_length, ← List.append_assoc, ← List.length_append,
        List.drop_left]
    · rfl

/-- **C61** (partial): all values of a streams map are read back when the last value is not at
offset 0.  When it is, that value is missing, see `C61_value_at_offset_0_lost`. -/
theorem C61_streams_partial (pre : Bytes) (init : List Bytes) (last post : Bytes)
    (h : pre.length + init.flatten.length ≠ 0) :
    streamValues (pre ++ (init ++ [last]).flatten ++ post) (pre ++ (init ++ [last]).flatten).length
      (streamRanges (pre ++ (init ++ [last]).flatten).length
        (offsetsOf pre.length (init ++ [last]))) = init ++ [last] := by
  rw [streamValues_eq, if_pos h]

/-- **C61** (the exception): the last value is lost whenever it is at offset 0. -/
theorem C61_last_lost (init : List Bytes) (last post : Bytes) (h : init.flatten = []) :
    streamValues ((init ++ [last]).flatten ++ post) (init ++ [last]).flatten.length
      (streamRanges (init ++ [last]).flatten.length (offsetsOf 0 (init ++ [last]))) = init := by
  have := streamValues_eq [] init last post
  simp only [List.nil_append, List.length_nil, h, Nat.add_zero, ne_eq, not_true_eq_false,
    if_false, List.append_nil] at this
  exact this

example : streamValues [1, 2, 3, 4, 5] 5 (streamRanges 5 (offsetsOf 0 [[1, 2], [], [3, 4, 5]])) =
    [[1, 2], [], [3, 4, 5]] := by decide

/-! ## Walks over pages -/

/-- The claim of C62 for map pages: reading them ends. -/
def C62_map_claim : Prop :=
  ∀ (data : Bytes) (off endOff : Nat), ∃ fuel, mapPagesLoop data endOff fuel off [] ≠ none

/-- A map page of size zero with no values. -/
def loopPage : Bytes :=
  [0x31, 0x6d, 0x62, 0x64, 0, 0, 0, 0, 0, 0, 0, 0, 0, 0, 0, 0, 0, 0, 0, 0]

theorem mapPagesLoop_loops (fuel : Nat) : mapPagesLoop loopPage 1 fuel 0 [] = none := by
  induction fuel with
  | zero => rfl
  | succ fuel ih =>
    rw [mapPagesLoop, if_pos (by omega)]
    have : readMapPage loopPage 0 = .ok (0, []) := by decide +kernel
    rw [this]
    exact ih

/-- The claim is false: a map page with size 0 is read over and over. -/
theorem C62_map_size_0_loops : ¬ C62_map_claim := by
  intro h
  obtain ⟨fuel, hf⟩ := h loopPage 0 1
  exact hf (mapPagesLoop_loops fuel)

/-- **C62** (partial, map pages): reading the map pages ends when no page has size 0. -/
theorem C62_map_terminates_partial (data : Bytes) (endOff off : Nat) (acc : List Nat)
    (h : ∀ o size vs, readMapPage data o = .ok (size, vs) → size ≠ 0) (fuel : Nat)
    (hf : endOff < off + fuel) (h0 : 0 < fuel) :
    mapPagesLoop data endOff fuel off acc ≠ none := by
  induction fuel generalizing off acc with
  | zero => omega
  | succ fuel ih =>
    rw [mapPagesLoop]
    split
    · split
      · simp
      · rename_i size vs hr
        have := h _ _ _ hr
        exact ih _ _ (by omega) (by omega)
    · simp

/-- The claim of C62 for property pages: reading them ends. -/
def C62_property_claim : Prop :=
  ∀ (β : Type) (values : PropertyHeader → Bytes → Res (List β)) (data : Bytes) (block : Nat),
    ∃ fuel, propertyPagesLoop (readPropertyPage values data) fuel (block * 0x1000) [] ≠ none

/-- A property page without values whose next page is the page at block 1. -/
def cyclePage : Bytes :=
  [0x32, 0x70, 0x62, 0x64, 32, 0, 0, 0, 32, 0, 0, 0, 0x41, 0, 0, 0, 0, 0, 0, 0,
   1, 0, 0, 0, 0, 0, 0, 0, 0, 0, 0, 0]

theorem readPropertyPage_cycle (values : PropertyHeader → Bytes → Res (List Nat)) :
    readPropertyPage values (List.replicate 0x1000 0 ++ cyclePage) 0x1000 = .ok ([], 1) := by
  have h0 : (List.replicate 0x1000 (0 : UInt8)).length = 0x1000 := List.length_replicate
  have h1 : structAt (fixedMap 20 parsePropertyHeader) (List.replicate 0x1000 0 ++ cyclePage)
      ((0x1000 : Nat) : Int) = .ok (parsePropertyHeader (cyclePage.take 20), 20) := by
    have := structAt_fixed_append 20 parsePropertyHeader (List.replicate 0x1000 0)
      (cyclePage.take 20) (cyclePage.drop 20) (by decide) (by decide)
    rw [h0, List.append_assoc, List.take_append_drop] at this
    exact this
  unfold readPropertyPage
  rw [h1]
  have h2 : (File.read ⟨List.replicate 0x1000 0 ++ cyclePage, 0x1000 + (20 : Int).toNat⟩
      (((parsePropertyHeader (cyclePage.take 20)).pageSize : Int) - 20)).1 = cyclePage.drop 20 := by
    have e : (((parsePropertyHeader (cyclePage.take 20)).pageSize : Int) - 20) = 12 := by decide
    rw [e, File.read]
    have e2 : (List.replicate 0x1000 (0 : UInt8) ++ cyclePage).drop (0x1000 + (20 : Int).toNat) =
        cyclePage.drop 20 := by
      rw [show 0x1000 + (20 : Int).toNat = (List.replicate 0x1000 (0 : UInt8)).length + 20 by
        rw [h0]; rfl, ← List.drop_drop, List.drop_left]
    simp only [e2]
    decide
  dsimp only
  rw [h2]
  rfl

/-- The claim is false: property pages whose chain has a cycle are read over and over. -/
theorem C62_property_cycle_loops : ¬ C62_property_claim := by
  intro h
  obtain ⟨fuel, hf⟩ := h Nat (fun _ _ => .ok []) (List.replicate 0x1000 0 ++ cyclePage) 1
  apply hf
  clear hf
  induction fuel with
  | zero => rfl
  | succ fuel ih =>
    rw [propertyPagesLoop, if_pos (by omega), Nat.one_mul, readPropertyPage_cycle]
    exact ih

theorem readPropertyPage_inside {β : Type} (values : PropertyHeader → Bytes → Res (List β))
    (data : Bytes) (off : Nat) (r : List β × Nat) (h : readPropertyPage values data off = .ok r) :
    off + 20 ≤ data.length := by
  by_contra hlt
  unfold readPropertyPage at h
  have := structAt_fixed 20 parsePropertyHeader data off (by decide)
  rw [if_pos (by omega)] at this
  rw [this] at h
  simp at h

/-- **C62** (partial, property pages): reading a chain of property pages ends when every page is
followed by one with a larger block number, or by none. -/
theorem C62_property_terminates_partial {β : Type}
    (values : PropertyHeader → Bytes → Res (List β)) (data : Bytes) (off : Nat) (acc : List β)
    (h : ∀ o vs next, readPropertyPage values data o = .ok (vs, next) →
      next = 0 ∨ o < next * 0x1000) (fuel : Nat)
    (hf : data.length < off + fuel) (h0 : 1 < fuel) :
    propertyPagesLoop (readPropertyPage values data) fuel off acc ≠ none := by
  induction fuel generalizing off acc with
  | zero => omega
  | succ fuel ih =>
    rw [propertyPagesLoop]
    split
    · split
      · simp
      · rename_i vs next hr
        have hin := readPropertyPage_inside values data off _ hr
        rcases h _ _ _ hr with h1 | h1
        · subst h1
          cases fuel with
          | zero => omega
          | succ fuel => simp [propertyPagesLoop]
        · exact ih _ _ (by omega) (by omega)
    · simp

/-- The pages of a chain: the first at the given offset, each giving the block of the next. -/
def Chain {β : Type} (readPage : Nat → Res (List β × Nat)) : Nat → List (List β) → Prop
  | off, [] => off = 0
  | off, vs :: rest => off ≠ 0 ∧ ∃ next, readPage off = .ok (vs, next) ∧ Chain readPage (next * 0x1000) rest

/-- **C62** (what a walk reads): the pages of a chain are read in order, each once, and the table
gets the values of all of them. -/
theorem C62_property_chain {β : Type} (readPage : Nat → Res (List β × Nat)) (off : Nat)
    (pages : List (List β)) (acc : List β) (h : Chain readPage off pages) (fuel : Nat)
    (hf : pages.length < fuel) :
    propertyPagesLoop readPage fuel off acc = some (.ok (acc ++ pages.flatten)) := by
  induction pages generalizing off acc fuel with
  | nil =>
    cases fuel with
    | zero => omega
    | succ fuel => simp [propertyPagesLoop, show off = 0 from h]
  | cons vs pages ih =>
    cases fuel with
    | zero => omega
    | succ fuel =>
      obtain ⟨h1, next, h2, h3⟩ := h
      rw [propertyPagesLoop, if_pos h1, h2]
      dsimp only
      rw [ih _ _ h3 fuel (by simp at hf; omega)]
      simp

example : Chain (fun off => if off = 0x2000 then .ok ([1], 3) else if off = 0x3000 then
    .ok ([2, 3], 0) else .error .parseError) 0x2000 [[1], [2, 3]] :=
  ⟨by decide, 3, by decide, by decide, 0, by decide, rfl⟩

end Dtf.Spotlight
