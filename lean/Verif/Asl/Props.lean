import Mathlib.Tactic.NormNum
import Mathlib.Data.Nat.Bitwise
import Mathlib.Data.List.Forall2
import Verif.Asl.Model
import Verif.Fields

/-!
# Properties of the Apple System Log reader (C25, C26, C64)
-/

namespace Dtf.Asl
open Py DataFormat

/-! ## C25: strings -/

/-- The inline reference of a string: a byte with the flag and the size, and seven bytes with the
string padded with zeros. -/
def inlineRef (s : Bytes) : Nat :=
  beNat (UInt8.ofNat (0x80 + s.length) :: (s ++ List.replicate (7 - s.length) 0))

theorem beNat_cons (x : UInt8) (l : Bytes) :
    beNat (x :: l) = x.toNat * 256 ^ l.length + beNat l := by
  rw [beNat_eq_leNat_reverse, List.reverse_cons, leNat_append, beNat_eq_leNat_reverse]
  simp [leNat]
  rw [Nat.mul_comm]
  omega

theorem beNat_seven (a b c d e f g h : UInt8) :
    beNat [a, b, c, d, e, f, g, h] =
      a.toNat * 256 ^ 7 + (b.toNat * 256 ^ 6 + (c.toNat * 256 ^ 5 + (d.toNat * 256 ^ 4 +
        (e.toNat * 256 ^ 3 + (f.toNat * 256 ^ 2 + (g.toNat * 256 + h.toNat)))))) := by
  simp only [beNat_cons, List.length_cons, List.length_nil]
  simp [beNat]

theorem inlineData_eq (a b c d e f g h : UInt8) :
    inlineData (beNat [a, b, c, d, e, f, g, h]) = [b, c, d, e, f, g, h] := by
  rw [beNat_seven]
  have := a.toNat_lt; have := b.toNat_lt; have := c.toNat_lt; have := d.toNat_lt
  have := e.toNat_lt; have := f.toNat_lt; have := g.toNat_lt; have := h.toNat_lt
  simp only [inlineData, List.map_cons, List.map_nil, show (0xFF : Nat) = 2 ^ 8 - 1 from rfl,
    Nat.and_two_pow_sub_one_eq_mod, Nat.shiftRight_eq_div_pow]
  norm_num
  have key : ∀ (x : UInt8) (n : Nat), n % 256 = x.toNat → UInt8.ofNat n = x := by
    intro x n hn
    apply UInt8.toNat_inj.mp
    rw [UInt8.toNat_ofNat']
    exact hn
  refine ⟨?_, ?_, ?_, ?_, ?_, ?_, ?_⟩ <;> (apply key; omega)

theorem msb_iff (n : Nat) (h : n < 2 ^ 64) : n &&& (1 <<< 63) ≠ 0 ↔ 2 ^ 63 ≤ n := by
  rw [Nat.one_shiftLeft, Nat.and_two_pow]
  have hb : n.testBit 63 = decide (2 ^ 63 ≤ n) := by
    rw [Nat.testBit_eq_decide_div_mod_eq]
    by_cases hn : 2 ^ 63 ≤ n
    · simp only [hn, decide_true, decide_eq_true_eq]; omega
    · simp only [hn, decide_false, decide_eq_false_iff_not]; omega
  rw [hb]
  by_cases hn : 2 ^ 63 ≤ n <;> simp [hn]

/-- What reading an inline reference gives: a reference is eight bytes, the first one with the flag
and the size. -/
theorem readString_inline (utf8 : Bytes → Bool) (data : Bytes) (pos : Nat)
    (a b c d e f g h : UInt8) (ha : 0x80 ≤ a.toNat) :
    readString utf8 data pos (beNat [a, b, c, d, e, f, g, h]) =
      if a.toNat < 0x88 then
        (if utf8 ([b, c, d, e, f, g, h].take (a.toNat - 0x80)) then
          .ok (some ([b, c, d, e, f, g, h].take (a.toNat - 0x80)), pos) else .error .parseError)
      else .error .parseError := by
  have hd := inlineData_eq a b c d e f g h
  have hs := beNat_seven a b c d e f g h
  have := a.toNat_lt; have := b.toNat_lt; have := c.toNat_lt; have := d.toNat_lt
  have := e.toNat_lt; have := f.toNat_lt; have := g.toNat_lt; have := h.toNat_lt
  generalize beNat [a, b, c, d, e, f, g, h] = n at hd hs ⊢
  have h56 : n >>> 56 = a.toNat := by rw [Nat.shiftRight_eq_div_pow, hs]; omega
  have h60 : n >>> 60 = a.toNat / 16 := by rw [Nat.shiftRight_eq_div_pow, hs]; omega
  have hlt : n < 2 ^ 64 := by omega
  have hge : 2 ^ 63 ≤ n := by omega
  unfold readString
  rw [if_neg (by omega), if_pos ((msb_iff n hlt).mpr hge), h60, h56, hd,
    show (0x0F : Nat) = 2 ^ 4 - 1 from rfl, Nat.and_two_pow_sub_one_eq_mod]
  by_cases h8 : a.toNat / 16 ≠ 8
  · rw [if_pos h8, if_neg (by omega)]
  · rw [if_neg h8]
    have hm : a.toNat % 2 ^ 4 = a.toNat - 0x80 := by omega
    simp only [hm]
    by_cases hx : a.toNat < 0x88
    · rw [if_pos hx, if_neg (by omega)]
    · rw [if_neg hx, if_pos (by omega)]

/-- **C25**: a string of up to seven bytes stored in its reference is returned unchanged, whatever
the file holds, and the file position does not move. -/
theorem C25_inline_round_trip (utf8 : Bytes → Bool) (data : Bytes) (pos : Nat) (s : Bytes)
    (hs : s.length ≤ 7) (hu : utf8 s = true) :
    readString utf8 data pos (inlineRef s) = .ok (some s, pos) := by
  have hl : (s ++ List.replicate (7 - s.length) 0).length = 7 := by simp; omega
  have ht : (s ++ List.replicate (7 - s.length) 0).take s.length = s := List.take_left
  unfold inlineRef
  generalize hp : s ++ List.replicate (7 - s.length) (0 : UInt8) = p at hl ht
  match p, hl with
  | [b, c, d, e, f, g, h], _ =>
    have ha : (UInt8.ofNat (0x80 + s.length)).toNat = 0x80 + s.length := by
      rw [UInt8.toNat_ofNat']; omega
    rw [readString_inline utf8 data pos _ b c d e f g h (by rw [ha]; omega), ha,
      if_pos (by omega), show 0x80 + s.length - 0x80 = s.length by omega, ht, if_pos hu]

/-- **C25**: different strings have different inline references. -/
theorem C25_inline_injective (s t : Bytes) (hs : s.length ≤ 7) (ht : t.length ≤ 7)
    (h : inlineRef s = inlineRef t) : s = t := by
  have h1 := C25_inline_round_trip (fun _ => true) [] 0 s hs rfl
  have h2 := C25_inline_round_trip (fun _ => true) [] 0 t ht rfl
  rw [h, h2] at h1
  simpa using h1.symm

/-- **C25**: reference zero means no string. -/
theorem C25_zero (utf8 : Bytes → Bool) (data : Bytes) (pos : Nat) :
    readString utf8 data pos 0 = .ok (none, pos) := by simp [readString]

/-- **C25**: no inline reference causes a file access: the result does not depend on the contents
of the file, and the position stays. -/
theorem C25_inline_no_access (utf8 : Bytes → Bool) (data data' : Bytes) (pos ref : Nat)
    (h : 2 ^ 63 ≤ ref) (h2 : ref < 2 ^ 64) :
    readString utf8 data pos ref = readString utf8 data' pos ref ∧
      ∀ s pos', readString utf8 data pos ref = .ok (s, pos') → pos' = pos := by
  have hm := (msb_iff ref h2).mpr h
  have hr : readString utf8 data pos ref = readString utf8 data' pos ref := by
    have h0 : ref ≠ 0 := by omega
    simp only [readString, if_neg h0, if_pos hm]
  refine ⟨hr, ?_⟩
  intro s pos' hp
  unfold readString at hp
  rw [if_neg (by omega), if_pos hm] at hp
  dsimp only at hp
  split at hp
  · simp at hp
  · split at hp
    · simp at hp
    · split at hp
      · simp only [Except.ok.injEq, Prod.mk.injEq] at hp; exact hp.2.symm
      · simp at hp

/-- **C25**: a reference with the high bit set whose first byte is not one of the eight that are in
use is refused with a parse error. -/
theorem C25_inline_refused (utf8 : Bytes → Bool) (data : Bytes) (pos ref : Nat)
    (h : 0x88 * 2 ^ 56 ≤ ref) (h2 : ref < 2 ^ 64) :
    readString utf8 data pos ref = .error .parseError := by
  have hm := (msb_iff ref h2).mpr (by omega)
  unfold readString
  rw [if_neg (by omega), if_pos hm, show (0x0F : Nat) = 2 ^ 4 - 1 from rfl,
    Nat.and_two_pow_sub_one_eq_mod, Nat.shiftRight_eq_div_pow, Nat.shiftRight_eq_div_pow]
  by_cases h8 : ref / 2 ^ 60 ≠ 8
  · rw [if_pos h8]
  · rw [if_neg h8]
    dsimp only
    rw [if_pos (by omega)]

/-- A string stored in the file: two bytes, its size and its bytes. -/
def stringBytes (unknown : Nat) (s : Bytes) : Bytes :=
  [beBytes 2 unknown, beBytes 4 s.length, s].flatten

/-- **C25** (strings in the file): a string stored in the file is returned without its trailing
zero bytes. -/
theorem C25_stored_round_trip (utf8 : Bytes → Bool) (pre s post : Bytes) (pos unknown : Nat)
    (h0 : 0 < pre.length) (h1 : pre.length < 2 ^ 63) (hs : s.length < 2 ^ 32) (hu : utf8 s = true) :
    readString utf8 (pre ++ stringBytes unknown s ++ post) pos pre.length =
      .ok (some (rstrip s), (pre ++ stringBytes unknown s).length) := by
  have hm : ¬ (pre.length &&& (1 <<< 63) ≠ 0) := by
    rw [msb_iff _ (by omega)]; omega
  unfold readString
  rw [if_neg (by omega), if_neg hm]
  have hl : (stringBytes unknown s).length = 6 + s.length := by simp [stringBytes]; omega
  have ht : (stringBytes unknown s).take 6 = [beBytes 2 unknown, beBytes 4 s.length].flatten := by
    unfold stringBytes
    rw [show [beBytes 2 unknown, beBytes 4 s.length, s] =
      [beBytes 2 unknown, beBytes 4 s.length] ++ [s] from rfl, List.flatten_append]
    exact List.take_left' (by simp)
  have hd : (stringBytes unknown s).drop 6 = s := by
    unfold stringBytes
    rw [show [beBytes 2 unknown, beBytes 4 s.length, s] =
      [beBytes 2 unknown, beBytes 4 s.length] ++ [s] from rfl, List.flatten_append,
      List.drop_left' (by simp)]
    simp
  have hst : structAt stringMap (pre ++ stringBytes unknown s ++ post) pre.length =
      .ok (s, ((stringBytes unknown s).length : Int)) := by
    have := structAt_sized_append 6 (fun h => beNat (slice h 2 6)) (fun bs => bs.drop 6) pre
      (stringBytes unknown s) post (by omega) (by omega)
      (by
        rw [ht, hl]
        have := beField [beBytes 2 unknown] 4 s.length [] 2 6 (by simp) (by simp) (by simpa using hs)
        simp only [List.cons_append, List.nil_append] at this
        rw [this])
    rw [hd] at this
    exact this
  rw [hst]
  dsimp only
  rw [if_pos hu]
  simp

theorem rstrip_append_zero (s : Bytes) (n : Nat) (h : ∀ x, s.getLast? = some x → x ≠ 0) :
    rstrip (s ++ List.replicate n 0) = s := by
  unfold rstrip
  rw [List.reverse_append, List.reverse_replicate]
  have h1 : ∀ t : Bytes, ((List.replicate n (0 : UInt8)) ++ t).dropWhile (fun x => decide (x = 0)) =
      t.dropWhile (fun x => decide (x = 0)) := by
    intro t
    induction n with
    | zero => simp
    | succ n ih => rw [List.replicate_succ, List.cons_append, List.dropWhile_cons]; simpa using ih
  rw [h1]
  have h2 : s.reverse.dropWhile (fun x => decide (x = 0)) = s.reverse := by
    cases hr : s.reverse with
    | nil => rfl
    | cons x t =>
      have : x ≠ 0 := h x (by rw [← List.head?_reverse, hr]; rfl)
      rw [List.dropWhile_cons]
      simp [this]
  rw [h2, List.reverse_reverse]

/-- **C25** (strings in the file): a string that does not end in a zero byte, stored with any
number of zero bytes after it, is returned unchanged. -/
theorem C25_stored_zero_terminated (utf8 : Bytes → Bool) (pre s post : Bytes)
    (pos unknown zeros : Nat) (h0 : 0 < pre.length) (h1 : pre.length < 2 ^ 63)
    (hs : s.length + zeros < 2 ^ 32) (hu : utf8 (s ++ List.replicate zeros 0) = true)
    (hz : ∀ x, s.getLast? = some x → x ≠ 0) :
    readString utf8 (pre ++ stringBytes unknown (s ++ List.replicate zeros 0) ++ post) pos
        pre.length =
      .ok (some s, (pre ++ stringBytes unknown (s ++ List.replicate zeros 0)).length) := by
  rw [C25_stored_round_trip utf8 pre _ post pos unknown h0 h1 (by simpa using hs) hu,
    rstrip_append_zero s zeros hz]

example : inlineRef [0x61, 0x62, 0x63] = 0x8361626300000000 ∧
    readString (fun _ => true) [] 5 0x8361626300000000 = .ok (some [0x61, 0x62, 0x63], 5) := by
  decide

/-! ## C26: termination -/

/-- The claim of C26: following the records ends. -/
def C26_claim : Prop :=
  ∀ (utf8 : Bytes → Bool) (data : Bytes), ∃ fuel, readFile utf8 fuel data ≠ none

/-- A file with one record that is its own next record, and with an extra field whose name is
stored just before the record. -/
def loopFile : Bytes :=
  signature ++ [0, 0, 0, 2] ++ beBytes 8 88 ++ List.replicate 56 0 ++
    [0, 1, 0, 0, 0, 2, 0x61, 0] ++
    ([0, 0] ++ beBytes 4 116 ++ beBytes 8 88 ++ List.replicate 84 0) ++
    (beBytes 8 80 ++ beBytes 8 0) ++ beBytes 8 0

theorem loopFile_record :
    readRecord (fun _ => true) loopFile 80 88 =
        .ok (⟨none, none, none, none, [([0x61], none)]⟩, 88, 88) ∧
      readRecord (fun _ => true) loopFile 88 88 =
        .ok (⟨none, none, none, none, [([0x61], none)]⟩, 88, 88) := by
  decide +kernel

theorem loopFile_loops (fuel : Nat) (acc : List Shown) :
    recordsLoop (fun _ => true) loopFile fuel 88 88 acc = none := by
  induction fuel generalizing acc with
  | zero => rfl
  | succ fuel ih =>
    rw [recordsLoop, if_pos (by decide +kernel), loopFile_record.2]
    exact ih _

/-- The claim is false: a record that is its own next record is read over and over, when one of its
extra fields uses a string stored before the record. -/
theorem C26_record_cycle_loops : ¬ C26_claim := by
  intro h
  obtain ⟨fuel, hf⟩ := h (fun _ => true) loopFile
  apply hf
  have hh : structAt (fixedMap 80 id) loopFile 0 = .ok (loopFile.take 80, 80) := by decide +kernel
  unfold readFile
  rw [hh]
  dsimp only
  rw [if_neg (by decide)]
  have hfirst : beNat (slice (loopFile.take 80) 16 24) = 88 := by decide
  rw [hfirst, if_pos (by decide)]
  cases fuel with
  | zero => rfl
  | succ fuel =>
    rw [recordsLoop, if_pos (by decide +kernel), show (80 : Int).toNat = 80 from rfl, loopFile_record.1]
    exact loopFile_loops fuel _

/-- A record is read only when it does not start before the position of the file. -/
theorem readRecord_pos_le (utf8 : Bytes → Bool) (data : Bytes) (pos off : Nat)
    (r : Shown × Nat × Nat) (h : readRecord utf8 data pos off = .ok r) : pos ≤ off := by
  by_contra hlt
  unfold readRecord at h
  rw [C06_short_is_parse_error ⟨data, pos⟩ pos ((off : Int) - pos) (by omega) (by omega)] at h
  simp at h

/-- The offsets of the records of a file: the first one is in the file header, the others are in
the record before. -/
inductive Visited (data : Bytes) : Nat → Prop
  | first : beNat (slice data 16 24) ≠ 0 → Visited data (beNat (slice data 16 24))
  | next (off : Nat) : Visited data off → beNat (slice (data.drop off) 6 14) ≠ 0 →
    Visited data (beNat (slice (data.drop off) 6 14))

theorem readRecord_next (utf8 : Bytes → Bool) (data : Bytes) (pos off : Nat) (s : Shown)
    (next pos' : Nat) (hr : readRecord utf8 data pos off = .ok (s, next, pos')) :
    next = beNat (slice (data.drop off) 6 14) := by
  unfold readRecord at hr
  split at hr
  · simp at hr
  split at hr
  · simp at hr
  rename_i r size hst
  have hn : r.next = beNat (slice (data.drop off) 6 14) := by
    rw [structAt_fixed _ _ _ _ (by decide)] at hst
    split at hst
    · simp at hst
    · simp only [Except.ok.injEq, Prod.mk.injEq] at hst
      rw [← hst.1]
      simp only [parseRecord, recordSize, slice, List.take_take]
      rfl
  dsimp only at hr
  split at hr
  · simp at hr
  split at hr
  · simp at hr
  split at hr
  · simp at hr
  split at hr
  · simp at hr
  split at hr
  · simp at hr
  split at hr
  · simp at hr
  split at hr
  · simp at hr
  simp only [Except.ok.injEq, Prod.mk.injEq] at hr
  rw [← hr.2.1, hn]

/-- **C26** (partial): following the records ends when every record is followed by no record, by
one further on in the file, or is left with the file position beyond its start.  Without this a
record can be its own successor, see `C26_record_cycle_loops`. -/
theorem C26_terminates_partial (utf8 : Bytes → Bool) (data : Bytes)
    (h : ∀ pos off s next pos', Visited data off →
      readRecord utf8 data pos off = .ok (s, next, pos') →
      next = 0 ∨ off < next ∨ off < pos') :
    ∃ fuel, readFile utf8 fuel data ≠ none := by
  have key : ∀ fuel off pos acc, Visited data off → data.length < off + fuel → 0 < fuel →
      recordsLoop utf8 data (fuel + 1) off pos acc ≠ none := by
    intro fuel
    induction fuel with
    | zero => intros; omega
    | succ fuel ih =>
      intro off pos acc hv hf _
      rw [recordsLoop]
      split
      · rename_i hlt
        split
        · simp
        · rename_i s next pos' hr
          split
          · simp
          · rename_i hn
            by_cases hnext : off < next
            · by_cases hf0 : fuel = 0
              · omega
              · have hv2 : Visited data next := by
                  have e := readRecord_next utf8 data pos off s next pos' hr
                  rw [e] at hn ⊢
                  exact .next off hv hn
                exact ih _ _ _ hv2 (by omega) (by omega)
            · have hp : off < pos' := by
                rcases h _ _ _ _ _ hv hr with h1 | h1 | h1
                · exact absurd h1 hn
                · omega
                · exact h1
              rw [recordsLoop]
              split
              · split
                · simp
                · rename_i r hr2
                  have := readRecord_pos_le utf8 data pos' next _ hr2
                  omega
              · simp
      · simp
  refine ⟨data.length + 1 + 1, ?_⟩
  unfold readFile
  split
  · simp
  · rename_i hd size hst
    split
    · simp
    · dsimp only
      split
      · rename_i hpos
        refine key _ _ _ _ ?_ (by omega) (by omega)
        have e : beNat (slice hd 16 24) = beNat (slice data 16 24) := by
          have := structAt_fixed 80 (id : Bytes → Bytes) data 0 (by decide)
          rw [show ((0 : Nat) : Int) = 0 from rfl, hst] at this
          split at this
          · simp at this
          · simp only [Except.ok.injEq, Prod.mk.injEq, id, List.drop_zero] at this
            rw [this.1]
            simp only [slice, List.take_take]
            rfl
        rw [e] at hpos ⊢
        exact .first (by omega)
      · simp

/-- No field of the extra fields refers to a string stored in the file. -/
def InlineFields : Nat → Bytes → Prop
  | 0, _ => True
  | n + 1, additional =>
    (∀ ref ∈ [beNat (slice additional 0 8), beNat (slice additional 8 16)],
      ref = 0 ∨ 2 ^ 63 ≤ ref) ∧ InlineFields n (additional.drop 16)

theorem slice8_lt (b : Bytes) (n m : Nat) (h : m - n ≤ 8) : beNat (slice b n m) < 2 ^ 64 := by
  have h1 := beNat_lt (slice b n m)
  have h2 : (slice b n m).length ≤ 8 := by
    rw [slice_eq_take_drop]; simp; omega
  calc beNat (slice b n m) < 256 ^ (slice b n m).length := h1
    _ ≤ 256 ^ 8 := Nat.pow_le_pow_right (by omega) h2
    _ = 2 ^ 64 := by norm_num

theorem extraLoop_inline (utf8 : Bytes → Bool) (data : Bytes) (n : Nat) (additional : Bytes)
    (pos pos' : Nat) (acc out : List (Bytes × Option Bytes)) (h : InlineFields n additional)
    (hr : extraLoop utf8 data n additional pos acc = .ok (out, pos')) : pos' = pos := by
  induction n generalizing additional pos acc with
  | zero => simp only [extraLoop, Except.ok.injEq, Prod.mk.injEq] at hr; exact hr.2.symm
  | succ n ih =>
    obtain ⟨h1, h2⟩ := h
    have keep : ∀ ref p s p', (ref = 0 ∨ 2 ^ 63 ≤ ref) → ref < 2 ^ 64 →
        readString utf8 data p ref = .ok (s, p') → p' = p := by
      intro ref p s p' hc hlt hs
      rcases hc with rfl | hc
      · rw [C25_zero] at hs
        simp only [Except.ok.injEq, Prod.mk.injEq] at hs; exact hs.2.symm
      · exact (C25_inline_no_access utf8 data data p ref hc hlt).2 s p' hs
    rw [extraLoop] at hr
    split at hr
    · simp at hr
    · split at hr
      · simp at hr
      · rename_i name p1 hn
        split at hr
        · simp at hr
        · rename_i value p2 hv
          have e1 := keep _ _ _ _ (h1 _ (by simp)) (slice8_lt _ _ _ (by omega)) hn
          have e2 := keep _ _ _ _ (h1 _ (by simp)) (slice8_lt _ _ _ (by omega)) hv
          have := ih _ _ _ h2 hr
          omega

theorem readRecord_inline_pos (utf8 : Bytes → Bool) (data : Bytes) (pos off : Nat) (s : Shown)
    (next pos' : Nat)
    (h : InlineFields (rangeCount (beNat (slice (data.drop off) 2 6) - 92)) (data.drop (off + 98)))
    (hr : readRecord utf8 data pos off = .ok (s, next, pos')) : off < pos' := by
  unfold readRecord at hr
  split at hr
  · simp at hr
  split at hr
  · simp at hr
  rename_i r size hst
  have hsize : size = 98 ∧ r.dataSize = beNat (slice (data.drop off) 2 6) := by
    rw [structAt_fixed _ _ _ _ (by decide)] at hst
    split at hst
    · simp at hst
    · simp only [Except.ok.injEq, Prod.mk.injEq] at hst
      refine ⟨hst.2.symm, ?_⟩
      rw [← hst.1]
      simp only [parseRecord, recordSize, slice, List.take_take]
      rfl
  obtain ⟨rfl, hds⟩ := hsize
  dsimp only at hr
  split at hr
  · simp at hr
  split at hr
  · simp at hr
  split at hr
  · simp at hr
  split at hr
  · simp at hr
  split at hr
  · simp at hr
  split at hr
  · simp at hr
  rename_i additional had
  split at hr
  · simp at hr
  rename_i extra pos'' he
  simp only [Except.ok.injEq, Prod.mk.injEq] at hr
  obtain ⟨_, _, rfl⟩ := hr
  obtain ⟨o, n, ho, hn, hlen, hb⟩ := (C06_exact_or_error _ _ _ _).mp had
  -- The fields of the additional data are fields of the file.
  have htake : ∀ m (b : Bytes) k, 16 * m ≤ k → InlineFields m b → InlineFields m (b.take k) := by
    intro m
    induction m with
    | zero => intros; trivial
    | succ m ih =>
      intro b k hk hb
      obtain ⟨h1, h2⟩ := hb
      have e1 : slice (b.take k) 0 8 = slice b 0 8 := by
        simp only [slice, List.take_take]; rw [Nat.min_eq_left (by omega)]
      have e2 : slice (b.take k) 8 16 = slice b 8 16 := by
        simp only [slice, List.take_take]; rw [Nat.min_eq_left (by omega)]
      refine ⟨by rw [e1, e2]; exact h1, ?_⟩
      rw [List.drop_take]
      exact ih _ _ (by omega) h2
  have hm : ∀ m, m % 8 = 0 → 16 * rangeCount m ≤ m := by
    intro m hm8; unfold rangeCount; omega
  have hdiv : additional.length % 8 = 0 := by
    rename_i hdv _ _ _
    omega
  have hinl : InlineFields (rangeCount additional.length) additional := by
    have ho' : o = off + 98 := by omega
    have hc : beNat (slice (data.drop off) 2 6) - 92 = additional.length := by omega
    rw [hc] at h
    have := htake _ _ n (by have := hm _ hdiv; omega) h
    rw [← ho', ← hb] at this
    exact this
  have := extraLoop_inline utf8 data _ _ _ _ _ _ hinl he
  omega

/-- **C26** (partial): following the records ends in every file where the extra fields of the
records use no strings stored in the file. -/
theorem C26_inline_terminates_partial (utf8 : Bytes → Bool) (data : Bytes)
    (h : ∀ off, Visited data off →
      InlineFields (rangeCount (beNat (slice (data.drop off) 2 6) - 92)) (data.drop (off + 98))) :
    ∃ fuel, readFile utf8 fuel data ≠ none :=
  C26_terminates_partial utf8 data fun pos off s next pos' hv hr =>
    .inr (.inr (readRecord_inline_pos utf8 data pos off s next pos' (h off hv) hr))

/-- A file with two records without extra fields. -/
def twoRecords : Bytes :=
  signature ++ [0, 0, 0, 2] ++ beBytes 8 80 ++ List.replicate 56 0 ++
    ([0, 0] ++ beBytes 4 100 ++ beBytes 8 186 ++ List.replicate 84 0) ++ beBytes 8 0 ++
    ([0, 0] ++ beBytes 4 100 ++ beBytes 8 0 ++ List.replicate 84 0) ++ beBytes 8 80

example : ∀ off, Visited twoRecords off →
    InlineFields (rangeCount (beNat (slice (twoRecords.drop off) 2 6) - 92))
      (twoRecords.drop (off + 98)) := by
  have key : ∀ off, Visited twoRecords off → off = 80 ∨ off = 186 := by
    intro off hv
    induction hv with
    | first => left; decide +kernel
    | next off _ h0 ih =>
      rcases ih with rfl | rfl
      · right; decide +kernel
      · exact absurd (by decide +kernel) h0
  intro off hv
  have hz : rangeCount (beNat (slice (twoRecords.drop off) 2 6) - 92) = 0 := by
    rcases key off hv with rfl | rfl <;> decide +kernel
  rw [hz]
  trivial

/-! ## C64: records -/

/-- A record as stored: the fields that are not used, the references of its strings and of its
extra fields, and the offsets of its neighbours. -/
structure Stored where
  unknown : Nat
  other : Bytes
  next : Nat
  previous : Nat
  hostname : Nat
  sender : Nat
  facility : Nat
  message : Nat
  extra : List (Nat × Nat)

def Stored.dataSize (r : Stored) : Nat := 92 + 16 * r.extra.length + 8

def Stored.fields (r : Stored) : List Bytes :=
  [beBytes 2 r.unknown, beBytes 4 r.dataSize, beBytes 8 r.next, r.other, beBytes 8 r.hostname,
   beBytes 8 r.sender, beBytes 8 r.facility, beBytes 8 r.message]

def Stored.additional (r : Stored) : Bytes :=
  r.extra.flatMap (fun p => beBytes 8 p.1 ++ beBytes 8 p.2) ++ beBytes 8 r.previous

def Stored.bytes (r : Stored) : Bytes := r.fields.flatten ++ r.additional

def Stored.Ok (r : Stored) : Prop :=
  r.other.length = 52 ∧ r.dataSize < 2 ^ 32 ∧ r.next < 2 ^ 64 ∧ r.hostname < 2 ^ 64 ∧
    r.sender < 2 ^ 64 ∧ r.facility < 2 ^ 64 ∧ r.message < 2 ^ 64 ∧
    ∀ p ∈ r.extra, p.1 < 2 ^ 64 ∧ p.2 < 2 ^ 64

/-- In this file the reference stands for the string, wherever the file position is, and reading
it leaves the position before `bound`. -/
def Denotes (utf8 : Bytes → Bool) (data : Bytes) (bound ref : Nat) (s : Option Bytes) : Prop :=
  ∀ pos ≤ bound, ∃ pos' ≤ bound, readString utf8 data pos ref = .ok (s, pos')

/-- The dictionary of the extra fields: fields without a name are left out and a later field with
the same name replaces the value of an earlier one. -/
def fieldDict : List (Option Bytes × Option Bytes) → List (Bytes × Option Bytes) →
    List (Bytes × Option Bytes)
  | [], d => d
  | (none, _) :: fs, d => fieldDict fs d
  | (some k, v) :: fs, d => fieldDict fs (dictSet d k v)

theorem extraLoop_fields (utf8 : Bytes → Bool) (data : Bytes) (refs : List (Nat × Nat))
    (fs : List (Option Bytes × Option Bytes)) (tail : Bytes) (pos bound : Nat) (hpos : pos ≤ bound)
    (acc : List (Bytes × Option Bytes)) (hb : ∀ p ∈ refs, p.1 < 2 ^ 64 ∧ p.2 < 2 ^ 64)
    (h : List.Forall₂ (fun p f => Denotes utf8 data bound p.1 f.1 ∧
      Denotes utf8 data bound p.2 f.2) refs fs) :
    ∃ pos' ≤ bound, extraLoop utf8 data refs.length
      (refs.flatMap (fun p => beBytes 8 p.1 ++ beBytes 8 p.2) ++ tail) pos acc =
        .ok (fieldDict fs acc, pos') := by
  induction h generalizing pos acc with
  | nil => exact ⟨pos, hpos, by simp [extraLoop, fieldDict]⟩
  | @cons p f refs fs hpf _ ih =>
    obtain ⟨p1, hp1, h1⟩ := hpf.1 pos hpos
    obtain ⟨p2, hp2, h2⟩ := hpf.2 p1 hp1
    obtain ⟨hb1, hb2⟩ := hb p (by simp)
    have e0 : (p :: refs).flatMap (fun p => beBytes 8 p.1 ++ beBytes 8 p.2) ++ tail =
        [beBytes 8 p.1, beBytes 8 p.2,
          refs.flatMap (fun p => beBytes 8 p.1 ++ beBytes 8 p.2) ++ tail].flatten := by
      simp
    have e1 := beField [] 8 p.1 [beBytes 8 p.2,
      refs.flatMap (fun p => beBytes 8 p.1 ++ beBytes 8 p.2) ++ tail] 0 8 (by simp) (by simp)
      (by norm_num; omega)
    have e2 := beField [beBytes 8 p.1] 8 p.2 [
      refs.flatMap (fun p => beBytes 8 p.1 ++ beBytes 8 p.2) ++ tail] 8 16 (by simp) (by simp)
      (by norm_num; omega)
    simp only [List.nil_append, List.cons_append] at e1 e2
    have e3 : [beBytes 8 p.1, beBytes 8 p.2,
        refs.flatMap (fun p => beBytes 8 p.1 ++ beBytes 8 p.2) ++ tail].flatten.drop 16 =
        refs.flatMap (fun p => beBytes 8 p.1 ++ beBytes 8 p.2) ++ tail := by
      rw [show [beBytes 8 p.1, beBytes 8 p.2,
        refs.flatMap (fun p => beBytes 8 p.1 ++ beBytes 8 p.2) ++ tail] =
        [beBytes 8 p.1, beBytes 8 p.2] ++ [refs.flatMap (fun p => beBytes 8 p.1 ++ beBytes 8 p.2) ++
          tail] from rfl, List.flatten_append, List.drop_left' (by simp)]
      simp
    obtain ⟨f1, f2⟩ := f
    have h3 := ih (acc := match f1 with
      | none => acc
      | some k => dictSet acc k f2) (pos := p2) hp2 (fun q hq => hb q (List.mem_cons_of_mem _ hq))
    have hlen : ¬ [beBytes 8 p.1, beBytes 8 p.2,
        refs.flatMap (fun p => beBytes 8 p.1 ++ beBytes 8 p.2) ++ tail].flatten.length < 16 := by
      simp; omega
    rw [List.length_cons, e0, extraLoop, if_neg hlen, e1, h1]
    dsimp only
    rw [e2, h2]
    dsimp only
    rw [e3]
    cases f1 <;> exact h3

/-- **C64**: reading a record gives the strings its references stand for, all its extra fields and
the offset of the next record; the position stays before `bound` when the record and its strings
are. -/
theorem C64_record (utf8 : Bytes → Bool) (pre post : Bytes) (r : Stored) (pos bound : Nat)
    (hostname sender facility message : Option Bytes) (fs : List (Option Bytes × Option Bytes))
    (hr : r.Ok) (hpos : pos ≤ pre.length) (hbound : (pre ++ r.bytes).length ≤ bound)
    (h1 : Denotes utf8 (pre ++ r.bytes ++ post) bound r.hostname hostname)
    (h2 : Denotes utf8 (pre ++ r.bytes ++ post) bound r.sender sender)
    (h3 : Denotes utf8 (pre ++ r.bytes ++ post) bound r.facility facility)
    (h4 : Denotes utf8 (pre ++ r.bytes ++ post) bound r.message message)
    (hf : List.Forall₂ (fun p f => Denotes utf8 (pre ++ r.bytes ++ post) bound p.1 f.1 ∧
      Denotes utf8 (pre ++ r.bytes ++ post) bound p.2 f.2) r.extra fs) :
    ∃ pos' ≤ bound, readRecord utf8 (pre ++ r.bytes ++ post) pos pre.length =
      .ok (⟨hostname, sender, facility, message, fieldDict fs []⟩, r.next, pos') := by
  obtain ⟨k1, k2, k3, k4, k5, k6, k7, k8⟩ := hr
  have hfl : r.fields.flatten.length = 98 := by simp [Stored.fields, k1]
  have hal : r.additional.length = 16 * r.extra.length + 8 := by
    unfold Stored.additional
    rw [List.length_append, length_beBytes]
    congr 1
    generalize r.extra = l
    induction l with
    | nil => simp
    | cons p l ih => rw [List.flatMap_cons, List.length_append, ih]; simp; omega
  have q1 := beField [beBytes 2 r.unknown] 4 r.dataSize
    [beBytes 8 r.next, r.other, beBytes 8 r.hostname, beBytes 8 r.sender, beBytes 8 r.facility,
      beBytes 8 r.message] 2 6 (by simp) (by simp) (by norm_num; omega)
  have q2 := beField [beBytes 2 r.unknown, beBytes 4 r.dataSize] 8 r.next
    [r.other, beBytes 8 r.hostname, beBytes 8 r.sender, beBytes 8 r.facility,
      beBytes 8 r.message] 6 14 (by simp) (by simp) (by norm_num; omega)
  have q3 := beField [beBytes 2 r.unknown, beBytes 4 r.dataSize, beBytes 8 r.next, r.other] 8
    r.hostname [beBytes 8 r.sender, beBytes 8 r.facility, beBytes 8 r.message] 66 74
    (by simp [k1]) (by simp) (by norm_num; omega)
  have q4 := beField [beBytes 2 r.unknown, beBytes 4 r.dataSize, beBytes 8 r.next, r.other,
    beBytes 8 r.hostname] 8 r.sender [beBytes 8 r.facility, beBytes 8 r.message] 74 82
    (by simp [k1]) (by simp) (by norm_num; omega)
  have q5 := beField [beBytes 2 r.unknown, beBytes 4 r.dataSize, beBytes 8 r.next, r.other,
    beBytes 8 r.hostname, beBytes 8 r.sender] 8 r.facility [beBytes 8 r.message] 82 90
    (by simp [k1]) (by simp) (by norm_num; omega)
  have q6 := beField [beBytes 2 r.unknown, beBytes 4 r.dataSize, beBytes 8 r.next, r.other,
    beBytes 8 r.hostname, beBytes 8 r.sender, beBytes 8 r.facility] 8 r.message [] 90 98
    (by simp [k1]) (by simp) (by norm_num; omega)
  simp only [List.cons_append, List.nil_append] at q1 q2 q3 q4 q5 q6
  have hparse : parseRecord r.fields.flatten =
      ⟨r.dataSize, r.next, r.hostname, r.sender, r.facility, r.message⟩ := by
    unfold parseRecord Stored.fields
    rw [q1, q2, q3, q4, q5, q6]
  have hst : structAt (fixedMap recordSize parseRecord) (pre ++ r.bytes ++ post) pre.length =
      .ok (⟨r.dataSize, r.next, r.hostname, r.sender, r.facility, r.message⟩, 98) := by
    have := structAt_fixed_append recordSize parseRecord pre r.fields.flatten (r.additional ++ post)
      (by decide) (by rw [hfl]; rfl)
    rw [hparse] at this
    rw [show pre ++ r.bytes ++ post = pre ++ r.fields.flatten ++ (r.additional ++ post) by
      simp [Stored.bytes]]
    exact this
  have hrd0 : (readData (some ⟨pre ++ r.bytes ++ post, pos⟩) pos ((pre.length : Int) - pos)).1 =
      .ok ((((pre ++ r.bytes ++ post).drop pos)).take (pre.length - pos)) := by
    have := readData_ok (pre ++ r.bytes ++ post) pos pos (pre.length - pos) (by simp; omega)
    rw [show ((pre.length : Int) - pos) = ((pre.length - pos : Nat) : Int) by omega, this]
  have hbl : (pre ++ r.bytes).length = pre.length + 98 + r.additional.length := by
    simp only [Stored.bytes, List.length_append, hfl]; omega
  obtain ⟨p1, hp1, e1⟩ := h1 (pre.length + (98 : Int).toNat) (by omega)
  obtain ⟨p2, hp2, e2⟩ := h2 p1 hp1
  obtain ⟨p3, hp3, e3⟩ := h3 p2 hp2
  obtain ⟨p4, hp4, e4⟩ := h4 p3 hp3
  have hsz : ((r.dataSize : Int) + 6 - 98) = ((r.additional.length : Nat) : Int) := by
    rw [hal]; simp only [Stored.dataSize]; omega
  have hrd1 : (readData (some ⟨pre ++ r.bytes ++ post, p4⟩) ((pre.length : Int) + 98)
      (r.additional.length : Nat)).1 = .ok r.additional := by
    have hb : pre ++ r.bytes ++ post = (pre ++ r.fields.flatten) ++ (r.additional ++ post) := by
      simp [Stored.bytes]
    have hl : (pre ++ r.fields.flatten).length = pre.length + 98 := by rw [List.length_append, hfl]
    have := readData_ok (pre ++ r.bytes ++ post) p4 (pre.length + 98) r.additional.length (by
      rw [hb, List.length_append, hl]; simp)
    rw [show ((pre.length : Int) + 98) = ((pre.length + 98 : Nat) : Int) by omega, this]
    dsimp only
    rw [hb, List.drop_left' hl, List.take_left]
  obtain ⟨p5, hp5, e5⟩ := extraLoop_fields utf8 (pre ++ r.bytes ++ post) r.extra fs
    (beBytes 8 r.previous) (pre.length + (98 : Int).toNat + r.additional.length) bound (by omega)
    [] k8 hf
  have hcount : rangeCount r.additional.length = r.extra.length := by
    rw [hal]; unfold rangeCount; omega
  refine ⟨p5, hp5, ?_⟩
  unfold readRecord
  rw [hrd0]
  dsimp only
  rw [hst]
  dsimp only
  rw [e1]
  dsimp only
  rw [e2]
  dsimp only
  rw [e3]
  dsimp only
  rw [e4]
  dsimp only
  rw [hsz, if_neg (by rw [hal]; omega), hrd1]
  dsimp only
  rw [hcount]
  have : r.additional = r.extra.flatMap (fun p => beBytes 8 p.1 ++ beBytes 8 p.2) ++
    beBytes 8 r.previous := rfl
  rw [← this] at e5
  rw [e5]

/-- Inline references, the reference zero and references to stored strings denote their strings. -/
theorem C64_denotes (utf8 : Bytes → Bool) (pre s post t : Bytes) (unknown zeros bound : Nat)
    (ht : t.length ≤ 7) (hut : utf8 t = true) (h0 : 0 < pre.length) (h1 : pre.length < 2 ^ 63)
    (hs : s.length + zeros < 2 ^ 32) (hu : utf8 (s ++ List.replicate zeros 0) = true)
    (hz : ∀ x, s.getLast? = some x → x ≠ 0)
    (hb : (pre ++ stringBytes unknown (s ++ List.replicate zeros 0)).length ≤ bound) :
    Denotes utf8 (pre ++ stringBytes unknown (s ++ List.replicate zeros 0) ++ post) bound 0 none ∧
    Denotes utf8 (pre ++ stringBytes unknown (s ++ List.replicate zeros 0) ++ post) bound
      (inlineRef t) (some t) ∧
    Denotes utf8 (pre ++ stringBytes unknown (s ++ List.replicate zeros 0) ++ post) bound pre.length
      (some s) :=
  ⟨fun pos hp => ⟨pos, hp, C25_zero _ _ _⟩,
    fun pos hp => ⟨pos, hp, C25_inline_round_trip _ _ _ _ ht hut⟩,
    fun pos _ => ⟨_, hb, C25_stored_zero_terminated utf8 pre s post pos unknown zeros h0 h1 hs hu hz⟩⟩

/-- The value a name has in the end: that of the last field with the name. -/
def lastValue (k : Bytes) : List (Option Bytes × Option Bytes) → Option (Option Bytes)
  | [] => none
  | (n, v) :: fs => (lastValue k fs).or (if n = some k then some v else none)

theorem dictSet_lookup (d : List (Bytes × Option Bytes)) (k k' : Bytes) (v : Option Bytes) :
    (dictSet d k v).lookup k' = if k' = k then some v else d.lookup k' := by
  have hmap : ∀ d : List (Bytes × Option Bytes),
      (d.map (fun p => if p.1 = k then (k, v) else p)).lookup k' =
        if k' = k then (if d.any (fun p => p.1 = k) then some v else none) else d.lookup k' := by
    intro d
    induction d with
    | nil => simp
    | cons p d ih =>
      obtain ⟨a, b⟩ := p
      rw [List.map_cons]
      by_cases ha : a = k
      · subst ha
        by_cases hk : k' = a
        · subst hk; simp
        · have hk2 : (k' == a) = false := by simp [hk]
          simp only [if_true, List.lookup_cons, hk2, ih, if_neg hk]
      · rw [if_neg (show ¬ (a, b).1 = k from ha), List.lookup_cons, ih, List.any_cons,
          decide_eq_false (show ¬ (a, b).1 = k from ha), Bool.false_or, List.lookup_cons]
        by_cases hk : k' = k
        · subst hk
          have : (k' == a) = false := by simp; exact fun e => ha e.symm
          simp only [this, if_true]
        · simp only [if_neg hk]
  have hany : ∀ d : List (Bytes × Option Bytes), d.any (fun p => p.1 = k) = false →
      d.lookup k = none := by
    intro d hd
    induction d with
    | nil => rfl
    | cons p d ih =>
      simp only [List.any_cons, Bool.or_eq_false_iff, decide_eq_false_iff_not] at hd
      have : (k == p.1) = false := by simp; exact fun e => hd.1 e.symm
      rw [List.lookup_cons, this]
      exact ih hd.2
  unfold dictSet
  split
  · rename_i h
    rw [hmap, h]
    simp
  · rename_i h
    rw [List.lookup_append]
    by_cases hk : k' = k
    · subst hk
      rw [hany d (Bool.eq_false_iff.mpr h)]
      simp
    · have hk2 : (k' == k) = false := by simp [hk]
      simp [List.lookup_cons, hk2, hk]

theorem dictSet_keys (d : List (Bytes × Option Bytes)) (k : Bytes) (v : Option Bytes)
    (h : (d.map (·.1)).Nodup) : ((dictSet d k v).map (·.1)).Nodup := by
  unfold dictSet
  split
  · rw [List.map_map]
    have : (fun p : Bytes × Option Bytes => p.1) ∘ (fun p => if p.1 = k then (k, v) else p) =
        fun p => p.1 := by
      funext p
      simp only [Function.comp]
      split
      · rename_i e; exact e.symm
      · rfl
    rw [this]
    exact h
  · rename_i hn
    rw [List.map_append, List.nodup_append]
    refine ⟨h, by simp, ?_⟩
    intro a ha b hb
    simp only [List.map_cons, List.map_nil, List.mem_singleton] at hb
    subst hb
    intro e
    subst e
    obtain ⟨p, hp, rfl⟩ := List.mem_map.mp ha
    exact hn (List.any_eq_true.mpr ⟨p, hp, by simp⟩)

/-- **C64** (extra fields): each name is shown once, with the value of the last field that has this
name, and only names of fields are shown. -/
theorem C64_extra_fields (fs : List (Option Bytes × Option Bytes)) :
    ((fieldDict fs []).map (·.1)).Nodup ∧ ∀ k, (fieldDict fs []).lookup k = lastValue k fs := by
  have key : ∀ fs d, (d.map (·.1)).Nodup → ((fieldDict fs d).map (·.1)).Nodup ∧
      ∀ k, (fieldDict fs d).lookup k = (lastValue k fs).or (d.lookup k) := by
    intro fs
    induction fs with
    | nil => intro d hd; exact ⟨hd, fun k => by simp [fieldDict, lastValue]⟩
    | cons f fs ih =>
      intro d hd
      obtain ⟨n, v⟩ := f
      cases n with
      | none =>
        refine ⟨(ih d hd).1, fun k => ?_⟩
        rw [fieldDict, (ih d hd).2 k, lastValue]
        simp
      | some n =>
        refine ⟨(ih _ (dictSet_keys d n v hd)).1, fun k => ?_⟩
        rw [fieldDict, (ih _ (dictSet_keys d n v hd)).2 k, lastValue, dictSet_lookup]
        by_cases hk : k = n
        · subst hk
          cases lastValue k fs <;> simp
        · have : n ≠ k := fun e => hk e.symm
          simp [hk, this]
  refine ⟨(key fs [] (by simp)).1, fun k => ?_⟩
  rw [(key fs [] (by simp)).2 k]
  simp

/-- A record stored at an offset, and what its references stand for; the record and its strings end
before `bound`. -/
def StoredAt (utf8 : Bytes → Bool) (data : Bytes) (off bound : Nat) (r : Stored) (s : Shown) :
    Prop :=
  r.Ok ∧ (∃ pre post, data = pre ++ r.bytes ++ post ∧ pre.length = off) ∧
    off + r.bytes.length ≤ bound ∧
    Denotes utf8 data bound r.hostname s.hostname ∧ Denotes utf8 data bound r.sender s.sender ∧
    Denotes utf8 data bound r.facility s.facility ∧ Denotes utf8 data bound r.message s.message ∧
    ∃ fs, s.extra = fieldDict fs [] ∧
      List.Forall₂ (fun p f => Denotes utf8 data bound p.1 f.1 ∧ Denotes utf8 data bound p.2 f.2)
        r.extra fs

/-- The records from an offset on: each one names the next one, and the strings of a record are
stored before the next record. -/
inductive RecordChain (utf8 : Bytes → Bool) (data : Bytes) : Nat → List Shown → Prop
  | last (off : Nat) (r : Stored) (s : Shown) :
      StoredAt utf8 data off data.length r s → r.next = 0 → RecordChain utf8 data off [s]
  | cons (off : Nat) (r : Stored) (s : Shown) (ss : List Shown) :
      StoredAt utf8 data off r.next r s → RecordChain utf8 data r.next ss →
      RecordChain utf8 data off (s :: ss)

theorem StoredAt.read (utf8 : Bytes → Bool) (data : Bytes) (off bound pos : Nat) (r : Stored)
    (s : Shown) (h : StoredAt utf8 data off bound r s) (hpos : pos ≤ off) :
    off < data.length ∧
      ∃ pos' ≤ bound, readRecord utf8 data pos off = .ok (s, r.next, pos') := by
  obtain ⟨hok, ⟨pre, post, rfl, rfl⟩, hb, h1, h2, h3, h4, fs, hfs, hf⟩ := h
  refine ⟨?_, ?_⟩
  · have : 0 < r.bytes.length := by
      simp [Stored.bytes, Stored.additional]
    simp only [List.length_append]; omega
  · obtain ⟨pos', hp, e⟩ := C64_record utf8 pre post r pos bound s.hostname s.sender s.facility
      s.message fs hok hpos (by rw [List.length_append]; exact hb) h1 h2 h3 h4 hf
    refine ⟨pos', hp, ?_⟩
    rw [e, ← hfs]

/-- The text "ASL DB", filled up with zeros. -/
def magic : Bytes := "ASL DB".toList.map (fun c => c.toNat.toUInt8) ++ List.replicate 6 0

theorem magic_eq : signature = magic := by decide +kernel

/-- **C64** (files): reading a file shows the records of the chain that starts at the first record,
all of them, in order. -/
theorem C64_file (utf8 : Bytes → Bool) (data : Bytes) (ss : List Shown) (hl : 80 ≤ data.length)
    (hs : data.take 12 = magic) (h80 : 80 ≤ beNat (slice data 16 24))
    (hc : RecordChain utf8 data (beNat (slice data 16 24)) ss) :
    ∃ fuel, readFile utf8 fuel data = some (.ok ss) := by
  have key : ∀ off ss, RecordChain utf8 data off ss → ∀ pos acc, pos ≤ off →
      recordsLoop utf8 data ss.length off pos acc = some (.ok (acc ++ ss)) := by
    intro off ss hc
    induction hc with
    | last off r s hr hn =>
      intro pos acc hpos
      obtain ⟨hlt, pos', _, e⟩ := hr.read utf8 data off _ pos r s hpos
      rw [List.length_singleton, recordsLoop, if_pos hlt, e]
      simp [hn]
    | cons off r s ss hr hc ih =>
      intro pos acc hpos
      obtain ⟨hlt, pos', hp', e⟩ := hr.read utf8 data off _ pos r s hpos
      have hn : r.next ≠ 0 := by
        have := hr.2.2.1
        have : 0 < r.bytes.length := by simp [Stored.bytes, Stored.additional]
        omega
      rw [List.length_cons, recordsLoop, if_pos hlt, e]
      dsimp only
      rw [if_neg hn, ih pos' (acc ++ [s]) hp']
      simp
  have hh : structAt (fixedMap 80 id) data 0 = .ok (data.take 80, 80) := by
    have := structAt_fixed 80 id data 0 (by decide)
    rw [if_neg (by omega)] at this
    simpa using this
  refine ⟨ss.length, ?_⟩
  unfold readFile
  rw [hh]
  dsimp only
  have e1 : (data.take 80).take 12 = magic := by rw [List.take_take]; simpa using hs
  have e2 : slice (data.take 80) 16 24 = slice data 16 24 := by
    simp only [slice, List.take_take]; rfl
  rw [e1, e2, magic_eq, if_neg (by simp), if_pos (by omega)]
  simpa using key _ _ hc (80 : Int).toNat [] (by simpa using h80)

/-- The two records of `twoRecords` are such a chain. -/
example : RecordChain (fun _ => true) twoRecords (beNat (slice twoRecords 16 24))
    [⟨none, none, none, none, []⟩, ⟨none, none, none, none, []⟩] := by
  have h0 : beNat (slice twoRecords 16 24) = 80 := by decide +kernel
  have hz : ∀ bound, Denotes (fun _ => true) twoRecords bound 0 none :=
    fun bound pos hp => ⟨pos, hp, C25_zero _ _ _⟩
  rw [h0]
  refine .cons 80 ⟨0, List.replicate 52 0, 186, 0, 0, 0, 0, 0, []⟩ _ _ ?_
    (.last 186 ⟨0, List.replicate 52 0, 0, 80, 0, 0, 0, 0, []⟩ _ ?_ rfl)
  · refine ⟨⟨by simp, by decide, by decide, by decide, by decide, by decide, by decide, by simp⟩,
      ⟨twoRecords.take 80, twoRecords.drop 186, by decide +kernel, by decide +kernel⟩,
      by decide +kernel, hz _, hz _, hz _, hz _, [], rfl, .nil⟩
  · refine ⟨⟨by simp, by decide, by decide, by decide, by decide, by decide, by decide, by simp⟩,
      ⟨twoRecords.take 186, [], by decide +kernel, by decide +kernel⟩,
      by decide +kernel, hz _, hz _, hz _, hz _, [], rfl, .nil⟩

/-- A record with an inline message and an extra field. -/
example : (⟨0, List.replicate 52 0, 0, 0, 0, 0, 0, inlineRef [0x61], [(inlineRef [0x62], 0)]⟩ :
    Stored).Ok := by
  refine ⟨by simp, by decide, by decide, by decide, by decide, by decide, by decide, ?_⟩
  intro p hp
  simp only [List.mem_singleton] at hp
  subst hp
  decide

end Dtf.Asl
