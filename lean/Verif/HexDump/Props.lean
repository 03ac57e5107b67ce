import Verif.HexDump.Model
import Verif.HexDump.Spec

/-!
# Properties of the hexadecimal dump (C08)
-/

namespace Dtf.HexDump
open Py Text

theorem hex2_length (b : UInt8) : (hex2 b).length = 2 := by
  apply zpad_length
  exact digits_length_le 16 b.toNat 1 (by decide) (by have := b.toNat_lt; simpa using this)

theorem hex2_parse (b : UInt8) : parseDigits 16 (hex2 b) = some b.toNat :=
  parse_zpad_digits 16 _ 2 (by decide) (by decide)

theorem digitVal_space : digitVal ' ' = none := by decide
theorem digitVal_newline : digitVal '\n' = none := by decide

theorem notMem_zpad (c : Char) (hc : digitVal c = none) (w n : Nat) : c ∉ zpad w (digits 16 n) := by
  intro hm
  obtain ⟨d, hd, he⟩ := mem_zpad_digits 16 n w (by decide) c hm
  rw [he, digitVal_digitChar d (by omega)] at hc
  cases hc

theorem filter_hex2 (b : UInt8) : (hex2 b).filter (· ≠ ' ') = hex2 b := by
  rw [List.filter_eq_self]
  intro c hc
  simp only [ne_eq, decide_eq_true_eq]
  rintro rfl
  exact notMem_zpad ' ' digitVal_space _ _ hc

theorem filter_join (parts : List UInt8) :
    (join [' '] (parts.map hex2)).filter (· ≠ ' ') = (parts.map hex2).flatten := by
  induction parts with
  | nil => rfl
  | cons p ps ih =>
    cases ps with
    | nil => simpa [join] using filter_hex2 p
    | cons q qs =>
      simp only [List.map_cons, join, List.filter_append, List.flatten_cons] at ih ⊢
      rw [ih, filter_hex2]
      simp

theorem join_length (parts : List UInt8) :
    (join [' '] (parts.map hex2)).length = 3 * parts.length - 1 := by
  induction parts with
  | nil => rfl
  | cons p ps ih =>
    cases ps with
    | nil => simp [join, hex2_length]
    | cons q qs =>
      simp only [List.map_cons, join, List.length_append, hex2_length, List.length_cons,
        List.length_nil] at ih ⊢
      omega

theorem filter_replicate_space (n : Nat) : (List.replicate n ' ').filter (· ≠ ' ') = [] := by
  rw [List.filter_eq_nil_iff]
  intro c hc
  simp [List.eq_of_mem_replicate hc]

theorem hexString_length (block : Bytes) (h : block.length ≤ 16) (hne : block ≠ []) :
    (hexString block).length = 48 := by
  have hpos := List.length_pos_iff.mpr hne
  have e1 : slice (block.map hex2) 0 8 = (block.take 8).map hex2 := by simp [slice, List.map_take]
  have e2 : slice (block.map hex2) 8 16 = (block.drop 8).map hex2 := by
    unfold slice
    rw [List.take_of_length_le (by simpa using h), List.map_drop]
  unfold hexString
  simp only [e1, e2, List.length_append, join_length, List.length_take, List.length_drop,
    List.length_cons, List.length_nil]
  split
  · simp; omega
  · split <;> simp <;> omega

theorem hexString_filter (block : Bytes) (h : block.length ≤ 16) :
    (hexString block).filter (· ≠ ' ') = (block.map hex2).flatten := by
  have e1 : slice (block.map hex2) 0 8 = (block.take 8).map hex2 := by simp [slice, List.map_take]
  have e2 : slice (block.map hex2) 8 16 = (block.drop 8).map hex2 := by
    unfold slice
    rw [List.take_of_length_le (by simpa using h), List.map_drop]
  have e3 : ∀ ws : List Char, ws.filter (· ≠ ' ') = [] →
      (join [' '] (slice (block.map hex2) 0 8) ++ [' ', ' '] ++
        join [' '] (slice (block.map hex2) 8 16) ++ ws).filter (· ≠ ' ') =
      (block.map hex2).flatten := by
    intro ws hws
    rw [e1, e2]
    simp only [List.filter_append, filter_join, hws]
    have : [' ', ' '].filter (· ≠ ' ') = [] := by decide
    rw [this, List.append_nil, List.append_nil, ← List.flatten_append, ← List.map_append,
      List.take_append_drop]
  unfold hexString
  apply e3
  split
  · rfl
  · split <;> exact filter_replicate_space _

theorem decodePairs_hex (block : Bytes) : decodePairs (block.map hex2).flatten = some block := by
  induction block with
  | nil => rfl
  | cons b bs ih =>
    rw [List.map_cons, List.flatten_cons]
    have hl := hex2_length b
    have hp := hex2_parse b
    match hx : hex2 b, hl with
    | [x, y], _ =>
      rw [hx] at hp
      simp only [List.cons_append, List.nil_append, decodePairs, hp, ih]
      simp

theorem hexString_inj (a b : Bytes) (ha : a.length ≤ 16) (hb : b.length ≤ 16)
    (h : hexString a = hexString b) : a = b := by
  have h1 := decodePairs_hex a
  have h2 := decodePairs_hex b
  rw [← hexString_filter a ha, h, hexString_filter b hb, h2] at h1
  exact (Option.some.inj h1).symm

/-- The text of a line. -/
def render : Line → List Char
  | .gap => ['.', '.', '.']
  | .row offset bytes => rowText offset bytes

/-- The lines of the dump before they are rendered. -/
def lineLoop (dataSize index : Nat) (rest : Bytes) (inGroup : Bool)
    (previous : Option Bytes) : List Line :=
  if h : rest = [] then []
  else
    if previous = some (rest.take 16) ∧ index + 16 < dataSize then
      if inGroup then lineLoop dataSize (index + 16) (rest.drop 16) true previous
      else .gap :: lineLoop dataSize (index + 16) (rest.drop 16) true previous
    else .row index (rest.take 16) ::
      lineLoop dataSize (index + 16) (rest.drop 16) false (some (rest.take 16))
termination_by rest.length
decreasing_by
  all_goals
    have := List.length_pos_iff.mpr h
    simp only [List.length_drop]
    omega

theorem dumpLoop_eq (dataSize index : Nat) (rest : Bytes) (g : Bool) (previous : Option Bytes)
    (hp : ∀ b, previous = some b → b.length ≤ 16) :
    dumpLoop dataSize index rest g (previous.map hexString) =
      (lineLoop dataSize index rest g previous).map render := by
  fun_induction lineLoop dataSize index rest g previous with
  | case1 => simp [dumpLoop]
  | case2 index rest previous h hc ih =>
    rw [dumpLoop]
    have hc' : previous.map hexString = some (hexString (rest.take 16)) := by rw [hc.1]; rfl
    simp only [h, dite_false, hc', hc.2, and_self, if_true]
    rw [← hc']
    exact ih hp
  | case3 index rest g previous h hc hg ih =>
    rw [dumpLoop]
    have hc' : previous.map hexString = some (hexString (rest.take 16)) := by rw [hc.1]; rfl
    simp only [h, dite_false, hc', hc.2, and_self, if_true, hg]
    rw [← hc', ih hp]
    rfl
  | case4 index rest g previous h hc ih =>
    rw [dumpLoop]
    have hc' : ¬ (previous.map hexString = some (hexString (rest.take 16)) ∧ index + 16 < dataSize) := by
      rintro ⟨h1, h2⟩
      apply hc
      refine ⟨?_, h2⟩
      cases hprev : previous with
      | none => rw [hprev] at h1; cases h1
      | some b =>
        rw [hprev] at h1
        simp only [Option.map_some, Option.some.injEq] at h1
        rw [hexString_inj b (rest.take 16) (hp b hprev) (by simp; omega) h1]
    simp only [h, dite_false, hc', if_false, List.map_cons, render]
    rw [← ih (by intro b hb; cases hb; simp; omega)]
    rfl

theorem takeWhile_append_space (p rest : List Char) (hp : ' ' ∉ p) :
    (p ++ ' ' :: rest).takeWhile (· ≠ ' ') = p ∧ (p ++ ' ' :: rest).dropWhile (· ≠ ' ') = ' ' :: rest := by
  induction p with
  | nil => simp
  | cons x p ih =>
    simp only [List.mem_cons, not_or] at hp
    have hx : x ≠ ' ' := fun e => hp.1 e.symm
    have := ih hp.2
    simp only [List.cons_append, List.takeWhile_cons, List.dropWhile_cons, ne_eq, hx,
      not_false_eq_true, decide_true, if_true]
    exact ⟨by rw [this.1], this.2⟩

theorem parseLine_row (index : Nat) (block : Bytes) (h : block.length ≤ 16) (hne : block ≠ []) :
    parseLine (rowText index block) = some (.row index block) := by
  have htext : rowText index block = '0' :: 'x' :: (zpad 8 (digits 16 index) ++ ' ' :: ' ' ::
      (hexString block ++ ' ' :: ' ' :: block.map printable)) := by
    simp [rowText]
  obtain ⟨h1, h2⟩ := takeWhile_append_space (zpad 8 (digits 16 index))
    (' ' :: (hexString block ++ ' ' :: ' ' :: block.map printable)) (notMem_zpad ' ' digitVal_space _ _)
  have hlen := hexString_length block h hne
  have h3 : (hexString block ++ ' ' :: ' ' :: block.map printable).take 48 = hexString block := by
    rw [← hlen]; simp
  have h4 : (hexString block ++ ' ' :: ' ' :: block.map printable).drop 48 =
      ' ' :: ' ' :: block.map printable := by
    rw [← hlen]; simp
  rw [htext]
  unfold parseLine
  simp only [h1, h2, h3, h4, parse_zpad_digits 16 index 8 (by decide) (by decide),
    hexString_filter block h, decodePairs_hex, hlen, List.length_map, and_self, if_true]

theorem lineLoop_rows (dataSize index : Nat) (rest : Bytes) (g : Bool) (previous : Option Bytes)
    (l : Line) (hl : l ∈ lineLoop dataSize index rest g previous) :
    l = .gap ∨ ∃ i b, l = .row i b ∧ b.length ≤ 16 ∧ b ≠ [] := by
  fun_induction lineLoop dataSize index rest g previous with
  | case1 => simp at hl
  | case2 _ _ _ _ _ ih => exact ih hl
  | case3 _ _ _ _ _ _ _ ih =>
    rcases List.mem_cons.mp hl with h | h
    · exact Or.inl h
    · exact ih h
  | case4 index rest _ _ h _ ih =>
    rcases List.mem_cons.mp hl with h' | h'
    · refine Or.inr ⟨index, rest.take 16, h', by simp; omega, ?_⟩
      intro e
      rw [List.take_eq_nil_iff] at e
      simp [h] at e
    · exact ih h'

theorem parseLines_render (ls : List Line)
    (h : ∀ l ∈ ls, l = .gap ∨ ∃ i b, l = .row i b ∧ b.length ≤ 16 ∧ b ≠ []) :
    parseLines (ls.map render) = some ls := by
  induction ls with
  | nil => rfl
  | cons l ls ih =>
    have ih' := ih fun x hx => h x (List.mem_cons_of_mem _ hx)
    rcases h l List.mem_cons_self with rfl | ⟨i, b, rfl, hb, hne⟩
    · simp [parseLines, render, ih', parseLine]
    · simp [parseLines, render, ih', parseLine_row i b hb hne]

theorem rebuild_lineLoop (dataSize index : Nat) (rest : Bytes) (g : Bool) (previous : Option Bytes)
    (hsize : index + rest.length = dataSize ∨ rest = []) (acc prev : Bytes) (k : Nat)
    (hprev : ∀ p, previous = some p → p = prev)
    (hacc : index = acc.length + 16 * k ∨ rest = [])
    (hg : if g then prev.length = 16 ∧ rest ≠ [] ∧ previous = some prev else k = 0) :
    rebuild (lineLoop dataSize index rest g previous) acc prev g =
      some (acc ++ (List.replicate k prev).flatten ++ rest) := by
  fun_induction lineLoop dataSize index rest g previous generalizing acc prev k with
  | case1 index g previous =>
    cases g with
    | true => simp at hg
    | false => simp at hg; simp [rebuild, hg]
  | case2 index rest previous h hc ih =>
    simp only [if_true] at hg
    have hsz : index + rest.length = dataSize := by rcases hsize with h' | h'; exact h'; exact absurd h' h
    have hac : index = acc.length + 16 * k := by rcases hacc with h' | h'; exact h'; exact absurd h' h
    have hprev' := hprev _ hc.1
    have hd : rest.drop 16 ≠ [] := by
      intro e; rw [List.drop_eq_nil_iff] at e; omega
    rw [ih (Or.inl (by simp; omega)) acc prev (k + 1) hprev (Or.inl (by omega)) (by simp [hg, hd])]
    congr 1
    rw [List.replicate_succ', List.flatten_append, ← hprev']
    simp [List.append_assoc]
  | case3 index rest g previous h hc hgf ih =>
    have hgf' : g = false := by simpa using hgf
    subst hgf'
    simp only [Bool.false_eq_true, if_false] at hg
    subst hg
    have hsz : index + rest.length = dataSize := by rcases hsize with h' | h'; exact h'; exact absurd h' h
    have hac : index = acc.length + 16 * 0 := by rcases hacc with h' | h'; exact h'; exact absurd h' h
    have hprev' := hprev _ hc.1
    have hd : rest.drop 16 ≠ [] := by
      intro e; rw [List.drop_eq_nil_iff] at e; omega
    have hpl : prev.length = 16 := by rw [← hprev']; simp; omega
    rw [rebuild]
    simp only [Bool.false_eq_true, if_false]
    rw [ih (Or.inl (by simp; omega)) acc prev 1 hprev (Or.inl (by omega))
      (by rw [if_pos rfl]; exact ⟨hpl, hd, by rw [hc.1, hprev']⟩)]
    rw [← hprev']
    simp
  | case4 index rest g previous h hc ih =>
    have hsz : index + rest.length = dataSize := by rcases hsize with h' | h'; exact h'; exact absurd h' h
    have hac : index = acc.length + 16 * k := by rcases hacc with h' | h'; exact h'; exact absurd h' h
    have hfill : (if g then acc ++ (List.replicate ((index - acc.length) / 16) prev).flatten else acc) =
        acc ++ (List.replicate k prev).flatten := by
      cases g with
      | true =>
        have : (index - acc.length) / 16 = k := by omega
        simp [this]
      | false => simp at hg; simp [hg]
    have hlen : (acc ++ (List.replicate k prev).flatten).length = index := by
      cases g with
      | true =>
        simp only [if_true] at hg
        simp [hg.1]; omega
      | false => simp at hg; simp [hg]; omega
    rw [rebuild]
    simp only [hfill, hlen, if_true]
    rw [ih ?_ _ _ 0 (by intro p hp; cases hp; rfl) ?_ (by simp)]
    · simp [List.append_assoc]
    · by_cases hr : rest.length ≤ 16
      · right; simp [hr]
      · left; simp; omega
    · by_cases hr : rest.length ≤ 16
      · right; simp [hr]
      · left
        rw [List.length_append, hlen, List.length_take]
        omega

theorem newline_notMem_render (l : Line) (hl : l = .gap ∨ ∃ i b, l = .row i b ∧ b.length ≤ 16 ∧ b ≠ []) :
    '\n' ∉ render l := by
  have hprint : ∀ b : UInt8, printable b ≠ '\n' := by
    intro b
    have : ∀ k : Fin 256, printable (UInt8.ofNat k.val) ≠ '\n' := by decide +kernel
    have := this ⟨b.toNat, b.toNat_lt⟩
    simpa using this
  have hjoin : ∀ bs : Bytes, '\n' ∉ join [' '] (bs.map hex2) := by
    intro bs
    induction bs with
    | nil => simp [join]
    | cons p ps ih =>
      cases ps with
      | nil => simpa [join, hex2] using notMem_zpad '\n' digitVal_newline 2 p.toNat
      | cons q qs =>
        simp only [List.map_cons, join, List.mem_append, not_or] at ih ⊢
        exact ⟨⟨notMem_zpad '\n' digitVal_newline 2 p.toNat, by simp⟩, ih⟩
  rcases hl with rfl | ⟨i, b, rfl, hb, hne⟩
  · simp [render]
  · have e1 : slice (b.map hex2) 0 8 = (b.take 8).map hex2 := by simp [slice, List.map_take]
    have e2 : slice (b.map hex2) 8 16 = (b.drop 8).map hex2 := by
      unfold slice
      rw [List.take_of_length_le (by simpa using hb), List.map_drop]
    simp only [render, rowText, hexString, e1, e2, List.mem_append, not_or]
    refine ⟨⟨⟨⟨⟨by decide, notMem_zpad '\n' digitVal_newline _ _⟩, by decide⟩,
      ⟨⟨hjoin _, by decide⟩, hjoin _⟩, ?_⟩, by decide⟩, ?_⟩
    · split
      · simp
      · split <;> (intro hm; have := List.eq_of_mem_replicate hm; exact absurd this (by decide))
    · intro hm
      obtain ⟨x, _, hx⟩ := List.mem_map.mp hm
      exact hprint x hx

/-- C08.  The dump of any data can be read back: nothing is lost, the offsets are true, and
a gap stands for copies of the row before it. -/
theorem C08_dump_is_lossless (data : Bytes) : undump (dump data) = some data := by
  have hloop := dumpLoop_eq data.length 0 data false none (by simp)
  simp only [Option.map_none] at hloop
  have hrows := lineLoop_rows data.length 0 data false none
  generalize hls : lineLoop data.length 0 data false none = ls at hloop hrows
  have hsplit : splitOn '\n' (dump data) = ls.map render ++ [[], []] := by
    unfold dump
    rw [hloop]
    apply splitOn_join
    · simp
    · intro p hp
      rcases List.mem_append.mp hp with h | h
      · obtain ⟨l, hl, rfl⟩ := List.mem_map.mp h
        exact newline_notMem_render l (hrows l hl)
      · simp at h; simp [h]
  unfold undump
  rw [hsplit]
  simp only [List.reverse_append, List.reverse_cons, List.reverse_nil, List.nil_append,
    List.cons_append, List.reverse_reverse]
  rw [parseLines_render ls hrows]
  simp only
  rw [← hls, rebuild_lineLoop data.length 0 data false none (by simp) [] [] 0 (by simp) (by simp)
    (by simp)]
  simp

theorem printable_eq (b : UInt8) : printable b = shown b := by
  unfold printable shown
  split <;> split <;> first | rfl | omega

/-- C08.  Every line of a dump is the gap marker or a row with the fixed layout: the offset
of a multiple of sixteen, a column of 48 characters, and one character per byte. -/
theorem C08_rows_are_aligned (data : Bytes) (l : List Char)
    (hl : l ∈ dumpLoop data.length 0 data false none) :
    l = ['.', '.', '.'] ∨ ∃ (i : Nat) (column text : List Char), i % 16 = 0 ∧ i < data.length ∧
      column.length = 48 ∧ text = ((data.drop i).take 16).map shown ∧
      l = ['0', 'x'] ++ zpad 8 (digits 16 i) ++ [' ', ' '] ++ column ++ [' ', ' '] ++ text := by
  suffices h : ∀ (index : Nat) (rest : Bytes) (g : Bool) (prev : Option (List Char)),
      index % 16 = 0 → (rest = data.drop index) → l ∈ dumpLoop data.length index rest g prev →
      l = ['.', '.', '.'] ∨ ∃ (i : Nat) (column text : List Char), i % 16 = 0 ∧ i < data.length ∧
      column.length = 48 ∧ text = ((data.drop i).take 16).map shown ∧
      l = ['0', 'x'] ++ zpad 8 (digits 16 i) ++ [' ', ' '] ++ column ++ [' ', ' '] ++ text from
    h 0 data false none rfl (by simp) hl
  intro index rest g prev
  generalize hn : data.length = n
  fun_induction dumpLoop n index rest g prev with
  | case1 => simp
  | case2 index rest prev h block string hc ih =>
    intro hi hr hm
    exact ih (by omega) (by rw [hr, List.drop_drop]) hm
  | case3 index rest g prev h block string hc hg ih =>
    intro hi hr hm
    rcases List.mem_cons.mp hm with h' | h'
    · exact Or.inl h'
    · exact ih (by omega) (by rw [hr, List.drop_drop]) h'
  | case4 index rest g prev h block string hc ih =>
    intro hi hr hm
    rcases List.mem_cons.mp hm with h' | h'
    · right
      have hb : block ≠ [] := by
        intro e
        simp only [block, List.take_eq_nil_iff] at e
        simp [h] at e
      have hrl : rest.length = n - index := by rw [hr, List.length_drop, hn]
      have hpos := List.length_pos_iff.mpr h
      refine ⟨index, hexString block, block.map printable, hi, by omega,
        hexString_length block (by simp [block]; omega) hb, by rw [← hr, funext printable_eq], h'⟩
    · exact ih (by omega) (by rw [hr, List.drop_drop]) h'

/-- There are such lines: a row, and a gap in the middle of equal rows. -/
example : dumpLoop 1 0 [65] false none = [rowText 0 [65]] ∧
    dumpLoop 48 16 (List.replicate 32 0) false (some (hexString (List.replicate 16 0))) =
      [['.', '.', '.'], rowText 32 (List.replicate 16 0)] := by
  refine ⟨by simp [dumpLoop], ?_⟩
  rw [dumpLoop, dumpLoop]
  simp
  simp [dumpLoop]

end Dtf.HexDump
