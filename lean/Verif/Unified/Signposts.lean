import Verif.Unified.Printf

/-!
# Characters, signpost values and mask hashes in messages (C144, C145, C146)
-/

namespace Dtf.Signposts
open Py Formats Text Unified

/-! ## C144: characters

The model is `decodeUnsigned` and `pyInteger` of Printf.lean. -/

/-- A conversion of `%c` by printf (C11 7.21.6.1): the argument is converted to an unsigned char and
written, padded to the width. -/
def cCharacter (flags : List Char) (width n : Nat) : List Char :=
  let c := Char.ofNat (n % 256)
  if '-' ∈ flags then c :: List.replicate (width - 1) ' ' else List.replicate (width - 1) ' ' ++ [c]

/-- The claim that `%c` shows what printf shows. -/
def C144_character_claim : Prop :=
  ∀ (flags : List Char) (w k n : Nat), flags ∈ [[], ['-']] → k ∈ [1, 2, 4, 8] → n < 256 ^ k →
    decodeUnsigned (operator flags w none [] 'c') (leBytes k n) = some (cCharacter flags w n)

/-- The format specification of a character. -/
theorem parse_character (flags : List Char) (w : Nat) (hf : flags ∈ [[], ['-']]) :
    parseSpec (pythonFormat (operator flags w none [] 'c')) =
      some ⟨' ', none, if flags = [] then none else some '-', false, w, none, some 'c'⟩ := by
  have ht : pythonFormat (operator flags w none [] 'c') =
      Parts.text ⟨none, if flags = [] then none else some '-', false, false, w, none, 'c'⟩ := by
    simp only [List.mem_cons, List.not_mem_nil, or_false] at hf
    rcases hf with rfl | rfl <;>
    · unfold pythonFormat operator Parts.text
      by_cases hw : w = 0 <;> simp [hw, pythonSpecifier]
  rw [ht, parseSpec_text _ ⟨by simp, by
    intro c hc
    dsimp only at hc
    split at hc
    · simp at hc
    · simp only [Option.some.injEq] at hc
      subst hc
      decide, by simp⟩]
  rfl

/-- What the decoder makes of a character without flags. -/
theorem decode_character (w k n : Nat) (hk : k ∈ [1, 2, 4, 8]) (hn : n < 256 ^ k) :
    decodeUnsigned (operator [] w none [] 'c') (leBytes k n) =
      if 0x10ffff < n then none else if 0xd800 ≤ n ∧ n < 0xe000 then none
      else some (List.replicate (w - 1) ' ' ++ [Char.ofNat n]) := by
  unfold decodeUnsigned
  rw [if_neg (fun h => h (by rw [leBytes_length]; exact hk)), leNat_leBytes_of_lt k n hn,
    if_neg (by rintro ⟨_, h, _⟩; simp [operator] at h)]
  unfold formatInteger
  rw [parse_character [] w (by simp)]
  by_cases h1 : 0x10ffff < n
  · have : (1114111 : Int) < n := by exact_mod_cast h1
    simp [pyInteger, h1, this]
  · have a1 : ¬ (1114111 : Int) < n := by omega
    have a2 : ¬ (n : Int) < 0 := by omega
    by_cases h2 : 0xd800 ≤ n ∧ n < 0xe000
    · have b1 : (55296 : Int) ≤ n := by omega
      have b2 : (n : Int) < 57344 := by omega
      simp [pyInteger, h1, h2, a1, a2, b1, b2]
    · have b : ¬ ((55296 : Int) ≤ n ∧ (n : Int) < 57344) := by omega
      rw [if_neg h1, if_neg h2]
      simp [pyInteger, a1, a2, pyPad, pythonPrefix, operator]
      omega

/-- **C144** (partial): a character of which the number is less than 256 and that has no flags is shown
as printf does, with any width and stored in any size. -/
theorem C144_character_partial (w k n : Nat) (hk : k ∈ [1, 2, 4, 8]) (hn : n < 256) :
    decodeUnsigned (operator [] w none [] 'c') (leBytes k n) = some (cCharacter [] w n) := by
  have hn' : n < 256 ^ k := by
    simp only [List.mem_cons, List.not_mem_nil, or_false] at hk
    rcases hk with rfl | rfl | rfl | rfl <;> omega
  rw [decode_character w k n hk hn', if_neg (by omega), if_neg (by omega)]
  unfold cCharacter
  rw [Nat.mod_eq_of_lt hn]
  rfl

example : decodeUnsigned (operator [] 3 none [] 'c') (leBytes 4 0x41) = some "  A".toList := by
  rw [C144_character_partial 3 4 0x41 (by decide) (by decide)]
  decide

/-- **C144**: the values for which `%c` raises an exception: a negative character, which is passed as
a negative integer, is one of them. -/
theorem C144_negative_fails (w k n : Nat) (hk : k ∈ [4, 8]) (h1 : 0 < n) (h2 : n ≤ 128) :
    decodeUnsigned (operator [] w none [] 'c') (leBytes k (256 ^ k - n)) = none := by
  have hlt : 256 ^ k - n < 256 ^ k ∧ 0x10ffff < 256 ^ k - n := by
    simp only [List.mem_cons, List.not_mem_nil, or_false] at hk
    rcases hk with rfl | rfl <;> omega
  rw [decode_character w k _ (by revert hk; simp; omega) hlt.1, if_pos hlt.2]

/-- **C144**: `%-c` raises an exception for all values. -/
theorem C144_left_fails (w k n : Nat) (hk : k ∈ [1, 2, 4, 8]) :
    decodeUnsigned (operator ['-'] w none [] 'c') (leBytes k n) = none := by
  unfold decodeUnsigned
  rw [if_neg (fun h => h (by rw [leBytes_length]; exact hk)),
    if_neg (by rintro ⟨_, h, _⟩; simp [operator] at h)]
  unfold formatInteger
  rw [parse_character ['-'] w (by simp)]
  simp [pyInteger]

/-- **C144** is false: the character 0xe9 of a signed type. -/
theorem C144_character_claim_false : ¬ C144_character_claim := by
  intro h
  have h1 := h [] 0 4 (256 ^ 4 - 23) (by decide) (by decide) (by decide)
  rw [C144_negative_fails 0 4 23 (by decide) (by decide) (by decide)] at h1
  exact absurd h1 (by simp)

/-- **C144** is false for values that are too large for a char: all of the value is used. -/
theorem C144_wide : decodeUnsigned (operator [] 0 none [] 'c') (leBytes 4 0x141) = some ['Ł'] ∧
    cCharacter [] 0 0x141 = ['A'] := by
  rw [decode_character 0 4 0x141 (by decide) (by decide)]
  decide

/-! ## C145: signpost values -/

/-- The decoders of signpost values that there are (unified_logging.py 2563-2583). -/
inductive Kind where
  | attribute | beginTime | endTime | number1 | number2 | number3 | string1 | string2
deriving DecidableEq, Repr

def Kind.all : List Kind :=
  [.attribute, .beginTime, .endTime, .number1, .number2, .number3, .string1, .string2]

theorem Kind.mem_all (k : Kind) : k ∈ Kind.all := by cases k <;> decide

/-- The name in the text (unified_logging.py 1644-1646, 1684-1687, 1783-1786, 1820-1823). -/
def Kind.name : Kind → List Char
  | .attribute => "signpost.description#____#attribute".toList
  | .beginTime => "signpost.description#____#begin_time".toList
  | .endTime => "signpost.description#____#end_time".toList
  | .number1 => "signpost.telemetry#____#number1".toList
  | .number2 => "signpost.telemetry#____#number2".toList
  | .number3 => "signpost.telemetry#____#number3".toList
  | .string1 => "signpost.telemetry#____#string1".toList
  | .string2 => "signpost.telemetry#____#string2".toList

/-- The name under which the decoder is registered, as format strings have it (unified_logging.py
2561-2584). -/
def Kind.decoder : Kind → List Char
  | .attribute => "signpost.description:attribute".toList
  | .beginTime => "signpost.description:begin_time".toList
  | .endTime => "signpost.description:end_time".toList
  | .number1 => "signpost.telemetry:number1".toList
  | .number2 => "signpost.telemetry:number2".toList
  | .number3 => "signpost.telemetry:number3".toList
  | .string1 => "signpost.telemetry:string1".toList
  | .string2 => "signpost.telemetry:string2".toList

/-- The name and the value with the marks around them. -/
def mark (k : Kind) (value : List Char) : List Char :=
  "__##__".toList ++ (k.name ++ ("#_##_#".toList ++ (value ++ "##__##".toList)))

/-- `value.decode("utf-8").rstrip("\x00")`. -/
def stripped (s : List Char) : List Char := (s.reverse.dropWhile (· = '\x00')).reverse

/-- `_GetStringValue` of the attribute and number decoders (unified_logging.py 1562-1627, 1703-1768,
which are the same); nothing for an exception.  The decoding of UTF-8 and the text of floating-point
numbers, by their size and bits, are parameters. -/
def stringValue (utf8 : Bytes → Option (List Char)) (float : Nat → Nat → List Char) (o : Option Operator)
    (value : Bytes) : Option (List Char) :=
  let specifier := (o.map Operator.specifier).getD 's'
  if value = [] then some []
  else if specifier ∈ ['a', 'A', 'e', 'E', 'f', 'F', 'g', 'G'] then
    if value.length ∉ [4, 8] then some unsupportedValue else some (float value.length (leNat value))
  else if specifier ∈ ['c', 'C', 'o', 'O', 'p', 'u', 'U', 'x', 'X'] then
    if value.length ∉ [1, 2, 4, 8] then some unsupportedValue
    else match o with
      | some o => formatInteger o (leNat value)
      | none => some (digits 10 (leNat value))
  else if specifier ∈ ['d', 'D', 'i', 'm'] then
    if value.length ∉ [1, 2, 4, 8] then some unsupportedValue
    else match o with
      | some o => formatInteger o (signed value.length (leNat value))
      | none => some (digits 10 (leNat value))
  else if specifier ∈ ['@', 's', 'S'] then
    match utf8 value with
    | none => some unsupportedValue
    | some s =>
      match o with
      | some o => formatText o (stripped s)
      | none => some (stripped s)
  else some unsupportedValue

/-- `FormatValue` (unified_logging.py 1629-1646, 1662-1687, 1770-1786, 1802-1823). -/
def formatValue (utf8 : Bytes → Option (List Char)) (float : Nat → Nat → List Char) (k : Kind)
    (o : Option Operator) (value : Bytes) : Option (List Char) :=
  if k ∈ [.beginTime, .endTime] then
    if value.length ≠ 8 then some unsupportedValue else some (mark k (digits 10 (leNat value)))
  else if k ∈ [.string1, .string2] then
    match utf8 value with
    | none => some unsupportedValue
    | some s => some (mark k (stripped s))
  else (stringValue utf8 float o value).map (mark k)

/-- No name with its mark is the start of another. -/
theorem names_differ : ∀ k ∈ Kind.all, ∀ l ∈ Kind.all, k ≠ l →
    (k.name ++ "#_##_#".toList).take (min (k.name.length + 6) (l.name.length + 6)) ≠
    (l.name ++ "#_##_#".toList).take (min (k.name.length + 6) (l.name.length + 6)) := by
  decide +kernel

theorem same_name (k l : Kind) (a b : List Char)
    (h : k.name ++ ("#_##_#".toList ++ a) = l.name ++ ("#_##_#".toList ++ b)) : k = l ∧ a = b := by
  by_cases hkl : k = l
  · subst hkl
    exact ⟨rfl, List.append_cancel_left (List.append_cancel_left h)⟩
  · exfalso
    refine names_differ k k.mem_all l l.mem_all hkl ?_
    have h' := congrArg (List.take (min (k.name.length + 6) (l.name.length + 6))) h
    rw [← List.append_assoc k.name, ← List.append_assoc l.name] at h'
    have e1 : (k.name ++ "#_##_#".toList).length = k.name.length + 6 := by rw [List.length_append]; rfl
    have e2 : (l.name ++ "#_##_#".toList).length = l.name.length + 6 := by rw [List.length_append]; rfl
    rw [List.take_append_of_le_length (l₁ := k.name ++ "#_##_#".toList) (by rw [e1]; omega),
      List.take_append_of_le_length (l₁ := l.name ++ "#_##_#".toList) (by rw [e2]; omega)] at h'
    exact h'

/-- **C145** (names): the text of a value of any kind has the name of the decoder that the format string
asks for, with `#____#` in place of the colon. -/
theorem C145_name (k : Kind) (value : List Char) : mark k value =
    "__##__".toList ++ (k.decoder.flatMap (fun c => if c = ':' then "#____#".toList else [c]) ++
      ("#_##_#".toList ++ (value ++ "##__##".toList))) := by
  have h : ∀ k ∈ Kind.all, k.decoder.flatMap (fun c => if c = ':' then "#____#".toList else [c]) = k.name := by
    decide +kernel
  rw [h k k.mem_all]
  rfl

/-- **C145** (no loss): the text of a signpost value determines the kind of the value and its text. -/
theorem C145_marks (k l : Kind) (a b : List Char) (h : mark k a = mark l b) : k = l ∧ a = b := by
  obtain ⟨hk, hab⟩ := same_name k l _ _ (List.append_cancel_left h)
  exact ⟨hk, List.append_cancel_right hab⟩

/-- **C145** (times): a time is shown in full, and different times differently. -/
theorem C145_time (utf8 : Bytes → Option (List Char)) (float : Nat → Nat → List Char) (k : Kind)
    (hk : k = .beginTime ∨ k = .endTime) (o : Option Operator) (n : Nat) (hn : n < 2 ^ 64) :
    formatValue utf8 float k o (leBytes 8 n) = some (mark k (dec n)) := by
  unfold formatValue
  rw [if_pos (by rcases hk with rfl | rfl <;> decide), if_neg (by rw [leBytes_length]; decide),
    leNat_leBytes_of_lt 8 n (by omega)]
  rfl

/-- The decoders that use the operator. -/
def Kind.formatted (k : Kind) : Prop := k ∈ [Kind.attribute, .number1, .number2, .number3]

theorem formatted_eq (utf8 : Bytes → Option (List Char)) (float : Nat → Nat → List Char) (k : Kind)
    (hk : k.formatted) (o : Option Operator) (value : Bytes) :
    formatValue utf8 float k o value = (stringValue utf8 float o value).map (mark k) := by
  unfold Kind.formatted at hk
  unfold formatValue
  cases k <;> first | rfl | exact absurd hk (by decide)

theorem leBytes_ne_nil (k n : Nat) (hk : k ∈ [1, 2, 4, 8]) : leBytes k n ≠ [] := by
  intro h
  have := congrArg List.length h
  rw [leBytes_length] at this
  subst this
  exact absurd hk (by decide)

/-- **C145** (signed): a signed integer is shown between the marks as printf shows it. -/
theorem C145_signed (utf8 : Bytes → Option (List Char)) (float : Nat → Nat → List Char) (kind : Kind)
    (hkind : kind.formatted) (k : Nat) (hk : k ∈ [1, 2, 4, 8]) (i : Int) (h1 : -(256 ^ k : Nat) ≤ 2 * i)
    (h2 : 2 * i < (256 ^ k : Nat)) (flags modifier : List Char) (w : Nat) (s : Char)
    (hf : flags ∈ integerFlags) (hs : s ∈ signedSpecifiers) :
    formatValue utf8 float kind (some (operator flags w none modifier s)) (leBytes k (unsigned k i)) =
      some (mark kind (cInteger flags w none s i)) := by
  have hs' : s ∉ ['a', 'A', 'e', 'E', 'f', 'F', 'g', 'G'] ∧
      s ∉ ['c', 'C', 'o', 'O', 'p', 'u', 'U', 'x', 'X'] ∧ s ∈ ['d', 'D', 'i', 'm'] := by
    have a : ∀ s ∈ signedSpecifiers, s ∉ ['a', 'A', 'e', 'E', 'f', 'F', 'g', 'G'] ∧
      s ∉ ['c', 'C', 'o', 'O', 'p', 'u', 'U', 'x', 'X'] ∧ s ∈ ['d', 'D', 'i', 'm'] := by decide
    exact a s hs
  have hv := C85_signed k hk i h1 h2 flags modifier w s hf hs
  have hl : ¬ (leBytes k (unsigned k i)).length ∉ [1, 2, 4, 8] := by
    rw [leBytes_length]; exact fun h => h hk
  unfold decodeSigned at hv
  rw [if_neg hl] at hv
  rw [formatted_eq _ _ _ hkind]
  unfold stringValue
  rw [if_neg (leBytes_ne_nil k _ hk),
    show (Option.map Operator.specifier (some (operator flags w none modifier s))).getD 's' = s from rfl]
  rw [if_neg hs'.1, if_neg hs'.2.1, if_pos hs'.2.2, if_neg hl]
  dsimp only
  rw [hv]
  rfl

/-- **C145** (unsigned): an unsigned integer is shown between the marks as printf shows it. -/
theorem C145_unsigned (utf8 : Bytes → Option (List Char)) (float : Nat → Nat → List Char) (kind : Kind)
    (hkind : kind.formatted) (k : Nat) (hk : k ∈ [1, 2, 4, 8]) (n : Nat) (h : n < 256 ^ k)
    (flags modifier : List Char) (w : Nat) (s : Char) (hs : s ∈ unsignedSpecifiers)
    (hf : flags ∈ unsignedFlags ∨ (s ∈ ['x', 'X'] ∧ flags ∈ hexadecimalFlags ∧ n ≠ 0)) :
    formatValue utf8 float kind (some (operator flags w none modifier s)) (leBytes k n) =
      some (mark kind (cInteger flags w none s n)) := by
  have hs' : s ∉ ['a', 'A', 'e', 'E', 'f', 'F', 'g', 'G'] ∧
      s ∈ ['c', 'C', 'o', 'O', 'p', 'u', 'U', 'x', 'X'] := by
    have a : ∀ s ∈ unsignedSpecifiers, s ∉ ['a', 'A', 'e', 'E', 'f', 'F', 'g', 'G'] ∧
      s ∈ ['c', 'C', 'o', 'O', 'p', 'u', 'U', 'x', 'X'] := by decide
    exact a s hs
  have hl : ¬ (leBytes k n).length ∉ [1, 2, 4, 8] := by
    rw [leBytes_length]; exact fun h => h hk
  rw [formatted_eq _ _ _ hkind]
  unfold stringValue
  rw [if_neg (leBytes_ne_nil k _ hk),
    show (Option.map Operator.specifier (some (operator flags w none modifier s))).getD 's' = s from rfl]
  rw [if_neg hs'.1, if_pos hs'.2, if_neg hl, leNat_leBytes_of_lt k n h]
  dsimp only
  rw [C84_unsigned_partial flags modifier w n s hs hf]
  rfl

/-- **C145** (text): the attribute and number decoders show a string as printf does. -/
theorem C145_text (utf8 : Bytes → Option (List Char)) (float : Nat → Nat → List Char) (kind : Kind)
    (hkind : kind.formatted) (value : Bytes) (t : List Char) (k : Nat)
    (flags : List Char) (w : Nat) (p : Option Nat) (s : Char) (hne : value ≠ [])
    (hu : utf8 value = some (t ++ List.replicate k '\x00')) (hl : t.getLast? ≠ some '\x00')
    (hs : s ∈ stringSpecifiers) (hf : flags = [] ∨ flags = ['-'])
    (h : p = none ∨ (w = 0 ∧ p ≠ some 0)) :
    formatValue utf8 float kind (some (operator flags w p [] s)) value =
      some (mark kind (cString flags w p t)) := by
  have hs' : s ∉ ['a', 'A', 'e', 'E', 'f', 'F', 'g', 'G'] ∧
      s ∉ ['c', 'C', 'o', 'O', 'p', 'u', 'U', 'x', 'X'] ∧ s ∉ ['d', 'D', 'i', 'm'] ∧ s ∈ ['@', 's', 'S'] := by
    have a : ∀ s ∈ stringSpecifiers, s ∉ ['a', 'A', 'e', 'E', 'f', 'F', 'g', 'G'] ∧
      s ∉ ['c', 'C', 'o', 'O', 'p', 'u', 'U', 'x', 'X'] ∧ s ∉ ['d', 'D', 'i', 'm'] ∧
      s ∈ ['@', 's', 'S'] := by decide
    exact a s hs
  have hv := C85_string utf8 value t k flags w p s hne hu hl hs hf h
  unfold decodeText at hv
  rw [if_neg hne, hu] at hv
  dsimp only at hv
  rw [formatted_eq _ _ _ hkind]
  unfold stringValue
  rw [if_neg hne,
    show (Option.map Operator.specifier (some (operator flags w p [] s))).getD 's' = s from rfl]
  rw [if_neg hs'.1, if_neg hs'.2.1, if_neg hs'.2.2.1, if_pos hs'.2.2.2, hu]
  dsimp only
  rw [show stripped (t ++ List.replicate k '\x00') =
    ((t ++ List.replicate k '\x00').reverse.dropWhile (fun c => decide (c = '\x00'))).reverse from rfl, hv]
  rfl

theorem stripped_eq (t : List Char) (k : Nat) (hl : t.getLast? ≠ some '\x00') :
    stripped (t ++ List.replicate k '\x00') = t := by
  unfold stripped
  rw [List.reverse_append, List.reverse_replicate]
  rw [(takeWhile_append_stop (fun c : Char => decide (c = '\x00')) (List.replicate k '\x00') t.reverse
    (fun x hx => by simpa using List.eq_of_mem_replicate hx) (by
      intro c r hc
      have : t.getLast? = some c := by rw [← List.head?_reverse, hc]; rfl
      rw [this] at hl
      simpa using hl)).2, List.reverse_reverse]

/-- **C145** (telemetry strings): the text is shown without the zero characters after it. -/
theorem C145_string (utf8 : Bytes → Option (List Char)) (float : Nat → Nat → List Char) (kind : Kind)
    (hkind : kind = .string1 ∨ kind = .string2) (o : Option Operator) (value : Bytes) (t : List Char)
    (k : Nat) (hu : utf8 value = some (t ++ List.replicate k '\x00')) (hl : t.getLast? ≠ some '\x00') :
    formatValue utf8 float kind o value = some (mark kind t) := by
  unfold formatValue
  rw [if_neg (by rcases hkind with rfl | rfl <;> decide), if_pos (by rcases hkind with rfl | rfl <;> decide), hu]
  dsimp only
  rw [stripped_eq t k hl]

/-- **C145** (sizes): an integer of another size is reported as unsupported between the marks. -/
theorem C145_other_sizes (utf8 : Bytes → Option (List Char)) (float : Nat → Nat → List Char) (kind : Kind)
    (hkind : kind.formatted) (flags modifier : List Char) (w : Nat) (p : Option Nat) (s : Char)
    (hs : s ∈ signedSpecifiers ++ unsignedSpecifiers) (value : Bytes) (hne : value ≠ [])
    (h : value.length ∉ [1, 2, 4, 8]) :
    formatValue utf8 float kind (some (operator flags w p modifier s)) value =
      some (mark kind "<decode: unsupported value>".toList) := by
  have hs' : s ∉ ['a', 'A', 'e', 'E', 'f', 'F', 'g', 'G'] ∧
      (s ∈ ['c', 'C', 'o', 'O', 'p', 'u', 'U', 'x', 'X'] ∨
        (s ∉ ['c', 'C', 'o', 'O', 'p', 'u', 'U', 'x', 'X'] ∧ s ∈ ['d', 'D', 'i', 'm'])) := by
    have a : ∀ s ∈ signedSpecifiers ++ unsignedSpecifiers, s ∉ ['a', 'A', 'e', 'E', 'f', 'F', 'g', 'G'] ∧
      (s ∈ ['c', 'C', 'o', 'O', 'p', 'u', 'U', 'x', 'X'] ∨
        (s ∉ ['c', 'C', 'o', 'O', 'p', 'u', 'U', 'x', 'X'] ∧ s ∈ ['d', 'D', 'i', 'm'])) := by decide
    exact a s hs
  rw [formatted_eq _ _ _ hkind]
  unfold stringValue
  rw [if_neg hne,
    show (Option.map Operator.specifier (some (operator flags w p modifier s))).getD 's' = s from rfl]
  rw [if_neg hs'.1]
  rcases hs'.2 with h2 | ⟨h2, h3⟩
  · rw [if_pos h2, if_pos h]; rfl
  · rw [if_neg h2, if_pos h3, if_pos h]; rfl

/-- The claim that a signpost value in a message can be told from the text after it. -/
def C145_message_claim : Prop :=
  ∀ (utf8 : Bytes → Option (List Char)) (float : Nat → Nat → List Char) (k l : Kind) (o : Option Operator)
    (v u : Bytes) (s t rest more : List Char), formatValue utf8 float k o v = some s →
    formatValue utf8 float l o u = some t → s ++ rest = t ++ more → s = t

/-- **C145** (partial): it can when the texts do not have the character of the marks. -/
theorem C145_message_partial (k l : Kind) (a b rest more : List Char) (ha : '#' ∉ a) (hb : '#' ∉ b)
    (h : mark k a ++ rest = mark l b ++ more) : k = l ∧ a = b ∧ rest = more := by
  have e : ∀ (k : Kind) (x r : List Char), mark k x ++ r =
      "__##__".toList ++ (k.name ++ ("#_##_#".toList ++ (x ++ "##__##".toList ++ r))) := by
    intro k x r
    unfold mark
    rw [List.append_assoc, List.append_assoc, List.append_assoc]
  rw [e, e] at h
  have h1 := List.append_cancel_left h
  obtain ⟨hk, hab⟩ := same_name k l _ _ h1
  have key : ∀ (x r : List Char), '#' ∉ x →
      ((x ++ "##__##".toList ++ r).takeWhile (fun c => decide (c ≠ '#')) = x ∧
      (x ++ "##__##".toList ++ r).dropWhile (fun c => decide (c ≠ '#')) = "##__##".toList ++ r) := by
    intro x r hx
    rw [List.append_assoc]
    refine takeWhile_append_stop _ x _ (fun c hc => ?_) ?_
    · have : c ≠ '#' := by rintro rfl; exact hx hc
      simpa using this
    · intro c t hc
      have : '#' :: "#__##".toList ++ r = c :: t := hc
      simp only [List.cons_append, List.cons.injEq] at this
      rw [← this.1]
      decide
  have k1 := key a rest ha
  have k2 := key b more hb
  rw [hab] at k1
  have e : a = b := k1.1.symm.trans k2.1
  have e2 := k1.2.symm.trans k2.2
  exact ⟨hk, e, List.append_cancel_left e2⟩

/-- **C145** is false: a telemetry string with the end mark in it. -/
theorem C145_message_claim_false : ¬ C145_message_claim := by
  intro h
  have := h (fun b => some (b.map (fun c => Char.ofNat c.toNat))) (fun _ _ => []) .string1 .string1 none
    [] [0x23, 0x23, 0x5f, 0x5f, 0x23, 0x23, 0x61] _ _ "a##__##".toList [] rfl rfl (by decide +kernel)
  revert this
  decide +kernel

/-- The claim that a text is made of all values. -/
def C145_total_claim : Prop :=
  ∀ (utf8 : Bytes → Option (List Char)) (float : Nat → Nat → List Char) (k : Kind) (o : Operator)
    (v : Bytes), o.Valid → formatValue utf8 float k (some o) v ≠ none

/-- **C145** is false: a character that is negative raises an exception. -/
theorem C145_total_claim_false : ¬ C145_total_claim := by
  intro h
  have hc := C144_negative_fails 0 4 1 (by decide) (by decide) (by decide)
  refine h (fun _ => none) (fun _ _ => []) .attribute (operator [] 0 none [] 'c') (leBytes 4 (256 ^ 4 - 1)) ?_ ?_
  · refine ⟨by simp [operator], by simp [operator], Or.inl rfl, Or.inl rfl, by simp [operator], ?_⟩
    show 'c' ∈ conversions
    decide
  · rw [formatted_eq _ _ _ (by unfold Kind.formatted; decide)]
    have : stringValue (fun _ => none) (fun _ _ => []) (some (operator [] 0 none [] 'c'))
        (leBytes 4 (256 ^ 4 - 1)) = none := by decide +kernel
    rw [this]
    rfl

example : formatValue (fun _ => none) (fun _ _ => []) .number1 (some (operator [] 5 none [] 'd'))
    (leBytes 4 (unsigned 4 (-2))) =
    some "__##__signpost.telemetry#____#number1#_##_#   -2##__##".toList := by
  rw [C145_signed _ _ _ (by unfold Kind.formatted; decide) 4 (by decide) (-2) (by decide) (by decide) [] [] 5
    'd' (by decide) (by decide)]
  decide +kernel

/-! ## C146: mask hashes -/

/-- The alphabet of base64 (RFC 4648, table 1). -/
def alphabet : List Char := "ABCDEFGHIJKLMNOPQRSTUVWXYZabcdefghijklmnopqrstuvwxyz0123456789+/".toList

def sextet (n : Nat) : Char := alphabet.getD (n % 64) 'A'

/-- `base64.b64encode` (RFC 4648, section 4). -/
def base64 : Bytes → List Char
  | [] => []
  | [a] => [sextet (a.toNat / 4), sextet (a.toNat % 4 * 16), '=', '=']
  | [a, b] => [sextet (a.toNat / 4), sextet (a.toNat % 4 * 16 + b.toNat / 16), sextet (b.toNat % 16 * 4), '=']
  | a :: b :: c :: t =>
    sextet (a.toNat / 4) :: sextet (a.toNat % 4 * 16 + b.toNat / 16) ::
      sextet (b.toNat % 16 * 4 + c.toNat / 64) :: sextet (c.toNat % 64) :: base64 t

/-- `MaskHashFormatStringDecoder.FormatValue` (unified_logging.py 1013-1030). -/
def maskHash (value : Bytes) : List Char :=
  let s := if value = [] then "(null)".toList else "'".toList ++ (base64 value ++ "'".toList)
  "<mask.hash: ".toList ++ (s ++ ">".toList)

/-- The value of a character of base64. -/
def unsextet (c : Char) : Option Nat := if c ∈ alphabet then some (alphabet.idxOf c) else none

/-- The number that characters of base64 make: six bits each, the first the highest. -/
def sextets : List Char → Option Nat
  | cs => cs.foldl (fun acc c => do (← acc) * 64 + (← unsextet c)) (some 0)

/-- Decoding of base64 (specification): four characters are a number of 24 bits, three with one pad a
number of which the highest 16 are used, and two with two pads a number of which the highest 8 are. -/
def unbase64 : List Char → Option Bytes
  | [] => some []
  | a :: b :: c :: d :: t =>
    if d = '=' then
      if t ≠ [] then none
      else if c = '=' then (sextets [a, b]).map (fun n => beBytes 1 (n / 16))
      else (sextets [a, b, c]).map (fun n => beBytes 2 (n / 4))
    else do
      let n ← sextets [a, b, c, d]
      let r ← unbase64 t
      pure (beBytes 3 n ++ r)
  | _ => none

theorem unsextet_sextet (n : Nat) (h : n < 64) : unsextet (sextet n) = some n := by
  have k : ∀ n < 64, unsextet (sextet n) = some n := by decide +kernel
  exact k n h

theorem sextet_ne_pad (n : Nat) : sextet n ≠ '=' ∧ sextet n ≠ '\'' := by
  have k : ∀ n < 64, alphabet.getD n 'A' ≠ '=' ∧ alphabet.getD n 'A' ≠ '\'' := by decide +kernel
  exact k (n % 64) (Nat.mod_lt _ (by decide))

theorem beBytes_of (v : Bytes) (n : Nat) (h : n = leNat v.reverse) : beBytes v.length n = v := by
  unfold beBytes
  rw [h, ← List.length_reverse (as := v), leBytes_leNat, List.reverse_reverse]

/-- Base64 is decoded to the data it was made from. -/
theorem unbase64_base64 (v : Bytes) : unbase64 (base64 v) = some v := by
  induction v using base64.induct with
  | case1 => rfl
  | case2 a =>
    have ha : a.toNat < 256 := a.toNat_lt
    rw [base64, unbase64, if_pos rfl, if_neg (by simp), if_pos rfl]
    have h : sextets [sextet (a.toNat / 4), sextet (a.toNat % 4 * 16)] =
        some (a.toNat / 4 * 64 + a.toNat % 4 * 16) := by
      simp [sextets, unsextet_sextet _ (show a.toNat / 4 < 64 by omega),
        unsextet_sextet _ (show a.toNat % 4 * 16 < 64 by omega)]
    rw [h]
    exact congrArg some (beBytes_of [a] _ (by simp [leNat]; omega))
  | case3 a b =>
    have ha : a.toNat < 256 := a.toNat_lt
    have hb : b.toNat < 256 := b.toNat_lt
    rw [base64, unbase64, if_pos rfl, if_neg (by simp), if_neg (sextet_ne_pad _).1]
    have h : sextets [sextet (a.toNat / 4), sextet (a.toNat % 4 * 16 + b.toNat / 16),
          sextet (b.toNat % 16 * 4)] =
        some ((a.toNat / 4 * 64 + (a.toNat % 4 * 16 + b.toNat / 16)) * 64 + b.toNat % 16 * 4) := by
      simp [sextets, unsextet_sextet _ (show a.toNat / 4 < 64 by omega),
        unsextet_sextet _ (show a.toNat % 4 * 16 + b.toNat / 16 < 64 by omega),
        unsextet_sextet _ (show b.toNat % 16 * 4 < 64 by omega)]
    rw [h]
    exact congrArg some (beBytes_of [a, b] _ (by simp [leNat]; omega))
  | case4 a b c t ih =>
    have ha : a.toNat < 256 := a.toNat_lt
    have hb : b.toNat < 256 := b.toNat_lt
    have hc : c.toNat < 256 := c.toNat_lt
    rw [base64, unbase64, if_neg (sextet_ne_pad _).1]
    have h : sextets [sextet (a.toNat / 4), sextet (a.toNat % 4 * 16 + b.toNat / 16),
          sextet (b.toNat % 16 * 4 + c.toNat / 64), sextet (c.toNat % 64)] =
        some (((a.toNat / 4 * 64 + (a.toNat % 4 * 16 + b.toNat / 16)) * 64 +
          (b.toNat % 16 * 4 + c.toNat / 64)) * 64 + c.toNat % 64) := by
      simp [sextets, unsextet_sextet _ (show a.toNat / 4 < 64 by omega),
        unsextet_sextet _ (show a.toNat % 4 * 16 + b.toNat / 16 < 64 by omega),
        unsextet_sextet _ (show b.toNat % 16 * 4 + c.toNat / 64 < 64 by omega),
        unsextet_sextet _ (show c.toNat % 64 < 64 by omega)]
    rw [h, ih]
    exact congrArg some (congrArg (· ++ t) (beBytes_of [a, b, c] _ (by simp [leNat]; omega)))

/-- **C146**: the hash can be recovered from what is shown, so different hashes are shown
differently. -/
theorem C146_hash (value : Bytes) (h : value ≠ []) : ∃ s, maskHash value =
    "<mask.hash: '".toList ++ (s ++ "'>".toList) ∧ unbase64 s = some value := by
  refine ⟨base64 value, ?_, unbase64_base64 value⟩
  unfold maskHash
  rw [if_neg h]
  simp

theorem base64_chars (v : Bytes) : ∀ c ∈ base64 v, c ∈ alphabet ∨ c = '=' := by
  have hs : ∀ n, sextet n ∈ alphabet := by
    intro n
    have k : ∀ n < 64, alphabet.getD n 'A' ∈ alphabet := by decide +kernel
    exact k (n % 64) (Nat.mod_lt _ (by decide))
  induction v using base64.induct with
  | case1 => simp [base64]
  | case2 a => simp [base64, hs]
  | case3 a b => simp [base64, hs]
  | case4 a b c t ih =>
    intro x hx
    simp only [base64, List.mem_cons] at hx
    rcases hx with rfl | rfl | rfl | rfl | hx
    · exact Or.inl (hs _)
    · exact Or.inl (hs _)
    · exact Or.inl (hs _)
    · exact Or.inl (hs _)
    · exact ih x hx

/-- **C146**: what is shown has the characters of base64 only, so that the quotes end it. -/
theorem C146_characters (value : Bytes) : '\'' ∉ base64 value := by
  intro h
  rcases base64_chars value _ h with h | h <;> revert h <;> decide +kernel

/-- **C146**: no value is shown as another is, also with text after it. -/
theorem C146_injective (v u : Bytes) (rest more : List Char) (h : maskHash v ++ rest = maskHash u ++ more) :
    v = u ∧ rest = more := by
  have e0 : ∀ r, maskHash [] ++ r = "<mask.hash: (null)>".toList ++ r := fun _ => rfl
  have e1 : ∀ (v : Bytes) (r : List Char), v ≠ [] →
      maskHash v ++ r = "<mask.hash: ".toList ++ ('\'' :: (base64 v ++ ('\'' :: '>' :: r))) := by
    intro v r hv
    unfold maskHash
    rw [if_neg hv]
    simp
  have e2 : ∀ r, maskHash [] ++ r = "<mask.hash: ".toList ++ ('(' :: ("null)>".toList ++ r)) := fun _ => rfl
  by_cases hv : v = []
  · by_cases hu : u = []
    · subst hv; subst hu
      exact ⟨rfl, List.append_cancel_left h⟩
    · subst hv
      rw [e2, e1 u more hu] at h
      have := (List.cons.inj (List.append_cancel_left h)).1
      exact absurd this (by decide)
  · by_cases hu : u = []
    · subst hu
      rw [e2, e1 v rest hv] at h
      have := (List.cons.inj (List.append_cancel_left h)).1
      exact absurd this (by decide)
    · rw [e1 v rest hv, e1 u more hu] at h
      have h := (List.cons.inj (List.append_cancel_left h)).2
      have key : ∀ (v : Bytes) (r : List Char),
          ((base64 v ++ ('\'' :: r)).takeWhile (fun c => decide (c ≠ '\'')) = base64 v ∧
          (base64 v ++ ('\'' :: r)).dropWhile (fun c => decide (c ≠ '\'')) = '\'' :: r) := by
        intro v r
        refine takeWhile_append_stop _ _ _ (fun c hc => ?_) (fun c t hc => ?_)
        · have : c ≠ '\'' := by rintro rfl; exact C146_characters v hc
          simpa using this
        · rw [← (List.cons.inj hc).1]
          decide
      have k1 := key v ('>' :: rest)
      have k2 := key u ('>' :: more)
      rw [h] at k1
      have hb := k1.1.symm.trans k2.1
      have hr := k1.2.symm.trans k2.2
      have hd := unbase64_base64 v
      rw [hb, unbase64_base64 u] at hd
      refine ⟨(Option.some.inj hd).symm, ?_⟩
      exact (List.cons.inj (List.cons.inj hr).2).2

example : maskHash [1, 2, 3, 0xff] = "<mask.hash: 'AQID/w=='>".toList := by decide +kernel
example : maskHash [] = "<mask.hash: (null)>".toList := by decide +kernel

end Dtf.Signposts
