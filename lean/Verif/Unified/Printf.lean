import Verif.Unified.FormatStrings
import Verif.Fields

/-!
# Values of the operators of format strings (C28, C84, C85)
-/

namespace Dtf.Unified
open Py Formats Text

/-! ## Model: the Python format string of an operator -/

/-- `_PYTHON_SPECIFIERS.get(specifier, specifier)` (unified_logging.py 226-240, 269-271). -/
def pythonSpecifier (c : Char) : Char :=
  match c with
  | '@' => 's' | 'a' => 'f' | 'A' => 'f' | 'C' => 'c' | 'D' => 'd' | 'i' => 'd' | 'm' => 'd'
  | 'O' => 'o' | 'p' => 'x' | 'P' => 's' | 'S' => 's' | 'u' => 'd' | 'U' => 'd' | c => c

/-- `flags.replace("-", "<")`. -/
def leftFlags (flags : List Char) : List Char := flags.map (fun c => if c = '-' then '<' else c)

/-- The format specification, which is the part after `0:`, of `GetPythonFormatString`
(unified_logging.py 258-314). -/
def pythonFormat (o : Operator) : List Char :=
  let flags := o.flags
  let precision := o.precision.getD []
  let width := o.width.getD []
  let s := pythonSpecifier o.specifier
  let flags := if o.specifier = 'd' ∧ width ≠ [] ∧ precision ≠ [] then ['0'] else flags
  let precision :=
    if o.specifier = 'P' then []
    else if precision = ['.'] then ['.', '0']
    else if precision = ['.', '*'] then []
    else precision
  let r :=
    if s ∈ ['d', 'o', 'x', 'X'] then (leftFlags flags, [])
    else if s = 's' then
      (if width ≠ [] ∧ flags = [] then ['>'] else leftFlags flags,
        if precision = ['.', '0'] then [] else precision)
    else (flags, precision)
  r.1 ++ (r.2 ++ (width ++ [s]))

/-- The text before the field. -/
def pythonPrefix (o : Operator) : List Char := if o.specifier = 'p' then ['0', 'x'] else []

/-! ## Model: format specifications of Python

`[[fill]align][sign][#][0][width][.precision][type]`, from the documentation of Python and
Python/formatter_unicode.c.  The grouping options and `z` cannot come from an operator and are left
out. -/

structure PySpec where
  fill : Char
  align : Option Char
  sign : Option Char
  alternate : Bool
  width : Nat
  precision : Option Nat
  type : Option Char
deriving DecidableEq, Repr

def isAlign (c : Char) : Bool := decide (c ∈ ['<', '>', '=', '^'])

/-- The fill character and the alignment. -/
def pyAlign : List Char → Option Char × Option Char × List Char
  | [] => (none, none, [])
  | [c] => if isAlign c then (none, some c, []) else (none, none, [c])
  | c :: d :: t =>
    if isAlign d then (some c, some d, t)
    else if isAlign c then (none, some c, d :: t)
    else (none, none, c :: d :: t)

/-- An optional character. -/
def pyOne (p : Char → Bool) : List Char → Option Char × List Char
  | [] => (none, [])
  | c :: t => if p c then (some c, t) else (none, c :: t)

/-- The precision: a point needs digits. -/
def pyPrecision : List Char → Option (Option Nat × List Char)
  | [] => some (none, [])
  | c :: t =>
    if c = '.' then
      match parseDigits 10 (t.takeWhile isDigit) with
      | none => none
      | some n => some (some n, t.dropWhile isDigit)
    else some (none, c :: t)

/-- A format specification, or nothing for a ValueError.  For a string a zero before the width does
not change the alignment. -/
def parseSpec (s : List Char) : Option PySpec :=
  let a := pyAlign s
  let g := pyOne (fun c => decide (c ∈ ['+', '-', ' '])) a.2.2
  let h := pyOne (fun c => decide (c = '#')) g.2
  let z := if a.1.isSome then (none, h.2) else pyOne (fun c => decide (c = '0')) h.2
  let fill := if z.1.isSome then '0' else a.1.getD ' '
  let align := if z.1.isSome ∧ a.2.1 = none then some '=' else a.2.1
  match pyPrecision (z.2.dropWhile isDigit) with
  | none => none
  | some (precision, rest) =>
    let width := (parseDigits 10 (z.2.takeWhile isDigit)).getD 0
    match rest with
    | [] => some ⟨fill, align, g.1, h.1.isSome, width, precision, none⟩
    | [c] => some ⟨fill, align, g.1, h.1.isSome, width, precision, some c⟩
    | _ => none

def upper (s : List Char) : List Char := s.map Char.toUpper

/-- Padding. -/
def pyPad (p : PySpec) (default : Char) (head body : List Char) : List Char :=
  let n := p.width - (head.length + body.length)
  let a := p.align.getD default
  if a = '<' then head ++ body ++ List.replicate n p.fill
  else if a = '=' then head ++ List.replicate n p.fill ++ body
  else if a = '^' then
    List.replicate (n / 2) p.fill ++ head ++ body ++ List.replicate (n - n / 2) p.fill
  else List.replicate n p.fill ++ head ++ body

/-- `format` of an integer, for the types `d`, `o`, `x`, `X` and `c`; nothing for a ValueError or an
OverflowError.  The character with the number of a surrogate, which Python allows in text, is not
modelled. -/
def pyInteger (p : PySpec) (n : Int) : Option (List Char) :=
  if p.precision.isSome then none
  else
    let sign := if n < 0 then ['-'] else
      match p.sign with
      | some '+' => ['+']
      | some ' ' => [' ']
      | _ => []
    match p.type with
    | some 'd' => some (pyPad p '>' sign (digits 10 n.natAbs))
    | some 'o' => some (pyPad p '>' (sign ++ if p.alternate then ['0', 'o'] else []) (digits 8 n.natAbs))
    | some 'x' => some (pyPad p '>' (sign ++ if p.alternate then ['0', 'x'] else []) (digits 16 n.natAbs))
    | some 'X' =>
      some (pyPad p '>' (sign ++ if p.alternate then ['0', 'X'] else []) (upper (digits 16 n.natAbs)))
    | some 'c' =>
      if p.sign.isSome ∨ p.alternate then none
      else if n < 0 ∨ 0x10ffff < n then none
      else if 0xd800 ≤ n ∧ n < 0xe000 then none
      else some (pyPad p '>' [] [Char.ofNat n.natAbs])
    | _ => none

/-- `format` of a string; nothing for a ValueError. -/
def pyString (p : PySpec) (s : List Char) : Option (List Char) :=
  if p.sign.isSome ∨ p.alternate then none
  else
    match p.type with
    | some 's' =>
      let s := match p.precision with
        | none => s
        | some n => s.take n
      some (pyPad p '<' [] s)
    | _ => none

/-- The alignment of a zero before the width applies to numbers only. -/
def stringSpec (p : PySpec) (explicit : Bool) : PySpec := if explicit then p else { p with align := none }

/-- `format_string.format(integer_value)` (unified_logging.py 1551-1556, 1928-1932). -/
def formatInteger (o : Operator) (n : Int) : Option (List Char) :=
  match parseSpec (pythonFormat o) with
  | none => none
  | some p => (pyInteger p n).map (pythonPrefix o ++ ·)

/-- `format_string.format(string_value)` (unified_logging.py 1893-1898). -/
def formatText (o : Operator) (s : List Char) : Option (List Char) :=
  match parseSpec (pythonFormat o) with
  | none => none
  | some p => pyString (stringSpec p (pyAlign (pythonFormat o)).2.1.isSome) s

/-- What a decoder makes of a value: a text or a ValueError. -/
def unsupportedValue : List Char := "<decode: unsupported value>".toList

/-- `SignedIntegerFormatStringDecoder.FormatValue` (unified_logging.py 1535-1556). -/
def decodeSigned (o : Operator) (value : Bytes) : Option (List Char) :=
  if value.length ∉ [1, 2, 4, 8] then some unsupportedValue
  else formatInteger o (signed value.length (leNat value))

/-- `UnsignedIntegerFormatStringDecoder.FormatValue` (unified_logging.py 1904-1932). -/
def decodeUnsigned (o : Operator) (value : Bytes) : Option (List Char) :=
  if value.length ∉ [1, 2, 4, 8] then some unsupportedValue
  else if leNat value = 0 ∧ o.flags = ['#'] ∧ o.specifier = 'x' then some (digits 16 (leNat value))
  else formatInteger o (leNat value)

/-- `StringFormatStringDecoder.FormatValue` (unified_logging.py 1871-1898).  The decoding of UTF-8 is a
parameter. -/
def decodeText (utf8 : Bytes → Option (List Char)) (o : Operator) (value : Bytes) : Option (List Char) :=
  if value = [] then some "(null)".toList
  else
    match utf8 value with
    | none => some unsupportedValue
    | some s => formatText o (s.reverse.dropWhile (· = '\x00')).reverse

/-! ## Specification: printf -/

/-- A conversion of an integer by printf (C11 7.21.6.1), with the width and the precision as numbers. -/
def cInteger (flags : List Char) (width : Nat) (precision : Option Nat) (specifier : Char) (n : Int) :
    List Char :=
  let isSigned := specifier ∈ ['d', 'D', 'i']
  let body :=
    if specifier ∈ ['o', 'O'] then digits 8 n.natAbs
    else if specifier = 'x' then digits 16 n.natAbs
    else if specifier = 'X' then upper (digits 16 n.natAbs)
    else digits 10 n.natAbs
  let body := if precision = some 0 ∧ n = 0 then [] else zpad (precision.getD 1) body
  let body := if '#' ∈ flags ∧ specifier ∈ ['o', 'O'] ∧ body.head? ≠ some '0' then '0' :: body else body
  let head := if n < 0 then ['-'] else if isSigned ∧ '+' ∈ flags then ['+']
    else if isSigned ∧ ' ' ∈ flags then [' ']
    else if '#' ∈ flags ∧ specifier = 'x' ∧ n ≠ 0 then ['0', 'x']
    else if '#' ∈ flags ∧ specifier = 'X' ∧ n ≠ 0 then ['0', 'X']
    else []
  let n := width - (head.length + body.length)
  if '-' ∈ flags then head ++ body ++ List.replicate n ' '
  else if '0' ∈ flags ∧ precision = none then head ++ List.replicate n '0' ++ body
  else List.replicate n ' ' ++ head ++ body

/-- A conversion of a string by printf. -/
def cString (flags : List Char) (width : Nat) (precision : Option Nat) (s : List Char) : List Char :=
  let s := match precision with
    | none => s
    | some p => s.take p
  let n := width - s.length
  if '-' ∈ flags then s ++ List.replicate n ' ' else List.replicate n ' ' ++ s

/-- An operator with a width and a precision given as numbers; a width of 0 is none. -/
def operator (flags : List Char) (width : Nat) (precision : Option Nat) (modifier : List Char)
    (specifier : Char) : Operator :=
  ⟨none, flags, if width = 0 then none else some (dec width), precision.map (fun p => '.' :: dec p),
    modifier, specifier⟩

def signedSpecifiers : List Char := ['d', 'D', 'i']
def unsignedSpecifiers : List Char := ['u', 'U', 'x', 'X', 'o', 'O']
def stringSpecifiers : List Char := ['s', 'S', '@']

/-! ## Format specifications are read back -/

theorem dec_pos_head (w : Nat) (h : 0 < w) : ∃ c t, dec w = c :: t ∧ c ≠ '0' := by
  unfold dec
  induction w using Nat.strongRecOn with
  | _ w ih =>
    rw [digits_eq]
    split
    · rename_i hlt
      obtain ⟨c, t, he, hc⟩ := ih (w / 10) (by omega) (by omega)
      exact ⟨c, t ++ [digitChar (w % 10)], by rw [he]; rfl, hc⟩
    · rename_i hlt
      refine ⟨digitChar w, [], rfl, ?_⟩
      have k : ∀ w < 10, 0 < w → digitChar w ≠ '0' := by decide
      exact k w (by omega) h

/-- The parts of a format specification. -/
structure Parts where
  align : Option Char
  sign : Option Char
  alternate : Bool
  zero : Bool
  width : Nat
  precision : Option Nat
  type : Char

def Parts.text (p : Parts) : List Char :=
  p.align.toList ++ (p.sign.toList ++ ((if p.alternate then ['#'] else []) ++
    ((if p.zero then ['0'] else []) ++ ((if p.width = 0 then [] else dec p.width) ++
      ((match p.precision with | none => [] | some n => '.' :: dec n) ++ [p.type])))))

structure Parts.Ok (p : Parts) : Prop where
  align : ∀ c, p.align = some c → isAlign c = true
  sign : ∀ c, p.sign = some c → c ∈ ['+', '-', ' ']
  type : p.type ∈ ['d', 'o', 'x', 'X', 's', 'f', 'e', 'E', 'F', 'g', 'G', 'c']

def Parts.spec (p : Parts) : PySpec :=
  ⟨if p.zero then '0' else ' ', if p.zero ∧ p.align = none then some '=' else p.align, p.sign,
    p.alternate, p.width, p.precision, some p.type⟩

theorem pyOne_some (q : Char → Bool) (c : Char) (t : List Char) (h : q c = true) :
    pyOne q (c :: t) = (some c, t) := by simp [pyOne, h]

theorem pyOne_none (q : Char → Bool) (s : List Char) (h : ∀ c t, s = c :: t → q c = false) :
    pyOne q s = (none, s) := by
  cases s with
  | nil => rfl
  | cons c t => simp [pyOne, h c t rfl]

theorem digit_facts (c : Char) (h : isDigit c = true) :
    isAlign c = false ∧ c ∉ ['+', '-', ' '] ∧ c ≠ '#' ∧ c ≠ '.' := by
  have k : ∀ c ∈ "0123456789".toList, isAlign c = false ∧ c ∉ ['+', '-', ' '] ∧ c ≠ '#' ∧ c ≠ '.' := by
    decide
  exact k c (by simpa only [isDigit, decide_eq_true_eq] using h)

theorem pyAlign_eq (a : Option Char) (r : List Char) (ha : ∀ c, a = some c → isAlign c = true)
    (hr : ∀ c ∈ r, isAlign c = false) (hne : r ≠ []) : pyAlign (a.toList ++ r) = (none, a, r) := by
  cases r with
  | nil => exact absurd rfl hne
  | cons d t =>
    have hd := hr d (by simp)
    cases a with
    | some c =>
      simp [pyAlign, hd, ha c rfl]
    | none =>
      cases t with
      | nil => simp [pyAlign, hd]
      | cons e t =>
        have he := hr e (by simp)
        simp [pyAlign, hd, he]

theorem parseSpec_text (p : Parts) (h : p.Ok) : parseSpec p.text = some p.spec := by
  obtain ⟨align, sign, alternate, zero, width, precision, type⟩ := p
  obtain ⟨h1, h2, h3⟩ := h
  dsimp only at h1 h2 h3
  have ht : isAlign type = false ∧ type ∉ ['+', '-', ' '] ∧ type ≠ '#' ∧ type ≠ '0' ∧
      isDigit type = false ∧ type ≠ '.' := by
    have k : ∀ t ∈ ['d', 'o', 'x', 'X', 's', 'f', 'e', 'E', 'F', 'g', 'G', 'c'],
      isAlign t = false ∧ t ∉ ['+', '-', ' '] ∧ t ≠ '#' ∧ t ≠ '0' ∧ isDigit t = false ∧ t ≠ '.' := by
      decide
    exact k type h3
  unfold Parts.text
  dsimp only
  generalize hr1 : (match precision with | none => [] | some n => '.' :: dec n) ++ [type] = r1
  have b1 : (∀ c ∈ r1, isAlign c = false) ∧ r1 ≠ [] ∧
      ∀ c t, r1 = c :: t → c ∉ ['+', '-', ' '] ∧ c ≠ '#' ∧ c ≠ '0' ∧ isDigit c = false := by
    subst hr1
    cases precision with
    | none =>
      refine ⟨by simpa using ht.1, by simp, ?_⟩
      intro c t e
      simp only [List.nil_append, List.cons.injEq] at e
      rw [← e.1]; exact ⟨ht.2.1, ht.2.2.1, ht.2.2.2.1, ht.2.2.2.2.1⟩
    | some n =>
      refine ⟨?_, by simp, ?_⟩
      · intro c hc
        simp only [List.cons_append, List.mem_cons, List.mem_append, List.not_mem_nil, or_false] at hc
        rcases hc with rfl | hc | rfl
        · decide
        · exact (digit_facts c (dec_digits n c hc)).1
        · exact ht.1
      · intro c t e
        simp only [List.cons_append, List.cons.injEq] at e
        rw [← e.1]; decide
  have hp : pyPrecision r1 = some (precision, [type]) := by
    subst hr1
    cases precision with
    | none => simp [pyPrecision, ht.2.2.2.2.2]
    | some n =>
      have hw := takeWhile_append_stop isDigit (dec n) [type] (dec_digits n)
        (fun c t e => by simp only [List.cons.injEq] at e; rw [← e.1]; exact ht.2.2.2.2.1)
      simp only [List.cons_append, pyPrecision]
      rw [if_pos trivial, hw.1, hw.2,
        show parseDigits 10 (dec n) = some n from parse_digits 10 n (by omega) (by omega)]
  generalize hr2 : (if width = 0 then [] else dec width) ++ r1 = r2
  have b2 : (∀ c ∈ r2, isAlign c = false) ∧ r2 ≠ [] ∧
      ∀ c t, r2 = c :: t → c ∉ ['+', '-', ' '] ∧ c ≠ '#' ∧ c ≠ '0' := by
    subst hr2
    by_cases hw : width = 0
    · rw [if_pos hw]
      exact ⟨b1.1, b1.2.1, fun c t e => ⟨(b1.2.2 c t e).1, (b1.2.2 c t e).2.1, (b1.2.2 c t e).2.2.1⟩⟩
    · rw [if_neg hw]
      refine ⟨?_, by simp [b1.2.1], ?_⟩
      · intro c hc
        rcases List.mem_append.mp hc with hc | hc
        · exact (digit_facts c (dec_digits width c hc)).1
        · exact b1.1 c hc
      · intro c t e
        obtain ⟨x, u, hx, hx0⟩ := dec_pos_head width (by omega)
        rw [hx] at e
        simp only [List.cons_append, List.cons.injEq] at e
        rw [← e.1]
        have := digit_facts x (dec_digits width x (by rw [hx]; simp))
        exact ⟨this.2.1, this.2.2.1, hx0⟩
  have hwid : (parseDigits 10 (r2.takeWhile isDigit)).getD 0 = width ∧ r2.dropWhile isDigit = r1 := by
    subst hr2
    by_cases hw : width = 0
    · rw [if_pos hw]
      have := takeWhile_append_stop isDigit [] r1 (by simp) (fun c t e => (b1.2.2 c t e).2.2.2)
      simp only [List.nil_append] at this ⊢
      rw [this.1, this.2, hw]
      exact ⟨rfl, rfl⟩
    · rw [if_neg hw]
      have := takeWhile_append_stop isDigit (dec width) r1 (dec_digits width)
        (fun c t e => (b1.2.2 c t e).2.2.2)
      rw [this.1, this.2,
        show parseDigits 10 (dec width) = some width from parse_digits 10 width (by omega) (by omega)]
      exact ⟨rfl, rfl⟩
  generalize hr3 : (if zero then ['0'] else []) ++ r2 = r3
  have b3 : (∀ c ∈ r3, isAlign c = false) ∧ r3 ≠ [] ∧
      ∀ c t, r3 = c :: t → c ∉ ['+', '-', ' '] ∧ c ≠ '#' := by
    subst hr3
    cases zero with
    | false =>
      exact ⟨b2.1, b2.2.1, fun c t e => ⟨(b2.2.2 c t e).1, (b2.2.2 c t e).2.1⟩⟩
    | true =>
      refine ⟨?_, by simp, ?_⟩
      · intro c hc
        simp only [if_true, List.cons_append, List.nil_append, List.mem_cons] at hc
        rcases hc with rfl | hc
        · decide
        · exact b2.1 c hc
      · intro c t e
        simp only [if_true, List.cons_append, List.nil_append, List.cons.injEq] at e
        rw [← e.1]; decide
  have hz : pyOne (fun c => decide (c = '0')) r3 = (if zero then some '0' else none, r2) := by
    subst hr3
    cases zero with
    | false => exact pyOne_none _ _ (fun c t e => by simpa using (b2.2.2 c t e).2.2)
    | true => rfl
  generalize hr4 : (if alternate then ['#'] else []) ++ r3 = r4
  have b4 : (∀ c ∈ r4, isAlign c = false) ∧ r4 ≠ [] ∧ ∀ c t, r4 = c :: t → c ∉ ['+', '-', ' '] := by
    subst hr4
    cases alternate with
    | false => exact ⟨b3.1, b3.2.1, fun c t e => (b3.2.2 c t e).1⟩
    | true =>
      refine ⟨?_, by simp, ?_⟩
      · intro c hc
        simp only [if_true, List.cons_append, List.nil_append, List.mem_cons] at hc
        rcases hc with rfl | hc
        · decide
        · exact b3.1 c hc
      · intro c t e
        simp only [if_true, List.cons_append, List.nil_append, List.cons.injEq] at e
        rw [← e.1]; decide
  have hh : pyOne (fun c => decide (c = '#')) r4 = (if alternate then some '#' else none, r3) := by
    subst hr4
    cases alternate with
    | false => exact pyOne_none _ _ (fun c t e => by simpa using (b3.2.2 c t e).2)
    | true => rfl
  generalize hr5 : sign.toList ++ r4 = r5
  have b5 : (∀ c ∈ r5, isAlign c = false) ∧ r5 ≠ [] := by
    subst hr5
    cases sign with
    | none => exact ⟨b4.1, b4.2.1⟩
    | some g =>
      refine ⟨?_, by simp⟩
      intro c hc
      simp only [Option.toList_some, List.cons_append, List.nil_append, List.mem_cons] at hc
      rcases hc with rfl | hc
      · have k : ∀ c ∈ ['+', '-', ' '], isAlign c = false := by decide
        exact k c (h2 c rfl)
      · exact b4.1 c hc
  have hg : pyOne (fun c => decide (c ∈ ['+', '-', ' '])) r5 = (sign, r4) := by
    subst hr5
    cases sign with
    | none => exact pyOne_none _ _ (fun c t e => by simpa using b4.2.2 c t e)
    | some g => exact pyOne_some _ _ _ (by simpa using h2 g rfl)
  unfold parseSpec
  rw [pyAlign_eq align r5 h1 b5.1 b5.2]
  dsimp only
  rw [hg]
  dsimp only
  rw [hh]
  simp only [Option.isSome_none, Bool.false_eq_true, if_false]
  rw [hz]
  dsimp only
  rw [hwid.1, hwid.2, hp]
  dsimp only
  unfold Parts.spec
  cases zero <;> cases alternate <;> simp

/-! ## C28 and C84: integers -/

/-- The flags of integers for which the code does what printf does. -/
def integerFlags : List (List Char) :=
  [[], ['-'], ['0'], ['+'], [' '], ['-', '+'], ['-', ' '], ['+', '0'], [' ', '0']]

def unsignedFlags : List (List Char) := [[], ['-'], ['0']]
def hexadecimalFlags : List (List Char) := [['#'], ['#', '0'], ['-', '#']]

theorem formatInteger_parts (o : Operator) (p : Parts) (n : Int) (ht : pythonFormat o = p.text)
    (hp : p.Ok) : formatInteger o n = (pyInteger p.spec n).map (pythonPrefix o ++ ·) := by
  unfold formatInteger
  rw [ht, parseSpec_text p hp]

theorem zpad_one (b n : Nat) : zpad 1 (digits b n) = digits b n := by
  have := List.length_pos_iff.mpr (digits_ne_nil b n)
  unfold zpad
  rw [show 1 - (digits b n).length = 0 by omega]
  rfl

theorem zpad_one_upper (b n : Nat) : zpad 1 (upper (digits b n)) = upper (digits b n) := by
  have := List.length_pos_iff.mpr (digits_ne_nil b n)
  unfold zpad upper
  rw [List.length_map, show 1 - (digits b n).length = 0 by omega]
  rfl

theorem dec_ne_nil (n : Nat) : dec n ≠ [] := digits_ne_nil 10 n

/-- The format specification of an integer operator without a precision. -/
theorem pythonFormat_integer (flags modifier : List Char) (w : Nat) (s : Char)
    (hs : pythonSpecifier s ∈ ['d', 'o', 'x', 'X']) :
    pythonFormat (operator flags w none modifier s) =
      leftFlags flags ++ ((if w = 0 then [] else dec w) ++ [pythonSpecifier s]) := by
  unfold pythonFormat operator
  by_cases hw : w = 0 <;> simp [hw, hs]

/-- **C84** and **C28** (partial): a signed integer operator with a width, without a precision and with
these flags shows every value the way printf does. -/
theorem C84_signed_partial (flags modifier : List Char) (w : Nat) (s : Char) (n : Int)
    (hf : flags ∈ integerFlags) (hs : s ∈ signedSpecifiers) :
    formatInteger (operator flags w none modifier s) n = some (cInteger flags w none s n) := by
  have hps : pythonSpecifier s = 'd' ∧ s ≠ 'p' ∧ s ≠ 'x' ∧ s ≠ 'X' ∧ s ∉ ['o', 'O'] := by
    have k : ∀ s ∈ signedSpecifiers,
      pythonSpecifier s = 'd' ∧ s ≠ 'p' ∧ s ≠ 'x' ∧ s ≠ 'X' ∧ s ∉ ['o', 'O'] := by decide
    exact k s hs
  have hs' : s ∈ ['d', 'D', 'i'] := hs
  have ht := pythonFormat_integer flags modifier w s (by rw [hps.1]; decide)
  rw [hps.1] at ht
  have key : ∀ (a g : Option Char) (z : Bool), a.toList ++ (g.toList ++ if z then ['0'] else []) =
      leftFlags flags → (∀ c, a = some c → isAlign c = true) →
      (∀ c, g = some c → c ∈ ['+', '-', ' ']) →
      formatInteger (operator flags w none modifier s) n =
        pyInteger (Parts.spec ⟨a, g, false, z, w, none, 'd'⟩) n := by
    intro a g z he ha hg
    rw [formatInteger_parts _ ⟨a, g, false, z, w, none, 'd'⟩ n
      (by rw [ht, ← he]; simp [Parts.text]) ⟨ha, hg, by simp⟩]
    have : pythonPrefix (operator flags w none modifier s) = [] := by
      unfold pythonPrefix operator; rw [if_neg hps.2.1]
    rw [this]
    simp
  simp only [integerFlags, List.mem_cons, List.not_mem_nil, or_false] at hf
  have hb : ∀ k : Nat, ¬ (none = some k) := by simp
  rcases hf with rfl | rfl | rfl | rfl | rfl | rfl | rfl | rfl | rfl
  · rw [key none none false (by decide) (by simp) (by simp)]
    simp [pyInteger, Parts.spec, cInteger, pyPad, hs', hps, zpad_one]
  · rw [key (some '<') none false (by decide) (by decide) (by simp)]
    simp [pyInteger, Parts.spec, cInteger, pyPad, hs', hps, zpad_one]
  · rw [key none none true (by decide) (by simp) (by simp)]
    simp [pyInteger, Parts.spec, cInteger, pyPad, hs', hps, zpad_one]
  · rw [key none (some '+') false (by decide) (by simp) (by decide)]
    simp [pyInteger, Parts.spec, cInteger, pyPad, hs', hps, zpad_one]
  · rw [key none (some ' ') false (by decide) (by simp) (by decide)]
    simp [pyInteger, Parts.spec, cInteger, pyPad, hs', hps, zpad_one]
  · rw [key (some '<') (some '+') false (by decide) (by decide) (by decide)]
    simp [pyInteger, Parts.spec, cInteger, pyPad, hs', hps, zpad_one]
  · rw [key (some '<') (some ' ') false (by decide) (by decide) (by decide)]
    simp [pyInteger, Parts.spec, cInteger, pyPad, hs', hps, zpad_one]
  · rw [key none (some '+') true (by decide) (by simp) (by decide)]
    simp [pyInteger, Parts.spec, cInteger, pyPad, hs', hps, zpad_one]
  · rw [key none (some ' ') true (by decide) (by simp) (by decide)]
    simp [pyInteger, Parts.spec, cInteger, pyPad, hs', hps, zpad_one]

example : operator ['-', '+'] 7 none ['l'] 'd' = ⟨none, ['-', '+'], some ['7'], none, ['l'], 'd'⟩ ∧
    cInteger ['-', '+'] 7 none 'd' 42 = "+42    ".toList := by decide +kernel

/-- **C84** and **C28** (partial): an unsigned integer operator with a width, without a precision and
with these flags shows every value the way printf does. -/
theorem C84_unsigned_partial (flags modifier : List Char) (w n : Nat) (s : Char)
    (hs : s ∈ unsignedSpecifiers)
    (hf : flags ∈ unsignedFlags ∨ (s ∈ ['x', 'X'] ∧ flags ∈ hexadecimalFlags ∧ n ≠ 0)) :
    formatInteger (operator flags w none modifier s) n = some (cInteger flags w none s n) := by
  have hps : pythonSpecifier s ∈ ['d', 'o', 'x', 'X'] ∧ s ≠ 'p' := by
    have k : ∀ s ∈ unsignedSpecifiers, pythonSpecifier s ∈ ['d', 'o', 'x', 'X'] ∧ s ≠ 'p' := by decide
    exact k s hs
  have ht := pythonFormat_integer flags modifier w s hps.1
  have key : ∀ (a : Option Char) (l z : Bool), a.toList ++ ((if l then ['#'] else []) ++
      if z then ['0'] else []) = leftFlags flags → (∀ c, a = some c → isAlign c = true) →
      formatInteger (operator flags w none modifier s) n =
        pyInteger (Parts.spec ⟨a, none, l, z, w, none, pythonSpecifier s⟩) n := by
    intro a l z he ha
    rw [formatInteger_parts _ ⟨a, none, l, z, w, none, pythonSpecifier s⟩ n
      (by rw [ht, ← he]; simp [Parts.text]) ⟨ha, by simp, by
        have k : ∀ t ∈ ['d', 'o', 'x', 'X'],
          t ∈ ['d', 'o', 'x', 'X', 's', 'f', 'e', 'E', 'F', 'g', 'G', 'c'] := by decide
        exact k _ hps.1⟩]
    have : pythonPrefix (operator flags w none modifier s) = [] := by
      unfold pythonPrefix operator; rw [if_neg hps.2]
    rw [this]
    simp
  have hn : ¬ ((n : Int) < 0) := by omega
  simp only [unsignedSpecifiers, List.mem_cons, List.not_mem_nil, or_false] at hs
  rcases hf with hf | ⟨hx, hf, h0⟩
  · simp only [unsignedFlags, List.mem_cons, List.not_mem_nil, or_false] at hf
    rcases hf with rfl | rfl | rfl
    · rw [key none false false (by decide) (by simp)]
      rcases hs with rfl | rfl | rfl | rfl | rfl | rfl <;>
        simp [pyInteger, Parts.spec, cInteger, pyPad, pythonSpecifier, hn, zpad_one, zpad_one_upper]
    · rw [key (some '<') false false (by decide) (by decide)]
      rcases hs with rfl | rfl | rfl | rfl | rfl | rfl <;>
        simp [pyInteger, Parts.spec, cInteger, pyPad, pythonSpecifier, hn, zpad_one, zpad_one_upper]
    · rw [key none false true (by decide) (by simp)]
      rcases hs with rfl | rfl | rfl | rfl | rfl | rfl <;>
        simp [pyInteger, Parts.spec, cInteger, pyPad, pythonSpecifier, hn, zpad_one, zpad_one_upper]
  · simp only [hexadecimalFlags, List.mem_cons, List.not_mem_nil, or_false] at hf hx
    rcases hf with rfl | rfl | rfl
    · rw [key none true false (by decide) (by simp)]
      rcases hx with rfl | rfl <;>
        simp [pyInteger, Parts.spec, cInteger, pyPad, pythonSpecifier, hn, h0, zpad_one, zpad_one_upper]
    · rw [key none true true (by decide) (by simp)]
      rcases hx with rfl | rfl <;>
        simp [pyInteger, Parts.spec, cInteger, pyPad, pythonSpecifier, hn, h0, zpad_one, zpad_one_upper]
    · rw [key (some '<') true false (by decide) (by decide)]
      rcases hx with rfl | rfl <;>
        simp [pyInteger, Parts.spec, cInteger, pyPad, pythonSpecifier, hn, h0, zpad_one, zpad_one_upper]

example : cInteger ['#', '0'] 8 none 'X' 0xbeef = "0X00BEEF".toList ∧
    ['#', '0'] ∈ hexadecimalFlags := by decide +kernel

/-- **C84**: the flags of integer operators mean what they mean to printf. -/
def C84_flags_claim : Prop :=
  ∀ (flags : List Char) (w : Nat) (s : Char) (n : Nat), flags.Nodup → (∀ c ∈ flags, c ∈ flagChars) →
    s ∈ signedSpecifiers ++ unsignedSpecifiers →
    formatInteger (operator flags w none [] s) n = some (cInteger flags w none s n)

/-- **C84** is false: `%-05d` shows 5 as 50000. -/
theorem C84_trailing_zeros : ¬ C84_flags_claim ∧
    formatInteger (operator ['-', '0'] 5 none [] 'd') 5 = some "50000".toList := by
  have h5 : formatInteger (operator ['-', '0'] 5 none [] 'd') 5 = some "50000".toList := by
    decide +kernel
  refine ⟨fun h => ?_, h5⟩
  have := h ['-', '0'] 5 'd' 5 (by decide) (by decide) (by decide)
  rw [show ((5 : Nat) : Int) = 5 from rfl, h5] at this
  revert this
  decide +kernel

/-- **C84** is false: `%+-5d` fills with plus signs and shows no sign. -/
theorem C84_plus_fills : ¬ C84_flags_claim ∧
    formatInteger (operator ['+', '-'] 5 none [] 'd') 5 = some "5++++".toList := by
  have h5 : formatInteger (operator ['+', '-'] 5 none [] 'd') 5 = some "5++++".toList := by
    decide +kernel
  refine ⟨fun h => ?_, h5⟩
  have := h ['+', '-'] 5 'd' 5 (by decide) (by decide) (by decide)
  rw [show ((5 : Nat) : Int) = 5 from rfl, h5] at this
  revert this
  decide +kernel

/-- **C84** is false: `%0+5d` is a ValueError. -/
theorem C84_error : ¬ C84_flags_claim ∧
    ∀ n, formatInteger (operator ['0', '+'] 5 none [] 'd') n = none := by
  have h5 : ∀ n, formatInteger (operator ['0', '+'] 5 none [] 'd') n = none := by
    intro n
    unfold formatInteger
    rw [show parseSpec (pythonFormat (operator ['0', '+'] 5 none [] 'd')) = none by decide +kernel]
  refine ⟨fun h => ?_, h5⟩
  have := h ['0', '+'] 5 'd' 5 (by decide) (by decide) (by decide)
  rw [h5] at this
  exact absurd this (by simp)

/-- **C84** is false: `%#o` shows 8 as 0o10. -/
theorem C84_octal : ¬ C84_flags_claim ∧
    formatInteger (operator ['#'] 0 none [] 'o') 8 = some "0o10".toList := by
  have h5 : formatInteger (operator ['#'] 0 none [] 'o') 8 = some "0o10".toList := by decide +kernel
  refine ⟨fun h => ?_, h5⟩
  have := h ['#'] 0 'o' 8 (by decide) (by decide) (by decide)
  rw [show ((8 : Nat) : Int) = 8 from rfl, h5] at this
  revert this
  decide +kernel

/-! ## C28: width and precision -/

/-- **C28** for integers. -/
def C28_integer_claim : Prop :=
  ∀ (w p : Nat) (s : Char) (n : Nat), s ∈ signedSpecifiers ++ unsignedSpecifiers →
    formatInteger (operator [] w (some p) [] s) n = some (cInteger [] w (some p) s n)

/-- **C28** for strings. -/
def C28_string_claim : Prop :=
  ∀ (w : Nat) (p : Option Nat) (s : Char) (t : List Char), s ∈ stringSpecifiers →
    formatText (operator [] w p [] s) t = some (cString [] w p t)

/-- **C28** for floating-point numbers: the format specification has the width and the precision. -/
def C28_float_claim : Prop :=
  ∀ (w p : Nat) (s : Char), s ∈ ['f', 'F', 'e', 'E', 'g', 'G'] → 0 < w →
    ∃ spec, parseSpec (pythonFormat (operator [] w (some p) [] s)) = some spec ∧ spec.width = w ∧
      spec.precision = some p

/-- **C28** is false: the precision of an integer is not used, and with a width the width is. -/
theorem C28_integer_precision : ¬ C28_integer_claim ∧
    formatInteger (operator [] 0 (some 3) [] 'd') 7 = some "7".toList ∧
    formatInteger (operator [] 5 (some 3) [] 'd') 7 = some "00007".toList := by
  have h5 : formatInteger (operator [] 0 (some 3) [] 'd') 7 = some "7".toList := by decide +kernel
  refine ⟨fun h => ?_, h5, by decide +kernel⟩
  have := h 0 3 'd' 7 (by decide)
  rw [show ((7 : Nat) : Int) = 7 from rfl, h5] at this
  revert this
  decide +kernel

/-- **C28** is false: `%10.3s` truncates at 310 characters. -/
theorem C28_string_width : ¬ C28_string_claim ∧
    formatText (operator [] 10 (some 3) [] 's') "abcdef".toList = some "abcdef".toList := by
  have h5 : formatText (operator [] 10 (some 3) [] 's') "abcdef".toList = some "abcdef".toList := by
    decide +kernel
  refine ⟨fun h => ?_, h5⟩
  have := h 10 (some 3) 's' "abcdef".toList (by decide)
  rw [h5] at this
  revert this
  decide +kernel

/-- **C28** is false: the width of a pointer does not count the prefix, which comes before the
padding. -/
theorem C28_pointer :
    formatInteger (operator [] 10 none [] 'p') 0x1234 = some "0x      1234".toList := by decide +kernel

/-- The format specification of a floating-point operator with width and precision. -/
theorem pythonFormat_float (w p : Nat) (s : Char) (hw : 0 < w)
    (hs : s ∈ ['f', 'F', 'e', 'E', 'g', 'G']) :
    pythonFormat (operator [] w (some p) [] s) = '.' :: (dec p ++ (dec w ++ [s])) := by
  have h : ∀ s ∈ ['f', 'F', 'e', 'E', 'g', 'G'], pythonSpecifier s = s ∧ s ≠ 'd' ∧ s ≠ 'P' ∧
    s ∉ ['d', 'o', 'x', 'X'] ∧ s ≠ 's' := by decide
  obtain ⟨h1, h2, h3, h4, h5⟩ := h s hs
  have hne := dec_ne_nil p
  have hst : dec p ≠ ['*'] := by
    intro e
    have := dec_digits p '*' (by rw [e]; simp)
    revert this; decide
  unfold pythonFormat operator
  simp [h1, h2, h3, h4, h5, hne, hst, show w ≠ 0 by omega]

/-- **C28** is false of every floating-point operator with width and precision: there is no width, and
the precision is the number made of the digits of the precision followed by those of the width. -/
theorem C28_float_width (w p : Nat) (s : Char) (hw : 0 < w)
    (hs : s ∈ ['f', 'F', 'e', 'E', 'g', 'G']) :
    parseSpec (pythonFormat (operator [] w (some p) [] s)) =
      some ⟨' ', none, none, false, 0, some (p * 10 ^ (dec w).length + w), some s⟩ := by
  have hd : ∀ c ∈ dec p ++ dec w, isDigit c = true := by
    intro c hc
    rcases List.mem_append.mp hc with hc | hc
    · exact dec_digits p c hc
    · exact dec_digits w c hc
  have hsd : ∀ s ∈ ['f', 'F', 'e', 'E', 'g', 'G'], isDigit s = false ∧ isAlign s = false := by decide
  rw [pythonFormat_float w p s hw hs]
  have hne : dec p ++ dec w ≠ [] := by simp [dec_ne_nil]
  have hp : parseDigits 10 (dec p ++ dec w) = some (p * 10 ^ (dec w).length + w) := by
    rw [parseDigits_eq 10 _ hne, List.foldl_append]
    obtain ⟨k, hk, _⟩ := foldl_parse_digits 10 p (by omega) (by omega) 0
    obtain ⟨m, hm, hl⟩ := foldl_parse_digits 10 w (by omega) (by omega) p
    simp only [Nat.zero_mul, Nat.zero_add] at hk
    show (dec w).foldl _ ((dec p).foldl _ _) = _
    unfold dec
    rw [hk, hm, hl]
  have ha : pyAlign ('.' :: (dec p ++ (dec w ++ [s]))) = (none, none, '.' :: (dec p ++ (dec w ++ [s]))) := by
    have := pyAlign_eq none ('.' :: (dec p ++ (dec w ++ [s]))) (by simp) (by
      intro c hc
      rw [← List.append_assoc] at hc
      simp only [List.mem_cons, List.mem_append, List.not_mem_nil, or_false] at hc
      rcases hc with rfl | hc | rfl
      · decide
      · exact (digit_facts c (hd c (List.mem_append.mpr hc))).1
      · exact (hsd c hs).2) (by simp)
    simpa using this
  have hw' := takeWhile_append_stop isDigit (dec p ++ dec w) [s] hd
    (fun c t e => by simp only [List.cons.injEq] at e; rw [← e.1]; exact (hsd s hs).1)
  rw [List.append_assoc] at hw'
  unfold parseSpec
  rw [ha]
  have e1 : ∀ (q : Char → Bool) (t : List Char), q '.' = false → pyOne q ('.' :: t) = (none, '.' :: t) := by
    intro q t h; simp [pyOne, h]
  dsimp only
  rw [e1 _ _ (by decide)]
  dsimp only
  rw [e1 _ _ (by decide)]
  simp only [Option.isSome_none, Bool.false_eq_true, if_false]
  rw [e1 _ _ (by decide)]
  dsimp only
  have e2 : ∀ t, List.dropWhile isDigit ('.' :: t) = '.' :: t ∧ List.takeWhile isDigit ('.' :: t) = [] := by
    intro t
    have : isDigit '.' = false := by decide
    simp [List.dropWhile_cons, List.takeWhile_cons, this]
  rw [(e2 _).1, (e2 _).2]
  simp only [pyPrecision, if_true]
  rw [hw'.1, hw'.2, hp]
  simp [parseDigits]

theorem C28_float_not : ¬ C28_float_claim := by
  intro h
  obtain ⟨spec, h1, h2, _⟩ := h 5 2 'f' (by decide) (by decide)
  rw [C28_float_width 5 2 'f' (by decide) (by decide), Option.some.injEq] at h1
  subst h1
  simp at h2

/-- **C84** is false for floating-point numbers: the flag that asks for alignment to the left is taken
for a sign option, and the number is aligned to the right. -/
theorem C84_float_left (w : Nat) (s : Char) (hs : s ∈ ['f', 'F', 'e', 'E', 'g', 'G']) :
    parseSpec (pythonFormat (operator ['-'] w none [] s)) =
      some ⟨' ', none, some '-', false, w, none, some s⟩ := by
  have hk : ∀ s ∈ ['f', 'F', 'e', 'E', 'g', 'G'], pythonSpecifier s = s ∧ s ≠ 'd' ∧ s ≠ 'P' ∧
    s ∉ ['d', 'o', 'x', 'X'] ∧ s ≠ 's' := by decide
  obtain ⟨h1, h2, h3, h4, h5⟩ := hk s hs
  have ht : pythonFormat (operator ['-'] w none [] s) =
      Parts.text ⟨none, some '-', false, false, w, none, s⟩ := by
    unfold pythonFormat operator Parts.text
    by_cases hw : w = 0 <;> simp [h1, h2, h3, h5, hw] <;> simp at h4 <;> simp [h4]
  have hm : ∀ t ∈ ['f', 'F', 'e', 'E', 'g', 'G'],
      t ∈ ['d', 'o', 'x', 'X', 's', 'f', 'e', 'E', 'F', 'g', 'G', 'c'] := by decide
  rw [ht, parseSpec_text _ ⟨by simp, by simp, hm s hs⟩]
  rfl

/-- **C28** (partial): a floating-point operator with a width only, or with a precision only, has it in
its format specification. -/
theorem C28_float_partial (w : Nat) (p : Option Nat) (s : Char)
    (hs : s ∈ ['f', 'F', 'e', 'E', 'g', 'G']) (h : w = 0 ∨ p = none) :
    parseSpec (pythonFormat (operator [] w p [] s)) = some ⟨' ', none, none, false, w, p, some s⟩ := by
  have hk : ∀ s ∈ ['f', 'F', 'e', 'E', 'g', 'G'], pythonSpecifier s = s ∧ s ≠ 'd' ∧ s ≠ 'P' ∧
    s ∉ ['d', 'o', 'x', 'X'] ∧ s ≠ 's' := by decide
  obtain ⟨h1, h2, h3, h4, h5⟩ := hk s hs
  have ht : pythonFormat (operator [] w p [] s) = Parts.text ⟨none, none, false, false, w, p, s⟩ := by
    cases p with
    | none =>
      unfold pythonFormat operator Parts.text
      simp [h1, h2, h3, h4, h5]
      by_cases hw : w = 0 <;> simp [hw]
    | some p =>
      have hw : w = 0 := by rcases h with h | h <;> simp_all
      have hne := dec_ne_nil p
      have hst : dec p ≠ ['*'] := by
        intro e
        have := dec_digits p '*' (by rw [e]; simp)
        revert this; decide
      unfold pythonFormat operator Parts.text
      simp [h1, h2, h3, h4, h5, hne, hst, hw]
  rw [ht, parseSpec_text _ ⟨by simp, by simp, by
    have k : ∀ t ∈ ['f', 'F', 'e', 'E', 'g', 'G'],
      t ∈ ['d', 'o', 'x', 'X', 's', 'f', 'e', 'E', 'F', 'g', 'G', 'c'] := by decide
    exact k s hs⟩]
  rfl

/-- **C28** and **C84** (partial): a string operator with a width only or with a precision other than 0
only, left-justified or not, shows every string the way printf does. -/
theorem C28_string_partial (flags : List Char) (w : Nat) (p : Option Nat) (s : Char) (t : List Char)
    (hs : s ∈ stringSpecifiers) (hf : flags = [] ∨ flags = ['-'])
    (h : p = none ∨ (w = 0 ∧ p ≠ some 0)) :
    formatText (operator flags w p [] s) t = some (cString flags w p t) := by
  have hk : ∀ s ∈ stringSpecifiers, pythonSpecifier s = 's' ∧ s ≠ 'd' ∧ s ≠ 'P' := by decide
  obtain ⟨h1, h2, h3⟩ := hk s hs
  have key : ∀ a : Option Char, (∀ c, a = some c → isAlign c = true) →
      pythonFormat (operator flags w p [] s) = Parts.text ⟨a, none, false, false, w, p, 's'⟩ →
      formatText (operator flags w p [] s) t = pyString ⟨' ', a, none, false, w, p, some 's'⟩ t := by
    intro a ha ht
    have hr : ∃ r, Parts.text ⟨a, none, false, false, w, p, 's'⟩ = a.toList ++ r ∧
        (∀ c ∈ r, isAlign c = false) ∧ r ≠ [] := by
      refine ⟨_, rfl, ?_, by simp⟩
      intro c hc
      dsimp only at hc
      simp only [Option.toList_none, List.nil_append, Bool.false_eq_true, if_false] at hc
      rcases List.mem_append.mp hc with hc | hc
      · split at hc
        · simp at hc
        · exact (digit_facts c (dec_digits w c hc)).1
      · rcases List.mem_append.mp hc with hc | hc
        · split at hc
          · simp at hc
          · rcases List.mem_cons.mp hc with rfl | hc
            · decide
            · exact (digit_facts c (dec_digits _ c hc)).1
        · simp only [List.mem_singleton] at hc
          subst hc; decide
    obtain ⟨r, hr1, hr2, hr3⟩ := hr
    have hal : (pyAlign (Parts.text ⟨a, none, false, false, w, p, 's'⟩)).2.1 = a := by
      rw [hr1, pyAlign_eq a r ha hr2 hr3]
    unfold formatText
    rw [ht, parseSpec_text _ ⟨ha, by simp, by simp⟩]
    dsimp only
    rw [hal]
    cases a <;> rfl
  have hp : ∀ q, p = some q → dec q ≠ [] ∧ dec q ≠ ['*'] ∧ dec q ≠ ['0'] ∧ w = 0 := by
    rintro q rfl
    refine ⟨dec_ne_nil q, ?_, ?_, ?_⟩
    · intro e
      have := dec_digits q '*' (by rw [e]; simp)
      revert this; decide
    · intro e
      rcases h with h | h
      · simp at h
      · have h0 : q ≠ 0 := by simpa using h.2
        obtain ⟨c, u, hc, hc0⟩ := dec_pos_head q (by omega)
        rw [hc] at e
        simp only [List.cons.injEq] at e
        exact hc0 e.1
    · rcases h with h | h
      · simp at h
      · exact h.1
  rcases hf with rfl | rfl
  · by_cases hw : w = 0
    · subst hw
      rw [key none (by simp) (by
        cases p with
        | none => unfold pythonFormat operator Parts.text; simp [h1, h2, h3, leftFlags]
        | some q =>
          obtain ⟨q1, q2, q3, _⟩ := hp q rfl
          unfold pythonFormat operator Parts.text
          simp [h1, h2, h3, leftFlags, q1, q2, q3])]
      cases p <;> simp [pyString, pyPad, cString]
    · have hn : p = none := by rcases h with h | h; exact h; exact absurd h.1 hw
      subst hn
      have hne := dec_ne_nil w
      rw [key (some '>') (by decide) (by
        unfold pythonFormat operator Parts.text; simp [h1, h2, h3, hw, hne])]
      simp [pyString, pyPad, cString]
  · rw [key (some '<') (by decide) (by
      cases p with
      | none =>
        unfold pythonFormat operator Parts.text
        by_cases hw : w = 0 <;> simp [h1, h2, h3, hw, leftFlags]
      | some q =>
        obtain ⟨q1, q2, q3, hw⟩ := hp q rfl
        unfold pythonFormat operator Parts.text
        simp [h1, h2, h3, leftFlags, q1, q2, q3, hw])]
    cases p <;> simp [pyString, pyPad, cString]

example : cString ['-'] 5 none "abc".toList = "abc  ".toList ∧
    cString [] 0 (some 2) "abc".toList = "ab".toList := by decide +kernel

/-! ## C85: values -/

/-- **C85**: a signed integer of 1, 2, 4 or 8 bytes is shown with its value. -/
theorem C85_signed (k : Nat) (hk : k ∈ [1, 2, 4, 8]) (i : Int) (h1 : -(256 ^ k : Nat) ≤ 2 * i)
    (h2 : 2 * i < (256 ^ k : Nat)) (flags modifier : List Char) (w : Nat) (s : Char)
    (hf : flags ∈ integerFlags) (hs : s ∈ signedSpecifiers) :
    decodeSigned (operator flags w none modifier s) (leBytes k (unsigned k i)) =
      some (cInteger flags w none s i) := by
  unfold decodeSigned
  rw [if_neg (fun hn => hn (by rw [leBytes_length]; exact hk)), leBytes_length, leNat_leBytes_of_lt k _ (unsigned_lt k i),
    signed_unsigned k i h1 h2]
  exact C84_signed_partial flags modifier w s i hf hs

/-- **C85**: an unsigned integer of 1, 2, 4 or 8 bytes is shown with its value. -/
theorem C85_unsigned (k : Nat) (hk : k ∈ [1, 2, 4, 8]) (n : Nat) (h : n < 256 ^ k)
    (flags modifier : List Char) (w : Nat) (s : Char) (hs : s ∈ unsignedSpecifiers)
    (hf : flags ∈ unsignedFlags ∨ (s ∈ ['x', 'X'] ∧ flags ∈ hexadecimalFlags ∧ n ≠ 0)) :
    decodeUnsigned (operator flags w none modifier s) (leBytes k n) =
      some (cInteger flags w none s n) := by
  unfold decodeUnsigned
  rw [if_neg (fun hn => hn (by rw [leBytes_length]; exact hk)), leNat_leBytes_of_lt k n h, if_neg ?_]
  · exact C84_unsigned_partial flags modifier w n s hs hf
  · rintro ⟨h0, hh, _⟩
    have hh : flags = ['#'] := hh
    subst hh
    rcases hf with hf | hf
    · revert hf; decide
    · exact hf.2.2 h0

/-- **C85**: values of another size are marked as such. -/
theorem C85_other_sizes (o : Operator) (value : Bytes) (h : value.length ∉ [1, 2, 4, 8]) :
    decodeSigned o value = some unsupportedValue ∧ decodeUnsigned o value = some unsupportedValue := by
  unfold decodeSigned decodeUnsigned
  rw [if_pos h, if_pos h]
  exact ⟨rfl, rfl⟩

/-- **C85**: `%s` shows a string, which may be followed by zero characters. -/
theorem C85_string (utf8 : Bytes → Option (List Char)) (value : Bytes) (t : List Char) (k : Nat)
    (flags : List Char) (w : Nat) (p : Option Nat) (s : Char) (hne : value ≠ [])
    (hu : utf8 value = some (t ++ List.replicate k '\x00')) (hl : t.getLast? ≠ some '\x00')
    (hs : s ∈ stringSpecifiers) (hf : flags = [] ∨ flags = ['-'])
    (h : p = none ∨ (w = 0 ∧ p ≠ some 0)) :
    decodeText utf8 (operator flags w p [] s) value = some (cString flags w p t) := by
  have hd : (t ++ List.replicate k '\x00').reverse.dropWhile (fun c => decide (c = '\x00')) = t.reverse := by
    rw [List.reverse_append, List.reverse_replicate]
    have := takeWhile_append_stop (fun c : Char => decide (c = '\x00')) (List.replicate k '\x00') t.reverse
      (fun x hx => by simpa using List.eq_of_mem_replicate hx)
      (fun c u e => by
        have : t.reverse.head? = some c := by rw [e]; rfl
        rw [List.head?_reverse] at this
        rw [this] at hl
        simpa using hl)
    exact this.2
  unfold decodeText
  rw [if_neg hne, hu]
  dsimp only
  rw [hd, List.reverse_reverse]
  exact C28_string_partial flags w p s t hs hf h

example : decodeSigned (operator ['0'] 6 none [] 'd') [0xfe, 0xff] = some "-00002".toList ∧
    decodeUnsigned (operator ['#'] 0 none [] 'x') [0xfe, 0xff] = some "0xfffe".toList ∧
    decodeText (fun b => some (b.map (fun x => Char.ofNat x.toNat))) (operator [] 5 none [] 's')
      [97, 98, 0] = some "   ab".toList := by decide +kernel

/-- A zero shown with `%#10x` gets no padding. -/
theorem C28_zero_not_padded :
    decodeUnsigned (operator ['#'] 10 none [] 'x') [0] = some "0".toList ∧
      cInteger ['#'] 10 none 'x' 0 = "         0".toList := by decide +kernel

end Dtf.Unified
