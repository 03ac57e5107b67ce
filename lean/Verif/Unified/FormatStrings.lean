import Verif.Formats.Props

/-!
# Format strings of the unified logs (C27, C28, C84)
-/

namespace Dtf.Unified
open Py Formats Text

/-! ## Model: operators of a format string -/

def flagChars : List Char := ['-', '+', '0', ' ', '#']
def specifierChars : List Char := "@aAcCdDeEfFgGimnoOpPsSuUxX".toList
def modifierChars : List Char := ['h', 'j', 'l', 'L', 't', 'q', 'z']
def isDigit (c : Char) : Bool := decide (c ∈ "0123456789".toList)

/-- An operator of a format string: the groups of a match of the regular expression, with the length
modifier, which is not used. -/
structure Operator where
  decoder : Option (List Char)
  flags : List Char
  width : Option (List Char)
  precision : Option (List Char)
  modifier : List Char
  specifier : Char
deriving DecidableEq, Repr

/-- `(?:\{([^\}]{1,128})\})?` (unified_logging.py 359). -/
def takeDecoder : List Char → Option (Option (List Char) × List Char)
  | '{' :: t =>
    match t.dropWhile (· ≠ '}') with
    | [] => none
    | _ :: rest =>
      let d := t.takeWhile (· ≠ '}')
      if 1 ≤ d.length ∧ d.length ≤ 128 then some (some d, rest) else none
  | s => some (none, s)

/-- `([-+0 #]{0,5})` (unified_logging.py 360). -/
def takeFlags : Nat → List Char → List Char × List Char
  | n + 1, c :: t =>
    if c ∈ flagChars then
      let r := takeFlags n t
      (c :: r.1, r.2)
    else ([], c :: t)
  | _, s => ([], s)

/-- `([0-9]+|[*])?` (unified_logging.py 361). -/
def takeWidth : List Char → Option (List Char) × List Char
  | '*' :: t => (some ['*'], t)
  | s => if s.takeWhile isDigit = [] then (none, s) else (some (s.takeWhile isDigit), s.dropWhile isDigit)

/-- `(\.(?:|[0-9]+|[*]))?` (unified_logging.py 362). -/
def takePrecision : List Char → Option (List Char) × List Char
  | '.' :: '*' :: t => (some ['.', '*'], t)
  | '.' :: t => (some ('.' :: t.takeWhile isDigit), t.dropWhile isDigit)
  | s => (none, s)

/-- `(?:h|hh|j|l|ll|L|t|q|z)?([@aAcCdDeEfFgGimnoOpPsSuUxX])` (unified_logging.py 363-364). -/
def takeSpecifier : List Char → Option (List Char × Char × List Char)
  | [] => none
  | c :: t =>
    if c ∈ specifierChars then some ([], c, t)
    else if c ∈ modifierChars then
      match t with
      | [] => none
      | d :: u =>
        if d ∈ specifierChars then some ([c], d, u)
        else if d = c ∧ (c = 'h' ∨ c = 'l') then
          match u with
          | [] => none
          | e :: v => if e ∈ specifierChars then some ([c, d], e, v) else none
        else none
    else none

/-- A match of the regular expression after a `%`, other than `%%` (unified_logging.py 357-366).  No
two parts can match the same text, apart from a `0` that is a flag or the start of a width, for which
the expression prefers the flag, so that taking each part as long as possible finds the match. -/
def matchOperator (s : List Char) : Option (Operator × List Char) :=
  match takeDecoder s with
  | none => none
  | some (decoder, s) =>
    let f := takeFlags 5 s
    let w := takeWidth f.2
    let p := takePrecision w.2
    match takeSpecifier p.2 with
    | none => none
    | some (modifier, specifier, rest) => some (⟨decoder, f.1, w.1, p.1, modifier, specifier⟩, rest)

/-- What a format string is made of. -/
inductive Token where
  | literal (c : Char)
  | percent
  | operator (o : Operator)
deriving DecidableEq, Repr

/-- The matches of the regular expression and the text between them (`finditer`).  Every round takes at
least one character. -/
def tokens : Nat → List Char → List Token
  | 0, _ => []
  | _ + 1, [] => []
  | n + 1, c :: t =>
    if c = '%' then
      match matchOperator t with
      | some (o, rest) => .operator o :: tokens n rest
      | none =>
        if t.head? = some '%' then .percent :: tokens n t.tail
        else .literal c :: tokens n t
    else .literal c :: tokens n t

def tokenize (s : List Char) : List Token := tokens s.length s

/-- `_ESCAPE_REGEX.sub(r"\1\1", ...)` (unified_logging.py 447-449, 487-489). -/
def escape (c : Char) : List Char := if c = '{' ∨ c = '}' then [c, c] else [c]

/-- The segments (unified_logging.py 442-490). -/
def segments : Nat → List Token → List Char
  | _, [] => []
  | i, .literal c :: ts => escape c ++ segments i ts
  | i, .percent :: ts => '%' :: segments i ts
  | i, .operator _ :: ts => ('{' :: dec i) ++ [':', 's', '}'] ++ segments (i + 1) ts

def operators : List Token → List Operator
  | [] => []
  | .operator o :: ts => o :: operators ts
  | _ :: ts => operators ts

/-- `str.replace` of two of a character by one. -/
def halve (b : Char) : List Char → List Char
  | [] => []
  | [c] => [c]
  | c :: d :: t => if c = b ∧ d = b then b :: halve b t else c :: halve b (d :: t)

structure Formatter where
  formatString : Option (List Char)
  operators : List Operator
deriving DecidableEq, Repr

/-- `ParseFormatString` (unified_logging.py 425-496), without the decoders. -/
def parseFormatString (s : List Char) : Formatter :=
  if s = [] then ⟨none, []⟩
  else
    let ts := tokenize s
    let f := segments 0 ts
    if operators ts = [] then ⟨some (halve '}' (halve '{' f)), []⟩ else ⟨some f, operators ts⟩

/-- `str.format` with strings, for format strings with fields such as `{0:s}`. -/
def pyFormat (values : List (List Char)) : Nat → List Char → Res (List Char)
  | 0, _ => .ok []
  | _ + 1, [] => .ok []
  | n + 1, c :: t =>
    if c = '{' ∨ c = '}' then
      if t.head? = some c then (pyFormat values n t.tail).map (c :: ·)
      else if c = '}' then .error .valueError
      else
        match parseDigits 10 (t.takeWhile isDigit) with
        | none => .error .valueError
        | some i =>
          if (t.dropWhile isDigit).take 3 = [':', 's', '}'] then
            match values[i]? with
            | none => .error .indexError
            | some v => (pyFormat values n ((t.dropWhile isDigit).drop 3)).map (v ++ ·)
          else .error .valueError
    else (pyFormat values n t).map (c :: ·)

def missing : List Char := "<decode: missing data>".toList

/-- `FormatString` (unified_logging.py 375-395). -/
def formatString (f : Formatter) (values : List (List Char)) : Res (List Char) :=
  let values := values ++ List.replicate (f.operators.length - values.length) missing
  match f.formatString with
  | none => .ok []
  | some s => if f.operators = [] then .ok s else pyFormat values s.length s

/-! ## Specification -/

/-- The text of an operator. -/
def Operator.text (o : Operator) : List Char :=
  '%' :: ((o.decoder.map (fun d => '{' :: d ++ ['}'])).getD [] ++ (o.flags ++ (o.width.getD [] ++
    (o.precision.getD [] ++ (o.modifier ++ [o.specifier])))))

/-- The conversions of printf with those of Apple: objects, error numbers and long integers. -/
def conversions : List Char :=
  ['@', 'a', 'A', 'c', 'C', 'd', 'D', 'e', 'E', 'f', 'F', 'g', 'G', 'i', 'm', 'n', 'o', 'O', 'p', 'P', 's', 'S',
    'u', 'U', 'x', 'X']

theorem specifierChars_eq : specifierChars = conversions := by decide

/-- The operators there are. -/
structure Operator.Valid (o : Operator) : Prop where
  decoder : ∀ d, o.decoder = some d → 1 ≤ d.length ∧ d.length ≤ 128 ∧ '}' ∉ d
  flags : o.flags.length ≤ 5 ∧ ∀ c ∈ o.flags, c ∈ flagChars
  width : o.width = none ∨ o.width = some ['*'] ∨
    ∃ c t, o.width = some (c :: t) ∧ (∀ x ∈ c :: t, isDigit x) ∧ (o.flags.length < 5 → c ≠ '0')
  precision : o.precision = none ∨ o.precision = some ['.', '*'] ∨
    ∃ t, o.precision = some ('.' :: t) ∧ ∀ x ∈ t, isDigit x
  modifier : o.modifier ∈ [[], ['h'], ['h', 'h'], ['j'], ['l'], ['l', 'l'], ['L'], ['t'], ['q'], ['z']]
  specifier : o.specifier ∈ conversions

/-- A part of a format string. -/
inductive Piece where
  | text (t : List Char)
  | percent
  | operator (o : Operator)

def Piece.source : Piece → List Char
  | .text t => t
  | .percent => ['%', '%']
  | .operator o => o.text

def Piece.Ok : Piece → Prop
  | .text t => '%' ∉ t
  | .percent => True
  | .operator o => o.Valid

/-- What a format string shows: text as it is, one `%` for two, and the values in order. -/
def render : List Piece → List (List Char) → List Char
  | [], _ => []
  | .text t :: ps, vs => t ++ render ps vs
  | .percent :: ps, vs => '%' :: render ps vs
  | .operator _ :: ps, [] => missing ++ render ps []
  | .operator _ :: ps, v :: vs => v ++ render ps vs

/-! ## The operators are found -/

theorem takeFlags_eq (n : Nat) (f r : List Char) (hl : f.length ≤ n) (hf : ∀ c ∈ f, c ∈ flagChars)
    (hr : f.length < n → ∀ c t, r = c :: t → c ∉ flagChars) : takeFlags n (f ++ r) = (f, r) := by
  induction f generalizing n with
  | nil =>
    cases n with
    | zero => cases r <;> rfl
    | succ n =>
      cases r with
      | nil => rfl
      | cons c t =>
        rw [List.nil_append, takeFlags, if_neg (hr (by simp) c t rfl)]
  | cons c f ih =>
    cases n with
    | zero => simp at hl
    | succ n =>
      rw [List.cons_append, takeFlags, if_pos (hf c (by simp))]
      rw [ih n (by simpa using hl) (fun x hx => hf x (List.mem_cons_of_mem _ hx))
        (fun h => hr (by simpa using h))]

theorem takeWhile_append_stop {α : Type} (p : α → Bool) (a r : List α) (ha : ∀ x ∈ a, p x)
    (hr : ∀ c t, r = c :: t → p c = false) :
    (a ++ r).takeWhile p = a ∧ (a ++ r).dropWhile p = r := by
  induction a with
  | nil =>
    cases r with
    | nil => simp
    | cons c t => simp [hr c t rfl]
  | cons x a ih =>
    have hx := ha x (by simp)
    have ih := ih (fun y hy => ha y (List.mem_cons_of_mem _ hy))
    simp only [List.cons_append, List.takeWhile_cons, List.dropWhile_cons, hx, if_true]
    exact ⟨by rw [ih.1], ih.2⟩

theorem digit_not_star : isDigit '*' = false := by decide

theorem takeWidth_eq (w : Option (List Char)) (r : List Char)
    (hw : w = none ∨ w = some ['*'] ∨ ∃ c t, w = some (c :: t) ∧ ∀ x ∈ c :: t, isDigit x)
    (hr : ∀ c t, r = c :: t → c ≠ '*' ∧ isDigit c = false) :
    takeWidth (w.getD [] ++ r) = (w, r) := by
  rcases hw with rfl | rfl | ⟨c, t, rfl, hd⟩
  · cases r with
    | nil => rfl
    | cons c t =>
      obtain ⟨h1, h2⟩ := hr c t rfl
      unfold takeWidth
      simp only [Option.getD_none, List.nil_append]
      split
      · rename_i heq
        simp only [List.cons.injEq] at heq
        exact absurd heq.1 h1
      · simp [List.takeWhile_cons, h2]
  · rfl
  · have h := takeWhile_append_stop isDigit (c :: t) r hd (fun c t h => (hr c t h).2)
    simp only [Option.getD_some]
    unfold takeWidth
    split
    · rename_i heq
      simp only [List.cons_append, List.cons.injEq] at heq
      have := hd c (by simp)
      rw [heq.1, digit_not_star] at this
      simp at this
    · rw [h.1, h.2]
      simp

theorem takePrecision_eq (p : Option (List Char)) (r : List Char)
    (hp : p = none ∨ p = some ['.', '*'] ∨ ∃ t, p = some ('.' :: t) ∧ ∀ x ∈ t, isDigit x)
    (hr : ∀ c t, r = c :: t → c ≠ '.' ∧ c ≠ '*' ∧ isDigit c = false) :
    takePrecision (p.getD [] ++ r) = (p, r) := by
  rcases hp with rfl | rfl | ⟨t, rfl, hd⟩
  · simp only [Option.getD_none, List.nil_append]
    unfold takePrecision
    split
    · exact absurd rfl (hr _ _ rfl).1
    · exact absurd rfl (hr _ _ rfl).1
    · rfl
  · rfl
  · have h := takeWhile_append_stop isDigit t r hd (fun c t h => (hr c t h).2.2)
    simp only [Option.getD_some, List.cons_append]
    unfold takePrecision
    split
    · rename_i u heq
      simp only [List.cons.injEq, true_and] at heq
      cases t with
      | nil =>
        simp only [List.nil_append] at heq
        exact absurd rfl (hr _ _ heq).2.1
      | cons c t =>
        simp only [List.cons_append, List.cons.injEq] at heq
        have := hd c (by simp)
        rw [heq.1, digit_not_star] at this
        simp at this
    · rename_i u _ heq
      simp only [List.cons.injEq, true_and] at heq
      subst heq
      rw [h.1, h.2]
    · rename_i hno
      exact absurd rfl (hno _)

theorem takeSpecifier_eq (m : List Char) (s : Char) (r : List Char)
    (hm : m ∈ [[], ['h'], ['h', 'h'], ['j'], ['l'], ['l', 'l'], ['L'], ['t'], ['q'], ['z']])
    (hs : s ∈ specifierChars) : takeSpecifier (m ++ [s] ++ r) = some (m, s, r) := by
  have hn : ∀ c ∈ modifierChars, c ∉ specifierChars := by decide
  simp only [List.mem_cons, List.not_mem_nil, or_false] at hm
  have one : ∀ c ∈ modifierChars, takeSpecifier ([c] ++ [s] ++ r) = some ([c], s, r) := by
    intro c hc
    simp only [List.cons_append, List.nil_append, takeSpecifier]
    rw [if_neg (hn c hc), if_pos hc, if_pos hs]
  have two : ∀ c, (c = 'h' ∨ c = 'l') → takeSpecifier ([c, c] ++ [s] ++ r) = some ([c, c], s, r) := by
    intro c hc
    have hcm : c ∈ modifierChars := by rcases hc with rfl | rfl <;> decide
    simp only [List.cons_append, List.nil_append, takeSpecifier]
    rw [if_neg (hn c hcm), if_pos hcm, if_neg (hn c hcm), if_pos ⟨trivial, hc⟩, if_pos hs]
  rcases hm with rfl | rfl | rfl | rfl | rfl | rfl | rfl | rfl | rfl | rfl
  · simp [takeSpecifier, hs]
  · exact one _ (by decide)
  · exact two _ (.inl rfl)
  · exact one _ (by decide)
  · exact one _ (by decide)
  · exact two _ (.inr rfl)
  · exact one _ (by decide)
  · exact one _ (by decide)
  · exact one _ (by decide)
  · exact one _ (by decide)

theorem takeDecoder_eq (d : Option (List Char)) (r : List Char)
    (hd : ∀ x, d = some x → 1 ≤ x.length ∧ x.length ≤ 128 ∧ '}' ∉ x)
    (hr : ∀ c t, r = c :: t → c ≠ '{') :
    takeDecoder ((d.map (fun d => '{' :: d ++ ['}'])).getD [] ++ r) = some (d, r) := by
  cases d with
  | none =>
    simp only [Option.map_none, Option.getD_none, List.nil_append]
    unfold takeDecoder
    split
    · exact absurd rfl (hr _ _ rfl)
    · rfl
  | some x =>
    obtain ⟨h1, h2, h3⟩ := hd x rfl
    have h := takeWhile_append_stop (fun c : Char => decide (c ≠ '}')) x ('}' :: r)
      (fun c hc => by
        have : c ≠ '}' := fun e => h3 (e ▸ hc)
        simpa using this)
      (fun c t e => by simp only [List.cons.injEq] at e; simp [← e.1])
    simp only [Option.map_some, Option.getD_some, List.cons_append, List.append_assoc, List.nil_append]
    have e : takeDecoder ('{' :: (x ++ '}' :: r)) =
        match (x ++ '}' :: r).dropWhile (fun c : Char => decide (c ≠ '}')) with
        | [] => none
        | _ :: rest =>
          let d := (x ++ '}' :: r).takeWhile (fun c : Char => decide (c ≠ '}'))
          if 1 ≤ d.length ∧ d.length ≤ 128 then some (some d, rest) else none := rfl
    rw [e, h.1, h.2]
    simp [h1, h2]

/-- The first characters of the parts of an operator. -/
theorem specifier_head (m : List Char) (s : Char) (r : List Char)
    (hm : m ∈ [[], ['h'], ['h', 'h'], ['j'], ['l'], ['l', 'l'], ['L'], ['t'], ['q'], ['z']])
    (hs : s ∈ specifierChars) (c : Char) (t : List Char) (h : m ++ [s] ++ r = c :: t) :
    c ∈ specifierChars ∨ c ∈ modifierChars := by
  simp only [List.mem_cons, List.not_mem_nil, or_false] at hm
  rcases hm with rfl | rfl | rfl | rfl | rfl | rfl | rfl | rfl | rfl | rfl <;>
    simp only [List.cons_append, List.nil_append, List.cons.injEq] at h
  · exact .inl (h.1 ▸ hs)
  all_goals exact .inr (by rw [← h.1]; decide)

theorem matchOperator_text (o : Operator) (h : o.Valid) (rest : List Char) :
    ∃ body, o.text = '%' :: body ∧ matchOperator (body ++ rest) = some (o, rest) := by
  obtain ⟨decoder, flags, width, precision, modifier, specifier⟩ := o
  obtain ⟨hd, hf, hw, hp, hm, hs⟩ := h
  dsimp only at hd hf hw hp hm hs
  refine ⟨_, rfl, ?_⟩
  -- The first characters of what follows the parts.
  have a1 : ∀ c, c ∈ specifierChars ∨ c ∈ modifierChars →
      c ≠ '.' ∧ c ≠ '*' ∧ isDigit c = false ∧ c ∉ flagChars ∧ c ≠ '{' := by
    have k1 : ∀ c ∈ specifierChars,
      c ≠ '.' ∧ c ≠ '*' ∧ isDigit c = false ∧ c ∉ flagChars ∧ c ≠ '{' := by decide
    have k2 : ∀ c ∈ modifierChars,
      c ≠ '.' ∧ c ≠ '*' ∧ isDigit c = false ∧ c ∉ flagChars ∧ c ≠ '{' := by decide
    rintro c (h | h)
    · exact k1 c h
    · exact k2 c h
  generalize hr1 : modifier ++ [specifier] ++ rest = r1
  have b1 : ∀ c t, r1 = c :: t →
      c ≠ '.' ∧ c ≠ '*' ∧ isDigit c = false ∧ c ∉ flagChars ∧ c ≠ '{' := by
    intro c t e
    subst hr1
    exact a1 c (specifier_head modifier specifier rest hm hs c t e)
  generalize hr2 : precision.getD [] ++ r1 = r2
  have b2 : ∀ c t, r2 = c :: t → c ≠ '*' ∧ isDigit c = false ∧ c ∉ flagChars ∧ c ≠ '{' := by
    intro c t e
    subst hr2
    rcases hp with rfl | rfl | ⟨u, rfl, _⟩
    · exact (b1 c t e).2
    · simp only [Option.getD_some, List.cons_append, List.cons.injEq] at e
      rw [← e.1]; decide
    · simp only [Option.getD_some, List.cons_append, List.cons.injEq] at e
      rw [← e.1]; decide
  generalize hr3 : width.getD [] ++ r2 = r3
  have digitFlag : ∀ c ∈ "0123456789".toList, c ≠ '0' → c ∉ flagChars := by decide
  have digitBrace : ∀ c ∈ "0123456789".toList, c ≠ '{' := by decide
  have b3 : ∀ c t, r3 = c :: t → (flags.length < 5 → c ∉ flagChars) ∧ c ≠ '{' := by
    intro c t e
    subst hr3
    rcases hw with rfl | rfl | ⟨x, u, rfl, hx, h0⟩
    · exact ⟨fun _ => (b2 c t e).2.2.1, (b2 c t e).2.2.2⟩
    · simp only [Option.getD_some, List.cons_append, List.cons.injEq] at e
      rw [← e.1]
      exact ⟨fun _ => by decide, by decide⟩
    · simp only [Option.getD_some, List.cons_append, List.cons.injEq] at e
      rw [← e.1]
      have hxd : x ∈ "0123456789".toList := by
        have := hx x (by simp)
        simpa only [isDigit, decide_eq_true_eq] using this
      exact ⟨fun hl => digitFlag x hxd (h0 hl), digitBrace x hxd⟩
  generalize hr4 : flags ++ r3 = r4
  have b4 : ∀ c t, r4 = c :: t → c ≠ '{' := by
    intro c t e
    subst hr4
    cases hfl : flags with
    | nil => rw [hfl] at e; exact (b3 c t e).2
    | cons x u =>
      rw [hfl] at e
      simp only [List.cons_append, List.cons.injEq] at e
      rw [← e.1]
      have := hf.2 x (by rw [hfl]; simp)
      have k : ∀ c ∈ flagChars, c ≠ '{' := by decide
      exact k x this
  have e : (decoder.map (fun d => '{' :: d ++ ['}'])).getD [] ++ (flags ++ (width.getD [] ++
      (precision.getD [] ++ (modifier ++ [specifier])))) ++ rest =
      (decoder.map (fun d => '{' :: d ++ ['}'])).getD [] ++ r4 := by
    rw [← hr4, ← hr3, ← hr2, ← hr1]
    simp only [List.append_assoc]
  show matchOperator _ = _
  dsimp only
  rw [e]
  unfold matchOperator
  rw [takeDecoder_eq decoder r4 hd b4]
  dsimp only
  rw [← hr4, takeFlags_eq 5 flags r3 hf.1 hf.2 (fun hl c t e => (b3 c t e).1 hl)]
  dsimp only
  have hw' : width = none ∨ width = some ['*'] ∨
      ∃ c t, width = some (c :: t) ∧ ∀ x ∈ c :: t, isDigit x := by
    rcases hw with h | h | ⟨c, t, h1, h2, _⟩
    · exact .inl h
    · exact .inr (.inl h)
    · exact .inr (.inr ⟨c, t, h1, h2⟩)
  rw [← hr3, takeWidth_eq width r2 hw' (fun c t e => ⟨(b2 c t e).1, (b2 c t e).2.1⟩)]
  dsimp only
  rw [← hr2, takePrecision_eq precision r1 hp
    (fun c t e => ⟨(b1 c t e).1, (b1 c t e).2.1, (b1 c t e).2.2.1⟩)]
  dsimp only
  rw [← hr1, takeSpecifier_eq modifier specifier rest hm hs]

/-! ## The parts of a format string are found -/

theorem takeSpecifier_sound (s m : List Char) (c : Char) (r : List Char)
    (h : takeSpecifier s = some (m, c, r)) : s = m ++ [c] ++ r := by
  unfold takeSpecifier at h
  split at h
  · simp at h
  · split at h
    · simp only [Option.some.injEq, Prod.mk.injEq] at h
      obtain ⟨rfl, rfl, rfl⟩ := h
      rfl
    · split at h
      · split at h
        · simp at h
        · split at h
          · simp only [Option.some.injEq, Prod.mk.injEq] at h
            obtain ⟨rfl, rfl, rfl⟩ := h
            rfl
          · split at h
            · split at h
              · simp at h
              · split at h
                · simp only [Option.some.injEq, Prod.mk.injEq] at h
                  obtain ⟨rfl, rfl, rfl⟩ := h
                  rfl
                · simp at h
            · simp at h
      · simp at h

theorem takePrecision_sound (s : List Char) :
    s = (takePrecision s).1.getD [] ++ (takePrecision s).2 := by
  unfold takePrecision
  split
  · rfl
  · simp [List.takeWhile_append_dropWhile]
  · rfl

theorem takeWidth_sound (s : List Char) : s = (takeWidth s).1.getD [] ++ (takeWidth s).2 := by
  unfold takeWidth
  split
  · rfl
  · split
    · rfl
    · simp [List.takeWhile_append_dropWhile]

theorem takeFlags_sound (n : Nat) (s : List Char) : s = (takeFlags n s).1 ++ (takeFlags n s).2 := by
  induction n generalizing s with
  | zero => cases s <;> rfl
  | succ n ih =>
    cases s with
    | nil => rfl
    | cons c t =>
      rw [takeFlags]
      split
      · simp only [List.cons_append]
        rw [← ih t]
      · rfl

theorem takeDecoder_sound (s : List Char) (d : Option (List Char)) (r : List Char)
    (h : takeDecoder s = some (d, r)) :
    s = (d.map (fun d => '{' :: d ++ ['}'])).getD [] ++ r := by
  unfold takeDecoder at h
  split at h
  · rename_i t
    split at h
    · simp at h
    · rename_i c rest heq
      dsimp only at h
      split at h
      · simp only [Option.some.injEq, Prod.mk.injEq] at h
        obtain ⟨rfl, rfl⟩ := h
        have hc : c = '}' := by
          have := List.head?_dropWhile_not (p := fun c : Char => decide (c ≠ '}')) t
          rw [heq] at this
          simpa using this
        subst hc
        simp only [Option.map_some, Option.getD_some, List.cons_append, List.append_assoc,
          List.nil_append]
        rw [← heq, List.takeWhile_append_dropWhile]
      · simp at h
  · simp only [Option.some.injEq, Prod.mk.injEq] at h
    obtain ⟨rfl, rfl⟩ := h
    rfl

theorem matchOperator_sound (s : List Char) (o : Operator) (rest : List Char)
    (h : matchOperator s = some (o, rest)) : '%' :: s = o.text ++ rest := by
  unfold matchOperator at h
  split at h
  · simp at h
  · rename_i decoder s1 hd
    dsimp only at h
    split at h
    · simp at h
    · rename_i m c r hs
      simp only [Option.some.injEq, Prod.mk.injEq] at h
      obtain ⟨rfl, rfl⟩ := h
      have e1 := takeDecoder_sound s decoder s1 hd
      have e2 := takeFlags_sound 5 s1
      have e3 := takeWidth_sound (takeFlags 5 s1).2
      have e4 := takePrecision_sound (takeWidth (takeFlags 5 s1).2).2
      have e5 := takeSpecifier_sound _ _ _ _ hs
      unfold Operator.text
      simp only [List.cons_append, List.append_assoc]
      congr 1
      conv => lhs; rw [e1, e2, e3, e4, e5]
      simp only [List.append_assoc, List.cons_append, List.nil_append]

theorem matchOperator_percent (t : List Char) : matchOperator ('%' :: t) = none := by
  have h1 : takeDecoder ('%' :: t) = some (none, '%' :: t) := rfl
  have h2 : takeFlags 5 ('%' :: t) = ([], '%' :: t) := rfl
  have h3 : takeWidth ('%' :: t) = (none, '%' :: t) := rfl
  have h4 : takePrecision ('%' :: t) = (none, '%' :: t) := rfl
  have h5 : takeSpecifier ('%' :: t) = none := rfl
  unfold matchOperator
  rw [h1]
  simp only [h2, h3, h4, h5]

theorem Operator.text_length (o : Operator) : 2 ≤ o.text.length := by
  simp [Operator.text]; omega

/-- More rounds than there are characters make no difference. -/
theorem tokens_fuel (n : Nat) (s : List Char) (h : s.length ≤ n) : tokens n s = tokenize s := by
  unfold tokenize
  induction n using Nat.strongRecOn generalizing s with
  | _ n ih =>
    cases s with
    | nil => cases n <;> rfl
    | cons c t =>
      cases n with
      | zero => simp at h
      | succ n =>
        simp only [List.length_cons] at h ⊢
        have hr : ∀ r : List Char, r.length ≤ t.length → tokens n r = tokens t.length r := by
          intro r hr
          rw [ih n (by omega) r (by omega), ih t.length (by omega) r hr]
        rw [tokens, tokens]
        split
        · cases hm : matchOperator t with
          | some x =>
            obtain ⟨o, rest⟩ := x
            dsimp only
            have e := matchOperator_sound t o rest hm
            have hl := congrArg List.length e
            have := o.text_length
            simp only [List.length_cons, List.length_append] at hl
            rw [hr rest (by omega)]
          | none =>
            dsimp only
            rw [hr t (by omega), hr t.tail (by simp)]
        · rw [hr t (by omega)]

theorem tokenize_nil : tokenize [] = [] := rfl

theorem tokenize_char (c : Char) (t : List Char) (hc : c ≠ '%') :
    tokenize (c :: t) = .literal c :: tokenize t := by
  unfold tokenize
  simp only [List.length_cons]
  rw [tokens, if_neg hc]

theorem tokenize_percent (t : List Char) : tokenize ('%' :: '%' :: t) = .percent :: tokenize t := by
  unfold tokenize
  simp only [List.length_cons]
  rw [tokens, if_pos rfl, matchOperator_percent]
  dsimp only
  rw [if_pos (by rfl), List.tail_cons, tokens_fuel _ _ (by omega)]
  rfl

theorem tokenize_operator (o : Operator) (h : o.Valid) (t : List Char) :
    tokenize (o.text ++ t) = .operator o :: tokenize t := by
  obtain ⟨body, hb, hm⟩ := matchOperator_text o h t
  rw [hb]
  unfold tokenize
  simp only [List.cons_append, List.length_cons]
  rw [tokens, if_pos rfl, hm]
  dsimp only
  rw [tokens_fuel _ _ (by simp)]
  rfl

theorem tokenize_text (u t : List Char) (h : '%' ∉ u) :
    tokenize (u ++ t) = u.map .literal ++ tokenize t := by
  induction u with
  | nil => rfl
  | cons c u ih =>
    have hc : c ≠ '%' := fun e => h (by rw [e]; simp)
    rw [List.cons_append, tokenize_char _ _ hc, ih (fun hh => h (List.mem_cons_of_mem _ hh))]
    rfl

/-! ## C27: what is shown -/

def Token.source : Token → List Char
  | .literal c => [c]
  | .percent => ['%', '%']
  | .operator o => o.text

/-- What tokens show. -/
def show_ : List Token → List (List Char) → List Char
  | [], _ => []
  | .literal c :: ts, vs => c :: show_ ts vs
  | .percent :: ts, vs => '%' :: show_ ts vs
  | .operator _ :: ts, [] => missing ++ show_ ts []
  | .operator _ :: ts, v :: vs => v ++ show_ ts vs

theorem isDigit_digitChar (d : Nat) (h : d < 10) : isDigit (digitChar d) = true := by
  have k : ∀ d < 10, isDigit (digitChar d) = true := by decide
  exact k d h

theorem dec_digits (i : Nat) : ∀ c ∈ dec i, isDigit c = true := by
  intro c hc
  obtain ⟨d, hd, rfl⟩ := mem_digits 10 i (by omega) c hc
  exact isDigit_digitChar d hd

theorem dec_head (i : Nat) : ∃ c t, dec i = c :: t ∧ isDigit c = true := by
  have hne : dec i ≠ [] := digits_ne_nil 10 i
  cases h : dec i with
  | nil => exact absurd h hne
  | cons c t => exact ⟨c, t, rfl, dec_digits i c (by rw [h]; simp)⟩

theorem pyFormat_field (values : List (List Char)) (n i : Nat) (v rest : List Char)
    (hv : values[i]? = some v) :
    pyFormat values (n + 1) (('{' :: dec i) ++ [':', 's', '}'] ++ rest) =
      (pyFormat values n rest).map (v ++ ·) := by
  obtain ⟨c, t, hc, hd⟩ := dec_head i
  have hb : c ≠ '{' := by
    intro e
    rw [e] at hd
    revert hd
    decide
  have h := takeWhile_append_stop isDigit (dec i) (':' :: 's' :: '}' :: rest) (dec_digits i)
    (fun c t e => by simp only [List.cons.injEq] at e; rw [← e.1]; decide)
  have e : ('{' :: dec i) ++ [':', 's', '}'] ++ rest = '{' :: (dec i ++ ':' :: 's' :: '}' :: rest) := by
    simp
  have hh : (dec i ++ ':' :: 's' :: '}' :: rest).head? ≠ some '{' := by
    rw [hc]; simpa using hb
  rw [e, pyFormat, if_pos (.inl rfl), if_neg hh, if_neg (by decide), h.1, h.2,
    show parseDigits 10 (dec i) = some i from parse_digits 10 i (by omega) (by omega)]
  dsimp only
  rw [if_pos (by rfl), hv]
  rfl

theorem pyFormat_char (values : List (List Char)) (n : Nat) (c : Char) (t : List Char) :
    pyFormat values (n + 1) (escape c ++ t) = (pyFormat values n t).map (c :: ·) := by
  unfold escape
  split
  · rename_i h
    simp only [List.cons_append, List.nil_append]
    rw [pyFormat, if_pos h, if_pos (by rfl)]
    rfl
  · rename_i h
    simp only [List.cons_append, List.nil_append]
    rw [pyFormat, if_neg h]

theorem segments_length (i : Nat) (ts : List Token) : ts.length ≤ (segments i ts).length := by
  induction ts generalizing i with
  | nil => simp [segments]
  | cons t ts ih =>
    cases t with
    | literal c =>
      have := ih i
      simp only [segments, escape]
      split <;> simp <;> omega
    | percent => have := ih i; simp [segments]; omega
    | operator o => have := ih (i + 1); simp [segments]; omega

theorem pyFormat_segments (values : List (List Char)) (ts : List Token) (i n : Nat)
    (hn : ts.length ≤ n) (hv : i + (operators ts).length ≤ values.length) :
    pyFormat values n (segments i ts) = .ok (show_ ts (values.drop i)) := by
  induction ts generalizing i n with
  | nil => cases n <;> rfl
  | cons t ts ih =>
    cases n with
    | zero => simp at hn
    | succ n =>
      simp only [List.length_cons, Nat.add_le_add_iff_right] at hn
      cases t with
      | literal c =>
        simp only [segments]
        rw [pyFormat_char, ih i n hn hv]
        rfl
      | percent =>
        simp only [segments]
        have := pyFormat_char values n '%' (segments i ts)
        rw [show escape '%' ++ segments i ts = '%' :: segments i ts from rfl] at this
        rw [this, ih i n hn hv]
        rfl
      | operator o =>
        simp only [operators, List.length_cons] at hv
        have hi : i < values.length := by omega
        simp only [segments]
        rw [pyFormat_field values n i values[i] _ (by simp [hi]), ih (i + 1) n hn (by omega),
          List.drop_eq_getElem_cons hi]
        rfl

theorem show_pad (ts : List Token) (vs : List (List Char)) (k : Nat) :
    show_ ts (vs ++ List.replicate k missing) = show_ ts vs := by
  induction ts generalizing vs k with
  | nil => rfl
  | cons t ts ih =>
    cases t with
    | literal c => simp only [show_]; rw [ih]
    | percent => simp only [show_]; rw [ih]
    | operator o =>
      cases vs with
      | cons v vs => simp only [List.cons_append, show_]; rw [ih]
      | nil =>
        cases k with
        | zero => rfl
        | succ k =>
          have := ih [] k
          simp only [List.nil_append] at this
          simp only [List.nil_append, List.replicate_succ, show_]
          rw [this]

/-- Every character `b` twice. -/
def double (b : Char) (s : List Char) : List Char := s.flatMap (fun c => if c = b then [c, c] else [c])

theorem halve_double (b : Char) (s : List Char) : halve b (double b s) = s := by
  induction s with
  | nil => rfl
  | cons c s ih =>
    unfold double at ih ⊢
    rw [List.flatMap_cons]
    split
    · rename_i h
      subst h
      simp only [List.cons_append, List.nil_append, halve]
      rw [if_pos ⟨trivial, trivial⟩, ih]
    · rename_i h
      simp only [List.cons_append, List.nil_append]
      generalize hd : s.flatMap _ = d at ih
      cases d with
      | nil => simp only [halve] at ih ⊢; rw [← ih]
      | cons e d => simp only [halve]; rw [if_neg (fun hh => h hh.1), ih]

theorem segments_plain (i : Nat) (ts : List Token) (vs : List (List Char)) (h : operators ts = []) :
    segments i ts = double '{' (double '}' (show_ ts vs)) := by
  induction ts with
  | nil => rfl
  | cons t ts ih =>
    cases t with
    | operator o => simp [operators] at h
    | percent =>
      have ih := ih h
      simp only [segments, show_, ih]
      simp [double]
    | literal c =>
      have ih := ih h
      simp only [segments, show_, ih, escape]
      by_cases h1 : c = '{'
      · subst h1; simp [double]
      by_cases h2 : c = '}'
      · subst h2; simp [double]
      simp [double, h1, h2]

theorem tokenize_ne_nil (s : List Char) (h : s ≠ []) : tokenize s ≠ [] := by
  cases s with
  | nil => exact absurd rfl h
  | cons c t =>
    unfold tokenize
    simp only [List.length_cons]
    rw [tokens]
    split
    · split
      · simp
      · split <;> simp
    · simp

/-- The tokens are the parts of the format string, in order. -/
theorem C27_tokens_are_the_string (s : List Char) : (tokenize s).flatMap Token.source = s := by
  suffices h : ∀ n, ∀ s : List Char, s.length ≤ n → (tokens n s).flatMap Token.source = s from
    h s.length s (Nat.le_refl _)
  intro n
  induction n with
  | zero =>
    intro s h
    have : s = [] := List.length_eq_zero_iff.mp (by omega)
    subst this; rfl
  | succ n ih =>
    intro s h
    cases s with
    | nil => rfl
    | cons c t =>
      simp only [List.length_cons, Nat.add_le_add_iff_right] at h
      rw [tokens]
      split
      · rename_i hc
        subst hc
        cases hm : matchOperator t with
        | some x =>
          obtain ⟨o, rest⟩ := x
          have e := matchOperator_sound t o rest hm
          have hl := congrArg List.length e
          have := o.text_length
          simp only [List.length_cons, List.length_append] at hl
          dsimp only
          rw [List.flatMap_cons, ih rest (by omega), e]
          rfl
        | none =>
          dsimp only
          split
          · rename_i hh
            cases t with
            | nil => simp at hh
            | cons d t =>
              simp only [List.head?_cons, Option.some.injEq] at hh
              subst hh
              rw [List.tail_cons, List.flatMap_cons, ih t (by simp at h; omega)]
              rfl
          · rw [List.flatMap_cons, ih t h]; rfl
      · rw [List.flatMap_cons, ih t h]; rfl

/-- **C27** for every format string: it is shown without an error, with what is not an operator as it
is, the values for the operators in order and the missing ones marked. -/
theorem C27_every_string (s : List Char) (vs : List (List Char)) :
    formatString (parseFormatString s) vs = .ok (show_ (tokenize s) vs) := by
  unfold parseFormatString formatString
  by_cases hs : s = []
  · rw [if_pos hs, hs]; rfl
  · rw [if_neg hs]
    dsimp only
    by_cases h : operators (tokenize s) = []
    · rw [if_pos h]
      dsimp only
      rw [if_pos rfl, segments_plain 0 (tokenize s) vs h, halve_double, halve_double]
    · rw [if_neg h]
      dsimp only
      rw [if_neg h, pyFormat_segments _ _ _ _ (segments_length 0 _) (by simp; omega), List.drop_zero,
        show_pad]

theorem show_literals (u : List Char) (ts : List Token) (vs : List (List Char)) :
    show_ (u.map .literal ++ ts) vs = u ++ show_ ts vs := by
  induction u with
  | nil => rfl
  | cons c u ih => simp only [List.map_cons, List.cons_append, show_]; rw [ih]

/-- **C27**: a format string made of text, doubled percent signs and operators shows the text as it
is, a percent sign and the values in order.  Values that are missing are marked and further values are
not shown. -/
theorem C27_renders (ps : List Piece) (hok : ∀ p ∈ ps, p.Ok) (vs : List (List Char)) :
    formatString (parseFormatString (ps.flatMap Piece.source)) vs = .ok (render ps vs) := by
  rw [C27_every_string]
  congr 1
  induction ps generalizing vs with
  | nil => rfl
  | cons p ps ih =>
    have ih := ih (fun q hq => hok q (List.mem_cons_of_mem _ hq))
    have hp := hok p (by simp)
    rw [List.flatMap_cons]
    cases p with
    | text t =>
      simp only [Piece.source, render]
      rw [tokenize_text _ _ hp, show_literals, ih]
    | percent =>
      simp only [Piece.source, render, List.cons_append, List.nil_append]
      rw [tokenize_percent, show_, ih]
    | operator o =>
      simp only [Piece.source]
      rw [tokenize_operator o hp]
      cases vs with
      | nil => simp only [show_, render]; rw [ih]
      | cons v vs => simp only [show_, render]; rw [ih]

/-- The operators of a format string are the ones it was made of. -/
theorem C27_operators (ps : List Piece) (hok : ∀ p ∈ ps, p.Ok) :
    operators (tokenize (ps.flatMap Piece.source)) =
      ps.filterMap (fun p => match p with | .operator o => some o | _ => none) := by
  induction ps with
  | nil => rfl
  | cons p ps ih =>
    have ih := ih (fun q hq => hok q (List.mem_cons_of_mem _ hq))
    have hp := hok p (by simp)
    rw [List.flatMap_cons]
    cases p with
    | text t =>
      simp only [Piece.source]
      rw [tokenize_text _ _ hp]
      have : ∀ (u : List Char) ts, operators (u.map .literal ++ ts) = operators ts := by
        intro u ts
        induction u with
        | nil => rfl
        | cons c u ih => simpa [operators] using ih
      rw [this, ih]
      rfl
    | percent =>
      simp only [Piece.source, List.cons_append, List.nil_append]
      rw [tokenize_percent, operators, ih]
      · rfl
      · intro o; simp
    | operator o =>
      simp only [Piece.source]
      rw [tokenize_operator o hp, operators, ih]
      rfl

theorem takeFlags_valid (n : Nat) (s : List Char) :
    (takeFlags n s).1.length ≤ n ∧ (∀ c ∈ (takeFlags n s).1, c ∈ flagChars) ∧
      ((takeFlags n s).1.length < n → ∀ c t, (takeFlags n s).2 = c :: t → c ∉ flagChars) := by
  induction n generalizing s with
  | zero => cases s <;> simp [takeFlags]
  | succ n ih =>
    cases s with
    | nil => simp [takeFlags]
    | cons c t =>
      rw [takeFlags]
      split
      · rename_i hc
        obtain ⟨h1, h2, h3⟩ := ih t
        refine ⟨by simpa using h1, ?_, fun hl => h3 (by simpa using hl)⟩
        intro x hx
        rcases List.mem_cons.mp hx with rfl | hx
        · exact hc
        · exact h2 x hx
      · rename_i hc
        refine ⟨by simp, by simp, fun _ x u hx => ?_⟩
        simp only [List.cons.injEq] at hx
        exact hx.1 ▸ hc

theorem mem_takeWhile {α : Type} (p : α → Bool) (s : List α) (x : α) (h : x ∈ s.takeWhile p) :
    p x = true := by
  induction s with
  | nil => simp at h
  | cons c t ih =>
    rw [List.takeWhile_cons] at h
    split at h
    · rename_i hc
      rcases List.mem_cons.mp h with rfl | h
      · exact hc
      · exact ih h
    · simp at h

theorem takeSpecifier_valid (s m : List Char) (c : Char) (r : List Char)
    (h : takeSpecifier s = some (m, c, r)) :
    m ∈ [[], ['h'], ['h', 'h'], ['j'], ['l'], ['l', 'l'], ['L'], ['t'], ['q'], ['z']] ∧
      c ∈ specifierChars := by
  have k : ∀ x ∈ modifierChars, [x] ∈
      [[], ['h'], ['h', 'h'], ['j'], ['l'], ['l', 'l'], ['L'], ['t'], ['q'], ['z']] := by decide
  unfold takeSpecifier at h
  split at h
  · simp at h
  · split at h
    · rename_i hs
      simp only [Option.some.injEq, Prod.mk.injEq] at h
      obtain ⟨rfl, rfl, rfl⟩ := h
      exact ⟨by simp, hs⟩
    · split at h
      · rename_i hx
        split at h
        · simp at h
        · split at h
          · rename_i hs
            simp only [Option.some.injEq, Prod.mk.injEq] at h
            obtain ⟨rfl, rfl, rfl⟩ := h
            exact ⟨k _ hx, hs⟩
          · split at h
            · rename_i hc
              split at h
              · simp at h
              · split at h
                · rename_i hs
                  simp only [Option.some.injEq, Prod.mk.injEq] at h
                  obtain ⟨rfl, rfl, rfl⟩ := h
                  obtain ⟨rfl, rfl | rfl⟩ := hc
                  · exact ⟨by simp, hs⟩
                  · exact ⟨by simp, hs⟩
                · simp at h
            · simp at h
      · simp at h

/-- An operator that is found is valid. -/
theorem matchOperator_valid (s : List Char) (o : Operator) (rest : List Char)
    (h : matchOperator s = some (o, rest)) : o.Valid := by
  unfold matchOperator at h
  split at h
  · simp at h
  · rename_i decoder s1 hd
    dsimp only at h
    split at h
    · simp at h
    · rename_i m c r hs
      simp only [Option.some.injEq, Prod.mk.injEq] at h
      obtain ⟨rfl, rfl⟩ := h
      obtain ⟨f1, f2, f3⟩ := takeFlags_valid 5 s1
      obtain ⟨s1', s2'⟩ := takeSpecifier_valid _ _ _ _ hs
      refine ⟨?_, ⟨f1, f2⟩, ?_, ?_, s1', s2'⟩
      · rintro d hdd
        dsimp only at hdd
        subst hdd
        unfold takeDecoder at hd
        split at hd
        · split at hd
          · simp at hd
          · dsimp only at hd
            split at hd
            · rename_i hl
              simp only [Option.some.injEq, Prod.mk.injEq] at hd
              rw [← hd.1]
              refine ⟨hl.1, hl.2, fun hm => ?_⟩
              simpa using mem_takeWhile _ _ _ hm
            · simp at hd
        · simp at hd
      · dsimp only
        have hw : ∀ w r, takeWidth (takeFlags 5 s1).2 = (w, r) → w = none ∨ w = some ['*'] ∨
            ∃ c t, w = some (c :: t) ∧ (∀ x ∈ c :: t, isDigit x) ∧
              ((takeFlags 5 s1).1.length < 5 → c ≠ '0') := by
          intro w r hw
          generalize (takeFlags 5 s1).2 = q at hw f3
          unfold takeWidth at hw
          split at hw
          · simp only [Prod.mk.injEq] at hw
            exact .inr (.inl hw.1.symm)
          · split at hw
            · simp only [Prod.mk.injEq] at hw
              exact .inl hw.1.symm
            · rename_i hne
              simp only [Prod.mk.injEq] at hw
              cases htw : q.takeWhile isDigit with
              | nil => exact absurd htw hne
              | cons c t =>
                refine .inr (.inr ⟨c, t, by rw [← hw.1, htw], ?_, ?_⟩)
                · intro x hx
                  exact mem_takeWhile isDigit q x (by rw [htw]; exact hx)
                · rintro hl rfl
                  cases q with
                  | nil => simp at htw
                  | cons d q =>
                    rw [List.takeWhile_cons] at htw
                    split at htw
                    · simp only [List.cons.injEq] at htw
                      exact f3 hl d q rfl (by rw [htw.1]; decide)
                    · simp at htw
        exact hw _ _ rfl
      · dsimp only
        generalize (takeWidth (takeFlags 5 s1).2).2 = q
        unfold takePrecision
        split
        · exact .inr (.inl rfl)
        · rename_i t _
          exact .inr (.inr ⟨_, rfl, fun x hx => mem_takeWhile isDigit t x hx⟩)
        · exact .inl rfl

/-- Every operator that is found in a format string is valid. -/
theorem C27_operators_valid (s : List Char) : ∀ o, .operator o ∈ tokenize s → o.Valid := by
  suffices h : ∀ n s, ∀ o, Token.operator o ∈ tokens n s → o.Valid from h s.length s
  intro n
  induction n with
  | zero => intro s o h; simp [tokens] at h
  | succ n ih =>
    intro s o h
    cases s with
    | nil => simp [tokens] at h
    | cons c t =>
      rw [tokens] at h
      split at h
      · split at h
        · rename_i o' rest hm
          rcases List.mem_cons.mp h with e | h
          · simp only [Token.operator.injEq] at e
            subst e
            exact matchOperator_valid t o rest hm
          · exact ih _ o h
        · split at h
          · rcases List.mem_cons.mp h with e | h
            · simp at e
            · exact ih _ o h
          · rcases List.mem_cons.mp h with e | h
            · simp at e
            · exact ih _ o h
      · rcases List.mem_cons.mp h with e | h
        · simp at e
        · exact ih _ o h

/-- A string with braces, a doubled percent sign and two operators, of which one has no value. -/
def sampleOperator : Operator := ⟨some "public, name=x".toList, ['-'], some ['1', '2'], none, ['l', 'l'], 'u'⟩

theorem sampleOperator_valid : sampleOperator.Valid := by
  constructor
  · rintro d h
    simp only [sampleOperator, Option.some.injEq] at h
    subst h; decide
  · decide
  · exact .inr (.inr ⟨'1', ['2'], rfl, by decide, fun _ => by decide⟩)
  · exact .inl rfl
  · decide
  · decide

example : (∀ p ∈ [Piece.text "{a".toList, .percent, .operator sampleOperator, .text "}".toList,
    .operator sampleOperator], p.Ok) ∧
    ([Piece.text "{a".toList, .percent, .operator sampleOperator, .text "}".toList,
      .operator sampleOperator].flatMap Piece.source) =
      "{a%%%{public, name=x}-12llu}%{public, name=x}-12llu".toList ∧
    formatString (parseFormatString "{a%%%{public, name=x}-12llu}%{public, name=x}-12llu".toList)
      ["7".toList] = .ok "{a%7}<decode: missing data>".toList := by
  refine ⟨?_, by decide +kernel, by decide +kernel⟩
  intro p hp
  simp only [List.mem_cons, List.not_mem_nil, or_false] at hp
  rcases hp with rfl | rfl | rfl | rfl | rfl
  · show '%' ∉ _; decide
  · trivial
  · exact sampleOperator_valid
  · show '%' ∉ _; decide
  · exact sampleOperator_valid

end Dtf.Unified
