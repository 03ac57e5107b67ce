import Verif.Text
import Mathlib.Data.List.Basic
import Mathlib.Data.List.Forall2

/-!
# A reader of JSON

A specification, after RFC 8259, of what a JSON text stands for.  It shares nothing with the models of code that writes JSON.
-/

namespace Dtf.Json
open Text

/-- What a JSON text stands for.  A number with a fraction or an exponent is a whole number times a power of ten. -/
inductive J
  | str (s : List Char)
  | num (n : Int)
  | dec (mantissa exponent : Int)
  | null
  | bool (b : Bool)
  | arr (es : List J)
  | obj (ms : List (List Char × J))

def isWs (c : Char) : Bool := c = ' ' || c = '\t' || c = '\n' || c = '\r'

def isDigit (c : Char) : Bool := 48 ≤ c.toNat && c.toNat ≤ 57

/-- The character that an escape sequence stands for. -/
def escaped : Char → Option Char
  | '"' => some '"'
  | '\\' => some '\\'
  | '/' => some '/'
  | 'b' => some '\x08'
  | 'f' => some '\x0c'
  | 'n' => some '\n'
  | 'r' => some '\r'
  | 't' => some '\t'
  | _ => none

/-- The value of a hexadecimal digit. -/
def hexVal (c : Char) : Option Nat :=
  if isDigit c then some (c.toNat - 48)
  else if 97 ≤ c.toNat ∧ c.toNat ≤ 102 then some (c.toNat - 87)
  else if 65 ≤ c.toNat ∧ c.toNat ≤ 70 then some (c.toNat - 55)
  else none

/-- Where a reader of a string is: in the text, behind a backslash, before so many digits, or behind the first half of a
character, before the backslash and the letter of the other. -/
inductive Place
  | text
  | back
  | digits (k n : Nat) (high : Option Nat)
  | low (h : Nat)
  | lowBack (h : Nat)

/-- A string from behind its quote: the text and what follows the other quote.  Control characters are not allowed, and
neither is one half of a character. -/
def readStringFrom : Place → List Char → Option (List Char × List Char)
  | _, [] => none
  | .text, c :: r =>
    if c = '"' then some ([], r)
    else if c = '\\' then readStringFrom .back r
    else if c.toNat < 32 then none
    else (readStringFrom .text r).map (fun x => (c :: x.1, x.2))
  | .back, c :: r =>
    if c = 'u' then readStringFrom (.digits 3 0 none) r
    else
      match escaped c with
      | some e => (readStringFrom .text r).map (fun x => (e :: x.1, x.2))
      | none => none
  | .digits k n high, c :: r =>
    match hexVal c with
    | none => none
    | some v =>
      match k with
      | k + 1 => readStringFrom (.digits k (n * 16 + v) high) r
      | 0 =>
        match high with
        | some h =>
          if 0xDC00 ≤ n * 16 + v ∧ n * 16 + v < 0xE000 then
            (readStringFrom .text r).map (fun x =>
              (Char.ofNat (0x10000 + (h - 0xD800) * 0x400 + (n * 16 + v - 0xDC00)) :: x.1, x.2))
          else none
        | none =>
          if 0xD800 ≤ n * 16 + v ∧ n * 16 + v < 0xDC00 then readStringFrom (.low (n * 16 + v)) r
          else if 0xDC00 ≤ n * 16 + v ∧ n * 16 + v < 0xE000 then none
          else (readStringFrom .text r).map (fun x => (Char.ofNat (n * 16 + v) :: x.1, x.2))
  | .low h, c :: r => if c = '\\' then readStringFrom (.lowBack h) r else none
  | .lowBack h, c :: r => if c = 'u' then readStringFrom (.digits 3 0 (some h)) r else none

def readString : List Char → Option (List Char × List Char) := readStringFrom .text

/-- A number: no leading zeros. -/
def readNat (s : List Char) : Option (Nat × List Char) :=
  if (s.takeWhile isDigit).head? = some '0' ∧ (s.takeWhile isDigit).length ≠ 1 then none
  else (parseDigits 10 (s.takeWhile isDigit)).map (fun n => (n, s.dropWhile isDigit))

/-- The digits of a fraction, if there is a point. -/
def readFraction (s : List Char) : Option (Option (List Char) × List Char) :=
  if s.head? = some '.' then
    if s.tail.takeWhile isDigit = [] then none else some (some (s.tail.takeWhile isDigit), s.tail.dropWhile isDigit)
  else some (none, s)

/-- The exponent, if there is one. -/
def readExponent (s : List Char) : Option (Option Int × List Char) :=
  if s.head? = some 'e' ∨ s.head? = some 'E' then
    let sign : Int := if s.tail.head? = some '-' then -1 else 1
    let r := if s.tail.head? = some '-' ∨ s.tail.head? = some '+' then s.tail.tail else s.tail
    (parseDigits 10 (r.takeWhile isDigit)).map (fun n => (some (sign * n), r.dropWhile isDigit))
  else some (none, s)

/-- A number without its sign, the sign being -1 or 1. -/
def readUnsigned (sign : Int) (s : List Char) : Option (J × List Char) :=
  match readNat s with
  | none => none
  | some (n, r) =>
    match readFraction r with
    | none => none
    | some (f, r) =>
      match readExponent r with
      | none => none
      | some (e, r) =>
        match f, e with
        | none, none => some (.num (sign * n), r)
        | _, _ =>
          some (.dec (sign * ((n * 10 ^ (f.getD []).length + (parseDigits 10 (f.getD [])).getD 0 : Nat) : Int))
            (e.getD 0 - (f.getD []).length), r)

def readNumber (s : List Char) : Option (J × List Char) :=
  if s.head? = some '-' then readUnsigned (-1) s.tail else readUnsigned 1 s

/-- What follows white space and the character. -/
def expect (c : Char) (s : List Char) : Option (List Char) :=
  if (s.dropWhile isWs).head? = some c then some (s.dropWhile isWs).tail else none

/-- The name of a member and the colon. -/
def readName (s : List Char) : Option (List Char × List Char) :=
  match expect '"' s with
  | none => none
  | some r =>
    match readString r with
    | none => none
    | some (n, r) => (expect ':' r).map (fun r => (n, r))

/-- The words. -/
def readWord (s : List Char) : Option (J × List Char) :=
  if s.take 4 = "null".toList then some (.null, s.drop 4)
  else if s.take 4 = "true".toList then some (.bool true, s.drop 4)
  else if s.take 5 = "false".toList then some (.bool false, s.drop 5)
  else none

mutual
/-- A value, with what follows. -/
def readValue : Nat → List Char → Option (J × List Char)
  | 0, _ => none
  | fuel + 1, s =>
    match expect '"' s with
    | some r => (readString r).map (fun x => (.str x.1, x.2))
    | none =>
      match expect '{' s with
      | some r =>
        match expect '}' r with
        | some r => some (.obj [], r)
        | none => (readMembers fuel r).map (fun x => (.obj x.1, x.2))
      | none =>
        match expect '[' s with
        | some r =>
          match expect ']' r with
          | some r => some (.arr [], r)
          | none => (readElements fuel r).map (fun x => (.arr x.1, x.2))
        | none => (readWord (s.dropWhile isWs)).or (readNumber (s.dropWhile isWs))

/-- The members of an object and its end. -/
def readMembers : Nat → List Char → Option (List (List Char × J) × List Char)
  | 0, _ => none
  | fuel + 1, s =>
    match readName s with
    | none => none
    | some (n, r) =>
      match readValue fuel r with
      | none => none
      | some (j, r) =>
        match expect ',' r with
        | some r => (readMembers fuel r).map (fun x => ((n, j) :: x.1, x.2))
        | none => (expect '}' r).map (fun r => ([(n, j)], r))

/-- The elements of an array and its end. -/
def readElements : Nat → List Char → Option (List J × List Char)
  | 0, _ => none
  | fuel + 1, s =>
    match readValue fuel s with
    | none => none
    | some (j, r) =>
      match expect ',' r with
      | some r => (readElements fuel r).map (fun x => (j :: x.1, x.2))
      | none => (expect ']' r).map (fun r => ([j], r))
end

/-- What a text stands for, if it is JSON. -/
def parse (s : List Char) : Option J :=
  match readValue (s.length + 1) s with
  | some (j, r) => if r.all isWs then some j else none
  | none => none

/-! ## Texts that are read as a value -/

/-- What may follow a value: nothing that a number goes on with. -/
def Bounded (rest : List Char) : Prop :=
  ∀ c, rest.head? = some c → isDigit c = false ∧ c ≠ '.' ∧ c ≠ 'e' ∧ c ≠ 'E'

/-- The text is read as the value, whatever precedes it and follows it. -/
def Reads (j : J) (t : List Char) : Prop :=
  ∀ fuel w rest, t.length < fuel → (∀ c ∈ w, isWs c = true) → Bounded rest → readValue fuel (w ++ (t ++ rest)) = some (j, rest)

/-- The text between quotes is read as the string. -/
def Quoted (s t : List Char) : Prop := ∀ rest, readString (t ++ '"' :: rest) = some (s, rest)

theorem dropWhile_ws (w s : List Char) (h : ∀ c ∈ w, isWs c = true) : (w ++ s).dropWhile isWs = s.dropWhile isWs := by
  induction w with
  | nil => rfl
  | cons c w ih =>
    rw [List.cons_append, List.dropWhile_cons, if_pos (h c (by simp))]
    exact ih (fun c hc => h c (by simp [hc]))

theorem dropWhile_head (c : Char) (s : List Char) (h : isWs c = false) : (c :: s).dropWhile isWs = c :: s := by
  rw [List.dropWhile_cons, if_neg (by simp [h])]

theorem dropWhile_self (s : List Char) : (s.dropWhile isWs).dropWhile isWs = s.dropWhile isWs := by
  induction s with
  | nil => rfl
  | cons c s ih =>
    rw [List.dropWhile_cons]
    split
    · exact ih
    · rename_i h
      rw [List.dropWhile_cons, if_neg h]

theorem expect_ws (c : Char) (w s : List Char) (h : ∀ c ∈ w, isWs c = true) : expect c (w ++ s) = expect c s := by
  rw [expect, expect, dropWhile_ws _ _ h]

theorem expect_cons (c d : Char) (s : List Char) (h : isWs d = false) :
    expect c (d :: s) = if d = c then some s else none := by
  rw [expect, dropWhile_head _ _ h]
  simp

theorem quoted_nil : Quoted [] [] := fun rest => by simp [readString, readStringFrom]

theorem quoted_append (s s' t t' : List Char)
    (h : ∀ rest, readString (t ++ rest) = (readString rest).map (fun x => (s ++ x.1, x.2))) (h' : Quoted s' t') :
    Quoted (s ++ s') (t ++ t') := by
  intro rest
  rw [List.append_assoc, h, h' rest]
  simp

/-- A character that needs no escape. -/
theorem readString_plain (c : Char) (r : List Char) (h1 : c ≠ '"') (h2 : c ≠ '\\') (h3 : 32 ≤ c.toNat) :
    readString (c :: r) = (readString r).map (fun x => (c :: x.1, x.2)) := by
  rw [readString, readStringFrom, if_neg h1, if_neg h2, if_neg (by omega)]

theorem readString_escape (c e : Char) (r : List Char) (h : escaped c = some e) :
    readString ('\\' :: c :: r) = (readString r).map (fun x => (e :: x.1, x.2)) := by
  rw [readString, readStringFrom, if_neg (by decide), if_pos rfl, readStringFrom, if_neg, h]
  rintro rfl
  revert h
  decide +revert

theorem reads_str (s t : List Char) (h : Quoted s t) : Reads (.str s) ('"' :: (t ++ ['"'])) := by
  intro fuel w rest hf hw hb
  obtain ⟨fuel, rfl⟩ : ∃ k, fuel = k + 1 := ⟨fuel - 1, by omega⟩
  rw [readValue, expect_ws _ _ _ hw, List.cons_append, expect_cons _ _ _ (by decide), if_pos rfl]
  dsimp only
  simp only [List.append_assoc, List.cons_append, List.nil_append]
  rw [h rest]
  rfl

theorem reads_word (j : J) (c : Char) (t : List Char) (hc : isWs c = false) (h1 : c ≠ '"') (h2 : c ≠ '{') (h3 : c ≠ '[')
    (h : ∀ rest, readWord (c :: t ++ rest) = some (j, rest)) : Reads j (c :: t) := by
  intro fuel w rest hf hw hb
  obtain ⟨fuel, rfl⟩ : ∃ k, fuel = k + 1 := ⟨fuel - 1, by omega⟩
  have := h rest
  rw [List.cons_append] at this
  rw [readValue, expect_ws _ _ _ hw, expect_ws _ _ _ hw, expect_ws _ _ _ hw, dropWhile_ws _ _ hw, List.cons_append,
    expect_cons _ _ _ hc, if_neg h1, expect_cons _ _ _ hc, if_neg h2, expect_cons _ _ _ hc, if_neg h3,
    dropWhile_head _ _ hc, this]
  rfl

theorem reads_null : Reads .null "null".toList :=
  reads_word .null 'n' "ull".toList (by decide) (by decide) (by decide) (by decide) (fun rest => by simp [readWord])

theorem reads_true : Reads (.bool true) "true".toList :=
  reads_word _ 't' "rue".toList (by decide) (by decide) (by decide) (by decide) (fun rest => by simp [readWord])

theorem digit_isDigit (d : Nat) (h : d < 10) : isDigit (digitChar d) = true := by
  have : ∀ d : Fin 10, isDigit (digitChar d) = true := by decide
  exact this ⟨d, h⟩

theorem digits_first (n : Nat) (h : n ≠ 0) : ∃ d r, digits 10 n = digitChar d :: r ∧ 0 < d ∧ d < 10 := by
  induction n using Nat.strongRecOn with
  | _ n ih =>
    rw [digits_eq]
    split
    · obtain ⟨d, r, hr, h0, h1⟩ := ih (n / 10) (by omega) (by omega)
      exact ⟨d, r ++ [digitChar (n % 10)], by rw [hr]; rfl, h0, h1⟩
    · exact ⟨n, [], rfl, by omega, by omega⟩

theorem takeWhile_digits (n : Nat) (rest : List Char) (hb : Bounded rest) :
    (digits 10 n ++ rest).takeWhile isDigit = digits 10 n ∧ (digits 10 n ++ rest).dropWhile isDigit = rest := by
  have hall : ∀ c ∈ digits 10 n, isDigit c = true := by
    intro c hc
    obtain ⟨d, hd, rfl⟩ := mem_digits 10 n (by omega) c hc
    exact digit_isDigit d hd
  have hrest : rest.takeWhile isDigit = [] ∧ rest.dropWhile isDigit = rest := by
    cases rest with
    | nil => exact ⟨rfl, rfl⟩
    | cons c r =>
      have := (hb c rfl).1
      rw [List.takeWhile_cons, List.dropWhile_cons, if_neg (by simp [this]), if_neg (by simp [this])]
      exact ⟨rfl, rfl⟩
  rw [List.takeWhile_append_of_pos hall, List.dropWhile_append_of_pos hall, hrest.1, hrest.2]
  simp

theorem readNat_digits (n : Nat) (rest : List Char) (hb : Bounded rest) : readNat (digits 10 n ++ rest) = some (n, rest) := by
  obtain ⟨h1, h2⟩ := takeWhile_digits n rest hb
  rw [readNat, h1, h2, parse_digits 10 n (by omega) (by omega), if_neg]
  · rfl
  · rintro ⟨ha, hl⟩
    by_cases h0 : n = 0
    · subst h0
      exact hl rfl
    · obtain ⟨d, r, hr, hd0, hd⟩ := digits_first n h0
      have : ∀ d : Fin 10, 0 < d.val → digitChar d ≠ '0' := by decide
      rw [hr] at ha
      simp only [List.head?_cons, Option.some.injEq] at ha
      exact this ⟨d, hd⟩ hd0 ha

/-- A number as text. -/
def intText (n : Int) : List Char := if n < 0 then '-' :: digits 10 n.natAbs else digits 10 n.natAbs

theorem intText_head (n : Int) : ∃ c r, intText n = c :: r ∧ isWs c = false ∧ (c = '-' ∨ isDigit c) ∧
    (0 ≤ n → c ≠ '-') := by
  rw [intText]
  split
  · exact ⟨'-', _, rfl, by decide, by decide, by omega⟩
  · by_cases h0 : n.natAbs = 0
    · rw [h0]
      exact ⟨'0', [], rfl, by decide, by decide, fun _ => by decide⟩
    · obtain ⟨d, r', hr, hd0, hd⟩ := digits_first n.natAbs h0
      refine ⟨_, _, hr, ?_⟩
      have : ∀ d : Fin 10, isWs (digitChar d) = false ∧ isDigit (digitChar d) = true ∧ digitChar d ≠ '-' := by decide
      obtain ⟨ha, hb, hc⟩ := this ⟨d, hd⟩
      exact ⟨ha, .inr hb, fun _ => hc⟩

theorem readUnsigned_digits (sign : Int) (n : Nat) (rest : List Char) (hb : Bounded rest) :
    readUnsigned sign (digits 10 n ++ rest) = some (.num (sign * n), rest) := by
  have h1 : readFraction rest = some (none, rest) := by
    rw [readFraction, if_neg]
    exact fun h => (hb _ h).2.1 rfl
  have h2 : readExponent rest = some (none, rest) := by
    rw [readExponent, if_neg]
    rintro (h | h)
    · exact (hb _ h).2.2.1 rfl
    · exact (hb _ h).2.2.2 rfl
  rw [readUnsigned, readNat_digits _ _ hb]
  dsimp only
  rw [h1]
  dsimp only
  rw [h2]

theorem readNumber_int (n : Int) (rest : List Char) (hb : Bounded rest) :
    readNumber (intText n ++ rest) = some (.num n, rest) := by
  by_cases h : n < 0
  · have : intText n = '-' :: digits 10 n.natAbs := by rw [intText, if_pos h]
    rw [this, readNumber, List.cons_append, if_pos (by simp), List.tail_cons, readUnsigned_digits _ _ _ hb]
    congr 3
    omega
  · obtain ⟨c, r, hr, _, _, hc⟩ := intText_head n
    have hi : intText n = digits 10 n.natAbs := by rw [intText, if_neg h]
    rw [readNumber, if_neg, hi, readUnsigned_digits _ _ _ hb]
    · congr 3
      omega
    · rw [hr]
      simpa using hc (by omega)

theorem reads_num (n : Int) : Reads (.num n) (intText n) := by
  intro fuel w rest hf hw hb
  obtain ⟨fuel, rfl⟩ : ∃ k, fuel = k + 1 := ⟨fuel - 1, by omega⟩
  have hread := readNumber_int n rest hb
  obtain ⟨c, r, hr, hws, hne, _⟩ := intText_head n
  have h : c ≠ '"' ∧ c ≠ '{' ∧ c ≠ '[' ∧ c ≠ 'n' ∧ c ≠ 't' ∧ c ≠ 'f' := by
    refine ⟨?_, ?_, ?_, ?_, ?_, ?_⟩ <;> (rintro rfl; revert hne; decide)
  rw [hr, List.cons_append] at hread
  have hword : readWord (c :: (r ++ rest)) = none := by
    rw [readWord, if_neg, if_neg, if_neg]
    all_goals
      intro he
      have := congrArg List.head? he
      simp at this
      simp [this] at h
  rw [readValue, expect_ws _ _ _ hw, expect_ws _ _ _ hw, expect_ws _ _ _ hw, dropWhile_ws _ _ hw, hr, List.cons_append,
    expect_cons _ _ _ hws, if_neg h.1, expect_cons _ _ _ hws, if_neg h.2.1, expect_cons _ _ _ hws, if_neg h.2.2.1,
    dropWhile_head _ _ hws, hread, hword]
  rfl

/-- The text of a member. -/
def MemberText (m : List Char × J) (p : List Char) : Prop :=
  ∃ w name space gap t, (∀ c ∈ w, isWs c = true) ∧ Quoted m.1 name ∧ (∀ c ∈ space, isWs c = true) ∧
    (∀ c ∈ gap, isWs c = true) ∧ Reads m.2 t ∧ p = w ++ ('"' :: (name ++ ('"' :: (space ++ ':' :: (gap ++ t)))))

/-- Members with commas between them. -/
def commas : List (List Char) → List Char
  | [] => []
  | [p] => p
  | p :: ps => p ++ (',' :: commas ps)

theorem commas_cons (p : List Char) (ps : List (List Char)) (h : ps ≠ []) : commas (p :: ps) = p ++ (',' :: commas ps) := by
  cases ps with
  | nil => exact absurd rfl h
  | cons q qs => rfl

theorem bounded_cons (c : Char) (r : List Char) (h : isDigit c = false ∧ c ≠ '.' ∧ c ≠ 'e' ∧ c ≠ 'E') : Bounded (c :: r) := by
  intro d hd
  simp only [List.head?_cons, Option.some.injEq] at hd
  rw [← hd]
  exact h

theorem ws_not_digit (c : Char) (h : isWs c = true) : isDigit c = false ∧ c ≠ '.' ∧ c ≠ 'e' ∧ c ≠ 'E' := by
  simp only [isWs, Bool.or_eq_true, decide_eq_true_eq] at h
  rcases h with ((rfl | rfl) | rfl) | rfl <;> decide

theorem bounded_ws (w : List Char) (c : Char) (r : List Char) (hw : ∀ c ∈ w, isWs c = true)
    (h : isDigit c = false ∧ c ≠ '.' ∧ c ≠ 'e' ∧ c ≠ 'E') : Bounded (w ++ c :: r) := by
  cases w with
  | nil => exact bounded_cons _ _ h
  | cons d w => exact bounded_cons _ _ (ws_not_digit _ (hw d (by simp)))

theorem readName_member (w name space gap t n rest : List Char) (hw : ∀ c ∈ w, isWs c = true) (hn : Quoted n name)
    (hs : ∀ c ∈ space, isWs c = true) :
    readName (w ++ ('"' :: (name ++ ('"' :: (space ++ ':' :: (gap ++ t))))) ++ rest) = some (n, gap ++ (t ++ rest)) := by
  rw [readName, List.append_assoc, expect_ws _ _ _ hw, List.cons_append, expect_cons _ _ _ (by decide), if_pos rfl]
  simp only [List.append_assoc, List.cons_append]
  rw [hn]
  dsimp only
  rw [expect_ws ':' space _ hs, expect_cons _ _ _ (by decide), if_pos rfl]
  rfl

theorem readMembers_commas (ms : List (List Char × J)) (ps : List (List Char)) (h : List.Forall₂ MemberText ms ps)
    (hne : ms ≠ []) (tail rest : List Char) (ht : ∀ c ∈ tail, isWs c = true) (fuel : Nat)
    (hf : (commas ps).length < fuel) :
    readMembers fuel (commas ps ++ (tail ++ '}' :: rest)) = some (ms, rest) := by
  induction h generalizing fuel with
  | nil => exact absurd rfl hne
  | @cons m p ms ps hm hs ih =>
    obtain ⟨n, j⟩ := m
    obtain ⟨w, name, space, gap, t, hw, hq, hs', hg, hr, rfl⟩ := hm
    obtain ⟨fuel, rfl⟩ : ∃ k, fuel = k + 1 := ⟨fuel - 1, by omega⟩
    rw [readMembers]
    cases hs with
    | nil =>
      rw [show commas [w ++ ('"' :: (name ++ ('"' :: (space ++ ':' :: (gap ++ t)))))] =
        w ++ ('"' :: (name ++ ('"' :: (space ++ ':' :: (gap ++ t))))) from rfl] at hf ⊢
      rw [readName_member w name space gap t n _ hw hq hs']
      dsimp only
      rw [hr fuel gap _ (by simp at hf; omega) hg (bounded_ws _ _ _ ht (by decide))]
      dsimp only
      rw [expect_ws _ _ _ ht, expect_ws _ _ _ ht, expect_cons _ _ _ (by decide), if_neg (by decide),
        expect_cons _ _ _ (by decide), if_pos rfl]
      rfl
    | @cons m' p' ms ps hm' hs =>
      rw [commas_cons _ _ (by simp)] at hf ⊢
      rw [List.append_assoc, readName_member w name space gap t n _ hw hq hs']
      dsimp only
      rw [List.cons_append, hr fuel gap _ (by simp at hf; omega) hg (bounded_cons _ _ (by decide))]
      dsimp only
      rw [expect_cons _ _ _ (by decide), if_pos rfl]
      dsimp only
      rw [ih (by simp) fuel (by simp at hf ⊢; omega)]
      rfl

theorem readMembers_ws (fuel : Nat) (w s : List Char) (hw : ∀ c ∈ w, isWs c = true) :
    readMembers fuel (w ++ s) = readMembers fuel s := by
  cases fuel with
  | zero => rfl
  | succ fuel => rw [readMembers, readMembers, readName, readName, expect_ws _ _ _ hw]

theorem reads_obj (ms : List (List Char × J)) (ps : List (List Char)) (h : List.Forall₂ MemberText ms ps) (hne : ms ≠ [])
    (lead tail : List Char) (hl : ∀ c ∈ lead, isWs c = true) (ht : ∀ c ∈ tail, isWs c = true) :
    Reads (.obj ms) ('{' :: (lead ++ (commas ps ++ (tail ++ ['}'])))) := by
  intro fuel w rest hf hw hb
  obtain ⟨fuel, rfl⟩ : ∃ k, fuel = k + 1 := ⟨fuel - 1, by omega⟩
  have hread := readMembers_commas ms ps h hne tail rest ht fuel (by simp at hf; omega)
  have hend : expect '}' (commas ps ++ (tail ++ '}' :: rest)) = none := by
    have key : ∀ m p s, MemberText m p → expect '}' (p ++ s) = none := by
      rintro m p s ⟨w, name, space, gap, t, hw, hq, hs', hg, hr, rfl⟩
      rw [List.append_assoc, expect_ws _ _ _ hw, List.cons_append, expect_cons _ _ _ (by decide), if_neg (by decide)]
    cases h with
    | nil => exact absurd rfl hne
    | @cons m p ms ps hm hs =>
      cases hs with
      | nil => exact key m p _ hm
      | @cons m' p' ms ps hm' hs =>
        rw [commas_cons _ _ (by simp), List.append_assoc]
        exact key m p _ hm
  rw [readValue, expect_ws _ _ _ hw, expect_ws _ _ _ hw, List.cons_append, expect_cons _ _ _ (by decide),
    if_neg (by decide), expect_cons _ _ _ (by decide), if_pos rfl]
  dsimp only
  simp only [List.append_assoc, List.cons_append, List.nil_append]
  rw [expect_ws _ _ _ hl, hend]
  dsimp only
  rw [readMembers_ws _ _ _ hl, hread]
  rfl

/-- The text of an element. -/
def ElementText (j : J) (p : List Char) : Prop :=
  ∃ w t c r, (∀ c ∈ w, isWs c = true) ∧ Reads j t ∧ t = c :: r ∧ isWs c = false ∧ c ≠ ']' ∧ p = w ++ t

theorem readElements_commas (js : List J) (ps : List (List Char)) (h : List.Forall₂ ElementText js ps)
    (hne : js ≠ []) (tail rest : List Char) (ht : ∀ c ∈ tail, isWs c = true) (fuel : Nat)
    (hf : (commas ps).length + 1 < fuel) :
    readElements fuel (commas ps ++ (tail ++ ']' :: rest)) = some (js, rest) := by
  induction h generalizing fuel with
  | nil => exact absurd rfl hne
  | @cons j p js ps hm hs ih =>
    obtain ⟨w, t, c, r, hw, hr, hc, hws, hcc, rfl⟩ := hm
    obtain ⟨fuel, rfl⟩ : ∃ k, fuel = k + 1 := ⟨fuel - 1, by omega⟩
    rw [readElements]
    cases hs with
    | nil =>
      rw [show commas [w ++ t] = w ++ t from rfl] at hf ⊢
      rw [List.append_assoc, hr fuel w _ (by simp at hf; omega) hw (bounded_ws _ _ _ ht (by decide))]
      dsimp only
      rw [expect_ws _ _ _ ht, expect_ws _ _ _ ht, expect_cons _ _ _ (by decide), if_neg (by decide),
        expect_cons _ _ _ (by decide), if_pos rfl]
      rfl
    | @cons m' p' ms ps hm' hs =>
      rw [commas_cons _ _ (by simp)] at hf ⊢
      rw [List.append_assoc, List.append_assoc, List.cons_append,
        hr fuel w _ (by simp at hf; omega) hw (bounded_cons _ _ (by decide))]
      dsimp only
      rw [expect_cons _ _ _ (by decide), if_pos rfl]
      dsimp only
      rw [ih (by simp) fuel (by
        have : 0 < t.length := by rw [hc]; simp
        simp at hf ⊢
        omega)]
      rfl

theorem readElements_ws (fuel : Nat) (w s : List Char) (hw : ∀ c ∈ w, isWs c = true) :
    readElements fuel (w ++ s) = readElements fuel s := by
  cases fuel with
  | zero => rfl
  | succ fuel =>
    rw [readElements, readElements]
    cases fuel with
    | zero => rfl
    | succ fuel =>
      rw [readValue, readValue, expect_ws _ _ _ hw, expect_ws _ _ _ hw, expect_ws _ _ _ hw, dropWhile_ws _ _ hw]

theorem reads_arr (js : List J) (ps : List (List Char)) (h : List.Forall₂ ElementText js ps) (hne : js ≠ [])
    (lead tail : List Char) (hl : ∀ c ∈ lead, isWs c = true) (ht : ∀ c ∈ tail, isWs c = true) :
    Reads (.arr js) ('[' :: (lead ++ (commas ps ++ (tail ++ [']'])))) := by
  intro fuel w rest hf hw hb
  obtain ⟨fuel, rfl⟩ : ∃ k, fuel = k + 1 := ⟨fuel - 1, by omega⟩
  have hread := readElements_commas js ps h hne tail rest ht fuel (by simp at hf; omega)
  have hend : expect ']' (commas ps ++ (tail ++ ']' :: rest)) = none := by
    have key : ∀ j p s, ElementText j p → expect ']' (p ++ s) = none := by
      rintro j p s ⟨w, t, c, r, hw, hr, rfl, hws, hcc, rfl⟩
      rw [List.append_assoc, expect_ws _ _ _ hw, List.cons_append, expect_cons _ _ _ hws, if_neg hcc]
    cases h with
    | nil => exact absurd rfl hne
    | @cons m p ms ps hm hs =>
      cases hs with
      | nil => exact key m p _ hm
      | @cons m' p' ms ps hm' hs =>
        rw [commas_cons _ _ (by simp), List.append_assoc]
        exact key m p _ hm
  rw [readValue, expect_ws _ _ _ hw, expect_ws _ _ _ hw, expect_ws _ _ _ hw, List.cons_append,
    expect_cons _ _ _ (by decide), if_neg (by decide), expect_cons _ _ _ (by decide), if_neg (by decide),
    expect_cons _ _ _ (by decide), if_pos rfl]
  dsimp only
  simp only [List.append_assoc, List.cons_append, List.nil_append]
  rw [expect_ws _ _ _ hl, hend]
  dsimp only
  rw [readElements_ws _ _ _ hl, hread]
  rfl

theorem parse_reads (j : J) (t : List Char) (h : Reads j t) : parse t = some j := by
  have := h (t.length + 1) [] [] (by omega) (by simp) (fun c hc => by simp at hc)
  rw [List.append_nil, List.nil_append] at this
  rw [parse, this]
  rfl

/-- The reader reads. -/
example : (match parse "[ {\"a\" : -12, \"b\":[true,null]} ]".toList with
    | some (.arr [.obj [(a, .num x), (b, .arr [.bool true, .null])]]) => decide (a = ['a'] ∧ x = -12 ∧ b = ['b'])
    | _ => false) = true := by decide +kernel

/-- The reader refuses control characters, leading zeros, unknown escapes and commas at the end. -/
example : (parse ['"', '\x1b', '"']).isNone ∧ (parse "[01]".toList).isNone ∧ (parse "\"\\x\"".toList).isNone ∧
    (parse "[1,]".toList).isNone := by decide +kernel

/-- Escapes with digits and numbers with a fraction or an exponent. -/
example : (match parse "[\"\\u00e9\\uD83D\\ude00\", -1.50e+3, 2E-1]".toList with
    | some (.arr [.str s, .dec m e, .dec m' e']) => decide (s = ['é', '😀'] ∧ m = -150 ∧ e = 1 ∧ m' = 2 ∧ e' = -1)
    | _ => false) = true ∧ (parse "\"\\ud83d\"".toList).isNone ∧ (parse "1.".toList).isNone ∧ (parse "NaN".toList).isNone := by
  decide +kernel

end Dtf.Json
