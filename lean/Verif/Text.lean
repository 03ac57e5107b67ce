/-!
# Text helpers: digits, padding, joining and splitting

Strings are lists of characters.  The functions model Python's integer formatting
(`f"{n:d}"`, `f"{n:08x}"`), `str.join` and the splitting used by specifications.
-/

namespace Text

/-- The digit characters Python uses for integer formatting. -/
def digitChar (d : Nat) : Char :=
  if d < 10 then Char.ofNat (48 + d) else Char.ofNat (87 + d)

/-- The value of a lower case digit character. -/
def digitVal (c : Char) : Option Nat :=
  if 48 ≤ c.toNat ∧ c.toNat ≤ 57 then some (c.toNat - 48)
  else if 97 ≤ c.toNat ∧ c.toNat ≤ 122 then some (c.toNat - 87)
  else none

/-- The digits of `n` in base `b` with at most `fuel + 1` digits. -/
def digitsAux (b : Nat) : Nat → Nat → List Char
  | 0, n => [digitChar n]
  | fuel + 1, n =>
    if 2 ≤ b ∧ b ≤ n then digitsAux b fuel (n / b) ++ [digitChar (n % b)] else [digitChar n]

/-- The digits of `n` in base `b`, most significant first; `f"{n:d}"` for base 10 and
`f"{n:x}"` for base 16. -/
def digits (b n : Nat) : List Char := digitsAux b n n

theorem digitsAux_eq (b : Nat) (fuel n : Nat) (h : n ≤ fuel) : digitsAux b fuel n = digits b n := by
  unfold digits
  induction n using Nat.strongRecOn generalizing fuel with
  | _ n ih =>
    cases fuel with
    | zero =>
      have : n = 0 := by omega
      subst this; rfl
    | succ fuel =>
      cases n with
      | zero => simp only [digitsAux]; split; omega; rfl
      | succ n =>
        simp only [digitsAux]
        split
        · rename_i hb
          have hlt : (n + 1) / b < n + 1 := Nat.div_lt_self (by omega) (by omega)
          rw [ih _ hlt fuel (by omega), ih _ hlt n (by omega)]
        · rfl

/-- The defining equation of the digits. -/
theorem digits_eq (b n : Nat) :
    digits b n = if 2 ≤ b ∧ b ≤ n then digits b (n / b) ++ [digitChar (n % b)] else [digitChar n] := by
  cases n with
  | zero => simp only [digits, digitsAux]; split; omega; rfl
  | succ n =>
    conv => lhs; unfold digits digitsAux
    split
    · rw [digitsAux_eq]
      have : (n + 1) / b < n + 1 := Nat.div_lt_self (by omega) (by omega)
      omega
    · rfl

/-- Left padding with zeros to a width, as in `f"{n:08x}"`. -/
def zpad (w : Nat) (s : List Char) : List Char := List.replicate (w - s.length) '0' ++ s

/-- The number denoted by digits in base `b`. -/
def parseDigits (b : Nat) : List Char → Option Nat
  | [] => none
  | s => s.foldl (fun acc c => do
      let a ← acc
      let d ← digitVal c
      if d < b then some (a * b + d) else none) (some 0)

/-- `sep.join(parts)`. -/
def join (sep : List Char) : List (List Char) → List Char
  | [] => []
  | [p] => p
  | p :: ps => p ++ sep ++ join sep ps

/-- Splitting at every occurrence of a character; always at least one part. -/
def splitOn (c : Char) : List Char → List (List Char)
  | [] => [[]]
  | x :: xs =>
    if x = c then [] :: splitOn c xs
    else
      match splitOn c xs with
      | [] => [[x]]
      | p :: ps => (x :: p) :: ps

theorem digitVal_digitChar (d : Nat) (h : d < 36) : digitVal (digitChar d) = some d := by
  have : ∀ d : Fin 36, digitVal (digitChar d.val) = some d.val := by decide
  exact this ⟨d, h⟩

theorem digitChar_ne (d : Nat) (h : d < 36) (c : Char) (hc : digitVal c = none) : digitChar d ≠ c := by
  intro e
  rw [← e, digitVal_digitChar d h] at hc
  cases hc

/-- The fold of `parseDigits`. -/
def parseStep (b : Nat) (acc : Option Nat) (c : Char) : Option Nat := do
  let a ← acc
  let d ← digitVal c
  if d < b then some (a * b + d) else none

theorem parseDigits_eq (b : Nat) (s : List Char) (h : s ≠ []) :
    parseDigits b s = s.foldl (parseStep b) (some 0) := by
  cases s with
  | nil => exact absurd rfl h
  | cons => rfl

theorem digits_ne_nil (b n : Nat) : digits b n ≠ [] := by
  rw [digits_eq]
  split <;> simp

theorem mem_digits (b n : Nat) (hb : 2 ≤ b) (c : Char) (hc : c ∈ digits b n) :
    ∃ d < b, c = digitChar d := by
  induction n using Nat.strongRecOn with
  | _ n ih =>
    rw [digits_eq] at hc
    split at hc
    · rename_i h
      rcases List.mem_append.mp hc with h' | h'
      · exact ih (n / b) (Nat.div_lt_self (by omega) (by omega)) h'
      · simp only [List.mem_singleton] at h'
        exact ⟨n % b, Nat.mod_lt _ (by omega), h'⟩
    · rename_i h
      simp only [List.mem_singleton] at hc
      exact ⟨n, by omega, hc⟩

theorem foldl_parse_digits (b n : Nat) (hb : 2 ≤ b) (hb' : b ≤ 36) (a : Nat) :
    ∃ k, (digits b n).foldl (parseStep b) (some a) = some (a * b ^ k + n) ∧
      k = (digits b n).length := by
  induction n using Nat.strongRecOn generalizing a with
  | _ n ih =>
    rw [digits_eq]
    split
    · rename_i h
      obtain ⟨k, hk, hlen⟩ := ih (n / b) (Nat.div_lt_self (by omega) (by omega)) a
      refine ⟨k + 1, ?_, by simp [hlen]⟩
      rw [List.foldl_append, hk]
      have hm : n % b < b := Nat.mod_lt _ (by omega)
      simp only [List.foldl_cons, List.foldl_nil, parseStep, digitVal_digitChar _ (show n % b < 36 by omega),
        Option.bind_eq_bind, Option.bind_some, hm, if_true]
      have := Nat.div_add_mod n b
      have e : (a * b ^ k + n / b) * b = a * b ^ (k + 1) + b * (n / b) := by
        rw [Nat.add_mul, Nat.pow_succ, Nat.mul_assoc, Nat.mul_comm (n / b) b]
      rw [e]
      congr 1
      omega
    · rename_i h
      refine ⟨1, ?_, by simp⟩
      have hm : n < b := by omega
      simp [parseStep, digitVal_digitChar _ (show n < 36 by omega), hm]

theorem parse_digits (b n : Nat) (hb : 2 ≤ b) (hb' : b ≤ 36) :
    parseDigits b (digits b n) = some n := by
  rw [parseDigits_eq b _ (digits_ne_nil b n)]
  obtain ⟨k, hk, _⟩ := foldl_parse_digits b n hb hb' 0
  simpa using hk

theorem foldl_parse_zeros (b k : Nat) (hb : 2 ≤ b) :
    (List.replicate k '0').foldl (parseStep b) (some 0) = some 0 := by
  induction k with
  | zero => rfl
  | succ k ih =>
    rw [List.replicate_succ, List.foldl_cons]
    have : parseStep b (some 0) '0' = some 0 := by
      have : digitVal '0' = some 0 := by decide
      simp [parseStep, this]
      omega
    rw [this, ih]

theorem parse_zpad_digits (b n w : Nat) (hb : 2 ≤ b) (hb' : b ≤ 36) :
    parseDigits b (zpad w (digits b n)) = some n := by
  have hne : zpad w (digits b n) ≠ [] := by
    simp [zpad, digits_ne_nil]
  rw [parseDigits_eq b _ hne, zpad, List.foldl_append, foldl_parse_zeros b _ hb]
  obtain ⟨k, hk, _⟩ := foldl_parse_digits b n hb hb' 0
  simpa using hk

theorem digits_injective (b : Nat) (hb : 2 ≤ b) (hb' : b ≤ 36) (m n : Nat)
    (h : digits b m = digits b n) : m = n := by
  have h1 := parse_digits b m hb hb'
  have h2 := parse_digits b n hb hb'
  rw [h, h2] at h1
  exact (Option.some.inj h1).symm

theorem zpad_digits_injective (b w : Nat) (hb : 2 ≤ b) (hb' : b ≤ 36) (m n : Nat)
    (h : zpad w (digits b m) = zpad w (digits b n)) : m = n := by
  have h1 := parse_zpad_digits b m w hb hb'
  have h2 := parse_zpad_digits b n w hb hb'
  rw [h, h2] at h1
  exact (Option.some.inj h1).symm

theorem mem_zpad_digits (b n w : Nat) (hb : 2 ≤ b) (c : Char) (hc : c ∈ zpad w (digits b n)) :
    ∃ d < b, c = digitChar d := by
  rcases List.mem_append.mp hc with h | h
  · have := List.eq_of_mem_replicate h
    exact ⟨0, by omega, by rw [this]; decide⟩
  · exact mem_digits b n hb c h

theorem digits_length_le (b n k : Nat) (hb : 2 ≤ b) (h : n < b ^ (k + 1)) :
    (digits b n).length ≤ k + 1 := by
  induction k generalizing n with
  | zero =>
    rw [digits_eq]
    have : ¬ (2 ≤ b ∧ b ≤ n) := by simp at h; omega
    simp [this]
  | succ k ih =>
    rw [digits_eq]
    split
    · have : n / b < b ^ (k + 1) := by
        rw [Nat.div_lt_iff_lt_mul (by omega)]
        rwa [Nat.pow_succ] at h
      have := ih (n / b) this
      simp only [List.length_append, List.length_singleton]
      omega
    · simp

theorem zpad_length (w : Nat) (s : List Char) (h : s.length ≤ w) : (zpad w s).length = w := by
  simp [zpad]
  omega

theorem splitOn_ne_nil (c : Char) (s : List Char) : splitOn c s ≠ [] := by
  cases s with
  | nil => simp [splitOn]
  | cons x xs =>
    unfold splitOn
    split
    · simp
    · split <;> simp

theorem splitOn_append_sep (c : Char) (p s : List Char) (hp : c ∉ p) :
    splitOn c (p ++ c :: s) = p :: splitOn c s := by
  induction p with
  | nil => simp [splitOn]
  | cons x p ih =>
    simp only [List.mem_cons, not_or] at hp
    have hx : ¬ x = c := fun e => hp.1 e.symm
    rw [List.cons_append, splitOn, ih hp.2]
    simp [hx]

theorem splitOn_of_notMem (c : Char) (p : List Char) (hp : c ∉ p) : splitOn c p = [p] := by
  induction p with
  | nil => rfl
  | cons x p ih =>
    simp only [List.mem_cons, not_or] at hp
    have hx : ¬ x = c := fun e => hp.1 e.symm
    rw [splitOn, ih hp.2]
    simp [hx]

/-- Splitting undoes joining when no part contains the separator. -/
theorem splitOn_join (c : Char) (parts : List (List Char)) (hne : parts ≠ [])
    (h : ∀ p ∈ parts, c ∉ p) : splitOn c (join [c] parts) = parts := by
  induction parts with
  | nil => exact absurd rfl hne
  | cons p ps ih =>
    cases ps with
    | nil => exact splitOn_of_notMem c p (h p List.mem_cons_self)
    | cons q qs =>
      rw [join, List.append_assoc, List.singleton_append,
        splitOn_append_sep c p _ (h p List.mem_cons_self),
        ih (by simp) (fun r hr => h r (List.mem_cons_of_mem _ hr))]
      simp

end Text
