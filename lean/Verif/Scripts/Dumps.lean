import Verif.Scripts.Archiver
import Verif.Scripts.LogJson

/-!
# Archives as JSON (C155)

scripts/decode_nskeyedarchiver_plist.py writes what it decoded with `json.dumps`.  The texts of real numbers are parameters.
-/

namespace Dtf.Archiver
open Py Text Json

/-! ## Model -/

/-- Four hexadecimal digits. -/
def hex4 (n : Nat) : List Char :=
  [digitChar (n / 4096 % 16), digitChar (n / 256 % 16), digitChar (n / 16 % 16), digitChar (n % 16)]

/-- A character of a string (`py_encode_basestring_ascii` of json.encoder). -/
def escape (c : Char) : List Char :=
  if c = '"' then ['\\', '"'] else if c = '\\' then ['\\', '\\'] else if c = '\n' then ['\\', 'n']
  else if c = '\r' then ['\\', 'r'] else if c = '\t' then ['\\', 't'] else if c = '\x0c' then ['\\', 'f']
  else if c = '\x08' then ['\\', 'b'] else if 32 ≤ c.toNat ∧ c.toNat ≤ 126 then [c]
  else if c.toNat < 0x10000 then '\\' :: 'u' :: hex4 c.toNat
  else
    let n := c.toNat - 0x10000
    '\\' :: 'u' :: (hex4 (0xD800 + n / 0x400) ++ '\\' :: 'u' :: hex4 (0xDC00 + n % 0x400))

def quote (s : List Char) : List Char := '"' :: (s.flatMap escape ++ ['"'])

/-- The name that `json.dumps` writes for a key. -/
def keyName (reals : Nat → List Char) : O → Res (List Char)
  | .str s => .ok s
  | .real r => .ok (reals r)
  | .bool b => .ok (if b then "true".toList else "false".toList)
  | .none => .ok "null".toList
  | .int n => .ok (intText n)
  | _ => .error .typeError

/-- A value of a property list as one that was decoded; nothing for those that cannot be written. -/
def lift : P → Option O
  | .bool b => some (.bool b)
  | .int n => some (.int n)
  | .real r => some (.real r)
  | .str s => some (.str s)
  | .arr l => some (.arr (l.map .raw))
  | .dict m => some (.dict (m.map (fun kv => (.str kv.1, .raw kv.2))))
  | .data _ => none
  | .date _ => none
  | .uid _ => none

/-- The members of an object, with `", "` and `": "`. -/
def memberTexts (reals : Nat → List Char) (dump : O → Res (List Char)) : List (O × O) → Res (List (List Char))
  | [] => .ok []
  | (k, v) :: r =>
    match keyName reals k with
    | .error e => .error e
    | .ok name =>
      match dump v with
      | .error e => .error e
      | .ok t => (memberTexts reals dump r).map ((quote name ++ ':' :: ' ' :: t) :: ·)

/-- A value that is not `raw`. -/
def dumpValue (reals : Nat → List Char) (dump : O → Res (List Char)) : O → Res (List Char)
  | .none => .ok "null".toList
  | .bool b => .ok (if b then "true".toList else "false".toList)
  | .int n => .ok (intText n)
  | .real r => .ok (reals r)
  | .str s => .ok (quote s)
  | .arr l =>
    match mapRes dump l with
    | .error e => .error e
    | .ok ts => .ok ('[' :: (join [',', ' '] ts ++ [']']))
  | .dict m =>
    match memberTexts reals dump m with
    | .error e => .error e
    | .ok ts => .ok ('{' :: (join [',', ' '] ts ++ ['}']))
  | .raw _ => .error .typeError

/-- `json.dumps(value)`, with as many values in each other as the limit. -/
def dumps (reals : Nat → List Char) : Nat → O → Res (List Char)
  | 0, _ => .error .recursionError
  | limit + 1, .raw p =>
    match lift p with
    | none => .error .typeError
    | some o => dumpValue reals (dumps reals limit) o
  | limit + 1, o => dumpValue reals (dumps reals limit) o

/-- What the script prints for a property list (decode_nskeyedarchiver_plist.py 377-380). -/
def script (whole : Whole) (reals : Nat → List Char) (limit : Nat) (p : P) : Res (List Char) :=
  match decodePlist whole limit p with
  | .error e => .error e
  | .ok o => dumps reals limit o

/-! ## Specification -/

/-- The JSON value of a value that was decoded, with at most so many values in each other. -/
def JsonOf (num : Nat → J) : Nat → O → J → Prop
  | 0, _, _ => False
  | d + 1, o, j =>
    (o = .none ∧ j = .null) ∨ (∃ b, o = .bool b ∧ j = .bool b) ∨ (∃ n, o = .int n ∧ j = .num n) ∨
    (∃ r, o = .real r ∧ j = num r) ∨ (∃ s, o = .str s ∧ j = .str s) ∨
    (∃ l l', o = .arr l ∧ j = .arr l' ∧ List.Forall₂ (JsonOf num d) l l') ∨
    (∃ m m', o = .dict m ∧ j = .obj m' ∧ List.Forall₂ (fun x y => x.1 = .str y.1 ∧ JsonOf num d x.2 y.2) m m')

/-- The text of a real number is read as the number. -/
def RealTexts (num : Nat → J) (reals : Nat → List Char) : Prop :=
  ∀ r, Reads (num r) (reals r) ∧ ∃ c t, reals r = c :: t ∧ (c = '-' ∨ isDigit c)

/-! ## Strings -/

theorem hexVal_digit (d : Nat) (h : d < 16) : hexVal (digitChar d) = some d := by
  have : ∀ d : Fin 16, hexVal (digitChar d) = some d.val := by decide +kernel
  exact this ⟨d, h⟩

/-- Four digits are read. -/
theorem read_hex4 (n : Nat) (h : n < 65536) (high : Option Nat) (rest : List Char) :
    readStringFrom (.digits 3 0 high) (hex4 n ++ rest) =
      match high with
      | some h =>
        if 0xDC00 ≤ n ∧ n < 0xE000 then
          (readStringFrom .text rest).map (fun x => (Char.ofNat (0x10000 + (h - 0xD800) * 0x400 + (n - 0xDC00)) :: x.1, x.2))
        else none
      | none =>
        if 0xD800 ≤ n ∧ n < 0xDC00 then readStringFrom (.low n) rest
        else if 0xDC00 ≤ n ∧ n < 0xE000 then none
        else (readStringFrom .text rest).map (fun x => (Char.ofNat n :: x.1, x.2)) := by
  rw [hex4, List.cons_append, readStringFrom, hexVal_digit _ (by omega)]
  dsimp only
  rw [List.cons_append, readStringFrom, hexVal_digit _ (by omega)]
  dsimp only
  rw [List.cons_append, readStringFrom, hexVal_digit _ (by omega)]
  dsimp only
  rw [List.cons_append, readStringFrom, hexVal_digit _ (by omega)]
  dsimp only
  have e : (((0 * 16 + n / 4096 % 16) * 16 + n / 256 % 16) * 16 + n / 16 % 16) * 16 + n % 16 = n := by omega
  rw [e, List.nil_append]
  cases high <;> rfl

/-- A character is read. -/
theorem read_escape (c : Char) (rest : List Char) :
    readString (escape c ++ rest) = (readString rest).map (fun x => ([c] ++ x.1, x.2)) := by
  unfold escape
  split_ifs with h1 h2 h3 h4 h5 h6 h7 h8 h9
  · subst h1; exact readString_escape _ _ _ rfl
  · subst h2; exact readString_escape _ _ _ rfl
  · subst h3; exact readString_escape _ _ _ rfl
  · subst h4; exact readString_escape _ _ _ rfl
  · subst h5; exact readString_escape _ _ _ rfl
  · subst h6; exact readString_escape _ _ _ rfl
  · subst h7; exact readString_escape _ _ _ rfl
  · exact readString_plain c rest h1 h2 h8.1
  · have hv := c.valid
    have hs : ¬ (0xD800 ≤ c.toNat ∧ c.toNat < 0xDC00) ∧ ¬ (0xDC00 ≤ c.toNat ∧ c.toNat < 0xE000) := by
      rcases hv with hv | hv
      · have : c.toNat < 0xD800 := hv
        omega
      · have : 0xDFFF < c.toNat := hv.1
        omega
    rw [readString, List.cons_append, List.cons_append, readStringFrom, if_neg (by decide), if_pos rfl, readStringFrom,
      if_pos rfl, read_hex4 _ h9]
    dsimp only
    rw [if_neg hs.1, if_neg hs.2, Char.ofNat_toNat]
    rfl
  · have hm : c.toNat < 0x110000 := by
      rcases c.valid with hv | hv
      · have : c.toNat < 0xD800 := hv
        omega
      · exact hv.2
    dsimp only
    rw [readString, List.cons_append, List.cons_append, readStringFrom, if_neg (by decide), if_pos rfl, readStringFrom,
      if_pos rfl, List.append_assoc, read_hex4 _ (by omega)]
    dsimp only
    rw [if_pos (by omega), List.cons_append, List.cons_append, readStringFrom, if_pos rfl, readStringFrom, if_pos rfl,
      read_hex4 _ (by omega)]
    dsimp only
    rw [if_pos (by omega)]
    have e : 0x10000 + (0xD800 + (c.toNat - 0x10000) / 0x400 - 0xD800) * 0x400 +
        (0xDC00 + (c.toNat - 0x10000) % 0x400 - 0xDC00) = c.toNat := by omega
    rw [e, Char.ofNat_toNat]
    rfl

theorem quoted_escape (s : List Char) : Quoted s (s.flatMap escape) := by
  induction s with
  | nil => exact quoted_nil
  | cons c s ih => exact quoted_append [c] s (escape c) _ (read_escape c) ih

/-! ## Values -/

/-- The text of a value: read as the value, and not beginning with a space or the end of an array. -/
def ValueText (j : J) (t : List Char) : Prop := Reads j t ∧ ∃ c r, t = c :: r ∧ isWs c = false ∧ c ≠ ']'

theorem reads_false : Reads (.bool false) "false".toList :=
  reads_word _ 'f' "alse".toList (by decide) (by decide) (by decide) (by decide) (fun rest => by simp [readWord])

/-- Elements, each behind a space but for the first. -/
theorem commas_join (ts : List (List Char)) :
    join [',', ' '] ts = commas (match ts with
      | [] => []
      | t :: ts => t :: ts.map (' ' :: ·)) := by
  match ts with
  | [] => rfl
  | [t] => rfl
  | t :: t' :: ts =>
    have ih := commas_join (t' :: ts)
    have hj : ∀ a b l, join [',', ' '] (a :: b :: l) = a ++ ([',', ' '] ++ join [',', ' '] (b :: l)) := by
      intro a b l
      simp [join]
    rw [hj, ih]
    dsimp only
    conv =>
      rhs
      rw [List.map_cons, commas_cons _ _ (by simp)]
    congr 1
    cases ts with
    | nil => rfl
    | cons a ts => rfl

theorem reads_arr_empty : Reads (.arr []) ['[', ']'] := by
  intro fuel w rest hf hw hb
  obtain ⟨fuel, rfl⟩ : ∃ k, fuel = k + 1 := ⟨fuel - 1, by omega⟩
  rw [readValue, expect_ws _ _ _ hw, expect_ws _ _ _ hw, expect_ws _ _ _ hw, List.cons_append,
    expect_cons _ _ _ (by decide), if_neg (by decide), expect_cons _ _ _ (by decide), if_neg (by decide),
    expect_cons _ _ _ (by decide), if_pos rfl]
  dsimp only
  rw [List.cons_append, expect_cons _ _ _ (by decide), if_pos rfl]
  rfl

theorem reads_obj_empty : Reads (.obj []) ['{', '}'] := by
  intro fuel w rest hf hw hb
  obtain ⟨fuel, rfl⟩ : ∃ k, fuel = k + 1 := ⟨fuel - 1, by omega⟩
  rw [readValue, expect_ws _ _ _ hw, expect_ws _ _ _ hw, List.cons_append,
    expect_cons _ _ _ (by decide), if_neg (by decide), expect_cons _ _ _ (by decide), if_pos rfl]
  dsimp only
  rw [List.cons_append, expect_cons _ _ _ (by decide), if_pos rfl]
  rfl

theorem value_arr (js : List J) (ts : List (List Char)) (h : List.Forall₂ ValueText js ts) :
    ValueText (.arr js) ('[' :: (join [',', ' '] ts ++ [']'])) := by
  refine ⟨?_, '[', _, rfl, by decide, by decide⟩
  have key : ∀ lead : List Char, (∀ c ∈ lead, isWs c = true) → ∀ {js ts}, List.Forall₂ ValueText js ts →
      List.Forall₂ ElementText js (ts.map (lead ++ ·)) := by
    intro lead hl js ts h
    induction h with
    | nil => exact .nil
    | cons hx _ ih =>
      obtain ⟨hr, c, r, hc, hw, hb⟩ := hx
      exact .cons ⟨lead, _, c, r, hl, hr, hc, hw, hb, rfl⟩ ih
  cases h with
  | nil => exact reads_arr_empty
  | @cons j t js ts hx hr =>
    rw [commas_join]
    dsimp only
    have := reads_arr (j :: js) (t :: ts.map (' ' :: ·)) (.cons (by
      have := key [] (by simp) (.cons hx .nil)
      cases this with
      | cons h _ => simpa using h) (key [' '] (by decide) hr)) (by simp) [] [] (by simp) (by simp)
    exact this

theorem value_obj (ms : List (List Char × J)) (ts : List (List Char))
    (h : List.Forall₂ (fun m t => ∃ v, ValueText m.2 v ∧ t = quote m.1 ++ ':' :: ' ' :: v) ms ts) :
    ValueText (.obj ms) ('{' :: (join [',', ' '] ts ++ ['}'])) := by
  refine ⟨?_, '{', _, rfl, by decide, by decide⟩
  have one : ∀ (lead : List Char), (∀ c ∈ lead, isWs c = true) → ∀ m t, (∃ v, ValueText m.2 v ∧ t = quote m.1 ++ ':' :: ' ' :: v) →
      MemberText m (lead ++ t) := by
    rintro lead hl m t ⟨v, hv, rfl⟩
    exact ⟨lead, _, [], [' '], v, hl, quoted_escape m.1, by simp, by decide, hv.1, by simp [quote]⟩
  have key : ∀ {ms ts}, List.Forall₂ (fun m t => ∃ v, ValueText m.2 v ∧ t = quote m.1 ++ ':' :: ' ' :: v) ms ts →
      List.Forall₂ MemberText ms (ts.map (' ' :: ·)) := by
    intro ms ts h
    induction h with
    | nil => exact .nil
    | cons hx _ ih => exact .cons (one [' '] (by decide) _ _ hx) ih
  cases h with
  | nil => exact reads_obj_empty
  | @cons m t ms ts hx hr =>
    rw [commas_join]
    dsimp only
    exact reads_obj (m :: ms) (t :: ts.map (' ' :: ·)) (.cons (one [] (by simp) _ _ hx) (key hr)) (by simp) [] [] (by simp)
      (by simp)

theorem dumps_value {num : Nat → J} {reals : Nat → List Char} (hreal : RealTexts num reals) (d : Nat) (o : O) (j : J)
    (h : JsonOf num d o j) (limit : Nat) (hl : d ≤ limit) : ∃ t, dumps reals limit o = .ok t ∧ ValueText j t := by
  induction d generalizing o j limit with
  | zero => exact h.elim
  | succ d ih =>
    obtain ⟨limit, rfl⟩ : ∃ k, limit = k + 1 := ⟨limit - 1, by omega⟩
    rw [JsonOf] at h
    rcases h with ⟨rfl, rfl⟩ | ⟨b, rfl, rfl⟩ | ⟨n, rfl, rfl⟩ | ⟨r, rfl, rfl⟩ | ⟨s, rfl, rfl⟩ | ⟨l, l', rfl, rfl, h⟩ |
      ⟨m, m', rfl, rfl, h⟩
    · exact ⟨_, rfl, reads_null, 'n', _, rfl, by decide, by decide⟩
    · cases b
      · exact ⟨_, rfl, reads_false, 'f', _, rfl, by decide, by decide⟩
      · exact ⟨_, rfl, reads_true, 't', _, rfl, by decide, by decide⟩
    · obtain ⟨c, r, hr, hws, hc, _⟩ := intText_head n
      refine ⟨_, rfl, reads_num n, c, r, hr, hws, ?_⟩
      rintro rfl
      revert hc
      decide
    · obtain ⟨hr, c, t, hc, hd⟩ := hreal r
      refine ⟨_, rfl, hr, c, t, hc, ?_, ?_⟩
      · rcases hd with rfl | hd
        · decide
        · cases hw : isWs c
          · rfl
          · rw [(ws_not_digit c hw).1] at hd
            cases hd
      · rintro rfl
        revert hd
        decide
    · exact ⟨_, rfl, reads_str _ _ (quoted_escape s), '"', _, rfl, by decide, by decide⟩
    · have key : ∃ ts, mapRes (dumps reals limit) l = .ok ts ∧ List.Forall₂ ValueText l' ts := by
        induction h with
        | nil => exact ⟨[], rfl, .nil⟩
        | cons hx _ ih' =>
          obtain ⟨t, ht, hv⟩ := ih _ _ hx limit (by omega)
          obtain ⟨ts, hts, hvs⟩ := ih'
          exact ⟨t :: ts, by rw [mapRes, ht]; dsimp only; rw [hts]; rfl, .cons hv hvs⟩
      obtain ⟨ts, hts, hvs⟩ := key
      refine ⟨_, ?_, value_arr _ _ hvs⟩
      rw [dumps, dumpValue, hts]
      nofun
    · have key : ∃ ts, memberTexts reals (dumps reals limit) m = .ok ts ∧
          List.Forall₂ (fun m t => ∃ v, ValueText m.2 v ∧ t = quote m.1 ++ ':' :: ' ' :: v) m' ts := by
        induction h with
        | nil => exact ⟨[], rfl, .nil⟩
        | @cons x y _ _ hx _ ih' =>
          obtain ⟨x1, x2⟩ := x
          obtain ⟨hk, hx⟩ := hx
          dsimp only at hk hx
          subst hk
          obtain ⟨t, ht, hv⟩ := ih _ _ hx limit (by omega)
          obtain ⟨ts, hts, hvs⟩ := ih'
          exact ⟨_ :: ts, by rw [memberTexts, keyName]; dsimp only; rw [ht]; dsimp only; rw [hts]; rfl, .cons ⟨t, hv, rfl⟩ hvs⟩
      obtain ⟨ts, hts, hvs⟩ := key
      refine ⟨_, ?_, value_obj _ _ hvs⟩
      rw [dumps, dumpValue, hts]
      nofun

/-! ## What the script prints -/

theorem jsonOf_mono {num : Nat → J} (d : Nat) (o : O) (j : J) (h : JsonOf num d o j) : JsonOf num (d + 1) o j := by
  induction d generalizing o j with
  | zero => exact h.elim
  | succ d ih =>
    rw [JsonOf] at h ⊢
    rcases h with h | h | h | h | h | ⟨l, l', ho, hj, h⟩ | ⟨m, m', ho, hj, h⟩
    · exact .inl h
    · exact .inr (.inl h)
    · exact .inr (.inr (.inl h))
    · exact .inr (.inr (.inr (.inl h)))
    · exact .inr (.inr (.inr (.inr (.inl h))))
    · exact .inr (.inr (.inr (.inr (.inr (.inl ⟨l, l', ho, hj, h.imp (fun x y h => ih x y h)⟩)))))
    · exact .inr (.inr (.inr (.inr (.inr (.inr ⟨m, m', ho, hj, h.imp (fun x y h => ⟨h.1, ih _ _ h.2⟩)⟩)))))

theorem forall_exists {α β γ : Type} {R : α → β → Prop} {S : β → γ → Prop} {l : List α} {l' : List β}
    (h : List.Forall₂ R l l') (hs : ∀ x y, R x y → ∃ z, S y z) : ∃ l'', List.Forall₂ S l' l'' := by
  induction h with
  | nil => exact ⟨[], .nil⟩
  | cons hx _ ih =>
    obtain ⟨z, hz⟩ := hs _ _ hx
    obtain ⟨zs, hzs⟩ := ih
    exact ⟨z :: zs, .cons hz hzs⟩

theorem pairs_exists {num : Nat → J} {d : Nat} {ts : List (List Char)} {vs : List O} {js : List J}
    (h : List.Forall₂ (JsonOf num d) vs js) :
    List.Forall₂ (fun (x : O × O) (y : List Char × J) => x.1 = .str y.1 ∧ JsonOf num d x.2 y.2) ((ts.map .str).zip vs) (ts.zip js) := by
  induction h generalizing ts with
  | nil => simp
  | cons hx _ ih =>
    cases ts with
    | nil => exact .nil
    | cons t ts => exact .cons ⟨rfl, hx⟩ ih

theorem members_exists {num : Nat → J} {d : Nat} {H : P → O → Prop} {m : List (List Char × P)} {l : List (O × O)}
    (h : List.Forall₂ (Member H) m l) (hs : ∀ x y, H x y → ∃ z, JsonOf num d y z) :
    ∃ l', List.Forall₂ (fun (x : O × O) (y : List Char × J) => x.1 = .str y.1 ∧ JsonOf num d x.2 y.2) l l' :=
  forall_exists h (fun x y h => by
    obtain ⟨z, hz⟩ := hs _ _ h.2
    exact ⟨(x.1, z), h.1, hz⟩)

/-- What an archive holds has a JSON value. -/
theorem holds_json {whole : Whole} {table : List P} (num : Nat → J) (d : Nat) (e : P) (o : O)
    (h : Holds whole False table d e o) : ∃ j, JsonOf num d o j := by
  induction d generalizing e o with
  | zero => exact h.elim
  | succ d ih =>
    have arr : ∀ {l l'}, List.Forall₂ (Holds whole False table d) l l' → ∃ j, JsonOf num (d + 1) (.arr l') j := by
      intro l l' h
      obtain ⟨js, hj⟩ := forall_exists h (fun x y h => ih x y h)
      exact ⟨.arr js, by rw [JsonOf]; exact .inr (.inr (.inr (.inr (.inr (.inl ⟨l', js, rfl, rfl, hj⟩)))))⟩
    have obj : ∀ {l l'}, List.Forall₂ (Member (Holds whole False table d)) l l' → ∃ j, JsonOf num (d + 1) (.dict l') j := by
      intro l l' h
      obtain ⟨js, hj⟩ := members_exists h (fun x y h => ih x y h)
      exact ⟨.obj js, by rw [JsonOf]; exact .inr (.inr (.inr (.inr (.inr (.inr ⟨l', js, rfl, rfl, hj⟩)))))⟩
    have text : ∀ s, ∃ j, JsonOf num (d + 1) (.str s) j :=
      fun s => ⟨.str s, by rw [JsonOf]; exact .inr (.inr (.inr (.inr (.inl ⟨s, rfl, rfl⟩))))⟩
    rw [Holds] at h
    rcases h with ⟨x, hx, h⟩ | ⟨b, rfl, rfl⟩ | ⟨n, rfl, rfl⟩ | ⟨r, rfl, rfl⟩ | ⟨b, rfl, rfl⟩ | ⟨s, rfl, hs, rfl⟩ | ⟨rfl, rfl⟩ |
      ⟨l, l', rfl, rfl, h⟩ | ⟨m, name, rfl, hc, h⟩
    · obtain ⟨j, hj⟩ := ih _ _ h
      exact ⟨j, jsonOf_mono _ _ _ hj⟩
    · exact ⟨.bool b, by rw [JsonOf]; exact .inr (.inl ⟨b, rfl, rfl⟩)⟩
    · exact ⟨.num n, by rw [JsonOf]; exact .inr (.inr (.inl ⟨n, rfl, rfl⟩))⟩
    · exact ⟨num r, by rw [JsonOf]; exact .inr (.inr (.inr (.inl ⟨r, rfl, rfl⟩)))⟩
    · exact text _
    · exact text _
    · exact ⟨.null, by rw [JsonOf]; exact .inl ⟨rfl, rfl⟩⟩
    · exact arr h
    · cases h with
      | array l l' hn ho hr => exact arr hr
      | dictionary ks vs ts vs' hn hk hv hd hkr hvr hlen =>
        obtain ⟨js, hj⟩ := forall_exists hvr (fun x y h => ih x y h)
        refine ⟨.obj (ts.zip js), ?_⟩
        rw [JsonOf]
        exact .inr (.inr (.inr (.inr (.inr (.inr ⟨_, _, rfl, rfl, pairs_exists hj⟩)))))
      | composite l hn hb hr => exact obj hr
      | hashTable v m' l hn hv he hb hr => exact obj hr
      | url base relative b r t hn hb hr hb' hr' ht => exact text _
      | uuid b hn hb hlen => exact text _
      | set l l' hfalse => exact hfalse.elim

/-- C155.  What the script prints for an archive is JSON, and the value of it is that of what the archive holds. -/
theorem C155_script_partial {whole : Whole} {num : Nat → J} {reals : Nat → List Char} (hreal : RealTexts num reals) (d : Nat)
    (p : P) (o : O) (h : Archive whole False d p o) (limit : Nat) (hl : d + 2 ≤ limit) :
    ∃ t j, script whole reals limit p = .ok t ∧ JsonOf num (d + 1) o j ∧ parse t = some j := by
  have hd := C152_archive_partial d p o h limit hl
  obtain ⟨m, table, tops, l, _, _, _, _, _, rfl, h⟩ := h
  obtain ⟨js, hj⟩ := members_exists (num := num) (d := d) h (fun x y ⟨x', _, h⟩ => holds_json num d x' y h)
  have hjson : JsonOf num (d + 1) (.dict l) (.obj js) := by
    rw [JsonOf]
    exact .inr (.inr (.inr (.inr (.inr (.inr ⟨l, js, rfl, rfl, hj⟩)))))
  obtain ⟨t, ht, hv⟩ := dumps_value hreal (d + 1) _ _ hjson limit (by omega)
  refine ⟨t, .obj js, ?_, hjson, parse_reads _ _ hv.1⟩
  rw [script, hd]
  exact ht

/-- Each value has one JSON value at most, so that the theorem above says what is read. -/
theorem C155_unique {num : Nat → J} (d : Nat) (o : O) (j j' : J) (h : JsonOf num d o j) (h' : JsonOf num d o j') : j = j' := by
  induction d generalizing o j j' with
  | zero => exact h.elim
  | succ d ih =>
    rw [JsonOf] at h h'
    rcases h with ⟨rfl, rfl⟩ | ⟨b, rfl, rfl⟩ | ⟨n, rfl, rfl⟩ | ⟨r, rfl, rfl⟩ | ⟨s, rfl, rfl⟩ | ⟨l, l', rfl, rfl, h⟩ |
      ⟨m, m', rfl, rfl, h⟩ <;>
    rcases h' with ⟨ho, rfl⟩ | ⟨b, ho, rfl⟩ | ⟨n, ho, rfl⟩ | ⟨r, ho, rfl⟩ | ⟨s, ho, rfl⟩ | ⟨k, k', ho, rfl, h'⟩ |
      ⟨k, k', ho, rfl, h'⟩ <;> cases ho <;> first
    | rfl
    | skip
    · congr 1
      induction h generalizing k' with
      | nil => cases h'; rfl
      | cons hx _ ih' =>
        cases h' with
        | cons hy hr => rw [ih _ _ _ hx hy, ih' _ hr]
    · congr 1
      induction h generalizing k' with
      | nil => cases h'; rfl
      | @cons x y _ _ hx _ ih' =>
        cases h' with
        | @cons _ z _ _ hy hr =>
          rw [ih' _ hr]
          obtain ⟨y1, y2⟩ := y
          obtain ⟨z1, z2⟩ := z
          have h1 := hx.1.symm.trans hy.1
          injection h1 with h1
          have h2 := ih _ _ _ hx.2 hy.2
          dsimp only at h1 h2
          rw [h1, h2]

/-- What the script prints is JSON, whatever property list is decoded. -/
def C155_script_claim : Prop := ∀ whole reals limit p o, decodePlist whole limit p = .ok o →
  ∃ limit t j, script whole reals limit p = .ok t ∧ parse t = some j

/-- An archive with data at its top, not behind a reference. -/
def inline (v : P) : P :=
  .dict [("$archiver".toList, .str "NSKeyedArchiver".toList), ("$version".toList, .int 100000), ("$top".toList, .dict [("a".toList, v)])]

/-- Data at the top that are not behind a reference are not decoded, and cannot be written. -/
theorem C155_script_claim_false : ¬ C155_script_claim := by
  intro h
  obtain ⟨limit, t, j, ht, _⟩ := h (fun _ => none) (fun _ => []) 0 (inline (.data [1])) (.dict [(.str "a".toList, .raw (.data [1]))]) rfl
  match limit with
  | 0 =>
    rw [show script (fun _ => none) (fun _ => []) 0 (inline (.data [1])) = .error .recursionError from rfl] at ht
    cases ht
  | 1 =>
    rw [show script (fun _ => none) (fun _ => []) 1 (inline (.data [1])) = .error .recursionError from rfl] at ht
    cases ht
  | limit + 2 =>
    rw [show script (fun _ => none) (fun _ => []) (limit + 2) (inline (.data [1])) = .error .typeError from rfl] at ht
    cases ht

/-- C155.  A real number that is not a number is written as `NaN`, which is not JSON. -/
theorem C155_nan (limit : Nat) : ∃ t, script (fun _ => none) (fun _ => "NaN".toList) (limit + 2) (inline (.real 0)) = .ok t ∧
    parse t = none := ⟨_, rfl, by
  have h : (parse "{\"a\": NaN}".toList).isNone = true := by decide +kernel
  exact Option.isNone_iff_eq_none.mp h⟩

/-- No object has a name twice. -/
def C155_names_claim : Prop := ∀ whole reals limit p t ms, script whole reals limit p = .ok t → parse t = some (.obj ms) →
  ∀ x ∈ ms, ∀ ns, x.2 = .obj ns → (ns.map (·.1)).Nodup

/-- A dictionary with the number 1 and the text 1 as keys. -/
def twoKeys : P :=
  archive [.str "$null".toList, .dict [("$class".toList, .uid 2), ("NS.keys".toList, .arr [.int 1, .str ['1']]),
    ("NS.objects".toList, .arr [.int 5, .int 6])], .dict [("$classname".toList, .str "NSDictionary".toList)]]

theorem C155_names_claim_false : ¬ C155_names_claim := by
  intro h
  have ht : script (fun _ => none) (fun _ => []) 5 twoKeys = .ok "{\"root\": {\"1\": 5, \"1\": 6}}".toList := rfl
  have key : (match parse "{\"root\": {\"1\": 5, \"1\": 6}}".toList with
      | some (.obj [(a, .obj ns)]) => decide (a = "root".toList ∧ ¬ (ns.map (·.1)).Nodup)
      | _ => false) = true := by decide +kernel
  cases hp : parse "{\"root\": {\"1\": 5, \"1\": 6}}".toList with
  | none => rw [hp] at key; cases key
  | some j =>
    rw [hp] at key
    match j, key, hp with
    | .obj [(a, .obj ns)], key, hp =>
      dsimp only at key
      exact (of_decide_eq_true key).2 (h _ _ _ _ _ _ ht hp (a, .obj ns) (by simp) ns rfl)

/-- Texts with characters that need an escape. -/
example : quote ['a', '"', '\n', '\x01', 'é', '😀'] = "\"a\\\"\\n\\u0001\\u00e9\\ud83d\\ude00\"".toList := by decide +kernel

/-- There are real numbers whose texts are read. -/
example : RealTexts (fun r => .num r) (fun r => intText r) := by
  intro r
  refine ⟨reads_num r, ?_⟩
  obtain ⟨c, t, h, _, hc, _⟩ := intText_head r
  exact ⟨c, t, h, hc⟩

end Dtf.Archiver
