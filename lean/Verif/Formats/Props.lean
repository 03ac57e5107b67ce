import Verif.Formats.Model
import Mathlib.Tactic.NormNum
import Mathlib.Tactic.ByContra

/-!
# Properties of the display functions (C41, C51, C52, C65–C71)
-/

namespace Dtf.Formats
open Py Text

/-! ## Lemmas on text -/

theorem map_inj {α β : Type} {f : α → β} (hf : ∀ x y, f x = f y → x = y) {l m : List α}
    (h : l.map f = m.map f) : l = m := by
  induction l generalizing m with
  | nil =>
    cases m with
    | nil => rfl
    | cons y m => simp at h
  | cons x l ih =>
    cases m with
    | nil => simp at h
    | cons y m =>
      simp only [List.map_cons, List.cons.injEq] at h
      rw [hf x y h.1, ih h.2]

theorem append_sep_inj {α : Type} (c : α) (p q r s : List α) (hp : c ∉ p) (hq : c ∉ q)
    (h : p ++ c :: r = q ++ c :: s) : p = q ∧ r = s := by
  induction p generalizing q with
  | nil =>
    cases q with
    | nil => simpa using h
    | cons y q =>
      simp only [List.nil_append, List.cons_append, List.cons.injEq] at h
      exact absurd (by simp [h.1]) hq
  | cons x p ih =>
    cases q with
    | nil =>
      simp only [List.nil_append, List.cons_append, List.cons.injEq] at h
      exact absurd (by simp [h.1]) hp
    | cons y q =>
      simp only [List.cons_append, List.cons.injEq] at h
      simp only [List.mem_cons, not_or] at hp hq
      obtain ⟨h1, h2⟩ := ih q hp.2 hq.2 h.2
      exact ⟨by rw [h.1, h1], h2⟩

theorem join_injective (c : Char) (r : List Char) (ps qs : List (List Char))
    (hp : ∀ p ∈ ps, p ≠ [] ∧ c ∉ p) (hq : ∀ q ∈ qs, q ≠ [] ∧ c ∉ q)
    (h : join (c :: r) ps = join (c :: r) qs) : ps = qs := by
  have hne : ∀ p : List Char, ∀ l : List (List Char), p ≠ [] → join (c :: r) (p :: l) ≠ [] := by
    intro p l hp
    cases l with
    | nil => exact hp
    | cons q l => simp [join]
  induction ps generalizing qs with
  | nil =>
    cases qs with
    | nil => rfl
    | cons q qs => exact absurd h.symm (hne q qs (hq q (by simp)).1)
  | cons p ps ih =>
    cases qs with
    | nil => exact absurd h (hne p ps (hp p (by simp)).1)
    | cons q qs =>
      cases ps with
      | nil =>
        cases qs with
        | nil => simpa [join] using h
        | cons q' qs =>
          simp only [join, List.append_assoc, List.cons_append] at h
          exact absurd (by rw [h]; simp) (hp p (by simp)).2
      | cons p' ps =>
        cases qs with
        | nil =>
          simp only [join, List.append_assoc, List.cons_append] at h
          exact absurd (by rw [← h]; simp) (hq q (by simp)).2
        | cons q' qs =>
          simp only [join, List.append_assoc, List.cons_append] at h
          obtain ⟨h1, h2⟩ := append_sep_inj c p q _ _ (hp p (by simp)).2 (hq q (by simp)).2 h
          have h3 := List.append_cancel_left h2
          rw [h1, ih (q' :: qs) (fun x hx => hp x (List.mem_cons_of_mem _ hx))
            (fun x hx => hq x (List.mem_cons_of_mem _ hx)) h3]

theorem dec_notMem (n : Nat) (c : Char) (h : ∀ d < 10, digitChar d ≠ c) : c ∉ dec n := by
  intro hc
  obtain ⟨d, hd, rfl⟩ := mem_digits 10 n (by omega) c hc
  exact h d hd rfl

theorem hexw_notMem (w n : Nat) (c : Char) (h : ∀ d < 16, digitChar d ≠ c) : c ∉ hexw w n := by
  intro hc
  obtain ⟨d, hd, rfl⟩ := mem_zpad_digits 16 n w (by omega) c hc
  exact h d hd rfl

theorem dec_injective (m n : Nat) (h : dec m = dec n) : m = n :=
  digits_injective 10 (by omega) (by omega) m n h

theorem hexw_injective (w m n : Nat) (h : hexw w m = hexw w n) : m = n :=
  zpad_digits_injective 16 w (by omega) (by omega) m n h

theorem decInt_injective (i j : Int) (h : decInt i = decInt j) : i = j := by
  have hm : ∀ n, '-' ∉ dec n := fun n => dec_notMem n '-' (by decide)
  unfold decInt at h
  split at h <;> split at h
  · rw [List.cons.injEq] at h
    have := dec_injective _ _ h.2
    omega
  · exact absurd (by rw [← h]; simp) (hm j.natAbs)
  · exact absurd (by rw [h]; simp) (hm i.natAbs)
  · have := dec_injective _ _ h
    omega

theorem decInt_notMem (i : Int) (c : Char) (h : ∀ d < 10, digitChar d ≠ c) (hc : c ≠ '-') :
    c ∉ decInt i := by
  unfold decInt
  split
  · simp only [List.mem_cons, not_or]
    exact ⟨hc, dec_notMem _ c h⟩
  · exact dec_notMem _ c h

/-! ## C51: paths -/

/-- **C51**: splitting a joined path gives the segments back. -/
theorem C51_split_join (sep : Char) (segments : List (List Char))
    (h : ∀ s ∈ segments, s ≠ [] ∧ sep ∉ s) :
    splitPath sep (joinPath sep segments) = segments := by
  unfold splitPath joinPath
  have h0 : splitOn sep (sep :: join [sep] segments) = [] :: splitOn sep (join [sep] segments) := by
    simp [splitOn]
  rw [h0]
  cases segments with
  | nil => simp [join, splitOn]
  | cons s ss =>
    rw [splitOn_join sep (s :: ss) (by simp) (fun p hp => (h p hp).2)]
    rw [List.filter_cons_of_neg (by simp), List.filter_eq_self]
    intro a ha
    simpa using (h a ha).1

/-- The normal form of an absolute path: separators that follow a separator, and separators at the
end other than the first character, are dropped.  Specification. -/
inductive Normal (sep : Char) : List Char → Prop
  | root : Normal sep [sep]
  | single (s : List Char) : s ≠ [] → sep ∉ s → Normal sep (sep :: s)
  | cons (s p : List Char) : s ≠ [] → sep ∉ s → Normal sep p → p ≠ [sep] →
      Normal sep (sep :: (s ++ p))

/-- The segments of a path: its maximal parts without a separator.  Specification, by scanning with
the current part. -/
def parts (sep : Char) : List Char → List Char → List (List Char)
  | cur, [] => if cur = [] then [] else [cur]
  | cur, x :: xs =>
    if x = sep then (if cur = [] then parts sep [] xs else cur :: parts sep [] xs)
    else parts sep (cur ++ [x]) xs

theorem splitPath_parts (sep : Char) (cur path : List Char) (hc : sep ∉ cur) :
    (splitOn sep (cur ++ path)).filter (fun s => s ≠ []) = parts sep cur path := by
  induction path generalizing cur with
  | nil =>
    rw [List.append_nil, splitOn_of_notMem sep cur hc, parts]
    split
    · rename_i h; simp [h]
    · rename_i h; simp [h]
  | cons x xs ih =>
    rw [parts]
    split
    · rename_i hx
      subst hx
      rw [splitOn_append_sep x cur xs hc]
      have := ih [] (by simp)
      rw [List.nil_append] at this
      split
      · rename_i h0
        rw [List.filter_cons_of_neg (by simp [h0]), this]
      · rename_i h0
        rw [List.filter_cons_of_pos (by simpa using h0), this]
    · rename_i hx
      have := ih (cur ++ [x]) (by
        simp only [List.mem_append, List.mem_singleton, not_or]
        exact ⟨hc, fun e => hx e.symm⟩)
      rw [List.append_assoc, List.singleton_append] at this
      exact this

theorem parts_ok (sep : Char) (cur path : List Char) (hc : sep ∉ cur) :
    ∀ s ∈ parts sep cur path, s ≠ [] ∧ sep ∉ s := by
  induction path generalizing cur with
  | nil =>
    unfold parts
    split
    · simp
    · rename_i h
      simp only [List.mem_singleton]
      rintro s rfl
      exact ⟨h, hc⟩
  | cons x xs ih =>
    unfold parts
    split
    · split
      · exact ih [] (by simp)
      · rename_i h
        intro s hs
        rcases List.mem_cons.mp hs with rfl | hs
        · exact ⟨h, hc⟩
        · exact ih [] (by simp) s hs
    · rename_i hx
      exact ih (cur ++ [x]) (by
        simp only [List.mem_append, List.mem_singleton, not_or]
        exact ⟨hc, fun e => hx e.symm⟩)

/-- **C51**: splitting gives the maximal parts of the path without a separator. -/
theorem C51_split (sep : Char) (path : List Char) :
    splitPath sep path = parts sep [] path := by
  have := splitPath_parts sep [] path (by simp)
  rwa [List.nil_append] at this

theorem joinPath_normal (sep : Char) (segments : List (List Char))
    (h : ∀ s ∈ segments, s ≠ [] ∧ sep ∉ s) : Normal sep (joinPath sep segments) := by
  induction segments with
  | nil => exact .root
  | cons s ss ih =>
    have hs := h s (by simp)
    cases ss with
    | nil => exact .single s hs.1 hs.2
    | cons t ts =>
      have := ih (fun x hx => h x (List.mem_cons_of_mem _ hx))
      unfold joinPath at this ⊢
      rw [join, List.append_assoc, List.singleton_append]
      · refine .cons s _ hs.1 hs.2 this ?_
        have ht := (h t (by simp)).1
        intro e
        simp only [List.cons.injEq, true_and] at e
        cases ts with
        | nil => exact ht (by simpa [join] using e)
        | cons u us => simp [join] at e
      · simp

/-- **C51**: joining the segments of a path gives an absolute path in normal form with the same
segments. -/
theorem C51_join_split (sep : Char) (path : List Char) :
    Normal sep (joinPath sep (splitPath sep path)) ∧
      parts sep [] (joinPath sep (splitPath sep path)) = parts sep [] path := by
  have hok := parts_ok sep [] path (by simp)
  rw [← C51_split] at hok
  refine ⟨joinPath_normal sep _ hok, ?_⟩
  rw [← C51_split, C51_split_join sep _ hok, C51_split]

/-- **C51**: a path in normal form is not changed by splitting and joining. -/
theorem C51_normal_unchanged (sep : Char) (path : List Char) (h : Normal sep path) :
    joinPath sep (splitPath sep path) = path := by
  have key : ∃ segments, (∀ s ∈ segments, s ≠ [] ∧ sep ∉ s) ∧ path = joinPath sep segments := by
    induction h with
    | root => exact ⟨[], by simp, rfl⟩
    | single s h1 h2 => exact ⟨[s], by simpa using ⟨h1, h2⟩, rfl⟩
    | cons s p h1 h2 _ hp ih =>
      obtain ⟨segments, hs, rfl⟩ := ih
      cases segments with
      | nil => exact absurd rfl hp
      | cons t ts =>
        refine ⟨s :: t :: ts, ?_, ?_⟩
        · intro x hx
          rcases List.mem_cons.mp hx with rfl | hx
          · exact ⟨h1, h2⟩
          · exact hs x hx
        · simp [joinPath, join]
  obtain ⟨segments, hs, rfl⟩ := key
  rw [C51_split_join sep segments hs]

example : splitPath '/' "/a//bc/".toList = ["a".toList, "bc".toList] ∧
    joinPath '/' (splitPath '/' "/a//bc/".toList) = "/a/bc".toList := by decide

/-! ## C52: addresses -/

theorem splitOn_dec (l : Bytes) (hl : l ≠ []) :
    splitOn '.' (join ['.'] (l.map (fun o => dec o.toNat))) = l.map (fun o => dec o.toNat) := by
  apply splitOn_join
  · simpa using hl
  · intro p hp
    obtain ⟨o, _, rfl⟩ := List.mem_map.mp hp
    exact dec_notMem _ '.' (by decide)

/-- **C52**: an IPv4 text exists exactly for 4 bytes. -/
theorem C52_ipv4_defined (a : Bytes) : (ipv4 a).isSome = true ↔ a.length = 4 := by
  unfold ipv4
  split <;> simp_all

/-- **C52**: an IPv6 text exists exactly for 16 bytes. -/
theorem C52_ipv6_defined (a : Bytes) : (ipv6 a).isSome = true ↔ a.length = 16 := by
  unfold ipv6
  split <;> simp_all

/-- **C52**: the numbers between the dots of an IPv4 text are the bytes of the address. -/
theorem C52_ipv4_round_trip (a : Bytes) (t : List Char) (h : ipv4 a = some t) :
    (splitOn '.' t).map (parseDigits 10) = a.map (fun o => some o.toNat) := by
  unfold ipv4 at h
  split at h
  · rename_i hl
    simp only [Option.some.injEq] at h
    subst h
    rw [splitOn_dec a (by intro e; simp [e] at hl), List.map_map]
    apply List.map_congr_left
    intro o _
    exact parse_digits 10 o.toNat (by omega) (by omega)
  · simp at h

/-- The groups of an address: two bytes each, the first one more significant.  Specification. -/
def groups : Bytes → List Nat
  | x :: y :: rest => beNat [x, y] :: groups rest
  | _ => []

theorem pairs_eq_groups (a : Bytes) : pairs a = groups a := by
  induction a using groups.induct with
  | case1 x y rest ih =>
    rw [pairs, groups, ih]
    congr 1
    rw [← Nat.shiftLeft_add_eq_or_of_lt (by have := y.toNat_lt; simpa using this)]
    simp [beNat, Nat.shiftLeft_eq]
  | case2 => unfold pairs groups; split <;> simp_all

theorem groups_injective (a b : Bytes) (hab : a.length = b.length) (he : a.length % 2 = 0)
    (h : groups a = groups b) : a = b := by
  induction a using groups.induct generalizing b with
  | case1 x y rest ih =>
    match b, hab with
    | x' :: y' :: rest', hab =>
      simp only [groups, List.cons.injEq, beNat, List.foldl_cons, List.foldl_nil] at h
      have h1 := x.toNat_lt; have h2 := y.toNat_lt; have h3 := x'.toNat_lt; have h4 := y'.toNat_lt
      simp only [List.length_cons] at hab he
      have ex : x = x' := UInt8.toNat_inj.mp (by omega)
      have ey : y = y' := UInt8.toNat_inj.mp (by omega)
      rw [ex, ey, ih rest' (by omega) (by omega) h.2]
  | case2 t ht =>
    match t, ht with
    | [], _ =>
      match b, hab with
      | [], _ => rfl
    | [x], _ => simp at he
    | x :: y :: r, ht => exact absurd rfl (ht x y r)

theorem groups_length (a : Bytes) : (groups a).length = a.length / 2 := by
  induction a using groups.induct with
  | case1 x y rest ih => simp only [groups, List.length_cons, ih]; omega
  | case2 t ht =>
    match t, ht with
    | [], _ => rfl
    | [x], _ => simp [groups]
    | x :: y :: r, ht => exact absurd rfl (ht x y r)

theorem groups_lt (a : Bytes) : ∀ g ∈ groups a, g < 65536 := by
  induction a using groups.induct with
  | case1 x y rest ih =>
    intro g hg
    simp only [groups, List.mem_cons] at hg
    rcases hg with rfl | hg
    · have := x.toNat_lt; have := y.toNat_lt
      simp [beNat]; omega
    · exact ih g hg
  | case2 t ht =>
    match t, ht with
    | [], _ => simp [groups]
    | [x], _ => simp [groups]
    | x :: y :: r, ht => exact absurd rfl (ht x y r)

/-- **C52**: the hexadecimal numbers between the colons of an IPv6 text are the eight groups of
the address. -/
theorem C52_ipv6_round_trip (a : Bytes) (t : List Char) (h : ipv6 a = some t) :
    (splitOn ':' t).map (parseDigits 16) = (groups a).map some ∧ (groups a).length = 8 := by
  unfold ipv6 at h
  split at h
  · rename_i hl
    simp only [Option.some.injEq] at h
    subst h
    have hg := groups_length a
    rw [pairs_eq_groups, splitOn_join, List.map_map]
    · refine ⟨List.map_congr_left fun o _ => parse_zpad_digits 16 o 4 (by omega) (by omega), ?_⟩
      omega
    · intro e
      have := congrArg List.length e
      rw [List.length_map] at this
      simp only [List.length_nil] at this
      omega
    · intro p hp
      obtain ⟨o, _, rfl⟩ := List.mem_map.mp hp
      exact hexw_notMem _ _ ':' (by decide)
  · simp at h

/-- **C52**: different addresses have different texts. -/
theorem C52_injective (a b : Bytes) (t : List Char) (ha : bsmAddress a = some t)
    (hb : bsmAddress b = some t) : a = b := by
  have h4 : ∀ a t, ipv4 a = some t → '.' ∈ t := by
    intro a t h
    unfold ipv4 at h
    split at h
    · rename_i hl
      match a, hl with
      | [w, x, y, z], _ =>
        simp only [Option.some.injEq] at h
        subst h
        simp [join]
    · simp at h
  have h6 : ∀ a t, ipv6 a = some t → '.' ∉ t := by
    intro a t h hm
    unfold ipv6 at h
    split at h
    · simp only [Option.some.injEq] at h
      subst h
      generalize pairs a = l at hm
      induction l with
      | nil => simp [join] at hm
      | cons p l ih =>
        have hp := hexw_notMem 4 p '.' (by decide)
        cases l with
        | nil => exact hp (by simpa [join] using hm)
        | cons q l =>
          simp only [List.map_cons, join, List.mem_append, List.mem_singleton] at hm
          rcases hm with (hm | hm) | hm
          · exact hp hm
          · exact absurd hm (by decide)
          · exact ih (by simpa [join] using hm)
    · simp at h
  have hval : ∀ a b : Bytes, a.map (fun o => some o.toNat) = b.map (fun o => some o.toNat) →
      a = b := by
    intro a b h
    exact map_inj (fun x y hxy => UInt8.toNat_inj.mp (by simpa using hxy)) h
  unfold bsmAddress at ha hb
  split at ha <;> rename_i hla
  · split at hb <;> rename_i hlb
    · exact hval a b (by rw [← C52_ipv4_round_trip a t ha, C52_ipv4_round_trip b t hb])
    · split at hb
      · exact absurd (h4 a t ha) (h6 b t hb)
      · simp at hb
  · split at ha
    · rename_i hla6
      split at hb
      · exact absurd (h4 b t hb) (h6 a t ha)
      · split at hb
        · rename_i hlb6
          have e : (groups a).map some = (groups b).map some := by
            rw [← (C52_ipv6_round_trip a t ha).1, (C52_ipv6_round_trip b t hb).1]
          exact groups_injective a b (by omega) (by omega)
            (map_inj (fun x y hxy => by simpa using hxy) e)
        · simp at hb
    · simp at ha

example : ipv4 [192, 168, 0, 1] = some "192.168.0.1".toList := by decide
example : ipv6 [0xfe, 0x80, 0, 0, 0, 0, 0, 0, 0, 0, 0, 0, 0, 0, 0, 1] =
    some "fe80:0000:0000:0000:0000:0000:0000:0001".toList := by decide

/-- A socket address with an address family, as the decoder receives it. -/
def sockaddr (len family : UInt8) (port address rest : Bytes) : Bytes :=
  [len, family] ++ port ++ address ++ rest

theorem socketAddress_ipv6 (len : UInt8) (port address rest : Bytes) (hp : port.length = 6)
    (ha : address.length = 16) (hr : rest.length = 4) :
    socketAddress (sockaddr len 30 port address rest) =
      (let text := join [':'] ((groups address).map (fun p => if p ≠ 0 then hexw 4 p else []))
       if text = ":::::::".toList then "::".toList else text) := by
  have hl : (sockaddr len 30 port address rest).length = 28 := by simp [sockaddr]; omega
  have h1 : (sockaddr len 30 port address rest).getD 1 0 = 30 := rfl
  have hs : slice (sockaddr len 30 port address rest) 8 24 = address := by
    have := slice_eq_take_drop (sockaddr len 30 port address rest) 8 24
    rw [this]
    unfold sockaddr
    rw [List.append_assoc, List.drop_left' (by simp [hp]), List.take_left' (by simp [ha])]
  unfold socketAddress
  rw [if_neg (by omega), if_neg (by rw [h1]; rintro ⟨_, h, _⟩; exact absurd h (by decide)),
    if_pos ⟨by omega, h1, hl⟩, hs,
    pairs_eq_groups]

/-- **C52** (socket addresses): different IPv6 addresses in socket addresses have different
texts. -/
theorem C52_socket_ipv6_injective (len len' : UInt8) (port port' a b rest rest' : Bytes)
    (hp : port.length = 6) (hp' : port'.length = 6) (ha : a.length = 16) (hb : b.length = 16)
    (hr : rest.length = 4) (hr' : rest'.length = 4)
    (h : socketAddress (sockaddr len 30 port a rest) =
      socketAddress (sockaddr len' 30 port' b rest')) : a = b := by
  have hparts : ∀ a : Bytes, a.length = 16 → ∀ p ∈ (groups a).map
      (fun p => if p ≠ 0 then hexw 4 p else []), ':' ∉ p := by
    intro a _ p hp
    obtain ⟨g, _, rfl⟩ := List.mem_map.mp hp
    split
    · exact hexw_notMem 4 g ':' (by decide)
    · simp
  have hsplit : ∀ a : Bytes, a.length = 16 →
      splitOn ':' (join [':'] ((groups a).map (fun p => if p ≠ 0 then hexw 4 p else []))) =
        (groups a).map (fun p => if p ≠ 0 then hexw 4 p else []) := by
    intro a ha
    apply splitOn_join _ _ _ (hparts a ha)
    intro e
    have := congrArg List.length e
    rw [List.length_map, groups_length] at this
    simp at this
    omega
  have hlen : ∀ a : Bytes, a.length = 16 →
      (splitOn ':' (join [':'] ((groups a).map (fun p => if p ≠ 0 then hexw 4 p else [])))).length
        = 8 := by
    intro a ha
    rw [hsplit a ha, List.length_map, groups_length, ha]
  have hmain : (groups a).map (fun p => if p ≠ 0 then hexw 4 p else []) =
      (groups b).map (fun p => if p ≠ 0 then hexw 4 p else []) → a = b := by
    intro e
    refine groups_injective a b (by omega) (by omega)
      (map_inj (fun x y hxy => ?_) e)
    have hne : ∀ n, hexw 4 n ≠ [] := by
      intro n; simp [hexw, zpad, digits_ne_nil]
    by_cases hx : x = 0 <;> by_cases hy : y = 0
    · rw [hx, hy]
    · rw [if_neg (by simpa using hx), if_pos hy] at hxy; exact absurd hxy.symm (hne y)
    · rw [if_pos hx, if_neg (by simpa using hy)] at hxy; exact absurd hxy (hne x)
    · rw [if_pos hx, if_pos hy] at hxy
      exact hexw_injective 4 x y hxy
  rw [socketAddress_ipv6 len port a rest hp ha hr, socketAddress_ipv6 len' port' b rest' hp' hb hr']
    at h
  dsimp only at h
  have h2 : (splitOn ':' "::".toList).length = 3 := by decide
  split at h <;> split at h
  · rename_i e1 e2
    exact hmain (by rw [← hsplit a ha, ← hsplit b hb, e1, e2])
  · have := hlen b hb
    rw [← h] at this
    omega
  · have := hlen a ha
    rw [h] at this
    omega
  · exact hmain (by rw [← hsplit a ha, ← hsplit b hb, h])

/-! ## C72: the textual form of socket addresses -/

/-- The claim of C72: the text of an IPv6 socket address is a textual form of RFC 4291; such a form
never has three colons in a row. -/
def C72_claim : Prop :=
  ∀ (len : UInt8) (port address rest : Bytes), port.length = 6 → address.length = 16 →
    rest.length = 4 → ¬ ":::".toList <:+: socketAddress (sockaddr len 30 port address rest)

/-- **C72** is false: the address fe80::1 is shown with seven colons. -/
theorem C72_link_local_malformed : ¬ C72_claim := by
  intro h
  have := h 28 [0, 0, 0, 0, 0, 0] [0xfe, 0x80, 0, 0, 0, 0, 0, 0, 0, 0, 0, 0, 0, 0, 0, 1] [0, 0, 0, 0]
    rfl rfl rfl
  apply this
  exact ⟨"fe80".toList, "::::0001".toList, by decide⟩

/-- **C72** (partial): an address without a group of zero is shown as its eight groups. -/
theorem C72_no_zero_group_partial (len : UInt8) (port address rest : Bytes) (hp : port.length = 6)
    (ha : address.length = 16) (hr : rest.length = 4) (hz : 0 ∉ groups address) :
    (splitOn ':' (socketAddress (sockaddr len 30 port address rest))).map (parseDigits 16) =
      (groups address).map some := by
  rw [socketAddress_ipv6 len port address rest hp ha hr]
  have e : (groups address).map (fun p => if p ≠ 0 then hexw 4 p else []) =
      (groups address).map (hexw 4) := by
    apply List.map_congr_left
    intro g hg
    rw [if_pos (fun e : g = 0 => hz (e ▸ hg))]
  have hs : splitOn ':' (join [':'] ((groups address).map (hexw 4))) =
      (groups address).map (hexw 4) := by
    apply splitOn_join
    · intro e
      have := congrArg List.length e
      rw [List.length_map, groups_length] at this
      simp at this
      omega
    · intro p hp
      obtain ⟨g, _, rfl⟩ := List.mem_map.mp hp
      exact hexw_notMem 4 g ':' (by decide)
  dsimp only
  rw [e, if_neg]
  · rw [hs, List.map_map]
    exact List.map_congr_left fun o _ => parse_zpad_digits 16 o 4 (by omega) (by omega)
  · intro e2
    rw [e2] at hs
    have h1 : splitOn ':' ":::::::".toList = List.replicate 8 [] := by decide
    rw [h1] at hs
    have : ([] : List Char) ∈ (groups address).map (hexw 4) := by rw [← hs]; simp
    obtain ⟨g, _, hg⟩ := List.mem_map.mp this
    simp [hexw, zpad, digits_ne_nil] at hg

example : socketAddress (sockaddr 28 30 [0, 0, 0, 0, 0, 0] (List.replicate 16 1) [0, 0, 0, 0]) =
    "0101:0101:0101:0101:0101:0101:0101:0101".toList := by decide

/-! ## C41: Firefox cache locations -/

/-- The location rebuilt from its fields. -/
def Location.rebuild (l : Location) : Nat :=
  l.blockNumber ||| l.extraBlocks <<< 24 ||| l.selector <<< 28 ||| l.reserved <<< 26 |||
    l.flag <<< 31

/-- **C41**: the masks of the fields are disjoint and cover the 32 bits: every bit of the location
is in exactly one field, so that the location can be rebuilt. -/
theorem C41_rebuild (i : Nat) (h : i < 2 ^ 32) : (cacheLocation i).rebuild = i := by
  have key : ∀ m s, (∀ k < s, m.testBit k = false) → ((i &&& m) >>> s) <<< s = i &&& m := by
    intro m s hm
    apply Nat.eq_of_testBit_eq
    intro k
    rw [Nat.testBit_shiftLeft, Nat.testBit_shiftRight, Nat.testBit_and]
    by_cases hk : s ≤ k
    · simp [hk]
    · simp [hk, hm k (by omega)]
  unfold cacheLocation Location.rebuild
  dsimp only
  rw [key _ 24 (by decide), key _ 28 (by decide), key _ 26 (by decide), key _ 31 (by decide),
    ← Nat.and_or_distrib_left, ← Nat.and_or_distrib_left, ← Nat.and_or_distrib_left,
    ← Nat.and_or_distrib_left]
  have : (0xFFFFFF ||| 0x3000000 ||| 0x30000000 ||| 0x4C000000 ||| 0x80000000 : Nat) = 2 ^ 32 - 1 := by
    decide
  rw [this, Nat.and_two_pow_sub_one_eq_mod, Nat.mod_eq_of_lt h]

/-- **C41**: no two fields share a bit. -/
theorem C41_disjoint :
    ([0xFFFFFF, 0x3000000, 0x30000000, 0x4C000000, 0x80000000] : List Nat).Pairwise
      (fun a b => a &&& b = 0) := by decide

/-- **C41**: changing the bits of one field changes only the field they belong to. -/
theorem C41_fields_independent (i j : Nat) :
    (i &&& 0xFFFFFF = j &&& 0xFFFFFF → (cacheLocation i).blockNumber = (cacheLocation j).blockNumber) ∧
    (i &&& 0x3000000 = j &&& 0x3000000 → (cacheLocation i).extraBlocks = (cacheLocation j).extraBlocks) ∧
    (i &&& 0x30000000 = j &&& 0x30000000 → (cacheLocation i).selector = (cacheLocation j).selector) ∧
    (i &&& 0x4C000000 = j &&& 0x4C000000 → (cacheLocation i).reserved = (cacheLocation j).reserved) ∧
    (i &&& 0x80000000 = j &&& 0x80000000 → (cacheLocation i).flag = (cacheLocation j).flag) := by
  simp only [cacheLocation]
  exact ⟨id, fun h => by rw [h], fun h => by rw [h], fun h => by rw [h], fun h => by rw [h]⟩

theorem toList_append_inj (p : List Char) (a b : List Char) (h : p ++ a = p ++ b) : a = b :=
  List.append_cancel_left h

/-- **C41**: the displayed text determines the location. -/
theorem C41_text_injective (i j : Nat) (hi : i < 2 ^ 32) (hj : j < 2 ^ 32)
    (h : formatCacheLocation i = formatCacheLocation j) : i = j := by
  have hd : ∀ n, ',' ∉ dec n := fun n => dec_notMem n ',' (by decide)
  have hx : ∀ n, ',' ∉ hexw 2 n := fun n => hexw_notMem 2 n ',' (by decide)
  unfold formatCacheLocation at h
  dsimp only at h
  simp only [List.append_assoc] at h
  have h := List.append_cancel_left h
  have e1 : ", extra blocks: ".toList = ',' :: " extra blocks: ".toList := by decide
  have e2 : ", location selector: ".toList = ',' :: " location selector: ".toList := by decide
  have e3 : ", reserved: ".toList = ',' :: " reserved: ".toList := by decide
  have e4 : ", location flag: ".toList = ',' :: " location flag: ".toList := by decide
  rw [e1, e2, e3, e4] at h
  simp only [List.cons_append] at h
  obtain ⟨h1, h⟩ := append_sep_inj ',' _ _ _ _ (hd _) (hd _) h
  have h := List.append_cancel_left h
  obtain ⟨h2, h⟩ := append_sep_inj ',' _ _ _ _ (hd _) (hd _) h
  have h := List.append_cancel_left h
  obtain ⟨h3, h⟩ := append_sep_inj ',' _ _ _ _ (hd _) (hd _) h
  have h := List.append_cancel_left h
  obtain ⟨h4, h⟩ := append_sep_inj ',' _ _ _ _ (hx _) (hx _) h
  have h5 := List.append_cancel_left h
  have e : cacheLocation i = cacheLocation j := by
    have k1 := dec_injective _ _ h1
    have k2 := dec_injective _ _ h2
    have k3 := dec_injective _ _ h3
    have k4 := hexw_injective _ _ _ h4
    have k5 := dec_injective _ _ h5
    cases hci : cacheLocation i
    cases hcj : cacheLocation j
    rw [hci, hcj] at k1 k2 k3 k4 k5
    simp_all
  rw [← C41_rebuild i hi, ← C41_rebuild j hj, e]

example : formatCacheLocation 0x9ABCDEF1 =
    "block number: 12377841, extra blocks: 2, location selector: 1, reserved: 02, location flag: 1".toList := by
  decide

/-! ## C65: lists of integers -/

theorem decInt_ne_nil (i : Int) : decInt i ≠ [] := by
  unfold decInt dec
  split
  · simp
  · exact digits_ne_nil _ _

/-- **C65**: different lists of integers have different texts. -/
theorem C65_decimals_injective (l m : List Int) (h : decimals l = decimals m) : l = m := by
  have hp : ∀ l : List Int, ∀ p ∈ l.map decInt, p ≠ [] ∧ ',' ∉ p := by
    intro l p hp
    obtain ⟨i, _, rfl⟩ := List.mem_map.mp hp
    exact ⟨decInt_ne_nil i, decInt_notMem i ',' (by decide) (by decide)⟩
  exact map_inj (fun i j => decInt_injective i j)
    (join_injective ',' [' '] _ _ (hp l) (hp m) h)

theorem hexInt_notMem (w : Nat) (i : Int) (c : Char) (h : ∀ d < 16, digitChar d ≠ c)
    (hc : c ≠ '-') : c ∉ hexInt w i := by
  unfold hexInt
  split
  · simp only [List.mem_cons, not_or]
    exact ⟨hc, hexw_notMem (w - 1) _ c h⟩
  · exact hexw_notMem w _ c h

/-- **C65**: different lists of offsets have different texts. -/
theorem C65_offsets_injective (l m : List Int) (h : offsets l = offsets m) : l = m := by
  have hp : ∀ l : List Int, ∀ p ∈ l.map offset, p ≠ [] ∧ ',' ∉ p := by
    intro l p hp
    obtain ⟨i, _, rfl⟩ := List.mem_map.mp hp
    refine ⟨by simp [offset], ?_⟩
    unfold offset
    simp only [List.mem_append, not_or]
    exact ⟨⟨⟨decInt_notMem i ',' (by decide) (by decide), by decide⟩,
      hexInt_notMem 8 i ',' (by decide) (by decide)⟩, by decide⟩
  refine map_inj (fun i j hij => ?_)
    (join_injective ',' [' '] _ _ (hp l) (hp m) h)
  unfold offset at hij
  simp only [List.append_assoc, List.cons_append] at hij
  obtain ⟨h1, _⟩ := append_sep_inj ' ' _ _ _ _ (decInt_notMem i ' ' (by decide) (by decide))
    (decInt_notMem j ' ' (by decide) (by decide)) hij
  exact decInt_injective i j h1

/-- **C65**: the decimal and the hexadecimal number of an offset are the same number. -/
theorem C65_offset_numbers (n : Nat) :
    ∃ d x, offset n = d ++ " (0x".toList ++ x ++ ")".toList ∧ parseDigits 10 d = some n ∧
      parseDigits 16 x = some n ∧ 8 ≤ x.length := by
  refine ⟨dec n, hexw 8 n, ?_, parse_digits 10 n (by omega) (by omega),
    parse_zpad_digits 16 n 8 (by omega) (by omega), ?_⟩
  · have h0 : ¬ ((n : Int) < 0) := by omega
    simp only [offset, decInt, hexInt, if_neg h0, Int.natAbs_natCast]
    rfl
  · simp only [hexw, zpad, List.length_append, List.length_replicate]; omega

example : decimals [1, -2, 30] = "1, -2, 30".toList ∧ offset 4096 = "4096 (0x00001000)".toList := by
  decide

/-! ## C66: byte streams -/

/-- A byte that is a printable ASCII character. -/
def Printable (b : UInt8) : Prop := 0x20 ≤ b.toNat ∧ b.toNat ≤ 0x7E

instance (b : UInt8) : Decidable (Printable b) := inferInstanceAs (Decidable (_ ∧ _))

/-- The claim of C66: only printable ASCII characters are shown, and different streams have
different texts. -/
def C66_printable_claim : Prop :=
  ∀ s : Bytes, ∀ c ∈ streamAsString s, 0x20 ≤ c.toNat ∧ c.toNat ≤ 0x7E

def C66_injective_claim : Prop :=
  ∀ s t : Bytes, streamAsString s = streamAsString t → s = t

/-- **C66** is false: the byte 0xff is shown as it is. -/
theorem C66_ff_not_escaped : ¬ C66_printable_claim := by
  intro h
  have := h [0xFF] (Char.ofNat 0xFF) (by decide)
  revert this
  decide

/-- **C66** is false: the backslash is not escaped, so that the text of an escape sequence and that
of the byte it stands for are the same. -/
theorem C66_backslash_ambiguous : ¬ C66_injective_claim := by
  intro h
  have := h [0x00] [0x5C, 0x78, 0x30, 0x30] (by decide)
  revert this
  decide

theorem streamChar_cases : ∀ b : UInt8,
    (b.toNat < 0x20 ∨ (0x7F ≤ b.toNat ∧ b.toNat < 0xFF)) ∧
      streamChar b = ['\\', 'x', digitChar (b.toNat / 16), digitChar (b.toNat % 16)] ∨
    streamChar b = [Char.ofNat b.toNat] := by
  intro b
  by_cases h : b.toNat < 0x20 ∨ (0x7F ≤ b.toNat ∧ b.toNat < 0xFF)
  · left
    refine ⟨h, ?_⟩
    have key : ∀ n : Fin 256, (zpad 2 (digits 16 n.val)) =
        [digitChar (n.val / 16), digitChar (n.val % 16)] := by decide +kernel
    rw [streamChar, if_pos h, hexw, key ⟨b.toNat, b.toNat_lt⟩]
    rfl
  · right
    rw [streamChar, if_neg h]

theorem char_toNat (n : Nat) (h : n < 256) : (Char.ofNat n).toNat = n := by
  have : ∀ n : Fin 256, (Char.ofNat n.val).toNat = n.val := by decide +kernel
  exact this ⟨n, h⟩

/-- **C66** (partial): all bytes but 0xff are shown in printable ASCII characters: those below 0x20
and from 0x7f on as a backslash, an x and two hexadecimal digits, the others as they are. -/
theorem C66_printable_partial (s : Bytes) (h : (0xFF : UInt8) ∉ s) :
    ∀ c ∈ streamAsString s, 0x20 ≤ c.toNat ∧ c.toNat ≤ 0x7E := by
  intro c hc
  obtain ⟨b, hb, hc⟩ := List.mem_flatMap.mp hc
  have hff : b.toNat ≠ 0xFF := by
    intro e
    exact h (by rwa [show (0xFF : UInt8) = b from UInt8.toNat_inj.mp e.symm])
  have hd : ∀ d : Fin 16, 0x20 ≤ (digitChar d.val).toNat ∧ (digitChar d.val).toNat ≤ 0x7E := by
    decide
  have hlt := b.toNat_lt
  rcases streamChar_cases b with ⟨_, e⟩ | e
  · rw [e] at hc
    simp only [List.mem_cons, List.not_mem_nil, or_false] at hc
    rcases hc with rfl | rfl | rfl | rfl
    · decide
    · decide
    · exact hd ⟨b.toNat / 16, by omega⟩
    · exact hd ⟨b.toNat % 16, by omega⟩
  · unfold streamChar at e hc
    split at hc
    · rename_i hb2
      rw [if_pos hb2] at e
      have := congrArg List.length e
      simp at this
    · rename_i hb2
      simp only [List.mem_singleton] at hc
      subst hc
      rw [char_toNat b.toNat (by omega)]
      omega

/-- **C66** (partial): streams without a backslash have different texts. -/
theorem C66_injective_partial (s t : Bytes) (hs : (0x5C : UInt8) ∉ s) (ht : (0x5C : UInt8) ∉ t)
    (h : streamAsString s = streamAsString t) : s = t := by
  have hchar : ∀ b : UInt8, b ≠ 0x5C → Char.ofNat b.toNat ≠ '\\' := by
    intro b hb e
    apply hb
    apply UInt8.toNat_inj.mp
    rw [← char_toNat b.toNat b.toNat_lt, e]
    rfl
  have hdig : ∀ a b : Nat, a < 16 → b < 16 → digitChar a = digitChar b → a = b := by
    intro a b ha hb e
    have h1 := digitVal_digitChar a (by omega)
    rw [e, digitVal_digitChar b (by omega)] at h1
    simpa using h1.symm
  induction s generalizing t with
  | nil =>
    cases t with
    | nil => rfl
    | cons y t =>
      rw [streamAsString, streamAsString, List.flatMap_nil, List.flatMap_cons] at h
      rcases streamChar_cases y with ⟨_, e⟩ | e <;> rw [e] at h <;> simp at h
  | cons x s ih =>
    cases t with
    | nil =>
      rw [streamAsString, streamAsString, List.flatMap_nil, List.flatMap_cons] at h
      rcases streamChar_cases x with ⟨_, e⟩ | e <;> rw [e] at h <;> simp at h
    | cons y t =>
      simp only [List.mem_cons, not_or] at hs ht
      rw [streamAsString, streamAsString, List.flatMap_cons, List.flatMap_cons] at h
      have hx := x.toNat_lt; have hy := y.toNat_lt
      rcases streamChar_cases x with ⟨_, e⟩ | e <;> rcases streamChar_cases y with ⟨_, e'⟩ | e' <;>
        rw [e, e'] at h
      · simp only [List.cons_append, List.nil_append, List.cons.injEq, true_and] at h
        have h1 := hdig _ _ (by omega) (by omega) h.1
        have h2 := hdig _ _ (by omega) (by omega) h.2.1
        rw [show x = y from UInt8.toNat_inj.mp (by omega), ih t hs.2 ht.2 h.2.2]
      · simp only [List.cons_append, List.nil_append, List.cons.injEq] at h
        exact absurd h.1.symm (hchar y (fun e => ht.1 e.symm))
      · simp only [List.cons_append, List.nil_append, List.cons.injEq] at h
        exact absurd h.1 (hchar x (fun e => hs.1 e.symm))
      · simp only [List.cons_append, List.nil_append, List.cons.injEq] at h
        have h1 : x.toNat = y.toNat := by
          rw [← char_toNat x.toNat hx, ← char_toNat y.toNat hy, h.1]
        rw [show x = y from UInt8.toNat_inj.mp h1, ih t hs.2 ht.2 h.2]

example : streamAsString [0x41, 0x00, 0x7F] = "A\\x00\\x7f".toList := by decide

/-! ## C67: one column for the values -/

/-- The column after printing text at a column, with tab stops every eight columns.  Specification. -/
def column : Nat → List Char → Nat
  | c, [] => c
  | c, x :: xs => column (if x = '\t' then (c / 8 + 1) * 8 else c + 1) xs

theorem column_append (c : Nat) (a b : List Char) : column c (a ++ b) = column (column c a) b := by
  induction a generalizing c with
  | nil => rfl
  | cons x a ih => exact ih _

theorem column_plain (c : Nat) (s : List Char) (h : '\t' ∉ s) : column c s = c + s.length := by
  induction s generalizing c with
  | nil => rfl
  | cons x s ih =>
    simp only [List.mem_cons, not_or] at h
    rw [column, if_neg (fun e => h.1 e.symm), ih _ h.2, List.length_cons]
    omega

theorem column_tabs (c n : Nat) (hn : 0 < n) :
    column c (List.replicate n '\t') = (c / 8 + n) * 8 := by
  induction n generalizing c with
  | zero => omega
  | succ n ih =>
    rw [List.replicate_succ, column, if_pos rfl]
    by_cases h0 : n = 0
    · subst h0; rfl
    · rw [ih _ (by omega)]
      omega

/-- The claim of C67: the colon before a value is in column 72, whatever the description. -/
def C67_claim : Prop :=
  ∀ description text : List Char, '\t' ∉ description → '\n' ∉ description →
    ∃ before, formatValue description text = before ++ [':', ' '] ++ text ++ ['\n'] ∧
      column 0 before = 72

/-- **C67** is false for descriptions of more than 72 characters. -/
theorem C67_long_description : ¬ C67_claim := by
  intro h
  obtain ⟨before, h1, h2⟩ := h (List.replicate 73 'a') [] (by decide) (by decide)
  have hb : before = List.replicate 73 'a' := by
    unfold formatValue at h1
    have : tabs (List.replicate 73 'a') = [] := by decide
    rw [this] at h1
    simp only [List.append_nil, List.append_assoc] at h1
    exact (List.append_cancel_right h1).symm
  rw [hb, column_plain _ _ (by decide)] at h2
  simp at h2

/-- **C67** (partial): for descriptions of at most 72 characters the colon is in column 72. -/
theorem C67_column_partial (description text : List Char) (ht : '\t' ∉ description)
    (hl : description.length ≤ 72) :
    ∃ before, formatValue description text = before ++ [':', ' '] ++ text ++ ['\n'] ∧
      description <+: before ∧ column 0 before = 72 := by
  refine ⟨description ++ tabs description, rfl, List.prefix_append _ _, ?_⟩
  rw [column_append, column_plain 0 _ ht, tabs]
  by_cases h : description.length = 72
  · rw [h]; rfl
  · rw [column_tabs _ _ (by omega)]
    omega

example : formatValue "Size".toList "10".toList = "Size\t\t\t\t\t\t\t\t\t: 10\n".toList := by decide

/-! ## C68: lists of offsets -/

/-- What a list of offsets should look like: one line for each offset, with the hexadecimal
number. -/
def offsetLinesSpec (label : List Char) : Nat → List Nat → List Char
  | _, [] => []
  | index, o :: os =>
    formatValue (label ++ dec index) ("0x".toList ++ hexw 8 o) ++ offsetLinesSpec label (index + 1) os

/-- The claim of C68. -/
def C68_claim : Prop := ∀ label l, offsetLines label 0 l = offsetLinesSpec label 0 l

/-- **C68** is false: the tuple that the formatting function returns is shown in place of the
number. -/
theorem C68_shows_tuple : ¬ C68_claim := by
  intro h
  have := h "Record offset: ".toList [16]
  revert this
  decide

/-- **C68**: what is shown for every single offset. -/
theorem C68_single (label : List Char) (o : Nat) :
    offsetLines label 0 [o] =
      formatValue (label ++ "0".toList) ("('0x".toList ++ hexw 8 o ++ "', False)".toList) := by
  have : dec 0 = "0".toList := by decide
  simp [offsetLines, tupleText, this]

/-- **C68** (partial): the text still determines the offsets. -/
theorem C68_injective_partial (label : List Char) (index : Nat) (l m : List Nat)
    (h : offsetLines label index l = offsetLines label index m) : l = m := by
  induction l generalizing index m with
  | nil =>
    cases m with
    | nil => rfl
    | cons y m => simp [offsetLines, formatValue] at h
  | cons x l ih =>
    cases m with
    | nil => simp [offsetLines, formatValue] at h
    | cons y m =>
      simp only [offsetLines, formatValue, tupleText, List.append_assoc, List.append_cancel_left_eq]
        at h
      have e : "', False)".toList = '\'' :: ", False)".toList := by decide
      rw [e] at h
      simp only [List.cons_append, List.nil_append] at h
      obtain ⟨h1, h2⟩ := append_sep_inj '\'' _ _ _ _ (hexw_notMem 8 x '\'' (by decide))
        (hexw_notMem 8 y '\'' (by decide)) h
      have h3 := List.append_cancel_left h2
      simp only [List.cons.injEq, true_and] at h3
      rw [hexw_injective 8 x y h1, ih (index + 1) m h3]

/-! ## C69: product versions -/

/-- The version a 16-bit product version stands for: the major version is in the upper byte, the
minor version in the lower one. -/
def versionSpec (i : Nat) : List Char :=
  "0x".toList ++ hexw 4 i ++ " (".toList ++ dec (i / 256) ++ ".".toList ++ dec (i % 256) ++
    ")".toList

/-- The claim of C69. -/
def C69_claim : Prop := ∀ i < 65536, productVersion i = versionSpec i

/-- **C69** is false: version 6.1 is shown as 6.6. -/
theorem C69_minor_wrong : ¬ C69_claim := by
  intro h
  have := h 0x0601 (by decide)
  revert this
  decide

/-- **C69** (partial): the version is right exactly if both parts are the same. -/
theorem C69_right_iff_partial (i : Nat) (h : i < 65536) :
    productVersion i = versionSpec i ↔ i / 256 = i % 256 := by
  have h1 : (i >>> 8) &&& 0xFF = i / 256 := by
    rw [show (0xFF : Nat) = 2 ^ 8 - 1 from rfl, Nat.and_two_pow_sub_one_eq_mod,
      Nat.shiftRight_eq_div_pow]
    omega
  unfold productVersion versionSpec
  dsimp only
  rw [h1]
  simp only [List.append_assoc, List.append_cancel_left_eq]
  constructor
  · intro e
    exact dec_injective _ _ (List.append_cancel_right e)
  · intro e
    rw [← e]

example : productVersion 0x0505 = "0x0505 (5.5)".toList := by decide

/-! ## C70: fractions of a second in alias times -/

/-- The claim of C70: the digits shown after the dot, as a decimal fraction, differ from the
fraction of the second by less than a thousandth. -/
def C70_claim : Prop :=
  ∀ (hfs : Nat → List Char) (i : Nat), i < 2 ^ 64 → i ≠ 0 → hfs (i / 65536) ≠ [] →
    ∃ d n, hfsTime64 hfs i = hfs (i / 65536) ++ ['.'] ++ d ++ " UTC".toList ∧
      parseDigits 10 d = some n ∧
      (n * 65536 - (i % 65536) * 10 ^ d.length) * 1000 < 65536 * 10 ^ d.length ∧
      ((i % 65536) * 10 ^ d.length - n * 65536) * 1000 < 65536 * 10 ^ d.length

/-- **C70** is false: half a second is shown as .32768. -/
theorem C70_fraction_wrong : ¬ C70_claim := by
  intro h
  obtain ⟨d, n, h1, h2, _, h4⟩ := h (fun _ => ['t']) 32768 (by decide) (by decide) (by decide)
  have hd : d = "32768".toList := by
    have e : hfsTime64 (fun _ => ['t']) 32768 = ['t'] ++ ['.'] ++ "32768".toList ++ " UTC".toList := by
      decide
    rw [e] at h1
    simp only [List.append_assoc, List.append_cancel_left_eq] at h1
    exact (List.append_cancel_right h1).symm
  subst hd
  have hn : n = 32768 := by
    have : parseDigits 10 "32768".toList = some 32768 := by decide
    rw [this] at h2
    simpa using h2.symm
  subst hn
  revert h4
  decide

/-- **C70** (partial): the digits shown are the number of 65536th parts of a second, so that the text
determines the value if the text of the seconds does. -/
theorem C70_digits_partial (hfs : Nat → List Char) (i : Nat) (h0 : i ≠ 0)
    (hh : hfs (i / 65536) ≠ []) :
    ∃ d, hfsTime64 hfs i = hfs (i / 65536) ++ ['.'] ++ d ++ " UTC".toList ∧
      parseDigits 10 d = some (i % 65536) := by
  refine ⟨zpad 3 (dec (i % 65536)), ?_, parse_zpad_digits 10 _ 3 (by omega) (by omega)⟩
  simp only [hfsTime64, if_neg h0, if_neg hh]

/-! ## C71: structures -/

/-- The claim of C71: the text of a structure ends with an empty line. -/
def C71_claim : Prop :=
  ∀ as t, formatStructure as = .ok t → ∃ s, t = s ++ ['\n', '\n']

/-- **C71** is false: a multi-line value that does not end with a line end is followed by only one. -/
theorem C71_no_empty_line : ¬ C71_claim := by
  intro h
  obtain ⟨s, hs⟩ := h [some ⟨some "d".toList, "a\nb".toList, true⟩] "d:\na\nb\n".toList (by decide)
  have := congrArg (fun l => l.drop (l.length - 2)) hs
  rw [List.drop_left' (by simp)] at this
  revert this
  decide

/-- The text `t` shows the attribute: a text of several lines is shown as it is, after its
description if there is one; any other text is shown on one line after its description.
Specification. -/
def Shows (a : Attribute) (t : List Char) : Prop :=
  ('\n' ∈ a.text ∧ a.description = none ∧ t = a.text) ∨
  ('\n' ∈ a.text ∧ ∃ d ts, a.description = some d ∧ (∀ c ∈ ts, c = '\t') ∧
    t = d ++ (if a.newLine then [':', '\n'] else ts ++ [':', ' ']) ++ a.text) ∨
  ('\n' ∉ a.text ∧ ∃ d ts, a.description = some d ∧ (∀ c ∈ ts, c = '\t') ∧
    t = d ++ ts ++ [':', ' '] ++ a.text ++ ['\n'])

theorem tabs_all (d : List Char) : ∀ c ∈ tabs d, c = '\t' := by
  intro c hc
  unfold tabs at hc
  exact List.eq_of_mem_replicate hc

theorem formatAttribute_shows (a : Attribute) (t : List Char) (h : formatAttribute a = .ok t) :
    Shows a t := by
  unfold formatAttribute at h
  unfold Shows
  split at h
  · rename_i hn
    split at h
    · rename_i hd
      simp only [Except.ok.injEq] at h
      exact .inl ⟨hn, hd, h.symm⟩
    · rename_i d hd
      refine .inr (.inl ⟨hn, d, tabs d, hd, tabs_all d, ?_⟩)
      split at h
      · rename_i hl
        simp only [Except.ok.injEq] at h
        rw [if_pos hl, ← h]
      · rename_i hl
        simp only [Except.ok.injEq] at h
        rw [if_neg hl, ← h]
        simp
  · rename_i hn
    split at h
    · simp at h
    · rename_i d hd
      refine .inr (.inr ⟨hn, d, tabs d, hd, tabs_all d, ?_⟩)
      simp only [Except.ok.injEq] at h
      rw [← h]
      simp [formatValue]

theorem formatAttributes_shows (as : List (Option Attribute)) (lines : List (List Char))
    (h : formatAttributes as = .ok lines) : List.Forall₂ Shows (as.filterMap id) lines := by
  induction as generalizing lines with
  | nil => simp only [formatAttributes, Except.ok.injEq] at h; subst h; exact .nil
  | cons a as ih =>
    cases a with
    | none => exact ih lines h
    | some a =>
      rw [formatAttributes] at h
      split at h
      · simp at h
      rename_i t ht
      split at h
      · simp at h
      rename_i ts hts
      simp only [Except.ok.injEq] at h
      subst h
      exact .cons (formatAttribute_shows a t ht) (ih ts hts)

/-- **C71** (partial): the text of a structure shows its attributes in order, without those that
are absent, followed by at most one line end. -/
theorem C71_attributes_partial (as : List (Option Attribute)) (t : List Char)
    (h : formatStructure as = .ok t) :
    ∃ texts, List.Forall₂ Shows (as.filterMap id) texts ∧
      (t = texts.flatten ∨ t = texts.flatten ++ ['\n']) := by
  unfold formatStructure at h
  split at h
  · simp at h
  rename_i lines hl
  refine ⟨lines, formatAttributes_shows as lines hl, ?_⟩
  split at h
  · simp only [Except.ok.injEq] at h
    exact .inr h.symm
  · simp only [Except.ok.injEq] at h
    exact .inl h.symm

/-- **C71** (partial): a structure cannot be displayed exactly if it has a value of one line without
a description. -/
theorem C71_fails_iff_partial (as : List (Option Attribute)) :
    (∃ e, formatStructure as = .error e) ↔
      ∃ a, some a ∈ as ∧ a.description = none ∧ '\n' ∉ a.text := by
  have key : (∃ e, formatAttributes as = .error e) ↔
      ∃ a, some a ∈ as ∧ a.description = none ∧ '\n' ∉ a.text := by
    induction as with
    | nil => simp [formatAttributes]
    | cons a as ih =>
      cases a with
      | none => rw [formatAttributes]; simp [ih]
      | some a =>
        have h1 : (∃ e, formatAttribute a = .error e) ↔ (a.description = none ∧ '\n' ∉ a.text) := by
          unfold formatAttribute
          by_cases hn : '\n' ∈ a.text
          · rw [if_pos hn]
            cases a.description with
            | none => simp [hn]
            | some d => cases a.newLine <;> simp
          · rw [if_neg hn]
            cases a.description <;> simp [hn]
        rw [formatAttributes]
        simp only [List.mem_cons, Option.some.injEq, or_and_right, exists_or, exists_eq_left]
        rw [← h1, ← ih]
        cases hf : formatAttribute a with
        | error e => simp
        | ok t => cases hg : formatAttributes as <;> simp
  rw [← key]
  unfold formatStructure
  cases hf : formatAttributes as with
  | error e => simp
  | ok lines => dsimp only; split <;> simp

theorem formatValue_end (d text : List Char) : ∃ u, formatValue d text = u ++ ['\n'] := ⟨_, rfl⟩

/-- **C71** (partial): the text of a structure ends with an empty line if at least one attribute is
present, and all that are present have a description and a text of one line or of complete lines. -/
theorem C71_empty_line_partial (as : List (Option Attribute))
    (h1 : ∀ a, some a ∈ as → a.description ≠ none ∧
      ('\n' ∉ a.text ∨ ∃ u, a.text = u ++ ['\n'])) (h2 : ∃ a, some a ∈ as) :
    ∃ s, formatStructure as = .ok (s ++ ['\n', '\n']) := by
  have key : ∀ as : List (Option Attribute),
      (∀ a, some a ∈ as → a.description ≠ none ∧ ('\n' ∉ a.text ∨ ∃ u, a.text = u ++ ['\n'])) →
      ∃ lines, formatAttributes as = .ok lines ∧ (∀ l ∈ lines, ∃ u, l = u ++ ['\n']) ∧
        ((∃ a, some a ∈ as) → lines ≠ []) := by
    intro as
    induction as with
    | nil => intro _; exact ⟨[], rfl, by simp, by simp⟩
    | cons a as ih =>
      intro h
      obtain ⟨lines, e, hl, hn⟩ := ih (fun a ha => h a (List.mem_cons_of_mem _ ha))
      cases a with
      | none =>
        refine ⟨lines, e, hl, ?_⟩
        rintro ⟨a, ha⟩
        simp only [List.mem_cons, reduceCtorEq, false_or] at ha
        exact hn ⟨a, ha⟩
      | some a =>
        obtain ⟨hd, ht⟩ := h a (by simp)
        have hfa : ∃ u, formatAttribute a = .ok (u ++ ['\n']) := by
          cases hda : a.description with
          | none => exact absurd hda hd
          | some d =>
            by_cases hnl : '\n' ∈ a.text
            · obtain ⟨u, hu⟩ := ht.resolve_left (fun hh => hh hnl)
              unfold formatAttribute
              rw [if_pos hnl, hda]
              dsimp only
              split
              · exact ⟨d ++ [':', '\n'] ++ u, by rw [hu]; simp⟩
              · exact ⟨d ++ tabs d ++ [':', ' '] ++ u, by rw [hu]; simp⟩
            · unfold formatAttribute
              rw [if_neg hnl, hda]
              exact ⟨_, rfl⟩
        obtain ⟨u, hu⟩ := hfa
        refine ⟨(u ++ ['\n']) :: lines, ?_, ?_, by simp⟩
        · simp [formatAttributes, hu, e]
        · intro l hlm
          rcases List.mem_cons.mp hlm with rfl | hlm
          · exact ⟨u, rfl⟩
          · exact hl l hlm
  obtain ⟨lines, e, hl, hn⟩ := key as h1
  have hne := hn h2
  obtain ⟨init, last, rfl⟩ : ∃ init last, lines = init ++ [last] :=
    ⟨lines.dropLast, lines.getLast hne, (List.dropLast_concat_getLast hne).symm⟩
  obtain ⟨u, rfl⟩ := hl last (by simp)
  unfold formatStructure
  rw [e]
  dsimp only
  have hlast : (init ++ [u ++ ['\n']]).getLastD [] = u ++ ['\n'] := by
    simp [List.getLastD_eq_getLast?]
  rw [hlast]
  split
  · exact ⟨init.flatten ++ u, by simp⟩
  · rename_i hc
    have hc2 : lastTwo (u ++ ['\n']) = ['\n', '\n'] := by
      by_contra hh
      exact hc (.inr (.inr hh))
    have hsplit : u ++ ['\n'] = (u ++ ['\n']).take ((u ++ ['\n']).length - 2) ++ ['\n', '\n'] := by
      conv => lhs; rw [← List.take_append_drop ((u ++ ['\n']).length - 2) (u ++ ['\n'])]
      rw [show (u ++ ['\n']).drop ((u ++ ['\n']).length - 2) = lastTwo (u ++ ['\n']) from rfl, hc2]
    refine ⟨init.flatten ++ (u ++ ['\n']).take ((u ++ ['\n']).length - 2), ?_⟩
    rw [List.append_assoc, ← hsplit]
    simp

example : formatStructure [some ⟨some "a".toList, "1".toList, false⟩, none,
    some ⟨some "b".toList, "x\ny\n".toList, true⟩] =
    .ok "a\t\t\t\t\t\t\t\t\t: 1\nb:\nx\ny\n\n".toList := by decide

end Dtf.Formats
