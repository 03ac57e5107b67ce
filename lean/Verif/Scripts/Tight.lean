import Verif.Scripts.Hasher
import Verif.Scripts.Dumps

/-!
# Boundary cases of the scripts for keyed archives and CPIO archives (C152, C155, C156)
-/

namespace Dtf.Archiver
open Py Text Json

/-! ## Keys that occur more than once -/

/-- Members by name. -/
def named (r : List (List Char × O)) : List (O × O) := r.map (fun x => (.str x.1, x.2))

theorem setKey_named (whole : Whole) (t : List Char) (v : O) (r : List (List Char × O)) (hn : (r.map (·.1)).Nodup) :
    ∃ r', setKey whole (.str t) v (named r) = named r' ∧ (r'.map (·.1)).Nodup ∧
      (∀ s, s ∈ r'.map (·.1) ↔ s = t ∨ s ∈ r.map (·.1)) ∧
      ∀ s x, (s, x) ∈ r' ↔ if s = t then x = v else (s, x) ∈ r := by
  induction r with
  | nil =>
    refine ⟨[(t, v)], rfl, by simp, by simp, ?_⟩
    intro s x
    by_cases h : s = t <;> simp [h]
  | cons y r ih =>
    obtain ⟨k, w⟩ := y
    simp only [List.map_cons, List.nodup_cons] at hn
    have e : named ((k, w) :: r) = (.str k, w) :: named r := rfl
    rw [e, setKey]
    by_cases hk : k = t
    · subst hk
      rw [if_pos (by simp [sameKey])]
      refine ⟨(k, v) :: r, rfl, by simpa using hn, by simp, ?_⟩
      intro s x
      by_cases h : s = k
      · subst h
        have : (s, x) ∉ r := fun hm => hn.1 (List.mem_map.mpr ⟨_, hm, rfl⟩)
        simp [this]
      · simp [h]
    · rw [if_neg (by simpa [sameKey] using hk)]
      obtain ⟨r', h1, h2, h3, h4⟩ := ih hn.2
      refine ⟨(k, w) :: r', by rw [h1]; rfl, ?_, ?_, ?_⟩
      · simp only [List.map_cons, List.nodup_cons]
        refine ⟨?_, h2⟩
        rw [h3]
        rintro (h | h)
        · exact hk h
        · exact hn.1 h
      · intro s
        simp only [List.map_cons, List.mem_cons]
        rw [h3]
        constructor
        · rintro (h | h | h) <;> simp [h]
        · rintro (h | h | h) <;> simp [h]
      · intro s x
        simp only [List.mem_cons, Prod.mk.injEq]
        rw [h4]
        by_cases h : s = t
        · subst h
          simp [Ne.symm hk]
        · simp [h]

theorem pairs_last {whole : Whole} {dec : P → Res O} {ks vs before : List P} {ts : List (List Char)} {vs' : List O}
    (hk : List.Forall₂ (fun x y => dec x = .ok y) ks (ts.map .str)) (hv : List.Forall₂ (fun x y => dec x = .ok y) vs vs')
    (hl : ks.length = vs.length) (r : List (List Char × O)) (hn : (r.map (·.1)).Nodup) (done : List (List Char × O))
    (hr : ∀ s x, (s, x) ∈ r ↔ done.reverse.lookup s = some x) :
    ∃ r', pairs whole dec (.arr (before ++ vs)) before.length ks (named r) = .ok (named r') ∧ (r'.map (·.1)).Nodup ∧
      ∀ s x, (s, x) ∈ r' ↔ (done ++ ts.zip vs').reverse.lookup s = some x := by
  induction ks generalizing vs before ts vs' r done with
  | nil =>
    cases ts with
    | nil => exact ⟨r, rfl, hn, by simpa using hr⟩
    | cons t ts => cases hk
  | cons k ks ih =>
    cases vs with
    | nil => simp at hl
    | cons v vs =>
      cases hv with
      | @cons _ v' _ vs' hv hvs =>
        cases ts with
        | nil => cases hk
        | cons t ts =>
          rw [List.map_cons, List.forall₂_cons] at hk
          obtain ⟨hk, hks⟩ := hk
          rw [pairs, hk]
          dsimp only
          rw [item_entry (x := v) (by simp)]
          dsimp only
          rw [hv]
          dsimp only
          rw [if_pos (show (O.str t).hashable = true from rfl)]
          obtain ⟨r1, h1, h2, _, h4⟩ := setKey_named whole t v' r hn
          rw [h1]
          have := ih (vs := vs) (before := before ++ [v]) (ts := ts) (vs' := vs') hks hvs (by simpa using hl) r1 h2
            (done ++ [(t, v')]) (by
              intro s x
              rw [h4, List.reverse_append, List.reverse_singleton, List.singleton_append, List.lookup_cons]
              by_cases hs : s = t
              · subst hs
                simp [eq_comm]
              · rw [if_neg hs, show (s == t) = false by simpa using hs]
                exact hr s x)
          simpa using this

/-- C152.  A key that occurs more than once has the value of its last occurrence, and no key is left out or written twice. -/
theorem C152_repeated {whole : Whole} {dec : P → Res O} {m : List (List Char × P)} {ks vs : List P} {ts : List (List Char)}
    {vs' : List O} (hks : m.lookup "NS.keys".toList = some (.arr ks)) (hvs : m.lookup "NS.objects".toList = some (.arr vs))
    (hk : List.Forall₂ (fun x y => dec x = .ok y) ks (ts.map .str)) (hv : List.Forall₂ (fun x y => dec x = .ok y) vs vs')
    (hl : ks.length = vs.length) :
    ∃ r : List (List Char × O), decodeDictionary whole dec m = .ok (.dict (r.map (fun x => (.str x.1, x.2)))) ∧
      (r.map (·.1)).Nodup ∧ ∀ s x, (s, x) ∈ r ↔ (ts.zip vs').reverse.lookup s = some x := by
  obtain ⟨r, h1, h2, h3⟩ := pairs_last (whole := whole) (before := []) hk hv hl [] (by simp) [] (by simp)
  refine ⟨r, ?_, h2, by simpa using h3⟩
  rw [decodeDictionary, hks, hvs]
  dsimp only [iterate]
  rw [if_neg (by simpa using hl)]
  simp only [List.nil_append, List.length_nil] at h1
  rw [show ([] : List (O × O)) = named [] from rfl, h1]
  rfl

example : ∃ r : List (List Char × O), decodeDictionary (fun _ => none) (fun p => match p with | .str s => .ok (.str s) | _ => .ok .none)
      [("NS.keys".toList, .arr [.str ['a'], .str ['b'], .str ['a']]),
        ("NS.objects".toList, .arr [.str ['1'], .str ['2'], .str ['3']])] =
        .ok (.dict (r.map (fun x => (.str x.1, x.2)))) ∧ (['a'], O.str ['3']) ∈ r ∧ (['a'], O.str ['1']) ∉ r := by
  obtain ⟨r, h1, _, h3⟩ := C152_repeated (whole := fun _ => none)
    (dec := fun p => match p with | .str s => .ok (.str s) | _ => .ok .none)
    (m := [("NS.keys".toList, .arr [.str ['a'], .str ['b'], .str ['a']]),
        ("NS.objects".toList, .arr [.str ['1'], .str ['2'], .str ['3']])])
    (ks := [.str ['a'], .str ['b'], .str ['a']]) (vs := [.str ['1'], .str ['2'], .str ['3']])
    (ts := [['a'], ['b'], ['a']]) (vs' := [.str ['1'], .str ['2'], .str ['3']]) (by rfl) (by rfl)
    (.cons rfl (.cons rfl (.cons rfl .nil))) (.cons rfl (.cons rfl (.cons rfl .nil))) rfl
  refine ⟨r, h1, ?_, ?_⟩
  · rw [h3]; rfl
  · rw [h3]
    have : (([['a'], ['b'], ['a']] : List (List Char)).zip [O.str ['1'], O.str ['2'], O.str ['3']]).reverse.lookup ['a'] =
      some (.str ['3']) := rfl
    rw [this]
    simp

/-! ## What can be written, and in which characters -/

/-- A character that is printed and is ASCII. -/
def Printable (c : Char) : Prop := 32 ≤ c.toNat ∧ c.toNat ≤ 126

instance (c : Char) : Decidable (Printable c) := inferInstanceAs (Decidable (_ ∧ _))

theorem printable_digit (n : Nat) (h : n < 16) : Printable (digitChar n) := by
  have : ∀ n : Fin 16, Printable (digitChar n.val) := by decide +kernel
  exact this ⟨n, h⟩

theorem printable_hex4 (n : Nat) : ∀ c ∈ hex4 n, Printable c := by
  intro c hc
  simp only [hex4, List.mem_cons, List.not_mem_nil, or_false] at hc
  rcases hc with rfl | rfl | rfl | rfl <;> exact printable_digit _ (Nat.mod_lt _ (by decide))

theorem printable_escape (c : Char) : ∀ x ∈ escape c, Printable x := by
  have hb : Printable '\\' := by decide
  have hu : Printable 'u' := by decide
  intro x hx
  unfold escape at hx
  repeat' split at hx
  all_goals try (simp only [List.mem_cons, List.not_mem_nil, or_false] at hx; rcases hx with rfl | rfl <;> decide)
  · rename_i h
    rw [List.mem_singleton] at hx
    subst hx
    exact h
  · simp only [List.mem_cons] at hx
    rcases hx with rfl | rfl | hx
    · exact hb
    · exact hu
    · exact printable_hex4 _ _ hx
  · simp only [List.mem_cons, List.mem_append] at hx
    rcases hx with rfl | rfl | hx | rfl | rfl | hx
    · exact hb
    · exact hu
    · exact printable_hex4 _ _ hx
    · exact hb
    · exact hu
    · exact printable_hex4 _ _ hx

theorem printable_quote (s : List Char) : ∀ x ∈ quote s, Printable x := by
  intro x hx
  simp only [quote, List.mem_cons, List.mem_append, List.mem_flatMap, List.not_mem_nil, or_false] at hx
  rcases hx with rfl | ⟨c, _, hx⟩ | rfl
  · decide
  · exact printable_escape c x hx
  · decide

theorem printable_int (n : Int) : ∀ x ∈ intText n, Printable x := by
  have hd : ∀ x ∈ digits 10 n.natAbs, Printable x := by
    intro x hx
    obtain ⟨d, hd, rfl⟩ := mem_digits 10 n.natAbs (by decide) x hx
    exact printable_digit d (by omega)
  intro x hx
  unfold intText at hx
  split at hx
  · rcases List.mem_cons.mp hx with rfl | hx
    · decide
    · exact hd x hx
  · exact hd x hx

theorem mapRes_mem {α β : Type} {f : α → Res β} {l : List α} {l' : List β} (h : mapRes f l = .ok l') :
    ∀ y ∈ l', ∃ x ∈ l, f x = .ok y := by
  induction l generalizing l' with
  | nil => simp only [mapRes, Except.ok.injEq] at h; subst h; intro y hy; cases hy
  | cons x l ih =>
    rw [mapRes] at h
    cases hx : f x with
    | error e => rw [hx] at h; cases h
    | ok y =>
      rw [hx] at h
      dsimp only at h
      cases hl : mapRes f l with
      | error e => rw [hl] at h; cases h
      | ok r =>
        rw [hl] at h
        simp only [Except.map, Except.ok.injEq] at h
        subst h
        intro z hz
        rcases List.mem_cons.mp hz with rfl | hz
        · exact ⟨x, List.mem_cons_self, hx⟩
        · obtain ⟨w, hw, hf⟩ := ih hl z hz
          exact ⟨w, List.mem_cons_of_mem _ hw, hf⟩

theorem printable_join {ts : List (List Char)} (h : ∀ t ∈ ts, ∀ x ∈ t, Printable x) :
    ∀ x ∈ join [',', ' '] ts, Printable x := by
  induction ts with
  | nil => intro x hx; cases hx
  | cons t ts ih =>
    cases ts with
    | nil => exact h t List.mem_cons_self
    | cons u ts =>
      intro x hx
      rw [join] at hx
      · simp only [List.mem_append, List.mem_cons, List.not_mem_nil, or_false] at hx
        rcases hx with (hx | rfl | rfl) | hx
        · exact h t List.mem_cons_self x hx
        · decide
        · decide
        · exact ih (fun t ht => h t (List.mem_cons_of_mem _ ht)) x hx
      · simp

theorem printable_literal {b : Bool} {x : Char} (h : x ∈ (if b then "true".toList else "false".toList)) : Printable x := by
  have : ∀ b : Bool, ∀ x ∈ (if b then "true".toList else "false".toList), Printable x := by decide +kernel
  exact this b x h

theorem printable_members {reals : Nat → List Char} {dump : O → Res (List Char)}
    (hd : ∀ o t, dump o = .ok t → ∀ x ∈ t, Printable x) {m : List (O × O)} {ts : List (List Char)}
    (h : memberTexts reals dump m = .ok ts) : ∀ t ∈ ts, ∀ x ∈ t, Printable x := by
  induction m generalizing ts with
  | nil => simp only [memberTexts, Except.ok.injEq] at h; subst h; intro t ht; cases ht
  | cons kv m ih =>
    obtain ⟨k, v⟩ := kv
    rw [memberTexts] at h
    cases hk : keyName reals k with
    | error e => rw [hk] at h; cases h
    | ok name =>
      rw [hk] at h
      dsimp only at h
      cases hv : dump v with
      | error e => rw [hv] at h; cases h
      | ok t =>
        rw [hv] at h
        dsimp only at h
        cases hr : memberTexts reals dump m with
        | error e => rw [hr] at h; cases h
        | ok r =>
          rw [hr] at h
          simp only [Except.map, Except.ok.injEq] at h
          subst h
          intro u hu
          rcases List.mem_cons.mp hu with rfl | hu
          · intro x hx
            simp only [List.mem_append, List.mem_cons] at hx
            rcases hx with hx | rfl | rfl | hx
            · exact printable_quote name x hx
            · decide
            · decide
            · exact hd v t hv x hx
          · exact ih hr u hu

theorem printable_value {reals : Nat → List Char} (hreal : ∀ r, ∀ x ∈ reals r, Printable x) {dump : O → Res (List Char)}
    (hd : ∀ o t, dump o = .ok t → ∀ x ∈ t, Printable x) (o : O) (t : List Char) (h : dumpValue reals dump o = .ok t) :
    ∀ x ∈ t, Printable x := by
  have around : ∀ (a b : Char), Printable a → Printable b → ∀ ts : List (List Char), (∀ t ∈ ts, ∀ x ∈ t, Printable x) →
      ∀ x ∈ a :: (join [',', ' '] ts ++ [b]), Printable x := by
    intro a b ha hb ts hts x hx
    simp only [List.mem_cons, List.mem_append, List.not_mem_nil, or_false] at hx
    rcases hx with rfl | hx | rfl
    · exact ha
    · exact printable_join hts x hx
    · exact hb
  cases o with
  | none =>
    simp only [dumpValue, Except.ok.injEq] at h
    subst h
    decide +kernel
  | bool b =>
    simp only [dumpValue, Except.ok.injEq] at h
    subst h
    exact fun x hx => printable_literal hx
  | int n =>
    simp only [dumpValue, Except.ok.injEq] at h
    subst h
    exact printable_int n
  | real r =>
    simp only [dumpValue, Except.ok.injEq] at h
    subst h
    exact hreal r
  | str s =>
    simp only [dumpValue, Except.ok.injEq] at h
    subst h
    exact printable_quote s
  | arr l =>
    rw [dumpValue] at h
    cases hl : mapRes dump l with
    | error e => rw [hl] at h; cases h
    | ok ts =>
      rw [hl] at h
      simp only [Except.ok.injEq] at h
      subst h
      refine around _ _ (by decide) (by decide) ts ?_
      intro t ht
      obtain ⟨o, _, ho⟩ := mapRes_mem hl t ht
      exact hd o t ho
  | dict m =>
    rw [dumpValue] at h
    cases hl : memberTexts reals dump m with
    | error e => rw [hl] at h; cases h
    | ok ts =>
      rw [hl] at h
      simp only [Except.ok.injEq] at h
      subst h
      exact around _ _ (by decide) (by decide) ts (printable_members hd hl)
  | raw p => cases h

/-- C155.  Every character that is written is printed and is ASCII, whatever the text of the archive. -/
theorem C155_ascii (reals : Nat → List Char) (hreal : ∀ r, ∀ x ∈ reals r, 32 ≤ x.toNat ∧ x.toNat ≤ 126) (limit : Nat) (o : O)
    (t : List Char) (h : dumps reals limit o = .ok t) : ∀ x ∈ t, 32 ≤ x.toNat ∧ x.toNat ≤ 126 := by
  induction limit generalizing o t with
  | zero => cases h
  | succ limit ih =>
    have hv := fun o t => printable_value (reals := reals) hreal (dump := dumps reals limit) ih o t
    cases o with
    | raw p =>
      rw [dumps] at h
      cases hp : lift p with
      | none => rw [hp] at h; cases h
      | some o => rw [hp] at h; exact hv o t h
    | _ => exact hv _ t h

example : ∃ t, dumps (fun _ => ['1', '.', '5']) 3 (.dict [(.str ['é', '"'], .arr [.real 0, .str ['😀', '\n']])]) = .ok t :=
  ⟨_, rfl⟩

/-- C155.  A value of a property list that JSON has no value for is refused, at every depth of lists. -/
theorem C155_refused (reals : Nat → List Char) (limit : Nat) :
    (∀ x, dumps reals (limit + 1) (.raw (.date x)) = .error .typeError) ∧
    (∀ x, dumps reals (limit + 1) (.raw (.data x)) = .error .typeError) ∧
    (∀ x, dumps reals (limit + 1) (.raw (.uid x)) = .error .typeError) :=
  ⟨fun _ => rfl, fun _ => rfl, fun _ => rfl⟩

end Dtf.Archiver

namespace Dtf.Cpio
open Py DataFormat

/-- The first bytes of compressed files. -/
def magic : Packing → Bytes
  | .gzip => [0x1f, 0x8b]
  | .bzip => [0x42, 0x5a]
  | .xz => [0xfd, 0x37, 0x7a, 0x58, 0x5a, 0x00]

/-- C156.  A file with the first bytes of a compression is decompressed before the archive in it is read, and without the module
for xz there is an error. -/
theorem C156_packing (env : HashEnv) (p : Packing) (rest : Bytes) (h : rest ≠ []) (fuel : Nat) :
    hashFile env (magic p ++ rest) (fuel + 1) =
      if p = .xz ∧ env.lzma = false then ([], some (.error .attributeError))
      else
        match env.unpack p (magic p ++ rest) with
        | .error e => ([], some (.error e))
        | .ok content =>
          match hashArchive env content fuel with
          | (lines, none) => (lines, none)
          | (lines, some (.error e)) => (lines, some (.error e))
          | (lines, some (.ok _)) => (lines, some (.error .osError)) := by
  have hpos : (0 : Int) < (magic p ++ rest).length := by
    cases p <;> simp [magic] <;> omega
  have ht : fileType (slice (magic p ++ rest) (0 : Int).toNat ((0 : Int).toNat + 6)) = some (some p) := by
    have e : slice (magic p ++ rest) (0 : Int).toNat ((0 : Int).toNat + 6) = (magic p ++ rest).take 6 := by simp [slice]
    rw [e]
    cases rest with
    | nil => exact absurd rfl h
    | cons x rest =>
      cases p <;> simp [magic, fileType]
  rw [hashFile, hashLoop, if_pos hpos, if_neg (by omega), ht]
  dsimp only
  have hdrop : (magic p ++ rest).drop (0 : Int).toNat = magic p ++ rest := rfl
  have ha : archiveData env (magic p ++ rest) (0 : Int).toNat (some p) =
      if p = .xz ∧ env.lzma = false then .error .attributeError else env.unpack p (magic p ++ rest) := by
    cases p with
    | gzip => rfl
    | bzip => rfl
    | xz =>
      cases hl : env.lzma with
      | false => simp [archiveData, hl]
      | true => simp [archiveData, hl]
  rw [ha]
  by_cases hx : p = .xz ∧ env.lzma = false
  · rw [if_pos hx, if_pos hx]
  · rw [if_neg hx, if_neg hx]
    cases env.unpack p (magic p ++ rest) with
    | error e => rfl
    | ok content =>
      dsimp only
      rcases hashArchive env content fuel with ⟨lines, _ | _ | _⟩ <;> rfl

end Dtf.Cpio
