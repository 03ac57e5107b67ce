import Verif.Cpio.Spec

/-!
# Lemmas for CPIO archives
-/

namespace Dtf.Cpio
open Py DataFormat

/-! ## Numbers -/

theorem digitOf_isDigit (b : UInt8) (d : Nat) (h : IsDigit b d) : digitOf b = some d := by
  unfold digitOf
  rcases h with ⟨h1, h2⟩ | ⟨h1, h2, h3⟩ | ⟨h1, h2, h3⟩
  · rw [if_pos (by omega)]
    congr 1
    omega
  · rw [if_neg (by omega), if_pos (by omega)]
    congr 1
    omega
  · rw [if_neg (by omega), if_neg (by omega), if_pos (by omega)]
    congr 1
    omega

/-- The value a digit stands for, 0 for other characters. -/
def dval (b : UInt8) : Nat := (digitOf b).getD 0

theorem numText_fold (base : Nat) (t : Bytes) (v : Nat) (h : NumText base t v) :
    t.foldl (fun a b => a * base + dval b) 0 = v ∧ ∀ b ∈ t, ∃ d, IsDigit b d ∧ d < base := by
  induction h with
  | nil => exact ⟨rfl, by simp⟩
  | snoc t v b d _ hd hb ih =>
    refine ⟨?_, ?_⟩
    · rw [List.foldl_append, ih.1]
      simp [dval, digitOf_isDigit b d hd]
    · intro c hc
      rcases List.mem_append.mp hc with hc | hc
      · exact ih.2 c hc
      · rw [List.mem_singleton] at hc
        subst hc
        exact ⟨d, hd, hb⟩

theorem isDigit_not (b : UInt8) (d : Nat) (h : IsDigit b d) :
    isSpace b = false ∧ b.toNat ≠ 45 ∧ b.toNat ≠ 43 ∧ b.toNat ≠ 95 ∧ b.toNat ≠ 120 ∧
      b.toNat ≠ 88 ∧ b.toNat ≠ 111 ∧ b.toNat ≠ 79 := by
  have : ¬ (b.toNat = 32 ∨ (9 ≤ b.toNat ∧ b.toNat ≤ 13)) := by
    rcases h with h | h | h <;> omega
  refine ⟨by unfold isSpace; exact decide_eq_false this, ?_⟩
  rcases h with h | h | h <;> omega

theorem scanDigits_fold (base : Nat) (t : Bytes) (u : Bool) (acc : Nat)
    (hd : ∀ b ∈ t, ∃ d, IsDigit b d ∧ d < base) (hu : t ≠ [] ∨ u = false) :
    scanDigits base t u acc = some (t.foldl (fun a b => a * base + dval b) acc) := by
  induction t generalizing u acc with
  | nil =>
    rcases hu with h | h
    · exact absurd rfl h
    · simp [scanDigits, h]
  | cons b t ih =>
    obtain ⟨d, h1, h2⟩ := hd b (List.mem_cons_self ..)
    have h3 := isDigit_not b d h1
    rw [scanDigits, if_neg h3.2.2.2.1, digitOf_isDigit b d h1]
    simp only [if_pos h2]
    rw [ih _ _ (fun c hc => hd c (List.mem_cons_of_mem _ hc)) (.inr rfl)]
    simp [dval, digitOf_isDigit b d h1]

theorem dropWhile_none {α : Type} (p : α → Bool) (l : List α) (h : ∀ a ∈ l, p a = false) :
    l.dropWhile p = l := by
  cases l with
  | nil => rfl
  | cons a l => simp [h a (List.mem_cons_self ..)]

theorem scanPrefixed_digits (base : Nat) (t : Bytes)
    (hd : ∀ b ∈ t, ∃ d, IsDigit b d ∧ d < base) :
    scanPrefixed base t = scanDigits base t true 0 := by
  match t with
  | [] => rfl
  | [a] => rfl
  | z :: p :: rest =>
    obtain ⟨d, h1, h2⟩ := hd p (by simp)
    have h3 := isDigit_not p d h1
    have hn : ¬ (z.toNat = 48 ∧ ((base = 16 ∧ (p.toNat = 120 ∨ p.toNat = 88)) ∨
        (base = 8 ∧ (p.toNat = 111 ∨ p.toNat = 79)))) := by
      rintro ⟨_, ⟨_, h⟩ | ⟨_, h⟩⟩ <;> omega
    unfold scanPrefixed
    simp only [if_neg hn]

theorem pyInt_numText (base : Nat) (t : Bytes) (v : Nat) (h : NumText base t v) (hne : t ≠ []) :
    pyInt base t = some (v : Int) := by
  obtain ⟨hv, hd⟩ := numText_fold base t v h
  have hsp : ∀ b ∈ t, isSpace b = false := by
    intro b hb
    obtain ⟨d, h1, _⟩ := hd b hb
    exact (isDigit_not b d h1).1
  unfold pyInt
  rw [dropWhile_none isSpace t hsp,
    dropWhile_none isSpace t.reverse (fun b hb => hsp b (List.mem_reverse.mp hb)),
    List.reverse_reverse]
  cases t with
  | nil => exact absurd rfl hne
  | cons c rest =>
    obtain ⟨d, h1, _⟩ := hd c (List.mem_cons_self ..)
    have h3 := isDigit_not c d h1
    simp only [if_neg h3.2.1, if_neg h3.2.2.1]
    rw [scanPrefixed_digits base _ hd, scanDigits_fold base _ _ _ hd (.inl (by simp)), hv]
    rfl

theorem parseFields_texts (base : Nat) (fields : List (Nat × Nat)) (texts : List Bytes)
    (h : FieldTexts base fields texts) (hw : ∀ f ∈ fields, 0 < f.1) :
    parseFields base (fields.map (·.1)) texts.flatten = some (fields.map fun f => (f.2 : Int)) := by
  induction h with
  | nil => rfl
  | @cons f t fs ts hft _ ih =>
    obtain ⟨h1, h2⟩ := hft
    have hne : t ≠ [] := by
      intro h0
      have := hw f (List.mem_cons_self ..)
      rw [h0] at h1
      simp at h1
      omega
    simp only [List.map_cons, List.flatten_cons, parseFields]
    rw [← h1, List.take_left, List.drop_left, pyInt_numText base t _ h2 hne]
    simp only
    rw [ih fun f hf => hw f (List.mem_cons_of_mem _ hf)]

theorem texts_length (base : Nat) (fields : List (Nat × Nat)) (texts : List Bytes)
    (h : FieldTexts base fields texts) : texts.flatten.length = (fields.map (·.1)).sum := by
  induction h with
  | nil => rfl
  | cons hft _ ih => simp [hft.1, ih]

/-! ## Binary headers -/

theorem drop_words (enc : Nat → Bytes) (he : ∀ n, (enc n).length = 2) (ws : List Nat) (i : Nat) :
    (ws.flatMap enc).drop (2 * i) = (ws.drop i).flatMap enc := by
  induction i generalizing ws with
  | zero => rfl
  | succ i ih =>
    cases ws with
    | nil => simp
    | cons w ws =>
      rw [List.drop_succ_cons, ← ih, List.flatMap_cons, show 2 * (i + 1) = 2 + 2 * i by omega,
        ← List.drop_drop]
      congr 1
      rw [← he w, List.drop_left]

theorem word_words (enc : Nat → Bytes) (value : Bytes → Nat) (he : ∀ n, (enc n).length = 2)
    (hv : ∀ n < 65536, value (enc n) = n) (sig : Bytes) (hs : sig.length = 2) (ws : List Nat)
    (i : Nat) (w : Nat) (hw : ws[i]? = some w) (hlt : w < 65536) :
    word value (sig ++ ws.flatMap enc) (i + 1) = w := by
  unfold word
  have e1 : slice (sig ++ ws.flatMap enc) (2 * (i + 1)) (2 * (i + 1) + 2) =
      ((sig ++ ws.flatMap enc).drop (2 * (i + 1))).take 2 := by
    rw [slice_eq_take_drop]
    congr 1
    omega
  have e2 : (sig ++ ws.flatMap enc).drop (2 * (i + 1)) = (ws.drop i).flatMap enc := by
    rw [show 2 * (i + 1) = 2 + 2 * i by omega, ← List.drop_drop, ← hs, List.drop_left, hs,
      drop_words enc he]
  obtain ⟨hi, hget⟩ := List.getElem?_eq_some_iff.mp hw
  have e3 : ws.drop i = w :: ws.drop (i + 1) := by
    rw [List.drop_eq_getElem_cons hi, hget]
  rw [e1, e2, e3, List.flatMap_cons, ← he w, List.take_left]
  exact hv w hlt

theorem halves (n : Nat) : ((n / 65536) <<< 16) ||| (n % 65536) = n := by
  rw [← Nat.shiftLeft_add_eq_or_of_lt (by omega : n % 65536 < 2 ^ 16), Nat.shiftLeft_eq]
  omega

theorem parseBinary_words (enc : Nat → Bytes) (value : Bytes → Nat) (he : ∀ n, (enc n).length = 2)
    (hv : ∀ n < 65536, value (enc n) = n) (sig : Bytes) (hs : sig.length = 2) (m : Member)
    (hw : ∀ w ∈ m.words, w < 65536) :
    parseBinary value (sig ++ m.words.flatMap enc) =
      ⟨m.inode, m.mode, m.uid, m.gid, m.mtime, ((m.path.length + 1 : Nat) : Int),
        m.content.length⟩ := by
  have key := fun i w (h : m.words[i]? = some w) =>
    word_words enc value he hv sig hs m.words i w h (hw w (List.mem_of_getElem? h))
  unfold parseBinary
  rw [key 1 _ rfl, key 2 _ rfl, key 3 _ rfl, key 4 _ rfl, key 7 _ rfl, key 8 _ rfl, key 9 _ rfl,
    key 10 _ rfl, key 11 _ rfl, halves, halves]

theorem words_length (enc : Nat → Bytes) (he : ∀ n, (enc n).length = 2) (m : Member) :
    (m.words.flatMap enc).length = 24 := by
  simp [Member.words, he]

/-! ## Headers of all formats -/

theorem header_length (fmt : Format) (m : Member) (h : m.HeaderOk fmt) :
    m.header.length = headerSize fmt := by
  cases fmt with
  | binBig =>
    rw [h.1, List.length_append, words_length _ (by simp)]
    rfl
  | binLittle =>
    rw [h.1, List.length_append, words_length _ (by simp)]
    rfl
  | odc =>
    obtain ⟨t, h1, h2⟩ := h
    rw [h2, List.length_append, texts_length _ _ _ h1]
    rfl
  | newc =>
    obtain ⟨t, h1, h2⟩ := h
    rw [h2, List.length_append, texts_length _ _ _ h1]
    rfl
  | crc =>
    obtain ⟨t, h1, h2⟩ := h
    rw [h2, List.length_append, texts_length _ _ _ h1]
    rfl

theorem parseHeader_ok (fmt : Format) (m : Member) (h : m.HeaderOk fmt) :
    parseHeader fmt m.header =
      some ⟨m.inode, m.mode, m.uid, m.gid, m.mtime, ((m.path.length + 1 : Nat) : Int),
        m.content.length⟩ := by
  cases fmt with
  | binBig =>
    rw [h.1, parseHeader, parseBinary_words (beBytes 2) beNat (by simp)
      (fun n hn => by rw [beNat_beBytes, Nat.mod_eq_of_lt (by omega)]) _ rfl m h.2]
  | binLittle =>
    rw [h.1, parseHeader, parseBinary_words (leBytes 2) leNat (by simp)
      (fun n hn => by rw [leNat_leBytes, Nat.mod_eq_of_lt (by omega)]) _ rfl m h.2]
  | odc =>
    obtain ⟨t, h1, h2⟩ := h
    have := parseFields_texts 8 m.odcFields t h1 (by simp [Member.odcFields])
    rw [h2, parseHeader, parseOdc]
    change (match parseFields 8 (m.odcFields.map (·.1)) t.flatten with
      | some [_, inode, mode, uid, gid, _, _, mtime, pathSize, fileSize] =>
        some (⟨inode, mode, uid, gid, mtime, pathSize, fileSize⟩ : Header)
      | _ => none) = _
    rw [this]
    rfl
  | newc =>
    obtain ⟨t, h1, h2⟩ := h
    have := parseFields_texts 16 m.newcFields t h1 (by simp [Member.newcFields])
    rw [h2, parseHeader, parseNewc]
    change (match parseFields 16 (m.newcFields.map (·.1)) t.flatten with
      | some [inode, mode, uid, gid, _, mtime, fileSize, _, _, _, _, pathSize, _] =>
        some (⟨inode, mode, uid, gid, mtime, pathSize, fileSize⟩ : Header)
      | _ => none) = _
    rw [this]
    rfl
  | crc =>
    obtain ⟨t, h1, h2⟩ := h
    have := parseFields_texts 16 m.newcFields t h1 (by simp [Member.newcFields])
    rw [h2, parseHeader, parseNewc]
    change (match parseFields 16 (m.newcFields.map (·.1)) t.flatten with
      | some [inode, mode, uid, gid, _, mtime, fileSize, _, _, _, _, pathSize, _] =>
        some (⟨inode, mode, uid, gid, mtime, pathSize, fileSize⟩ : Header)
      | _ => none) = _
    rw [this]
    rfl

/-! ## Members -/

theorem padding_alignUp (fmt : Format) (n : Nat) :
    (n : Int) + padding fmt n = (alignUp fmt n : Nat) := by
  cases fmt <;> simp only [padding, alignUp, alignment] <;> omega

theorem alignUp_ge (fmt : Format) (n : Nat) : n ≤ alignUp fmt n := by
  cases fmt <;> simp only [alignUp, alignment] <;> omega

theorem contentOffset_ge (fmt : Format) (off : Nat) (m : Member) :
    off + m.header.length + (m.path.length + 1) ≤ m.contentOffset fmt off := alignUp_ge _ _

theorem endOffset_ge (fmt : Format) (off : Nat) (m : Member) :
    m.contentOffset fmt off + m.content.length ≤ m.endOffset fmt off := alignUp_ge _ _

theorem bytes_length (fmt : Format) (off : Nat) (m : Member) :
    off + (m.bytes fmt off).length = m.endOffset fmt off := by
  have h1 := contentOffset_ge fmt off m
  have h2 := endOffset_ge fmt off m
  simp only [Member.bytes, List.length_append, List.length_replicate, List.length_singleton]
  omega

theorem content_at (fmt : Format) (pre post : Bytes) (m : Member) :
    slice (pre ++ m.bytes fmt pre.length ++ post) (m.contentOffset fmt pre.length)
      (m.contentOffset fmt pre.length + m.content.length) = m.content := by
  have h1 := contentOffset_ge fmt pre.length m
  generalize hp : List.replicate (m.contentOffset fmt pre.length -
    (pre.length + m.header.length + (m.path.length + 1))) (0 : UInt8) = p1
  have hpl : p1.length = m.contentOffset fmt pre.length -
    (pre.length + m.header.length + (m.path.length + 1)) := by rw [← hp]; simp
  have e : pre ++ m.bytes fmt pre.length ++ post =
      (pre ++ (m.header ++ (m.path ++ [0]) ++ p1)) ++ (m.content ++
        (List.replicate (m.endOffset fmt pre.length - (m.contentOffset fmt pre.length +
          m.content.length)) 0 ++ post)) := by
    simp [Member.bytes, hp]
  have hl : (pre ++ (m.header ++ (m.path ++ [0]) ++ p1)).length =
      m.contentOffset fmt pre.length := by
    simp only [List.length_append, List.length_singleton, hpl]
    omega
  rw [slice_eq_take_drop, e, ← hl, List.drop_left, Nat.add_sub_cancel_left, List.take_left]

theorem readFileEntry_member (fmt : Format) (pre post : Bytes) (m : Member) (h : m.Ok fmt) :
    readFileEntry fmt (pre ++ m.bytes fmt pre.length ++ post) pre.length =
      .ok (m.entry fmt pre.length) := by
  obtain ⟨hh, hp⟩ := h
  have hlen := header_length fmt m hh
  have hpos : 0 < headerSize fmt := by cases fmt <;> simp [headerSize]
  generalize hP1 : List.replicate (m.contentOffset fmt pre.length -
    (pre.length + m.header.length + (m.path.length + 1))) (0 : UInt8) = p1
  generalize hP2 : List.replicate (m.endOffset fmt pre.length - (m.contentOffset fmt pre.length +
    m.content.length)) (0 : UInt8) = p2
  have e : pre ++ m.bytes fmt pre.length ++ post =
      pre ++ m.header ++ ((m.path ++ [0]) ++ (p1 ++ m.content ++ p2 ++ post)) := by
    simp [Member.bytes, hP1, hP2]
  have hs := structAt_fixed_append (headerSize fmt) id pre m.header
    ((m.path ++ [0]) ++ (p1 ++ m.content ++ p2 ++ post)) hpos hlen
  rw [readFileEntry, e, hs]
  simp only [id]
  rw [parseHeader_ok fmt m hh]
  simp only
  have hread : (File.read ⟨pre ++ m.header ++ ((m.path ++ [0]) ++ (p1 ++ m.content ++ p2 ++ post)),
      ((pre.length : Int) + (headerSize fmt : Nat)).toNat⟩ ((m.path.length + 1 : Nat) : Int)).1 =
      m.path ++ [0] := by
    have e1 : ((pre.length : Int) + (headerSize fmt : Nat)).toNat = (pre ++ m.header).length := by
      rw [List.length_append, hlen]
      omega
    have e2 : m.path.length + 1 = (m.path ++ [0]).length := by simp
    simp only [File.read]
    rw [if_neg (by omega), e1, List.drop_left, Int.toNat_natCast, e2, List.take_left]
  rw [hread]
  have hascii : (m.path ++ [0]).any (fun b => decide (128 ≤ b.toNat)) = false := by
    rw [List.any_eq_false]
    intro b hb
    rcases List.mem_append.mp hb with hb | hb
    · have := (hp b hb).2
      simp
      omega
    · rw [List.mem_singleton] at hb
      subst hb
      simp
  rw [hascii]
  have htw : (m.path ++ [0]).takeWhile (fun b => decide (b ≠ 0)) = m.path := by
    have : ∀ l : Bytes, (∀ b ∈ l, b ≠ 0) → (l ++ [0]).takeWhile (fun b => decide (b ≠ 0)) = l := by
      intro l
      induction l with
      | nil => intro _; rfl
      | cons a l ih =>
        intro hl
        simp only [List.cons_append, List.takeWhile_cons]
        rw [ih fun b hb => hl b (List.mem_cons_of_mem _ hb)]
        simp [hl a (List.mem_cons_self ..)]
    exact this _ fun b hb => (hp b hb).1
  have c1 : (pre.length : Int) + (headerSize fmt : Nat) + ((m.path.length + 1 : Nat) : Int) =
      ((pre.length + m.header.length + (m.path.length + 1) : Nat) : Int) := by
    rw [hlen]
    omega
  have c2 := padding_alignUp fmt (pre.length + m.header.length + (m.path.length + 1))
  have c3 := padding_alignUp fmt (m.contentOffset fmt pre.length + m.content.length)
  have c4 : (pre.length : Int) + (headerSize fmt : Nat) + ((m.path.length + 1 : Nat) : Int) +
      padding fmt ((pre.length : Int) + (headerSize fmt : Nat) + ((m.path.length + 1 : Nat) : Int)) =
      (m.contentOffset fmt pre.length : Nat) := by
    rw [c1]
    exact c2
  simp only [Bool.false_eq_true, if_false, htw, c4, Member.entry, Except.ok.injEq, Entry.mk.injEq,
    true_and, and_true]
  have c5 : (m.contentOffset fmt pre.length : Int) + (m.content.length : Int) +
      padding fmt ((m.contentOffset fmt pre.length : Int) + (m.content.length : Int)) =
      (m.endOffset fmt pre.length : Nat) := by
    have : (m.contentOffset fmt pre.length : Int) + (m.content.length : Int) =
      ((m.contentOffset fmt pre.length + m.content.length : Nat) : Int) := by omega
    rw [this]
    exact c3
  omega

/-! ## The dictionary -/

/-- The dictionary after the entries have been added in order. -/
def insertAll (es : Entries) : List Entry → Entries
  | [] => es
  | e :: rest => if contains es e.path then insertAll es rest else insertAll (es ++ [(e.path, e)]) rest

theorem entriesLoop_members (fmt : Format) (ms : List Member) (pre post : Bytes) (fuel : Nat)
    (es : Entries) (hok : ∀ m ∈ ms, m.Ok fmt) (hne : ∀ m ∈ ms, m.path ≠ trailer) :
    entriesLoop fmt (pre ++ archiveBytes fmt pre.length ms ++ post) (ms.length + fuel) pre.length es =
      entriesLoop fmt (pre ++ archiveBytes fmt pre.length ms ++ post) fuel
        ((pre ++ archiveBytes fmt pre.length ms).length : Nat)
        (insertAll es (archiveEntries fmt pre.length ms)) := by
  induction ms generalizing pre es with
  | nil => simp [archiveBytes, archiveEntries, insertAll]
  | cons m ms ih =>
    have hmok := hok m (List.mem_cons_self ..)
    have hl : (pre ++ m.bytes fmt pre.length).length = m.endOffset fmt pre.length := by
      rw [List.length_append, bytes_length]
    have e1 : pre ++ archiveBytes fmt pre.length (m :: ms) ++ post =
        pre ++ m.bytes fmt pre.length ++ (archiveBytes fmt (m.endOffset fmt pre.length) ms ++ post) := by
      simp [archiveBytes]
    have e2 : pre ++ archiveBytes fmt pre.length (m :: ms) =
        pre ++ m.bytes fmt pre.length ++ archiveBytes fmt (m.endOffset fmt pre.length) ms := by
      simp [archiveBytes]
    have hread := readFileEntry_member fmt pre
      (archiveBytes fmt (m.endOffset fmt pre.length) ms ++ post) m hmok
    have hoff : (pre.length : Int) + (m.entry fmt pre.length).size =
        ((pre ++ m.bytes fmt pre.length).length : Nat) := by
      rw [hl]
      simp only [Member.entry]
      omega
    have hlt : pre.length < (pre ++ m.bytes fmt pre.length ++
        (archiveBytes fmt (m.endOffset fmt pre.length) ms ++ post)).length := by
      have h1 := contentOffset_ge fmt pre.length m
      have h2 := endOffset_ge fmt pre.length m
      rw [List.length_append, hl]
      omega
    rw [show (m :: ms).length + fuel = ms.length + fuel + 1 by simp; omega, entriesLoop, e1, e2,
      if_pos (.inl (by omega)), hread]
    simp only
    rw [if_neg (by exact hne m (List.mem_cons_self ..)), hoff]
    have ih' := fun es => ih (pre ++ m.bytes fmt pre.length) es
      (fun x hx => hok x (List.mem_cons_of_mem _ hx)) (fun x hx => hne x (List.mem_cons_of_mem _ hx))
    simp only [hl] at ih'
    rw [← List.append_assoc, hl]
    simp only [archiveEntries, insertAll]
    split <;> rw [ih']

theorem insertAll_keys (es : Entries) (l : List Entry) (hk : ∀ p ∈ es, p.1 = p.2.path) :
    ∀ p ∈ insertAll es l, p.1 = p.2.path := by
  induction l generalizing es with
  | nil => exact hk
  | cons e l ih =>
    rw [insertAll]
    split
    · exact ih es hk
    · apply ih
      intro p hp
      rcases List.mem_append.mp hp with hp | hp
      · exact hk p hp
      · rw [List.mem_singleton] at hp
        rw [hp]

theorem insertAll_eq (es : Entries) (l : List Entry) :
    insertAll es l = es ++ ((firstOfPath l).filter (fun e => ¬ contains es e.path)).map
      fun e => (e.path, e) := by
  induction l generalizing es with
  | nil => simp [insertAll, firstOfPath]
  | cons e l ih =>
    rw [insertAll, firstOfPath]
    split
    · rename_i hc
      rw [ih, List.filter_cons, if_neg (by simp [hc]), List.filter_filter]
      congr 2
      apply List.filter_congr
      intro x _
      by_cases hx : x.path = e.path
      · simp [hx, hc]
      · simp [hx]
    · rename_i hc
      rw [ih, List.filter_cons, if_pos (by simp [hc]), List.filter_filter, List.map_cons,
        List.append_assoc, List.singleton_append]
      congr 3
      apply List.filter_congr
      intro x _
      have : contains (es ++ [(e.path, e)]) x.path = (contains es x.path || decide (e.path = x.path)) := by
        simp [contains]
      rw [this]
      by_cases hx : x.path = e.path
      · simp [hx]
      · have hx' : ¬ e.path = x.path := fun h => hx h.symm
        simp [hx, hx']

end Dtf.Cpio
