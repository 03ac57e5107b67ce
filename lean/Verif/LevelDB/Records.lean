import Verif.LevelDB.Log

/-!
# LevelDB write batches and version edits (C55, C56)
-/

namespace Dtf.LevelDB
open Py DataFormat

/-! ## Specification of the encodings -/

/-- A length-prefixed slice. -/
def encodeSlice (s : Bytes) : Bytes := encodeVarint s.length ++ s

/-- A value of a write batch: a type byte, a key and for a put a value. -/
def encodePut : Put → Bytes
  | .delete key => 0 :: encodeSlice key
  | .put key value => 1 :: (encodeSlice key ++ encodeSlice value)

/-- A write batch: 64-bit sequence number, 32-bit count, values. -/
def encodeBatch (b : Batch) : Bytes :=
  leBytes 8 b.sequence ++ leBytes 4 b.count ++ b.values.flatMap encodePut

/-- A version edit value: a tag and its fields. -/
def encodeEdit : Edit → Bytes
  | .comparator name => encodeVarint 1 ++ encodeSlice name
  | .logNumber n => encodeVarint 2 ++ encodeVarint n
  | .nextFileNumber n => encodeVarint 3 ++ encodeVarint n
  | .lastSequence n => encodeVarint 4 ++ encodeVarint n
  | .compactPointer level key => encodeVarint 5 ++ (encodeVarint level ++ encodeSlice key)
  | .deletedFile level number => encodeVarint 6 ++ (encodeVarint level ++ encodeVarint number)
  | .newFile level number size smallest largest =>
    encodeVarint 7 ++ (encodeVarint level ++ (encodeVarint number ++ (encodeVarint size ++
      (encodeSlice smallest ++ encodeSlice largest))))
  | .prevLogNumber n => encodeVarint 9 ++ encodeVarint n

/-! ## Proofs -/

theorem slice_mid (a b c : Bytes) (n m : Nat) (hn : n = a.length) (hm : m = a.length + b.length) :
    slice (a ++ b ++ c) n m = b := by
  subst hn hm
  rw [slice, ← List.length_append, List.take_left, List.drop_left]

theorem encodeSlice_length (s : Bytes) :
    (encodeSlice s).length = (encodeVarint s.length).length + s.length := by
  simp [encodeSlice]

theorem readSlice_encode (s rest : Bytes) :
    readSlice (encodeSlice s ++ rest) = .ok (s, (encodeSlice s).length) := by
  have h := C14_round_trip s.length (s ++ rest)
  have e : encodeSlice s ++ rest = encodeVarint s.length ++ (s ++ rest) := by simp [encodeSlice]
  rw [readSlice, e, h]
  simp only
  rw [← List.append_assoc, slice_mid _ _ _ _ _ rfl rfl, encodeSlice_length]

theorem readSlice_progress (data s : Bytes) (n : Nat) (h : readSlice data = .ok (s, n)) : 1 ≤ n := by
  rw [readSlice] at h
  rcases C14_consumes_available data with ⟨h1, -⟩ | ⟨v, k, h1, h2, h3⟩
  · rw [h1] at h
    simp at h
  · rw [h1] at h
    simp only [Except.ok.injEq, Prod.mk.injEq] at h
    omega

theorem readVarint_progress (data : Bytes) (v n : Nat) (h : readVarint data = .ok (v, n)) : 1 ≤ n := by
  rcases C14_consumes_available data with ⟨h1, -⟩ | ⟨v', k, h1, h2, h3⟩
  · rw [h1] at h
    simp at h
  · rw [h1] at h
    simp only [Except.ok.injEq, Prod.mk.injEq] at h
    omega

theorem readPuts_encode (puts : List Put) (fuel : Nat) (h : puts.length < fuel) :
    readPuts fuel (puts.flatMap encodePut) = some (.ok puts) := by
  induction puts generalizing fuel with
  | nil =>
    obtain ⟨f, rfl⟩ : ∃ f, fuel = f + 1 := ⟨fuel - 1, by omega⟩
    simp [readPuts]
  | cons p puts ih =>
    obtain ⟨f, rfl⟩ : ∃ f, fuel = f + 1 := ⟨fuel - 1, by simp at h; omega⟩
    have hf : puts.length < f := by simp at h; omega
    cases p with
    | delete key =>
      rw [List.flatMap_cons, encodePut, List.cons_append, readPuts, if_neg (by decide),
        readSlice_encode]
      simp only
      rw [if_neg (by decide), List.drop_left, ih f hf]
      rfl
    | put key value =>
      rw [List.flatMap_cons, encodePut, List.cons_append, readPuts, if_neg (by decide),
        List.append_assoc, readSlice_encode]
      simp only
      rw [if_pos (by decide), List.drop_left, readSlice_encode]
      simp only
      rw [List.drop_left, ih f hf]
      rfl

theorem encodePut_length (p : Put) : 1 ≤ (encodePut p).length := by
  cases p <;> simp [encodePut]

theorem flatMap_length_ge {α : Type} (f : α → Bytes) (l : List α) (h : ∀ a ∈ l, 1 ≤ (f a).length) :
    l.length ≤ (l.flatMap f).length := by
  induction l with
  | nil => simp
  | cons a l ih =>
    have h1 := h a (List.mem_cons_self ..)
    have h2 := ih fun b hb => h b (List.mem_cons_of_mem _ hb)
    simp only [List.flatMap_cons, List.length_append, List.length_cons]
    omega

theorem readPuts_terminates (fuel : Nat) (data : Bytes) (h : data.length < fuel) :
    readPuts fuel data ≠ none := by
  induction fuel generalizing data with
  | zero => omega
  | succ fuel ih =>
    cases data with
    | nil => simp [readPuts]
    | cons t data =>
      simp only [List.length_cons] at h
      rw [readPuts]
      split
      · simp
      · split
        · simp
        · rename_i key n hk
          split
          · split
            · simp
            · rename_i value m hv
              have := ih ((data.drop n).drop m) (by simp; omega)
              rw [Ne, Option.map_eq_none_iff]
              exact this
          · have := ih (data.drop n) (by simp; omega)
            rw [Ne, Option.map_eq_none_iff]
            exact this

/-- Reading an integer-like structure of a fixed size from bytes. -/
theorem fromByteStream_fixed {σ : Type} (size : Nat) (parse : Bytes → σ) (bs : Bytes)
    (h : bs ≠ []) :
    readStructureFromByteStream (some (fixedMap size parse)) bs =
      if bs.length < size then .error .parseError else .ok (parse (bs.take size)) := by
  unfold readStructureFromByteStream
  simp only [if_neg h, fixedMap, sizedMap, Nat.add_zero]
  by_cases hl : bs.length < size
  · simp [hl]
  · simp [hl]

/-- C55.  Every write batch of a log survives encoding and parsing: sequence number, count, and the
puts and deletions in order, with keys and values of any length. -/
theorem C55_batch_round_trip (b : Batch) (hs : b.sequence < 2 ^ 64) (hc : b.count < 2 ^ 32) :
    readBatch (encodeBatch b) = .ok b := by
  have hne : encodeBatch b ≠ [] := by
    intro h
    have := congrArg List.length h
    simp [encodeBatch] at this
  have hl : ¬ (encodeBatch b).length < 12 := by simp [encodeBatch]; omega
  have h12 : (encodeBatch b).take 12 = leBytes 8 b.sequence ++ leBytes 4 b.count := by
    have e : (leBytes 8 b.sequence ++ leBytes 4 b.count).length = 12 := by simp
    rw [encodeBatch, ← e, List.take_left]
  have d12 : (encodeBatch b).drop 12 = b.values.flatMap encodePut := by
    have e : (leBytes 8 b.sequence ++ leBytes 4 b.count).length = 12 := by simp
    rw [encodeBatch, ← e, List.drop_left]
  rw [readBatch, valueHeaderMap, fromByteStream_fixed _ _ _ hne, if_neg hl, h12, d12]
  have s1 : slice (leBytes 8 b.sequence ++ leBytes 4 b.count) 0 8 = leBytes 8 b.sequence := by
    have := slice_mid [] (leBytes 8 b.sequence) (leBytes 4 b.count) 0 8 rfl (by simp)
    simpa using this
  have s2 : slice (leBytes 8 b.sequence ++ leBytes 4 b.count) 8 12 = leBytes 4 b.count := by
    have := slice_mid (leBytes 8 b.sequence) (leBytes 4 b.count) [] 8 12 (by simp) (by simp)
    simpa using this
  simp only [s1, s2]
  rw [readPuts_encode]
  · simp only [leNat_leBytes]
    rw [Nat.mod_eq_of_lt (by simpa using hs), Nat.mod_eq_of_lt (by simpa using hc)]
  · have := flatMap_length_ge encodePut b.values fun p _ => encodePut_length p
    have : (encodeBatch b).length = 12 + (b.values.flatMap encodePut).length := by
      simp [encodeBatch]; omega
    omega

example : readBatch [1, 0, 0, 0, 0, 0, 0, 0, 1, 0, 0, 0, 1, 1, 65, 1, 66] =
    .ok ⟨1, 1, [.put [65] [66]]⟩ := by decide +kernel

/-- C55.  Parsing the values of any record ends. -/
theorem C55_terminates (data : Bytes) : readPuts (data.length + 1) (data.drop 12) ≠ none :=
  readPuts_terminates _ _ (by simp; omega)

/-! ## Version edits -/

theorem readEditBody_encode (utf8 : Bytes → Bool) (e : Edit) (rest : Bytes)
    (hu : ∀ name, e = .comparator name → utf8 name = true) :
    ∃ tag body, encodeEdit e = encodeVarint tag ++ body ∧
      readEditBody utf8 tag (body ++ rest) = .ok (e, body.length) := by
  cases e with
  | comparator name =>
    refine ⟨1, encodeSlice name, rfl, ?_⟩
    simp only [readEditBody, if_true, readSlice_encode, hu name rfl]
  | logNumber n =>
    refine ⟨2, encodeVarint n, rfl, ?_⟩
    simp [readEditBody, C14_round_trip]
  | nextFileNumber n =>
    refine ⟨3, encodeVarint n, rfl, ?_⟩
    simp [readEditBody, C14_round_trip]
  | lastSequence n =>
    refine ⟨4, encodeVarint n, rfl, ?_⟩
    simp [readEditBody, C14_round_trip]
  | compactPointer level key =>
    refine ⟨5, encodeVarint level ++ encodeSlice key, rfl, ?_⟩
    simp [readEditBody, C14_round_trip, readSlice_encode]
  | deletedFile level number =>
    refine ⟨6, encodeVarint level ++ encodeVarint number, rfl, ?_⟩
    simp [readEditBody, C14_round_trip]
  | newFile level number size smallest largest =>
    refine ⟨7, encodeVarint level ++ (encodeVarint number ++ (encodeVarint size ++
      (encodeSlice smallest ++ encodeSlice largest))), rfl, ?_⟩
    simp only [readEditBody, List.append_assoc, C14_round_trip, readSlice_encode, List.drop_left,
      List.length_append]
    simp
    omega
  | prevLogNumber n =>
    refine ⟨9, encodeVarint n, rfl, ?_⟩
    simp [readEditBody, C14_round_trip]

theorem encodeEdit_length (e : Edit) : 1 ≤ (encodeEdit e).length := by
  obtain ⟨t, body, h1, -⟩ := readEditBody_encode (fun _ => true) e [] (fun _ _ => rfl)
  have := encodeVarint_length_pos t
  rw [h1, List.length_append]
  omega

theorem readEdits_cons (utf8 : Bytes → Bool) (fuel : Nat) (data : Bytes) (h : data ≠ []) :
    readEdits utf8 (fuel + 1) data =
      match readVarint data with
      | .error e => some (.error e)
      | .ok (tag, n) =>
        match readEditBody utf8 tag (data.drop n) with
        | .error e => some (.error e)
        | .ok (edit, m) =>
          (readEdits utf8 fuel ((data.drop n).drop m)).map fun r => r.map (edit :: ·) := by
  cases data with
  | nil => exact absurd rfl h
  | cons b d => rfl

theorem readEdits_terminates (utf8 : Bytes → Bool) (fuel : Nat) (data : Bytes)
    (h : data.length < fuel) : readEdits utf8 fuel data ≠ none := by
  induction fuel generalizing data with
  | zero => omega
  | succ fuel ih =>
    by_cases hd : data = []
    · subst hd
      simp [readEdits]
    · rw [readEdits_cons _ _ _ hd]
      have := List.length_pos_iff.mpr hd
      split
      · simp
      · rename_i tag n hv
        have hn := readVarint_progress _ _ _ hv
        split
        · simp
        · rename_i edit m hb
          rw [Ne, Option.map_eq_none_iff]
          apply ih
          simp
          omega

/-- C56.  Parsing any descriptor record ends. -/
theorem C56_terminates (utf8 : Bytes → Bool) (data : Bytes) :
    readEdits utf8 (data.length + 1) data ≠ none :=
  readEdits_terminates utf8 _ data (by omega)

theorem readEdits_encode (utf8 : Bytes → Bool) (edits : List Edit)
    (hu : ∀ name, Edit.comparator name ∈ edits → utf8 name = true) (fuel : Nat)
    (h : edits.length < fuel) :
    readEdits utf8 fuel (edits.flatMap encodeEdit) = some (.ok edits) := by
  induction edits generalizing fuel with
  | nil =>
    obtain ⟨f, rfl⟩ : ∃ f, fuel = f + 1 := ⟨fuel - 1, by omega⟩
    simp [readEdits]
  | cons e edits ih =>
    obtain ⟨f, rfl⟩ : ∃ f, fuel = f + 1 := ⟨fuel - 1, by simp at h; omega⟩
    obtain ⟨tag, body, h1, h2⟩ := readEditBody_encode utf8 e (edits.flatMap encodeEdit)
      (fun name hn => hu name (by simp [hn]))
    have hne : (e :: edits).flatMap encodeEdit ≠ [] := by
      simp [h1, encodeVarint_ne_nil]
    rw [readEdits_cons _ _ _ hne, List.flatMap_cons, h1, List.append_assoc, C14_round_trip]
    simp only [List.drop_left, h2]
    rw [ih (fun name hn => hu name (List.mem_cons_of_mem _ hn)) f (by simp at h; omega)]
    rfl

/-- C56.  Every version edit of a descriptor file survives encoding and parsing, with any number of
values of the eight kinds in any order. -/
theorem C56_edit_round_trip (utf8 : Bytes → Bool) (edits : List Edit)
    (hu : ∀ name, Edit.comparator name ∈ edits → utf8 name = true) :
    readVersionEdit utf8 (edits.flatMap encodeEdit) = .ok edits := by
  rw [readVersionEdit, readEdits_encode utf8 edits hu]
  have := flatMap_length_ge encodeEdit edits fun e _ => encodeEdit_length e
  omega

example : readVersionEdit (fun _ => true) [2, 5, 6, 1, 7] =
    .ok [.logNumber 5, .deletedFile 1 7] := by decide +kernel

/-- C56.  A tag that is not one of the eight known ones is a parse error. -/
theorem C56_unknown_tag (utf8 : Bytes → Bool) (edits : List Edit) (tag : Nat) (rest : Bytes)
    (hu : ∀ name, Edit.comparator name ∈ edits → utf8 name = true)
    (ht : tag ∉ [1, 2, 3, 4, 5, 6, 7, 9]) :
    readVersionEdit utf8 (edits.flatMap encodeEdit ++ (encodeVarint tag ++ rest)) =
      .error .parseError := by
  have key : ∀ fuel, edits.length < fuel →
      readEdits utf8 fuel (edits.flatMap encodeEdit ++ (encodeVarint tag ++ rest)) =
        some (.error .parseError) := by
    induction edits with
    | nil =>
      intro fuel hf
      obtain ⟨f, rfl⟩ : ∃ f, fuel = f + 1 := ⟨fuel - 1, by omega⟩
      rw [List.flatMap_nil, List.nil_append, readEdits_cons _ _ _ (by simp [encodeVarint_ne_nil]),
        C14_round_trip]
      simp only [List.mem_cons, List.not_mem_nil, or_false, not_or] at ht
      simp [readEditBody, ht]
    | cons e edits ih =>
      intro fuel hf
      obtain ⟨f, rfl⟩ : ∃ f, fuel = f + 1 := ⟨fuel - 1, by simp at hf; omega⟩
      obtain ⟨t, body, h1, h2⟩ := readEditBody_encode utf8 e
        (edits.flatMap encodeEdit ++ (encodeVarint tag ++ rest))
        (fun name hn => hu name (by simp [hn]))
      rw [List.flatMap_cons, h1, List.append_assoc, List.append_assoc,
        readEdits_cons _ _ _ (by simp [encodeVarint_ne_nil]), C14_round_trip]
      simp only [List.drop_left, h2]
      rw [ih (fun name hn => hu name (List.mem_cons_of_mem _ hn)) f (by simp at hf; omega)]
      rfl
  rw [readVersionEdit, key]
  have := flatMap_length_ge encodeEdit edits fun e _ => encodeEdit_length e
  simp only [List.length_append]
  omega

end Dtf.LevelDB
