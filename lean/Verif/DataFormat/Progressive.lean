import Verif.Sequence

/-!
# Structures read in pieces

A structure with strings, streams and sequences whose sizes are stored in front of them is mapped by dtfabric member by
member: when the data does not hold the next piece the map asks for the data up to the end of it.  Such a map is modelled by a
parser that gives a value with the offset after it, or the size that is needed, or an error.  Reading such a structure from a
file is computed by `structAt_progressive`, for every file.
-/

namespace Dtf.Progressive
open Py DataFormat

/-- What a parser gives: a value with the offset of what follows, the size of the data that is needed, or an error. -/
inductive Step (α : Type)
  | ok (a : α) (next : Nat)
  | need (n : Nat)
  | error

/-- A parser of data at an offset. -/
abbrev Parser (α : Type) := Bytes → Nat → Step α

/-- A value without data. -/
def pure {α : Type} (a : α) : Parser α := fun _ off => .ok a off

/-- A value that may not be there, such as a string that cannot be decoded. -/
def ofOption {α : Type} : Option α → Parser α
  | some a => pure a
  | none => fun _ _ => .error

/-- The next `k` bytes. -/
def bytes (k : Nat) : Parser Bytes := fun b off =>
  if b.length < off + k then .need (off + k) else .ok (slice b off (off + k)) (off + k)

/-- A parser followed by one that depends on the value of the first. -/
def bind {α β : Type} (p : Parser α) (f : α → Parser β) : Parser β := fun b off =>
  match p b off with
  | .ok a n => f a b n
  | .need n => .need n
  | .error => .error

/-- A little-endian integer of `w` bytes. -/
def uint (w : Nat) : Parser Nat := bind (bytes w) (fun b => pure (leNat b))

/-- A sequence of a number of elements. -/
def many {α : Type} (p : Parser α) : Nat → Parser (List α)
  | 0 => pure []
  | n + 1 => bind p (fun a => bind (many p n) (fun l => pure (a :: l)))

/-- The dtfabric map of a parser. -/
def progMap {α : Type} (p : Parser α) : DataTypeMap α where
  sizeHint := match p [] 0 with
    | .need n => n
    | _ => 0
  mapByteStream := fun b =>
    match p b 0 with
    | .ok a _ => .mapped a
    | .need n => .tooSmall n
    | .error => .mappingError

/-- A parser asks for more than there is, and not for more than what it reads; more data does not change what it gives. -/
structure Lawful {α : Type} (p : Parser α) : Prop where
  need_gt : ∀ b off n, off ≤ b.length → p b off = .need n → b.length < n
  ok_le : ∀ b off a n, off ≤ b.length → p b off = .ok a n → off ≤ n ∧ n ≤ b.length
  ok_more : ∀ b c off a n, off ≤ b.length → p b off = .ok a n → p (b ++ c) off = .ok a n
  error_more : ∀ b c off, off ≤ b.length → p b off = .error → p (b ++ c) off = .error
  need_le : ∀ b c off n a m, off ≤ b.length → p b off = .need n → p (b ++ c) off = .ok a m → n ≤ m

theorem lawful_pure {α : Type} (a : α) : Lawful (pure a) := by
  constructor <;> intro b <;> intros <;> simp_all [pure]

theorem lawful_ofOption {α : Type} (o : Option α) : Lawful (ofOption o) := by
  cases o with
  | some a => exact lawful_pure a
  | none => constructor <;> intro b <;> intros <;> simp_all [ofOption]

theorem slice_append_left' (b c : Bytes) (i j : Nat) (h : j ≤ b.length) : slice (b ++ c) i j = slice b i j := by
  rw [slice_eq_take_drop, slice_eq_take_drop]
  by_cases hi : i ≤ b.length
  · rw [List.drop_append_of_le_length hi, List.take_append_of_le_length (by simp; omega)]
  · rw [show j - i = 0 by omega]; simp

theorem lawful_bytes (k : Nat) : Lawful (bytes k) := by
  constructor
  · intro b off n h e
    simp only [bytes] at e
    split at e
    · simp at e; omega
    · simp at e
  · intro b off a n h e
    simp only [bytes] at e
    split at e
    · simp at e
    · simp at e; omega
  · intro b c off a n h e
    simp only [bytes] at e ⊢
    split at e
    · simp at e
    · rw [if_neg (by simp; omega), slice_append_left' b c off _ (by omega), e]
  · intro b c off h e
    simp only [bytes] at e
    split at e <;> simp at e
  · intro b c off n a m h e1 e2
    simp only [bytes] at e1 e2
    split at e1
    · split at e2
      · simp at e2
      · simp at e1 e2; omega
    · simp at e1

theorem lawful_bind {α β : Type} {p : Parser α} {f : α → Parser β} (hp : Lawful p) (hf : ∀ a, Lawful (f a)) :
    Lawful (bind p f) := by
  constructor
  · intro b off n h e
    simp only [bind] at e
    cases hx : p b off with
    | ok a m => rw [hx] at e; exact (hf a).need_gt b m n (hp.ok_le _ _ _ _ h hx).2 e
    | need m => rw [hx] at e; simp at e; subst e; exact hp.need_gt _ _ _ h hx
    | error => rw [hx] at e; simp at e
  · intro b off a' n h e
    simp only [bind] at e
    cases hx : p b off with
    | ok a m =>
      rw [hx] at e
      have h1 := hp.ok_le _ _ _ _ h hx
      have h2 := (hf a).ok_le b m _ _ h1.2 e
      exact ⟨by omega, h2.2⟩
    | need m => rw [hx] at e; simp at e
    | error => rw [hx] at e; simp at e
  · intro b c off a' n h e
    simp only [bind] at e ⊢
    cases hx : p b off with
    | ok a m =>
      rw [hx] at e
      rw [hp.ok_more _ c _ _ _ h hx]
      exact (hf a).ok_more b c m _ _ (hp.ok_le _ _ _ _ h hx).2 e
    | need m => rw [hx] at e; simp at e
    | error => rw [hx] at e; simp at e
  · intro b c off h e
    simp only [bind] at e ⊢
    cases hx : p b off with
    | ok a m =>
      rw [hx] at e
      rw [hp.ok_more _ c _ _ _ h hx]
      exact (hf a).error_more b c m (hp.ok_le _ _ _ _ h hx).2 e
    | need m => rw [hx] at e; simp at e
    | error => rw [hp.error_more _ c _ h hx]
  · intro b c off n a' m h e1 e2
    simp only [bind] at e1 e2
    cases hx : p b off with
    | ok a k =>
      rw [hx] at e1
      rw [hp.ok_more _ c _ _ _ h hx] at e2
      exact (hf a).need_le b c k _ _ _ (hp.ok_le _ _ _ _ h hx).2 e1 e2
    | need k =>
      rw [hx] at e1
      simp at e1
      subst e1
      cases hy : p (b ++ c) off with
      | ok a m1 =>
        rw [hy] at e2
        have h1 := hp.need_le _ _ _ _ _ _ h hx hy
        have h2 := (hf a).ok_le _ _ _ _ (hp.ok_le _ _ _ _ (by simp; omega) hy).2 e2
        omega
      | need m1 => rw [hy] at e2; simp at e2
      | error => rw [hy] at e2; simp at e2
    | error => rw [hx] at e1; simp at e1

theorem lawful_uint (w : Nat) : Lawful (uint w) := lawful_bind (lawful_bytes w) (fun _ => lawful_pure _)

theorem lawful_many {α : Type} {p : Parser α} (hp : Lawful p) : ∀ n, Lawful (many p n)
  | 0 => lawful_pure []
  | n + 1 => lawful_bind hp (fun _ => lawful_bind (lawful_many hp n) (fun _ => lawful_pure _))

/-- What is read from a file: what the parser gives of the data at the offset. -/
def outcome {α : Type} : Step α → Res (α × Int)
  | .ok a n => .ok (a, n)
  | _ => .error .parseError

theorem loop_progressive {α : Type} (p : Parser α) (hp : Lawful p) (data : Bytes) (off : Nat) :
    ∀ (fuel : Nat) (pos : Nat) (last size : Nat), last ≤ (data.drop off).length →
      (data.drop off).length - last < fuel → p ((data.drop off).take last) 0 = .need size →
      ∃ f, readStructureLoop (progMap p) off fuel ⟨data, pos⟩ ((data.drop off).take last) last size =
        some (outcome (p (data.drop off) 0), f) := by
  intro fuel
  induction fuel with
  | zero => intro pos last size h1 h2; omega
  | succ fuel ih =>
    intro pos last size hl hfuel hneed
    have hlen : ((data.drop off).take last).length = last := by rw [List.length_take]; omega
    have hgt : last < size := by
      have := hp.need_gt _ _ _ (Nat.zero_le _) hneed
      omega
    rw [readStructureLoop, if_neg (by omega)]
    have e1 : (off : Int) + (last : Int) = ((off + last : Nat) : Int) := by omega
    have e2 : (size : Int) - (last : Int) = ((size - last : Nat) : Int) := by omega
    rw [e1, e2]
    have hsplit : ∀ k, (data.drop off).take k ++ (data.drop off).drop k = data.drop off := fun k => List.take_append_drop k _
    by_cases hs : data.length < (off + last) + (size - last)
    · have hfull : outcome (p (data.drop off) 0) = .error .parseError := by
        cases hx : p (data.drop off) 0 with
        | ok a m =>
          exfalso
          have h1 := hp.need_le _ ((data.drop off).drop last) _ _ a m (Nat.zero_le _) hneed (by rw [hsplit]; exact hx)
          have h2 := (hp.ok_le _ _ _ _ (Nat.zero_le _) hx).2
          simp at h2 hl
          omega
        | need m => rfl
        | error => rfl
      have := readData_short data pos (off + last) (size - last) hs (by omega)
      generalize readData (some ⟨data, pos⟩) ((off + last : Nat) : Int) ((size - last : Nat) : Int) = rd at this
      obtain ⟨r, f'⟩ := rd
      simp only at this
      subst this
      rw [hfull]
      exact ⟨_, rfl⟩
    · rw [readData_ok data pos (off + last) (size - last) (by omega)]
      simp only [Option.getD_some]
      have e5 : (data.drop off).take last ++ (data.drop (off + last)).take (size - last) = (data.drop off).take size := by
        rw [← List.drop_drop, ← List.take_add, show last + (size - last) = size by omega]
      rw [e5]
      have hsz : size ≤ (data.drop off).length := by simp at hl ⊢; omega
      have hlen2 : ((data.drop off).take size).length = size := by rw [List.length_take]; omega
      cases hx : p ((data.drop off).take size) 0 with
      | ok a m =>
        have h1 := hp.ok_more _ ((data.drop off).drop size) _ _ _ (Nat.zero_le _) hx
        rw [hsplit] at h1
        have h2 := (hp.ok_le _ _ _ _ (Nat.zero_le _) hx).2
        rw [hlen2] at h2
        have h3 := hp.need_le _ ((data.drop off).drop last) _ _ a m (Nat.zero_le _) hneed (by rw [hsplit]; exact h1)
        have h4 : m = size := by omega
        subst h4
        rw [h1]
        simp only [progMap, hx]
        exact ⟨_, rfl⟩
      | error =>
        have h1 := hp.error_more _ ((data.drop off).drop size) _ (Nat.zero_le _) hx
        rw [hsplit] at h1
        rw [h1]
        simp only [progMap, hx]
        exact ⟨_, rfl⟩
      | need m =>
        have := ih (off + last + (size - last)) size m hsz (by omega) hx
        simp only [progMap, hx] at this ⊢
        exact this

/-- Reading a structure in pieces gives what the parser gives of the data at the offset, for every file. -/
theorem structAt_progressive {α : Type} (p : Parser α) (hp : Lawful p) (n0 : Nat) (h0 : p [] 0 = .need n0) (data : Bytes) (off : Nat) :
    structAt (progMap p) data off = outcome (p (data.drop off) 0) := by
  unfold structAt readStructure
  have hs : (progMap p).sizeHint = ((n0 : Nat) : Int) := by simp [progMap, h0]
  rw [hs]
  obtain ⟨f, hf⟩ := loop_progressive p hp data off (data.length + 2) 0 0 n0 (Nat.zero_le _) (by simp; omega) (by simpa using h0)
  simp only [List.take_zero] at hf
  rw [show ((0 : Nat) : Int) = 0 from rfl] at hf
  rw [hf]

/-- The parser gives the value of the stored data, whatever is before and after it. -/
def Stores {α : Type} (p : Parser α) (s : Bytes) (a : α) : Prop :=
  ∀ pre post : Bytes, p (pre ++ s ++ post) pre.length = .ok a (pre.length + s.length)

theorem stores_pure {α : Type} (a : α) : Stores (pure a) [] a := by
  intro pre post; simp [pure]

theorem stores_bytes (s : Bytes) : Stores (bytes s.length) s s := by
  intro pre post
  simp only [bytes]
  rw [if_neg (by simp), slice_eq_take_drop]
  simp

theorem stores_bind {α β : Type} {p : Parser α} {f : α → Parser β} {s t : Bytes} {a : α} {b : β} (hp : Stores p s a)
    (hf : Stores (f a) t b) : Stores (bind p f) (s ++ t) b := by
  intro pre post
  simp only [bind]
  have h1 := hp pre (t ++ post)
  have h2 := hf (pre ++ s) post
  simp only [List.append_assoc, List.length_append] at h1 h2 ⊢
  rw [h1]
  simp only
  rw [h2, Nat.add_assoc]

theorem stores_uint (w n : Nat) (h : n < 256 ^ w) : Stores (uint w) (leBytes w n) n := by
  have h1 : Stores (bytes w) (leBytes w n) (leBytes w n) := by
    have := stores_bytes (leBytes w n)
    rwa [leBytes_length] at this
  have h2 : Stores (pure (leNat (leBytes w n))) [] n := by
    rw [leNat_leBytes_of_lt w n h]; exact stores_pure n
  have := stores_bind (f := fun b => pure (leNat b)) h1 h2
  rwa [List.append_nil] at this

theorem stores_ofOption {α : Type} {o : Option α} {a : α} (h : o = some a) : Stores (ofOption o) [] a := by
  subst h; exact stores_pure a

theorem stores_many {α β : Type} {p : Parser α} (enc : β → Bytes) (val : β → α) (l : List β)
    (h : ∀ x ∈ l, Stores p (enc x) (val x)) : Stores (many p l.length) (l.flatMap enc) (l.map val) := by
  induction l with
  | nil => exact stores_pure []
  | cons x l ih =>
    have h1 := ih (fun y hy => h y (List.mem_cons_of_mem _ hy))
    have h2 : Stores (bind (many p l.length) (fun l => pure (val x :: l))) (l.flatMap enc ++ []) (val x :: l.map val) :=
      stores_bind h1 (stores_pure _)
    have h3 := stores_bind (f := fun a => bind (many p l.length) (fun l => pure (a :: l))) (h x List.mem_cons_self) h2
    rw [List.append_nil] at h3
    exact h3

/-- Reading a stored structure gives its value and its size. -/
theorem structAt_stores {α : Type} (p : Parser α) (hp : Lawful p) (n0 : Nat) (h0 : p [] 0 = .need n0) (pre s post : Bytes) (a : α)
    (h : Stores p s a) : structAt (progMap p) (pre ++ s ++ post) pre.length = .ok (a, (s.length : Int)) := by
  rw [structAt_progressive p hp n0 h0, List.append_assoc, List.drop_left]
  have := h [] post
  simp only [List.nil_append, List.length_nil, Nat.zero_add] at this
  rw [this]
  rfl

end Dtf.Progressive
