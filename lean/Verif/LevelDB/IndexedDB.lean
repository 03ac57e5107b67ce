import Verif.LevelDB.Table
import Verif.Text

/-!
# IndexedDB keys (C19)

Models dtformats/indexeddb.py on top of the LevelDB table file.  A `str` is a list of characters.
`repr` of a `bytes` value is modelled as CPython defines it.
-/

namespace Dtf.IndexedDB
open Py Dtf.LevelDB

/-! ## Model -/

/-- One of the three loops of `_ReadKeyPrefix` (indexeddb.py 51-66): `count` rounds, each reads
`data[bytes_read]` and ors it in at `bit_shift`. -/
def readIdentifier (data : Bytes) : Nat → Nat → Nat → Nat → Res (Nat × Nat)
  | 0, bytesRead, _, value => .ok (value, bytesRead)
  | count + 1, bytesRead, bitShift, value =>
    match data[bytesRead]? with
    | none => .error .indexError
    | some b =>
      readIdentifier data count (bytesRead + 1) (bitShift + 8) (value ||| b.toNat <<< bitShift)

/-- `_ReadKeyPrefix` (indexeddb.py 35-71). -/
def readKeyPrefix (data : Bytes) : Res ((Nat × Nat × Nat) × Nat) :=
  match data[0]? with
  | none => .error .indexError
  | some byteValue =>
    match readIdentifier data ((byteValue.toNat >>> 5) + 1) 1 0 0 with
    | .error e => .error e
    | .ok (database, n1) =>
      match readIdentifier data (((byteValue.toNat &&& 0x1F) >>> 2) + 1) n1 0 0 with
      | .error e => .error e
      | .ok (store, n2) =>
        match readIdentifier data ((byteValue.toNat &&& 0x03) + 1) n2 0 0 with
        | .error e => .error e
        | .ok (index, n3) => .ok ((database, store, index), n3)

/-- One byte in `repr(bytes)` of CPython, when the quote is `q`. -/
def escape (q : Char) (b : UInt8) : List Char :=
  if b.toNat = q.toNat ∨ b.toNat = 92 then ['\\', Char.ofNat b.toNat]
  else if b.toNat = 9 then ['\\', 't']
  else if b.toNat = 10 then ['\\', 'n']
  else if b.toNat = 13 then ['\\', 'r']
  else if b.toNat < 32 ∨ 127 ≤ b.toNat then
    ['\\', 'x', Text.digitChar (b.toNat / 16), Text.digitChar (b.toNat % 16)]
  else [Char.ofNat b.toNat]

/-- The quote `repr(bytes)` uses: a double quote only if there is a single and no double one. -/
def quoteOf (data : Bytes) : Char :=
  if (39 : UInt8) ∈ data ∧ (34 : UInt8) ∉ data then '"' else '\''

/-- `repr(data)[1:]` (indexeddb.py 97). -/
def reprTail (data : Bytes) : List Char :=
  quoteOf data :: (data.flatMap (escape (quoteOf data)) ++ [quoteOf data])

/-- The key segments made in `ReadEntries` (indexeddb.py 85-98) from the key of a table entry. -/
def keySegments (key : Bytes) : Res (List (List Char)) :=
  match readKeyPrefix key with
  | .error e => .error e
  | .ok ((database, store, index), bytesRead) =>
    let segments := [Text.digits 10 database, Text.digits 10 store, Text.digits 10 index]
    if (database, store, index) = (0, 0, 0) then
      match key[bytesRead]? with
      | none => .error .indexError
      | some t =>
        .ok (segments ++ [Text.digits 10 t.toNat] ++
          (if bytesRead + 1 < key.length then [reprTail (key.drop (bytesRead + 1))] else []))
    else
      .ok (segments ++
        (if bytesRead < key.length then [reprTail (key.drop bytesRead)] else []))

/-- `IndexedDBDatabaseEntry` (indexeddb.py 10-30). -/
structure DbEntry where
  segments : List (List Char)
  sequence : Nat
  valueType : Nat
  value : Bytes
deriving DecidableEq

/-- The loop of `ReadEntries` (indexeddb.py 84-105) over the entries already read.  It is a generator:
the entries yielded before an exception count. -/
def convertEntries : List Entry → List DbEntry × Option Err
  | [] => ([], none)
  | e :: es =>
    match keySegments e.key with
    | .error err => ([], some err)
    | .ok segments =>
      (⟨segments, e.sequence, e.valueType, e.value⟩ :: (convertEntries es).1, (convertEntries es).2)

/-- `ReadEntries` (indexeddb.py 73-105): an error in the table file ends the iteration after the
entries before it. -/
def readEntries (dec : Decompress) (data : Bytes) : List DbEntry × Option Err :=
  let table := readTableEntries dec data
  let out := convertEntries table.1
  (out.1, match out.2 with
    | some e => some e
    | none => table.2)

/-! ## Specification -/

/-- A key prefix with identifiers stored in `a`, `b` and `c` bytes. -/
def encodePrefix (a b c : Nat) (database store index : Nat) : Bytes :=
  UInt8.ofNat ((a - 1) * 32 + (b - 1) * 4 + (c - 1)) ::
    (leBytes a database ++ leBytes b store ++ leBytes c index)

/-! ## Proofs -/

theorem readIdentifier_append (pre bytes post : Bytes) (shift value : Nat)
    (hv : value < 2 ^ shift) :
    readIdentifier (pre ++ bytes ++ post) bytes.length pre.length shift value =
      .ok (value + 2 ^ shift * leNat bytes, pre.length + bytes.length) := by
  induction bytes generalizing pre shift value with
  | nil => simp [readIdentifier, leNat]
  | cons b bytes ih =>
    have hget : (pre ++ b :: bytes ++ post)[pre.length]? = some b := by
      simp
    rw [List.length_cons, readIdentifier, hget]
    simp only
    have hor : value ||| b.toNat <<< shift = value + 2 ^ shift * b.toNat := by
      rw [Nat.or_comm, ← Nat.shiftLeft_add_eq_or_of_lt hv, Nat.shiftLeft_eq]
      rw [Nat.mul_comm, Nat.add_comm]
    have hlt : value + 2 ^ shift * b.toNat < 2 ^ (shift + 8) := by
      have hb : b.toNat < 256 := b.toNat_lt
      rw [Nat.pow_add]
      have : 2 ^ shift * b.toNat ≤ 2 ^ shift * 255 := Nat.mul_le_mul_left _ (by omega)
      omega
    have := ih (pre ++ [b]) (shift + 8) (value + 2 ^ shift * b.toNat) hlt
    simp only [List.append_assoc, List.singleton_append, List.length_append, List.length_cons,
      List.length_nil] at this
    rw [hor]
    simp only [List.append_assoc, List.cons_append] at *
    rw [this]
    simp only [leNat, Nat.pow_add]
    congr 2
    · rw [Nat.mul_add, Nat.mul_assoc, Nat.add_assoc]
    · omega

theorem prefix_byte (a b c : Nat) (ha : 1 ≤ a ∧ a ≤ 8) (hb : 1 ≤ b ∧ b ≤ 8) (hc : 1 ≤ c ∧ c ≤ 4) :
    let v := (UInt8.ofNat ((a - 1) * 32 + (b - 1) * 4 + (c - 1))).toNat
    (v >>> 5) + 1 = a ∧ ((v &&& 0x1F) >>> 2) + 1 = b ∧ (v &&& 3) + 1 = c := by
  have key : ∀ a : Fin 8, ∀ b : Fin 8, ∀ c : Fin 4,
      let v := (UInt8.ofNat (a.val * 32 + b.val * 4 + c.val)).toNat
      (v >>> 5) = a.val ∧ ((v &&& 0x1F) >>> 2) = b.val ∧ (v &&& 3) = c.val := by decide +kernel
  have := key ⟨a - 1, by omega⟩ ⟨b - 1, by omega⟩ ⟨c - 1, by omega⟩
  simp only at this ⊢
  omega

theorem readKeyPrefix_bytes (v : UInt8) (x y z rest : Bytes)
    (hx : x.length = (v.toNat >>> 5) + 1) (hy : y.length = ((v.toNat &&& 0x1F) >>> 2) + 1)
    (hz : z.length = (v.toNat &&& 3) + 1) :
    readKeyPrefix (v :: (x ++ y ++ z) ++ rest) =
      .ok ((leNat x, leNat y, leNat z), 1 + x.length + y.length + z.length) := by
  have h1 := readIdentifier_append [v] x (y ++ z ++ rest) 0 0 (by simp)
  have h2 := readIdentifier_append ([v] ++ x) y (z ++ rest) 0 0 (by simp)
  have h3 := readIdentifier_append ([v] ++ x ++ y) z rest 0 0 (by simp)
  simp only [List.cons_append, List.nil_append, List.append_assoc, List.length_cons,
    List.length_append, List.length_nil, Nat.zero_add, Nat.pow_zero, Nat.one_mul] at h1 h2 h3
  simp only [readKeyPrefix, List.cons_append, List.append_assoc, List.getElem?_cons_zero]
  rw [← hx, ← hy, ← hz, h1]
  simp only
  rw [show 1 + x.length = x.length + 1 by omega, h2]
  simp only
  rw [show x.length + 1 + y.length = x.length + y.length + 1 by omega, h3]

/-- C19.  Every choice of identifiers and lengths is recovered, whatever key bytes follow. -/
theorem C19_round_trip (a b c database store index : Nat) (rest : Bytes)
    (ha : 1 ≤ a ∧ a ≤ 8) (hb : 1 ≤ b ∧ b ≤ 8) (hc : 1 ≤ c ∧ c ≤ 4)
    (hd : database < 256 ^ a) (hs : store < 256 ^ b) (hi : index < 256 ^ c) :
    readKeyPrefix (encodePrefix a b c database store index ++ rest) =
      .ok ((database, store, index), 1 + a + b + c) := by
  obtain ⟨h1, h2, h3⟩ := prefix_byte a b c ha hb hc
  rw [encodePrefix, readKeyPrefix_bytes _ _ _ _ _ (by rw [h1, leBytes_length])
    (by rw [h2, leBytes_length]) (by rw [h3, leBytes_length])]
  simp only [leNat_leBytes, leBytes_length, Nat.mod_eq_of_lt hd, Nat.mod_eq_of_lt hs,
    Nat.mod_eq_of_lt hi]

example : readKeyPrefix (encodePrefix 2 1 4 300 7 70000 ++ [1, 2]) = .ok ((300, 7, 70000), 8) :=
  C19_round_trip 2 1 4 300 7 70000 [1, 2] (by omega) (by omega) (by omega) (by omega) (by omega)
    (by omega)

theorem readIdentifier_split (data : Bytes) (count off shift value r n : Nat)
    (h : readIdentifier data count off shift value = .ok (r, n)) :
    n = off + count ∧ (count = 0 ∨ off + count ≤ data.length) := by
  induction count generalizing off shift value with
  | zero =>
    simp only [readIdentifier, Except.ok.injEq, Prod.mk.injEq] at h
    omega
  | succ count ih =>
    rw [readIdentifier] at h
    split at h
    · simp at h
    · rename_i b hb
      have hlt : off < data.length := (List.getElem?_eq_some_iff.mp hb).1
      obtain ⟨h1, h2⟩ := ih _ _ _ h
      omega

/-- C19.  What a successful read means: the key is the first byte, the three identifiers in their
announced lengths, and the rest. -/
theorem C19_decodes (key : Bytes) (d s i n : Nat) (h : readKeyPrefix key = .ok ((d, s, i), n)) :
    ∃ v x y z rest, key = v :: (x ++ y ++ z) ++ rest ∧ x.length = (v.toNat >>> 5) + 1 ∧
      y.length = ((v.toNat &&& 0x1F) >>> 2) + 1 ∧ z.length = (v.toNat &&& 3) + 1 ∧
      d = leNat x ∧ s = leNat y ∧ i = leNat z ∧ n = 1 + x.length + y.length + z.length := by
  have h0 := h
  unfold readKeyPrefix at h
  split at h
  · simp at h
  · rename_i v hv
    obtain ⟨tail, rfl⟩ : ∃ tail, key = v :: tail := by
      cases key with
      | nil => simp at hv
      | cons w t => simp at hv; exact ⟨t, by rw [hv]⟩
    split at h
    · simp at h
    · rename_i d' n1 h1
      split at h
      · simp at h
      · rename_i s' n2 h2
        split at h
        · simp at h
        · rename_i i' n3 h3
          obtain ⟨a1, b1⟩ := readIdentifier_split _ _ _ _ _ _ _ h1
          obtain ⟨a2, b2⟩ := readIdentifier_split _ _ _ _ _ _ _ h2
          obtain ⟨a3, b3⟩ := readIdentifier_split _ _ _ _ _ _ _ h3
          generalize hA : (v.toNat >>> 5) + 1 = A at *
          generalize hB : ((v.toNat &&& 0x1F) >>> 2) + 1 = B at *
          generalize hC : (v.toNat &&& 3) + 1 = C at *
          simp only [List.length_cons] at b1 b2 b3
          have hk : v :: tail = v :: (tail.take A ++ (tail.drop A).take B ++
              (tail.drop (A + B)).take C) ++ tail.drop (A + B + C) := by
            simp only [List.cons_append, List.append_assoc, List.cons.injEq, true_and]
            rw [← List.drop_drop (j := A + B), List.take_append_drop, ← List.drop_drop (j := A),
              List.take_append_drop, List.take_append_drop]
          have l1 : (tail.take A).length = A := by simp; omega
          have l2 : ((tail.drop A).take B).length = B := by simp; omega
          have l3 : ((tail.drop (A + B)).take C).length = C := by simp; omega
          refine ⟨v, tail.take A, (tail.drop A).take B, (tail.drop (A + B)).take C,
            tail.drop (A + B + C), hk, by rw [l1, hA], by rw [l2, hB], by rw [l3, hC], ?_⟩
          rw [hk, readKeyPrefix_bytes _ _ _ _ _ (by rw [l1, hA]) (by rw [l2, hB]) (by rw [l3, hC])]
            at h0
          simp only [Except.ok.injEq, Prod.mk.injEq] at h0
          obtain ⟨⟨e1, e2, e3⟩, e4⟩ := h0
          exact ⟨e1.symm, e2.symm, e3.symm, e4.symm⟩

/-! ### `repr` -/

/-- A set of words none of which is a proper prefix of another. -/
theorem flatMap_injective {α β : Type} (f : α → List β)
    (hne : ∀ a, f a ≠ [])
    (hp : ∀ a b r s, f a ++ r = f b ++ s → a = b ∧ r = s) :
    ∀ l m : List α, l.flatMap f = m.flatMap f → l = m := by
  intro l
  induction l with
  | nil =>
    intro m h
    cases m with
    | nil => rfl
    | cons b m =>
      simp only [List.flatMap_nil, List.flatMap_cons] at h
      exact absurd (List.append_eq_nil_iff.mp h.symm).1 (hne b)
  | cons a l ih =>
    intro m h
    cases m with
    | nil =>
      simp only [List.flatMap_nil, List.flatMap_cons] at h
      exact absurd (List.append_eq_nil_iff.mp h).1 (hne a)
    | cons b m =>
      simp only [List.flatMap_cons] at h
      obtain ⟨h1, h2⟩ := hp _ _ _ _ h
      rw [h1, ih m h2]

/-- How many characters the escape at the front takes, told by its first two characters. -/
def unitSize : List Char → Nat
  | '\\' :: 'x' :: _ => 4
  | '\\' :: _ => 2
  | _ => 1

theorem unitSize_escape (q : Char) (hq : q = '"' ∨ q = '\'') (b : UInt8) (r : List Char) :
    unitSize (escape q b ++ r) = (escape q b).length := by
  have key : ∀ n : Fin 256, ∀ q ∈ ['"', '\''],
      (escape q (UInt8.ofNat n.val)).length = 1 ∧ (escape q (UInt8.ofNat n.val)).head? ≠ some '\\' ∨
      (escape q (UInt8.ofNat n.val)).length = 2 ∧ (escape q (UInt8.ofNat n.val)).head? = some '\\' ∧
        (escape q (UInt8.ofNat n.val))[1]? ≠ some 'x' ∨
      (escape q (UInt8.ofNat n.val)).length = 4 ∧ (escape q (UInt8.ofNat n.val)).head? = some '\\' ∧
        (escape q (UInt8.ofNat n.val))[1]? = some 'x' := by decide +kernel
  have hb := key ⟨b.toNat, b.toNat_lt⟩ q (by rcases hq with h | h <;> simp [h])
  simp only [UInt8.ofNat_toNat] at hb
  generalize escape q b = w at hb
  rcases hb with ⟨h1, h2⟩ | ⟨h1, h2, h3⟩ | ⟨h1, h2, h3⟩
  · match w, h1 with
    | [c], _ =>
      simp only [List.head?_cons, ne_eq, Option.some.injEq] at h2
      simp only [List.singleton_append, List.length_singleton]
      unfold unitSize
      split
      · simp_all
      · simp_all
      · rfl
  · match w, h1 with
    | [c, d], _ =>
      simp only [List.head?_cons, Option.some.injEq] at h2
      simp only [List.getElem?_cons_succ, List.getElem?_cons_zero, ne_eq, Option.some.injEq] at h3
      subst h2
      simp only [List.cons_append, List.nil_append, List.length_cons, List.length_nil]
      unfold unitSize
      split
      · simp_all
      · rfl
      · simp_all
  · match w, h1 with
    | [c, d, e, f], _ =>
      simp only [List.head?_cons, Option.some.injEq] at h2
      simp only [List.getElem?_cons_succ, List.getElem?_cons_zero, Option.some.injEq] at h3
      subst h2 h3
      rfl

/-- The byte an escape stands for. -/
def unescape : List Char → Nat
  | ['\\', 'x', a, b] => (Text.digitVal a).getD 0 * 16 + (Text.digitVal b).getD 0
  | ['\\', 't'] => 9
  | ['\\', 'n'] => 10
  | ['\\', 'r'] => 13
  | ['\\', c] => c.toNat
  | [c] => c.toNat
  | _ => 0

theorem unescape_escape (q : Char) (hq : q = '"' ∨ q = '\'') (b : UInt8) :
    unescape (escape q b) = b.toNat := by
  have key : ∀ n : Fin 256, ∀ q ∈ ['"', '\''],
      unescape (escape q (UInt8.ofNat n.val)) = n.val := by decide +kernel
  have := key ⟨b.toNat, b.toNat_lt⟩ q (by rcases hq with h | h <;> simp [h])
  simpa using this

theorem escape_prefix (q : Char) (hq : q = '"' ∨ q = '\'') (a b : UInt8) (r s : List Char)
    (h : escape q a ++ r = escape q b ++ s) : a = b ∧ r = s := by
  have hl : (escape q a).length = (escape q b).length := by
    rw [← unitSize_escape q hq a r, ← unitSize_escape q hq b s, h]
  obtain ⟨h1, h2⟩ := List.append_inj h hl
  refine ⟨?_, h2⟩
  have := congrArg unescape h1
  rw [unescape_escape q hq, unescape_escape q hq] at this
  exact UInt8.toNat_inj.mp this

theorem quoteOf_cases (data : Bytes) : quoteOf data = '"' ∨ quoteOf data = '\'' := by
  unfold quoteOf
  split <;> simp

/-- C19.  The text of the remaining key is lossless: it is different for different bytes. -/
theorem C19_repr_injective (x y : Bytes) (h : reprTail x = reprTail y) : x = y := by
  simp only [reprTail, List.cons.injEq] at h
  obtain ⟨hq, h⟩ := h
  rw [hq] at h
  have h := List.append_cancel_right h
  have hqy := quoteOf_cases y
  refine flatMap_injective (escape (quoteOf y)) ?_ (fun a b r s => escape_prefix _ hqy a b r s) _ _ h
  intro a ha
  have := unitSize_escape (quoteOf y) hqy a []
  rw [ha] at this
  simp [unitSize] at this

theorem identifiers_inj (v : UInt8) (x y z x' y' z' : Bytes)
    (h1 : x.length = x'.length) (h2 : y.length = y'.length) (h3 : z.length = z'.length)
    (e1 : leNat x = leNat x') (e2 : leNat y = leNat y') (e3 : leNat z = leNat z') :
    v :: (x ++ y ++ z) = v :: (x' ++ y' ++ z') := by
  have a1 : x = x' := by rw [← leBytes_leNat x, ← leBytes_leNat x', h1, e1]
  have a2 : y = y' := by rw [← leBytes_leNat y, ← leBytes_leNat y', h2, e2]
  have a3 : z = z' := by rw [← leBytes_leNat z, ← leBytes_leNat z', h3, e3]
  rw [a1, a2, a3]

theorem reprTail_ne_nil (x : Bytes) : reprTail x ≠ [] := by simp [reprTail]

/-- The part of the segments after the identifiers determines the rest of the key. -/
theorem rest_inj (r r' : Bytes)
    (h : (if 0 < r.length then [reprTail r] else []) =
      (if 0 < r'.length then [reprTail r'] else [])) : r = r' := by
  split at h <;> split at h
  · simp only [List.cons.injEq, and_true] at h
    exact C19_repr_injective _ _ h
  · simp at h
  · simp at h
  · have h1 : r.length = 0 := by omega
    have h2 : r'.length = 0 := by omega
    rw [List.eq_nil_of_length_eq_zero h1, List.eq_nil_of_length_eq_zero h2]

theorem keySegments_bytes (v : UInt8) (x y z rest : Bytes)
    (hx : x.length = (v.toNat >>> 5) + 1) (hy : y.length = ((v.toNat &&& 0x1F) >>> 2) + 1)
    (hz : z.length = (v.toNat &&& 3) + 1) :
    keySegments (v :: (x ++ y ++ z) ++ rest) =
      if (leNat x, leNat y, leNat z) = (0, 0, 0) then
        match rest with
        | [] => .error .indexError
        | t :: rest =>
          .ok ([Text.digits 10 (leNat x), Text.digits 10 (leNat y), Text.digits 10 (leNat z)] ++
            [Text.digits 10 t.toNat] ++ (if 0 < rest.length then [reprTail rest] else []))
      else .ok ([Text.digits 10 (leNat x), Text.digits 10 (leNat y), Text.digits 10 (leNat z)] ++
        (if 0 < rest.length then [reprTail rest] else [])) := by
  have hlen : (v :: (x ++ y ++ z)).length = 1 + x.length + y.length + z.length := by
    simp
    omega
  rw [keySegments, readKeyPrefix_bytes _ _ _ _ _ hx hy hz]
  simp only
  rw [← hlen]
  split
  · cases rest with
    | nil => simp
    | cons t rest =>
      have hg : (v :: (x ++ y ++ z) ++ t :: rest)[(v :: (x ++ y ++ z)).length]? = some t := by
        rw [List.getElem?_append_right (Nat.le_refl _), Nat.sub_self]
        rfl
      rw [hg]
      simp only
      have hd : (v :: (x ++ y ++ z) ++ t :: rest).drop ((v :: (x ++ y ++ z)).length + 1) = rest := by
        rw [← List.drop_drop, List.drop_left]
        rfl
      rw [hd]
      have hc : ((v :: (x ++ y ++ z)).length + 1 < (v :: (x ++ y ++ z) ++ t :: rest).length) ↔
          0 < rest.length := by
        rw [List.length_append, List.length_cons (a := t)]
        omega
      simp only [hc]
  · rw [List.drop_left]
    have hc : ((v :: (x ++ y ++ z)).length < (v :: (x ++ y ++ z) ++ rest).length) ↔
        0 < rest.length := by
      rw [List.length_append]
      omega
    simp only [hc]

/-- C19.  Key segments are lossless given the byte of the lengths: two keys with the same first byte
and the same segments are equal. -/
theorem C19_segments_lossless (k k' : Bytes) (segs : List (List Char))
    (h : keySegments k = .ok segs) (h' : keySegments k' = .ok segs) (hfirst : k[0]? = k'[0]?) :
    k = k' := by
  have get : ∀ k : Bytes, keySegments k = .ok segs → ∃ d s i n, readKeyPrefix k = .ok ((d, s, i), n) := by
    intro k h
    unfold keySegments at h
    split at h
    · simp at h
    · rename_i d s i n hr
      exact ⟨d, s, i, n, hr⟩
  obtain ⟨d, s, i, n, hr⟩ := get k h
  obtain ⟨d', s', i', n', hr'⟩ := get k' h'
  obtain ⟨v, x, y, z, rest, rfl, hx, hy, hz, rfl, rfl, rfl, hn⟩ := C19_decodes _ _ _ _ _ hr
  obtain ⟨v', x', y', z', rest', rfl, hx', hy', hz', rfl, rfl, rfl, hn'⟩ := C19_decodes _ _ _ _ _ hr'
  have hv : v = v' := by simpa using hfirst
  subst hv
  rw [keySegments_bytes _ _ _ _ _ hx hy hz] at h
  rw [keySegments_bytes _ _ _ _ _ hx' hy' hz'] at h'
  have inj := fun m n => Text.digits_injective 10 (by omega) (by omega) m n
  have fin : leNat x = leNat x' → leNat y = leNat y' → leNat z = leNat z' → rest = rest' →
      v :: (x ++ y ++ z) ++ rest = v :: (x' ++ y' ++ z') ++ rest' := by
    intro e1 e2 e3 e4
    rw [identifiers_inj v x y z x' y' z' (by omega) (by omega) (by omega) e1 e2 e3, e4]
  split at h
  · rename_i hzero
    cases rest with
    | nil => simp at h
    | cons t rest =>
      simp only [Except.ok.injEq] at h
      subst h
      split at h'
      · cases rest' with
        | nil => simp at h'
        | cons t' rest' =>
          simp only [Except.ok.injEq, List.cons_append, List.nil_append, List.cons.injEq] at h'
          obtain ⟨e1, e2, e3, e4, e5⟩ := h'
          apply fin (inj _ _ e1.symm) (inj _ _ e2.symm) (inj _ _ e3.symm)
          rw [UInt8.toNat_inj.mp (inj _ _ e4.symm), rest_inj _ _ e5.symm]
      · rename_i hnz
        exfalso
        simp only [Except.ok.injEq, List.cons_append, List.nil_append, List.cons.injEq] at h'
        obtain ⟨e1, e2, e3, _⟩ := h'
        apply hnz
        rw [inj _ _ e1, inj _ _ e2, inj _ _ e3]
        exact hzero
  · rename_i hnz
    simp only [Except.ok.injEq] at h
    subst h
    split at h'
    · rename_i hzero
      cases rest' with
      | nil => simp at h'
      | cons t' rest' =>
        exfalso
        simp only [Except.ok.injEq, List.cons_append, List.nil_append, List.cons.injEq] at h'
        obtain ⟨e1, e2, e3, _⟩ := h'
        apply hnz
        rw [← inj _ _ e1, ← inj _ _ e2, ← inj _ _ e3]
        exact hzero
    · simp only [Except.ok.injEq, List.cons_append, List.nil_append, List.cons.injEq] at h'
      obtain ⟨e1, e2, e3, e5⟩ := h'
      exact fin (inj _ _ e1.symm) (inj _ _ e2.symm) (inj _ _ e3.symm) (rest_inj _ _ e5.symm)

/-- Two keys that meet the hypotheses with segments (the identifiers 0, 1, 0 and a remaining key). -/
example : keySegments [0, 0, 1, 0, 9, 39] =
    .ok [['0'], ['1'], ['0'], ['"', '\\', 't', '\'', '"']] := by decide +kernel

/-- The unconditional claim: equal segments come from equal keys. -/
def C19_segments_injective_claim : Prop :=
  ∀ k k' segs, keySegments k = .ok segs → keySegments k' = .ok segs → k = k'

/-- C19.  It is false: the stored lengths of the identifiers are not shown. -/
theorem C19_segments_not_injective : ¬ C19_segments_injective_claim := by
  intro h
  have := h [0, 0, 1, 0, 9] [1, 0, 1, 0, 0, 9]
    [['0'], ['1'], ['0'], ['\'', '\\', 't', '\'']] (by decide +kernel) (by decide +kernel)
  simp at this

/-- C19.  Every entry of the table is delivered with its own sequence number, type and value, as long
as the keys can be taken apart. -/
theorem C19_entries (dec : Decompress) (data : Bytes) (es : List Entry) (segs : Entry → List (List Char))
    (h : readTableEntries dec data = (es, none)) (hk : ∀ e ∈ es, keySegments e.key = .ok (segs e)) :
    readEntries dec data =
      (es.map fun e => ⟨segs e, e.sequence, e.valueType, e.value⟩, none) := by
  have key : ∀ es : List Entry, (∀ e ∈ es, keySegments e.key = .ok (segs e)) →
      convertEntries es = (es.map fun e => ⟨segs e, e.sequence, e.valueType, e.value⟩, none) := by
    intro es
    induction es with
    | nil => intro _; rfl
    | cons e es ih =>
      intro hk
      rw [convertEntries, hk e (List.mem_cons_self ..), ih fun e he => hk e (List.mem_cons_of_mem _ he)]
      rfl
  simp only [readEntries, h, key es hk]

end Dtf.IndexedDB
