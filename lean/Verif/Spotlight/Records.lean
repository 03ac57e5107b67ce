import Verif.Spotlight.Pages

/-!
# Spotlight records (C60, C63)
-/

namespace Dtf.Spotlight
open Py DataFormat

/-! ## Specification -/

/-- An attribute as stored: the difference of its type index with the one before it, in a size, and
the bytes of the value. -/
structure Stored where
  size : Nat
  relative : Nat
  value : Bytes
deriving DecidableEq

def Stored.bytes (s : Stored) : Bytes := encodeVarInt s.size s.relative ++ s.value

/-- A record: the header values, each in a size, and the attributes. -/
structure Rec where
  identifier : Nat × Nat
  flags : UInt8
  item : Nat × Nat
  parent : Nat × Nat
  time : Nat × Nat
  attributes : List Stored

def Rec.header (r : Rec) : Bytes :=
  encodeVarInt r.identifier.1 r.identifier.2 ++ ([r.flags] ++
    (encodeVarInt r.item.1 r.item.2 ++ (encodeVarInt r.parent.1 r.parent.2 ++
      encodeVarInt r.time.1 r.time.2)))

def Rec.body (r : Rec) : Bytes := r.header ++ r.attributes.flatMap Stored.bytes

def Rec.bytes (r : Rec) : Bytes := leBytes 4 r.body.length ++ r.body

def Rec.Ok (r : Rec) : Prop :=
  Fits r.identifier.1 r.identifier.2 ∧ Fits r.item.1 r.item.2 ∧ Fits r.parent.1 r.parent.2 ∧
    Fits r.time.1 r.time.2 ∧ r.body.length < 2 ^ 32

def Rec.toHeader (r : Rec) : RecordHeader :=
  { dataSize := r.body.length, identifier := r.identifier.2, flags := r.flags.toNat,
    itemIdentifier := r.item.2, parentIdentifier := r.parent.2, lastUpdateTime := r.time.2 }

/-- The stored attributes stand for the given ones: the type indexes add up to the types, and each
value is self-delimiting, it reads as the attribute whatever follows it. -/
def Means (other : Nat → Nat → Bytes → Res (Val × Nat)) (types : Nat → Option MetaType) :
    Nat → List Stored → List Attr → Prop
  | _, [], [] => True
  | index, s :: ss, a :: as =>
    Fits s.size s.relative ∧
    (∀ rest, readAttribute other (types (index + s.relative)) (s.value ++ rest) =
      .ok (some a, s.value.length)) ∧
    Means other types (index + s.relative) ss as
  | _, _, _ => False

/-- The number of attributes that are read: all up to the first one that starts in the last four
bytes of the record. -/
def kept : List Stored → Nat
  | [] => 0
  | s :: ss => if ((s :: ss).flatMap Stored.bytes).length ≤ 4 then 0 else kept ss + 1

/-! ## Proofs -/

theorem readVarInts_three (a b c : Nat × Nat) (rest : Bytes) (ha : Fits a.1 a.2) (hb : Fits b.1 b.2)
    (hc : Fits c.1 c.2) :
    readVarInts 3 (encodeVarInt a.1 a.2 ++ (encodeVarInt b.1 b.2 ++ (encodeVarInt c.1 c.2 ++ rest))) =
      .ok ([a.2, b.2, c.2], (encodeVarInt a.1 a.2).length + ((encodeVarInt b.1 b.2).length +
        (encodeVarInt c.1 c.2).length)) := by
  simp only [readVarInts, C24_round_trip _ _ _ ha, C24_round_trip _ _ _ hb,
    C24_round_trip _ _ _ hc, List.drop_left]
  simp

theorem readRecordHeader_rec (r : Rec) (rest : Bytes) (h : r.Ok) :
    readRecordHeader (r.bytes ++ rest) = .ok (r.toHeader, 4 + r.header.length) := by
  obtain ⟨h1, h2, h3, h4, h5⟩ := h
  have e0 : r.bytes ++ rest = leBytes 4 r.body.length ++
      (encodeVarInt r.identifier.1 r.identifier.2 ++ ([r.flags] ++
        (encodeVarInt r.item.1 r.item.2 ++ (encodeVarInt r.parent.1 r.parent.2 ++
          (encodeVarInt r.time.1 r.time.2 ++ (r.attributes.flatMap Stored.bytes ++ rest)))))) := by
    simp only [Rec.bytes, Rec.body, Rec.header, List.append_assoc]
  have e1 : ∀ t : Bytes, (leBytes 4 r.body.length ++ t).drop 4 = t := fun t =>
    List.drop_left' (by simp)
  have e2 : ∀ t : Bytes, (leBytes 4 r.body.length ++
      (encodeVarInt r.identifier.1 r.identifier.2 ++ t)).drop
        (4 + (encodeVarInt r.identifier.1 r.identifier.2).length) = t := by
    intro t
    rw [← List.append_assoc]
    exact List.drop_left' (by simp)
  have e3 : ∀ (x : UInt8) (t : Bytes), (leBytes 4 r.body.length ++
      (encodeVarInt r.identifier.1 r.identifier.2 ++ ([x] ++ t)))[4 +
        (encodeVarInt r.identifier.1 r.identifier.2).length]? = some x := by
    intro x t
    rw [← List.append_assoc, List.getElem?_append_right (by simp)]
    simp
  have e4 : ∀ (x : UInt8) (t : Bytes), (leBytes 4 r.body.length ++
      (encodeVarInt r.identifier.1 r.identifier.2 ++ ([x] ++ t))).drop
        (4 + (encodeVarInt r.identifier.1 r.identifier.2).length + 1) = t := by
    intro x t
    rw [← List.append_assoc, ← List.append_assoc]
    exact List.drop_left' (by simp; omega)
  unfold readRecordHeader
  rw [e0, if_neg (by simp), e1, C24_round_trip _ _ _ h1]
  dsimp only
  rw [e3]
  dsimp only
  rw [e4, readVarInts_three _ _ _ _ h2 h3 h4]
  dsimp only
  have e5 : leNat ((leBytes 4 r.body.length ++ (encodeVarInt r.identifier.1 r.identifier.2 ++
      ([r.flags] ++ (encodeVarInt r.item.1 r.item.2 ++ (encodeVarInt r.parent.1 r.parent.2 ++
        (encodeVarInt r.time.1 r.time.2 ++ (r.attributes.flatMap Stored.bytes ++ rest))))))).take 4) =
      r.body.length := by
    rw [List.take_left' (by simp), leNat_leBytes, Nat.mod_eq_of_lt (by omega)]
  rw [e5]
  simp only [Rec.toHeader, Rec.header, List.length_append, List.length_cons, List.length_nil]
  congr 2
  omega

theorem recordLoop_means (other : Nat → Nat → Bytes → Res (Val × Nat))
    (types : Nat → Option MetaType) (pre post : Bytes) (ss : List Stored) (as acc : List Attr)
    (index endOff dataSize recordOff fuel : Nat) (h : Means other types index ss as)
    (he : (pre ++ ss.flatMap Stored.bytes).length ≤ endOff)
    (hr : recordOff + (ss.flatMap Stored.bytes).length = dataSize + 4) (hf : ss.length < fuel) :
    recordLoop other types (pre ++ ss.flatMap Stored.bytes ++ post) endOff dataSize fuel pre.length
      recordOff index acc = some (.ok (acc ++ as.take (kept ss))) := by
  induction ss generalizing pre as acc index recordOff fuel with
  | nil =>
    cases fuel with
    | zero => omega
    | succ fuel =>
      rw [recordLoop, if_neg (by simp at hr; omega)]
      simp [kept]
  | cons s ss ih =>
    cases fuel with
    | zero => omega
    | succ fuel =>
    cases as with
    | nil => exact absurd h (by simp [Means])
    | cons a as =>
      obtain ⟨h1, h2, h3⟩ := h
      rw [recordLoop, kept]
      by_cases hk : ((s :: ss).flatMap Stored.bytes).length ≤ 4
      · rw [if_neg (by omega), if_pos hk]
        simp
      · rw [if_pos (by omega), if_neg hk]
        have hs : ∀ n, ∃ t, slice (pre ++ (s :: ss).flatMap Stored.bytes ++ post)
            (pre.length + n) endOff = ((s :: ss).flatMap Stored.bytes).drop n ++ t ∨
              ((s :: ss).flatMap Stored.bytes).length < n := by
          intro n
          refine ⟨post.take (endOff - (pre ++ (s :: ss).flatMap Stored.bytes).length), ?_⟩
          by_cases hn : n ≤ ((s :: ss).flatMap Stored.bytes).length
          · left
            rw [slice, List.take_append, List.take_of_length_le (by simpa using he),
              List.append_assoc, ← List.drop_drop, List.drop_left,
              List.drop_append_of_le_length hn]
          · right; omega
        have hb : (s :: ss).flatMap Stored.bytes =
            encodeVarInt s.size s.relative ++ (s.value ++ ss.flatMap Stored.bytes) := by
          simp [Stored.bytes]
        have hround : readRecordAttr other types (pre ++ (s :: ss).flatMap Stored.bytes ++ post)
            endOff pre.length index = .ok (a, index + s.relative, s.bytes.length) := by
          unfold readRecordAttr
          obtain ⟨t, ht⟩ := hs 0
          rw [Nat.add_zero] at ht
          rcases ht with ht | ht
          · rw [ht, List.drop_zero, hb, List.append_assoc, C24_round_trip _ _ _ h1]
            dsimp only
            obtain ⟨u, hu⟩ := hs (encodeVarInt s.size s.relative).length
            rcases hu with hu | hu
            · rw [hb, List.drop_left] at hu
              rw [hu, List.append_assoc, h2]
              simp [Stored.bytes]
            · rw [hb] at hu
              simp at hu
          · omega
        rw [hround]
        dsimp only
        have hsl : (encodeVarInt s.size s.relative ++ s.value).length = s.bytes.length := rfl
        have hlen : ((s :: ss).flatMap Stored.bytes).length =
            s.bytes.length + (ss.flatMap Stored.bytes).length := by
          simp [List.flatMap_cons]
        have := ih (pre ++ s.bytes) as (acc ++ [a]) (index + s.relative) (recordOff + s.bytes.length)
          fuel h3 (by
            simp only [List.flatMap_cons, List.length_append] at he ⊢
            omega) (by omega) (by simp at hf; omega)
        rw [List.length_append] at this
        rw [show pre ++ (s :: ss).flatMap Stored.bytes ++ post =
          pre ++ s.bytes ++ ss.flatMap Stored.bytes ++ post by simp [List.flatMap_cons]]
        rw [this, List.take_succ_cons]
        simp

/-- What reading a record gives, for every record, wherever it is in its page: its header values
and the first `kept` attributes. -/
theorem C60_record (other : Nat → Nat → Bytes → Res (Val × Nat)) (types : Nat → Option MetaType)
    (r : Rec) (as : List Attr) (pre post : Bytes) (fuel : Nat) (h : r.Ok)
    (hm : Means other types 0 r.attributes as) (hf : r.attributes.length < fuel) :
    readRecord other types fuel (pre ++ r.bytes ++ post) (pre.length + 20) =
      some (.ok (r.toHeader, as.take (kept r.attributes))) := by
  unfold readRecord
  dsimp only
  rw [show pre.length + 20 - 20 = pre.length by omega, List.append_assoc, List.drop_left,
    readRecordHeader_rec r post h]
  dsimp only
  have e : pre ++ (r.bytes ++ post) =
      (pre ++ (leBytes 4 r.body.length ++ r.header)) ++ r.attributes.flatMap Stored.bytes ++ post := by
    simp [Rec.bytes, Rec.body]
  have el : (pre ++ (leBytes 4 r.body.length ++ r.header)).length = pre.length + (4 + r.header.length) := by
    simp
  have := recordLoop_means other types (pre ++ (leBytes 4 r.body.length ++ r.header)) post
    r.attributes as [] 0 (pre.length + (4 + r.header.length) + r.body.length) r.body.length
    (4 + r.header.length) fuel hm
    (by
      rw [List.length_append, el]
      simp only [Rec.body, List.length_append]; omega)
    (by simp only [Rec.body, List.length_append]; omega) hf
  rw [el, ← e] at this
  rw [show r.toHeader.dataSize = r.body.length from rfl, this]
  simp

/-- The full claim of C60: every attribute of a record is read. -/
def C60_record_claim : Prop :=
  ∀ (other : Nat → Nat → Bytes → Res (Val × Nat)) (types : Nat → Option MetaType)
    (r : Rec) (as : List Attr) (pre post : Bytes) (fuel : Nat), r.Ok →
    Means other types 0 r.attributes as → r.attributes.length < fuel →
    readRecord other types fuel (pre ++ r.bytes ++ post) (pre.length + 20) =
      some (.ok (r.toHeader, as))

/-! ### Values that read back -/

/-- Integer attributes read back. -/
theorem C60_integer_value (other : Nat → Nat → Bytes → Res (Val × Nat)) (t : MetaType) (n v : Nat)
    (rest : Bytes) (hk : t.keyName ≠ "kMDStoreAccumulatedSizes")
    (ht : t.valueType = 0 ∨ t.valueType = 2 ∨ t.valueType = 6) (hv : Fits n v) :
    readAttribute other (some t) (encodeVarInt n v ++ rest) =
      .ok (some ⟨t.keyName, t.valueType, t.propertyType, .int v⟩, (encodeVarInt n v).length) := by
  unfold readAttribute
  simp only [if_neg hk, if_pos ht, C24_round_trip _ _ _ hv]

/-- Single integers of a type that may hold lists read back. -/
theorem C60_single_integer_value (other : Nat → Nat → Bytes → Res (Val × Nat)) (t : MetaType)
    (n v : Nat) (rest : Bytes) (hk : t.keyName ≠ "kMDStoreAccumulatedSizes")
    (ht : t.valueType = 7) (hp : t.propertyType &&& 2 = 0) (hv : Fits n v) :
    readAttribute other (some t) (encodeVarInt n v ++ rest) =
      .ok (some ⟨t.keyName, t.valueType, t.propertyType, .int v⟩, (encodeVarInt n v).length) := by
  unfold readAttribute readIntValue
  simp only [if_neg hk, ht, hp, C24_round_trip _ _ _ hv]
  rfl

/-- Byte attributes read back. -/
theorem C60_byte_value (other : Nat → Nat → Bytes → Res (Val × Nat)) (t : MetaType) (b : UInt8)
    (rest : Bytes) (hk : t.keyName ≠ "kMDStoreAccumulatedSizes")
    (ht : t.valueType = 8) (hp : t.propertyType &&& 2 = 0) :
    readAttribute other (some t) ([b] ++ rest) =
      .ok (some ⟨t.keyName, t.valueType, t.propertyType, .int b.toNat⟩, 1) := by
  unfold readAttribute readByteValue
  simp only [if_neg hk, ht, hp]
  rfl

/-- Lists of bytes read back. -/
theorem C60_bytes_value (other : Nat → Nat → Bytes → Res (Val × Nat)) (t : MetaType) (n : Nat)
    (bs rest : Bytes) (hk : t.keyName ≠ "kMDStoreAccumulatedSizes")
    (ht : t.valueType = 8) (hp : t.propertyType &&& 2 ≠ 0) (hv : Fits n bs.length) :
    readAttribute other (some t) ((encodeVarInt n bs.length ++ bs) ++ rest) =
      .ok (some ⟨t.keyName, t.valueType, t.propertyType, .ints (bs.map (·.toNat))⟩,
        (encodeVarInt n bs.length ++ bs).length) := by
  unfold readAttribute readByteValue
  have e : slice (encodeVarInt n bs.length ++ (bs ++ rest)) (encodeVarInt n bs.length).length
      ((encodeVarInt n bs.length).length + bs.length) = bs := by
    rw [slice_eq_take_drop, List.drop_left, Nat.add_sub_cancel_left, List.take_left]
  simp only [if_neg hk, ht, if_pos hp, List.append_assoc, C24_round_trip _ _ _ hv, e,
    Nat.lt_irrefl, if_false, List.length_append]
  rfl

/-- Binary data attributes read back. -/
theorem C60_data_value (other : Nat → Nat → Bytes → Res (Val × Nat)) (t : MetaType) (n : Nat)
    (bs rest : Bytes) (hk : t.keyName ≠ "kMDStoreAccumulatedSizes")
    (ht : t.valueType = 0xE) (hv : Fits n bs.length) :
    readAttribute other (some t) ((encodeVarInt n bs.length ++ bs) ++ rest) =
      .ok (some ⟨t.keyName, t.valueType, t.propertyType, .data bs⟩,
        (encodeVarInt n bs.length ++ bs).length) := by
  unfold readAttribute
  have e : slice (encodeVarInt n bs.length ++ (bs ++ rest)) (encodeVarInt n bs.length).length
      ((encodeVarInt n bs.length).length + bs.length) = bs := by
    rw [slice_eq_take_drop, List.drop_left, Nat.add_sub_cancel_left, List.take_left]
  simp only [if_neg hk, ht, List.append_assoc, C24_round_trip _ _ _ hv, e, List.length_append]
  rfl

/-! ### The refutation and the part that holds -/

/-- A record with one attribute, an integer of one byte. -/
def smallRecord : Rec :=
  { identifier := (0, 1), flags := 0, item := (0, 2), parent := (0, 3), time := (0, 4),
    attributes := [⟨0, 5, encodeVarInt 0 6⟩] }

def smallTypes : Nat → Option MetaType := fun n => if n = 5 then some ⟨"kMDItemX", 0, 0⟩ else none

theorem smallRecord_ok : smallRecord.Ok := by
  refine ⟨?_, ?_, ?_, ?_, by decide⟩ <;> (left; decide)

theorem smallRecord_means (other : Nat → Nat → Bytes → Res (Val × Nat)) :
    Means other smallTypes 0 smallRecord.attributes [⟨"kMDItemX", 0, 0, .int 6⟩] := by
  refine ⟨by left; decide, ?_, trivial⟩
  intro rest
  exact C60_integer_value other ⟨"kMDItemX", 0, 0⟩ 0 6 rest (by decide) (by decide)
    (by left; decide)

/-- The claim is false: the attributes in the last four bytes of a record are lost. -/
theorem C60_last_attributes_lost : ¬ C60_record_claim := by
  intro h
  have h1 := h (fun _ _ _ => .error .runtimeError) smallTypes smallRecord _ [] [] 2 smallRecord_ok
    (smallRecord_means _) (by decide)
  have h2 := C60_record (fun _ _ _ => .error .runtimeError) smallTypes smallRecord _ [] [] 2
    smallRecord_ok (smallRecord_means _) (by decide)
  rw [h1] at h2
  simp only [Option.some.injEq, Except.ok.injEq, Prod.mk.injEq, true_and] at h2
  exact absurd h2 (by decide)

theorem kept_all (ss : List Stored) (h : ∀ s, ss.getLast? = some s → 4 < s.bytes.length) :
    kept ss = ss.length := by
  induction ss with
  | nil => rfl
  | cons s ss ih =>
    rw [kept]
    have hl : 4 < ((s :: ss).flatMap Stored.bytes).length := by
      obtain ⟨z, hz⟩ : ∃ z, (s :: ss).getLast? = some z := by
        rw [List.getLast?_eq_some_getLast (by simp)]; exact ⟨_, rfl⟩
      have hz4 := h z hz
      have hmem : z ∈ s :: ss := List.mem_of_getLast? hz
      obtain ⟨a, b, hab⟩ := List.append_of_mem hmem
      rw [hab]
      simp only [List.flatMap_append, List.flatMap_cons, List.length_append]
      omega
    rw [if_neg (by omega), List.length_cons]
    congr 1
    cases ss with
    | nil => rfl
    | cons t ts =>
      apply ih
      intro z hz
      apply h
      rw [List.getLast?_cons_cons]
      exact hz

theorem means_length (other : Nat → Nat → Bytes → Res (Val × Nat)) (types : Nat → Option MetaType)
    (index : Nat) (ss : List Stored) (as : List Attr) (h : Means other types index ss as) :
    ss.length = as.length := by
  induction ss generalizing index as with
  | nil => cases as with
    | nil => rfl
    | cons a as => exact absurd h (by simp [Means])
  | cons s ss ih => cases as with
    | nil => exact absurd h (by simp [Means])
    | cons a as => rw [List.length_cons, List.length_cons, ih _ _ h.2.2]

/-- **C60** (partial): all attributes are read, in order, when the last one takes more than four
bytes.  The attributes in the last four bytes are lost otherwise, see `C60_last_attributes_lost`. -/
theorem C60_record_partial (other : Nat → Nat → Bytes → Res (Val × Nat))
    (types : Nat → Option MetaType) (r : Rec) (as : List Attr) (pre post : Bytes) (fuel : Nat)
    (h : r.Ok) (hm : Means other types 0 r.attributes as) (hf : r.attributes.length < fuel)
    (hl : ∀ s, r.attributes.getLast? = some s → 4 < s.bytes.length) :
    readRecord other types fuel (pre ++ r.bytes ++ post) (pre.length + 20) =
      some (.ok (r.toHeader, as)) := by
  rw [C60_record other types r as pre post fuel h hm hf, kept_all _ hl,
    means_length other types 0 _ _ hm, List.take_length]

/-- A record whose attribute takes six bytes. -/
example : let r : Rec := { smallRecord with attributes := [⟨0, 5, encodeVarInt 4 6⟩] }
    r.Ok ∧ ∀ s, r.attributes.getLast? = some s → 4 < s.bytes.length := by
  refine ⟨⟨?_, ?_, ?_, ?_, by decide⟩, ?_⟩ <;> try (left; decide)
  intro s hs
  simp only [List.getLast?_singleton, Option.some.injEq] at hs
  subst hs
  decide

/-- **C60** (termination): reading a record ends, for all pages, offsets and types, as long as the
reader of the values that are not modelled does not go back. -/
theorem C60_terminates (other : Nat → Nat → Bytes → Res (Val × Nat)) (types : Nat → Option MetaType)
    (page : Bytes) (pvo : Nat) :
    readRecord other types (page.length + 1) page pvo ≠ none := by
  have key : ∀ fuel endOff dataSize off recordOff index acc, page.length < off + fuel → 0 < fuel →
      recordLoop other types page endOff dataSize fuel off recordOff index acc ≠ none := by
    intro fuel
    induction fuel with
    | zero => intros; omega
    | succ fuel ih =>
      intro endOff dataSize off recordOff index acc hf _
      rw [recordLoop]
      split
      · split
        · simp
        · rename_i a i n hr
          have hn : 1 ≤ n ∧ off + 1 ≤ page.length := by
            unfold readRecordAttr at hr
            split at hr
            · simp at hr
            · rename_i rel k hk
              obtain ⟨k1, _, k3⟩ := readVarInt_bounds _ _ _ hk
              simp only [slice, List.length_drop, List.length_take] at k3
              split at hr
              · simp at hr
              · simp at hr
              · simp only [Except.ok.injEq, Prod.mk.injEq] at hr; omega
          by_cases h0 : fuel = 0
          · omega
          · exact ih _ _ _ _ _ _ (by omega) (by omega)
      · simp
  unfold readRecord
  dsimp only
  split
  · simp
  · rename_i h n hh
    have := key (page.length + 1) (pvo - 20 + n + h.dataSize) h.dataSize (pvo - 20 + n) n 0 []
      (by omega) (by omega)
    split
    · rename_i hx; exact absurd hx this
    · simp
    · simp

/-! ## Record pages -/

/-- The descriptors of the records of a page. -/
def descriptors (pageOffset : Nat) : Nat → List Rec → List Descriptor
  | _, [] => []
  | off, r :: rs =>
    { pageOffset := pageOffset, pageValueOffset := off + 20, identifier := r.identifier.2,
      itemIdentifier := r.item.2, parentIdentifier := r.parent.2, lastUpdateTime := r.time.2 } ::
      descriptors pageOffset (off + r.bytes.length) rs

theorem rec_bytes_length (r : Rec) : r.bytes.length = 4 + r.body.length := by
  simp [Rec.bytes]

theorem pageValuesLoop_recs (pageOffset : Nat) (rs : List Rec) (pre : Bytes) (acc : List Descriptor)
    (fuel : Nat) (h : ∀ r ∈ rs, r.Ok) (hf : rs.length < fuel) :
    pageValuesLoop (pre ++ rs.flatMap Rec.bytes) pageOffset fuel pre.length acc =
      some (.ok (acc ++ descriptors pageOffset pre.length rs)) := by
  induction rs generalizing pre acc fuel with
  | nil =>
    cases fuel with
    | zero => omega
    | succ fuel => simp [pageValuesLoop, descriptors]
  | cons r rs ih =>
    cases fuel with
    | zero => omega
    | succ fuel =>
      have hlen := rec_bytes_length r
      rw [pageValuesLoop, if_pos (by
        simp only [List.flatMap_cons, List.length_append]; omega), List.drop_left,
        List.flatMap_cons, readRecordHeader_rec r _ (h r (by simp))]
      dsimp only
      have := ih (pre ++ r.bytes) (acc ++ [⟨pageOffset, pre.length + 20, r.identifier.2, r.item.2,
        r.parent.2, r.time.2⟩]) fuel (fun q hq => h q (List.mem_cons_of_mem _ hq))
        (by simp at hf; omega)
      rw [List.length_append, List.append_assoc] at this
      rw [show r.toHeader.dataSize = r.body.length from rfl, ← hlen]
      rw [show r.toHeader.identifier = r.identifier.2 from rfl,
        show r.toHeader.itemIdentifier = r.item.2 from rfl,
        show r.toHeader.parentIdentifier = r.parent.2 from rfl,
        show r.toHeader.lastUpdateTime = r.time.2 from rfl, this]
      simp [descriptors]

/-- **C63**: reading a page of records gives one descriptor for each record, in order, with the
identifiers stored in the record and the offset at which the record starts. -/
theorem C63_page_descriptors (pageOffset : Nat) (rs : List Rec) (fuel : Nat) (h : ∀ r ∈ rs, r.Ok)
    (hf : rs.length < fuel) :
    pageValuesLoop (rs.flatMap Rec.bytes) pageOffset fuel 0 [] =
      some (.ok (descriptors pageOffset 0 rs)) := by
  have := pageValuesLoop_recs pageOffset rs [] [] fuel h hf
  simpa using this

theorem descriptors_split (pageOffset off : Nat) (before : List Rec) (r : Rec) (after : List Rec) :
    descriptors pageOffset off (before ++ r :: after) =
      descriptors pageOffset off before ++
        ({ pageOffset := pageOffset, pageValueOffset := off + (before.flatMap Rec.bytes).length + 20,
           identifier := r.identifier.2, itemIdentifier := r.item.2, parentIdentifier := r.parent.2,
           lastUpdateTime := r.time.2 } : Descriptor) ::
          descriptors pageOffset (off + (before.flatMap Rec.bytes).length + r.bytes.length) after := by
  induction before generalizing off with
  | nil => simp [descriptors]
  | cons b bs ih =>
    simp only [List.cons_append, descriptors, ih, List.flatMap_cons, List.length_append,
      Nat.add_assoc]

/-- **C63** (look-up): the descriptor of every record of a page leads back to that record: reading
the record at its offset gives the header values the record was stored with. -/
theorem C63_descriptor_finds_record (other : Nat → Nat → Bytes → Res (Val × Nat))
    (types : Nat → Option MetaType) (before after : List Rec) (r : Rec) (as : List Attr)
    (fuel : Nat) (h : r.Ok) (hm : Means other types 0 r.attributes as)
    (hf : r.attributes.length < fuel) :
    readRecord other types fuel ((before ++ r :: after).flatMap Rec.bytes)
      ((before.flatMap Rec.bytes).length + 20) =
      some (.ok (r.toHeader, as.take (kept r.attributes))) := by
  have := C60_record other types r as (before.flatMap Rec.bytes) (after.flatMap Rec.bytes) fuel h hm hf
  rw [← this]
  congr 1
  simp

/-- **C63** (termination): reading a record page ends for all pages. -/
theorem C63_terminates (page : Bytes) (pageOffset : Nat) :
    pageValuesLoop page pageOffset (page.length + 1) 0 [] ≠ none := by
  have key : ∀ fuel off acc, page.length < off + fuel → 0 < fuel →
      pageValuesLoop page pageOffset fuel off acc ≠ none := by
    intro fuel
    induction fuel with
    | zero => intros; omega
    | succ fuel ih =>
      intro off acc hf _
      rw [pageValuesLoop]
      split
      · split
        · simp
        · by_cases h0 : fuel = 0
          · omega
          · exact ih _ _ (by omega) (by omega)
      · simp
  exact key _ _ _ (by omega) (by omega)

example : (∀ r ∈ [smallRecord, smallRecord], r.Ok) ∧
    (descriptors 0x1000 0 [smallRecord, smallRecord]).map (·.pageValueOffset) = [20, 31] := by
  refine ⟨?_, by decide⟩
  intro r hr
  simp only [List.mem_cons, List.not_mem_nil, or_false, or_self] at hr
  subst hr
  exact smallRecord_ok

end Dtf.Spotlight
