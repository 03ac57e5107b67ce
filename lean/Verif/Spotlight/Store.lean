import Verif.Spotlight.Tables

/-!
# Spotlight record pages and the look-up of metadata items (C141, C142)
-/

namespace Dtf.Spotlight
open Py DataFormat

/-! ## Model -/

/-- `_ReadRecordPage` (spotlight_storedb.py lines 1714-1765): the data of a page of records.  `zlib`
is `zlib.decompress`, `lz4` is `lz4.block.decompress`. -/
def readRecordPage (zlib : Bytes → Res Bytes) (lz4 : Bytes → Nat → Option Bytes → Res Bytes) (data : Bytes)
    (off : Nat) : Res Bytes :=
  match structAt (fixedMap 20 parsePropertyHeader) data off with
  | .error e => .error e
  | .ok (h, size) =>
    if h.signature ≠ [0x32, 0x70, 0x62, 0x64] then .error .parseError
    else if h.tableType ≠ 0x0009 ∧ h.tableType ≠ 0x1009 ∧ h.tableType ≠ 0x4009 ∧ h.tableType ≠ 0x5009 then
      .error .parseError
    else
      let pageData := (File.read ⟨data, off + size.toNat⟩ ((h.pageSize : Int) - size)).1
      if h.uncompressedSize > 0 then
        if h.tableType &&& 0x1000 ≠ 0 ∧ (pageData.take 4 = markerCompressed ∨ pageData.take 4 = markerRaw) then
          -- The fuel suffices (`C58_terminates`).
          match lz4Page lz4 (pageData.length + 1) pageData with
          | none => .error .runtimeError
          | some r => r
        else
          match pageData[0]? with
          | none => .error .indexError
          | some b => if b = 0x78 then zlib pageData else .error .parseError
      else .ok pageData

/-- The dictionaries `_record_pages_cache` and `_record_descriptors`, as their assignments in
order. -/
structure StoreState where
  cache : List (Nat × Bytes)
  descriptors : List Descriptor

/-- `for map_value in self._map_values` (lines 2020-2027).  `readPage` is `_ReadRecordPage`. -/
def loadPages (readPage : Nat → Res Bytes) : List Nat → StoreState → Res StoreState
  | [], s => .ok s
  | block :: blocks, s =>
    match readPage (block * 0x1000) with
    | .error e => .error e
    | .ok page =>
      -- The fuel suffices (`C63_terminates`).
      match pageValuesLoop page (block * 0x1000) (page.length + 1) 0 [] with
      | none => .error .runtimeError
      | some (.error e) => .error e
      | some (.ok ds) =>
        loadPages readPage blocks ⟨s.cache ++ [(block * 0x1000, page)], s.descriptors ++ ds⟩

/-- `self._record_descriptors.get(identifier)`. -/
def StoreState.find (s : StoreState) (identifier : Nat) : Option Descriptor :=
  s.descriptors.reverse.find? (fun d => decide (d.identifier = identifier))

/-- `self._record_pages_cache.get(page_offset)`. -/
def StoreState.cached (s : StoreState) (off : Nat) : Option Bytes :=
  (s.cache.reverse.find? (fun x => decide (x.1 = off))).map (·.2)

/-- A metadata item: the values of its header and its attributes. -/
abbrev Item := RecordHeader × List Attr

/-- `_ReadRecord` (lines 1582-1656).  The fuel suffices (`C60_terminates`). -/
def readItem (other : Nat → Nat → Bytes → Res (Val × Nat)) (types : Nat → Option MetaType) (page : Bytes)
    (pageValueOffset : Nat) : Res Item :=
  match readRecord other types (page.length + 1) page pageValueOffset with
  | none => .error .runtimeError
  | some r => r

/-- `GetMetadataItemByIdentifier` (lines 679-710 and 1952-1962): the item and the state after the
call. -/
def getItem (readPage : Nat → Res Bytes) (other : Nat → Nat → Bytes → Res (Val × Nat))
    (types : Nat → Option MetaType) (s : StoreState) (identifier : Nat) : Res (Option Item) × StoreState :=
  match s.find identifier with
  | none => (.ok none, s)
  | some d =>
    match s.cached d.pageOffset with
    | some (b :: page) => ((readItem other types (b :: page) d.pageValueOffset).map some, s)
    | _ =>
      match readPage d.pageOffset with
      | .error e => (.error e, s)
      | .ok page =>
        ((readItem other types page d.pageValueOffset).map some, ⟨s.cache ++ [(d.pageOffset, page)], s.descriptors⟩)

/-- A sequence of look-ups on one store: the results in order. -/
def getItems (readPage : Nat → Res Bytes) (other : Nat → Nat → Bytes → Res (Val × Nat))
    (types : Nat → Option MetaType) : StoreState → List Nat → List (Res (Option Item))
  | _, [] => []
  | s, i :: is =>
    let r := getItem readPage other types s i
    r.1 :: getItems readPage other types r.2 is

/-! ### The file -/

/-- The members of the file header the reader uses (spotlight_storedb.yaml
`spotlight_store_db_file_header`). -/
structure StoreHeader where
  mapOffset : Nat
  mapSize : Nat
  typesBlock : Nat
  valuesBlock : Nat
  values41Block : Nat
  listsBlock : Nat
  localizedBlock : Nat
deriving Repr, DecidableEq

/-- The structure of the header.  `pathOk` says whether the path decodes. -/
def parseStoreHeader (pathOk : Bytes → Bool) (bs : Bytes) : Option StoreHeader :=
  if bs.take 4 = [0x38, 0x74, 0x73, 0x64] ∧ pathOk (slice bs 324 580) = true then
    some { mapOffset := leNat (slice bs 36 40), mapSize := leNat (slice bs 40 44),
           typesBlock := leNat (slice bs 48 52), valuesBlock := leNat (slice bs 52 56),
           values41Block := leNat (slice bs 56 60), listsBlock := leNat (slice bs 60 64),
           localizedBlock := leNat (slice bs 64 68) }
  else none

/-- A table of the store (lines 1977-2018): from the streams map with the number when there is no
block, else from the property pages.  `streams` is `_ReadStreamsMap`. -/
def readTable (decode : Bytes → Option Str) (streams : Nat → Res (List Bytes)) (data : Bytes) (fuel number block : Nat)
    (names : Nat → Str) : Option (Res Table) :=
  if block = 0 then
    match streams number with
    | .error e => some (.error e)
    | .ok vs => some (streamTable (if number < 3 then streamAttribute decode number else streamIndex names) vs)
  else propertyPagesLoop (readPropertyPage (pageValues decode names) data) fuel (block * 0x1000) []

/-- One after the other, the first error ends it. -/
def andThen {α β : Type} (x : Option (Res α)) (f : α → Option (Res β)) : Option (Res β) :=
  match x with
  | none => none
  | some (.error e) => some (.error e)
  | some (.ok a) => f a

/-- `ReadFileObject` (lines 1964-2027).  Simplified: lists of values in the property pages of the
metadata types or metadata values have no names. -/
def readStore (decode : Bytes → Option Str) (pathOk : Bytes → Bool) (streams : Nat → Res (List Bytes))
    (readPage : Nat → Res Bytes) (fuel : Nat) (data : Bytes) : Option (Res (Tables × StoreState)) :=
  match structAt ((fixedMap 580 id).refine (parseStoreHeader pathOk)) data 0 with
  | .error e => some (.error e)
  | .ok (h, _) =>
    andThen (mapPagesLoop data (h.mapOffset + h.mapSize) fuel h.mapOffset []) fun blocks =>
    andThen (readTable decode streams data fuel 1 h.typesBlock (fun _ => [])) fun types =>
    andThen (readTable decode streams data fuel 2 h.valuesBlock (fun _ => [])) fun values =>
    let names := fun i => nameOr [] (values.get i)
    andThen (readTable decode streams data fuel 3 h.values41Block names) fun _ =>
    andThen (readTable decode streams data fuel 4 h.listsBlock names) fun lists =>
    andThen (readTable decode streams data fuel 5 h.localizedBlock names) fun localized =>
    some ((loadPages readPage blocks ⟨[], []⟩).map (fun s => (⟨types, values, lists, localized⟩, s)))

/-! ## Specification -/

/-- How the records of a page are stored. -/
inductive Packing
  | plain
  | zlib (packed : Bytes)
  | lz4 (blocks : List Block) (rest : Bytes)

def Packing.bytes (records : Bytes) : Packing → Bytes
  | .plain => records
  | .zlib packed => packed
  | .lz4 blocks rest => blocks.flatMap Block.bytes ++ (markerEnd ++ rest)

def Packing.Ok (zlib : Bytes → Res Bytes) (lz4 : Bytes → Nat → Option Bytes → Res Bytes) (records : Bytes) :
    Packing → Nat → Nat → Prop
  | .plain, tableType, size => (tableType = 0x09 ∨ tableType = 0x1009 ∨ tableType = 0x4009 ∨ tableType = 0x5009) ∧ size = 0
  | .zlib packed, tableType, size => (tableType = 0x09 ∨ tableType = 0x1009 ∨ tableType = 0x4009 ∨ tableType = 0x5009) ∧
    0 < size ∧ (∃ p, packed = 0x78 :: p) ∧ zlib packed = .ok records
  | .lz4 blocks _, tableType, size => (tableType = 0x1009 ∨ tableType = 0x5009) ∧ 0 < size ∧ blocks ≠ [] ∧
    BlocksOk lz4 none blocks ∧ blocks.flatMap Block.content = records

/-! ## Proofs -/

/-- **C141** (pages): the data of a page of records is what its records were stored as, plain or
compressed, wherever the page is in the file. -/
theorem C141_page (zlib : Bytes → Res Bytes) (lz4 : Bytes → Nat → Option Bytes → Res Bytes) (records : Bytes)
    (p : Packing) (tableType size used : Nat) (pre post : Bytes) (hp : p.Ok zlib lz4 records tableType size)
    (hs : size < 2 ^ 32) (hu : used < 2 ^ 32) (hl : 20 + (p.bytes records).length < 2 ^ 32) :
    readRecordPage zlib lz4
        (pre ++ (pageHeader (20 + (p.bytes records).length) used tableType size ++ p.bytes records) ++ post) pre.length =
      .ok records := by
  have ht : tableType = 0x09 ∨ tableType = 0x1009 ∨ tableType = 0x4009 ∨ tableType = 0x5009 := by
    cases p with
    | plain => exact hp.1
    | zlib => exact hp.1
    | lz4 => rcases hp.1 with h | h <;> omega
  generalize hD : p.bytes records = D at *
  generalize hH : pageHeader (20 + D.length) used tableType size = head at *
  have hhead : head.length = 20 := by rw [← hH]; simp [pageHeader]
  have hpr : parsePropertyHeader head = ⟨[0x32, 0x70, 0x62, 0x64], 20 + D.length, used, tableType, size⟩ := by
    rw [← hH]
    exact parsePropertyHeader_of _ _ _ _ hl hu (by omega) hs
  have e0 : pre ++ (head ++ D) ++ post = pre ++ head ++ (D ++ post) := by simp
  unfold readRecordPage
  rw [e0, structAt_fixed_append 20 parsePropertyHeader pre head _ (by decide) hhead]
  dsimp only
  rw [hpr]
  dsimp only
  rw [if_neg (by simp), if_neg (by omega)]
  have e1 : (File.read ⟨pre ++ head ++ (D ++ post), pre.length + ((20 : Nat) : Int).toNat⟩
      (((20 + D.length : Nat) : Int) - ((20 : Nat) : Int))).1 = D := by
    rw [File.read]
    have e2 : ((20 : Nat) : Int).toNat = head.length := by omega
    rw [e2, ← List.length_append, List.drop_left]
    rw [if_neg (by omega)]
    dsimp only
    rw [show (((20 + D.length : Nat) : Int) - ((20 : Nat) : Int)).toNat = D.length by omega, List.take_left]
  rw [e1]
  subst hD
  cases p with
  | plain =>
    obtain ⟨_, rfl⟩ := hp
    rw [if_neg (by omega)]
    rfl
  | zlib packed =>
    obtain ⟨_, h0, ⟨q, rfl⟩, hz⟩ := hp
    rw [if_pos h0]
    rw [show Packing.bytes records (.zlib (0x78 :: q)) = 0x78 :: q from rfl]
    rw [if_neg (by
      rintro ⟨_, h | h⟩ <;> simp [markerCompressed, markerRaw] at h)]
    rw [List.getElem?_cons_zero]
    dsimp only
    rw [if_pos rfl, hz]
  | lz4 blocks rest =>
    obtain ⟨h1, h0, hne, hb, rfl⟩ := hp
    rw [if_pos h0]
    have hm : ((Packing.lz4 blocks rest).bytes (blocks.flatMap Block.content)).take 4 = markerCompressed ∨
        ((Packing.lz4 blocks rest).bytes (blocks.flatMap Block.content)).take 4 = markerRaw := by
      cases blocks with
      | nil => exact absurd rfl hne
      | cons b bs => cases b <;> simp [Packing.bytes, Block.bytes, markerCompressed, markerRaw]
    have hx : tableType &&& 0x1000 ≠ 0 := by rcases h1 with rfl | rfl <;> decide
    rw [if_pos ⟨hx, hm⟩]
    have := C58_page_contents lz4 blocks rest
      (((Packing.lz4 blocks rest).bytes (blocks.flatMap Block.content)).length + 1) hb (by
        have : blocks.length ≤ (blocks.flatMap Block.bytes).length := by
          clear hb hne hm e1 e0 hpr hl hH
          induction blocks with
          | nil => simp
          | cons b bs ih =>
            have : 1 ≤ b.bytes.length := by cases b <;> simp [Block.bytes, markerCompressed, markerRaw] <;> omega
            rw [List.flatMap_cons, List.length_append, List.length_cons]
            omega
        simp only [Packing.bytes, List.length_append]
        omega)
    simp only [Packing.bytes] at this ⊢
    rw [this]

/-! ### Pages that are not full -/

/-- The full claim of C141: a plain page, the part of which after the records is not used, gives the
descriptors of its records. -/
def C141_unused_claim : Prop :=
  ∀ (rs : List Rec) (pageOffset unused : Nat), (∀ r ∈ rs, r.Ok) →
    ∃ fuel, pageValuesLoop (rs.flatMap Rec.bytes ++ List.replicate unused 0) pageOffset fuel 0 [] =
      some (.ok (descriptors pageOffset 0 rs))

theorem pageValuesLoop_prefix (pageOffset : Nat) (rs : List Rec) (pre post : Bytes) (acc : List Descriptor)
    (fuel : Nat) (h : ∀ r ∈ rs, r.Ok) :
    pageValuesLoop (pre ++ rs.flatMap Rec.bytes ++ post) pageOffset (rs.length + fuel) pre.length acc =
      pageValuesLoop (pre ++ rs.flatMap Rec.bytes ++ post) pageOffset fuel (pre.length + (rs.flatMap Rec.bytes).length)
        (acc ++ descriptors pageOffset pre.length rs) := by
  induction rs generalizing pre acc with
  | nil => simp [descriptors]
  | cons r rs ih =>
    have hlen := rec_bytes_length r
    rw [List.length_cons, show rs.length + 1 + fuel = rs.length + fuel + 1 by omega, pageValuesLoop, if_pos (by
      simp only [List.flatMap_cons, List.length_append]; omega), List.append_assoc, List.drop_left,
      List.flatMap_cons, List.append_assoc, readRecordHeader_rec r _ (h r (by simp))]
    dsimp only
    have := ih (pre ++ r.bytes) (acc ++ [⟨pageOffset, pre.length + 20, r.identifier.2, r.item.2,
      r.parent.2, r.time.2⟩]) (fun q hq => h q (List.mem_cons_of_mem _ hq))
    rw [List.length_append, List.append_assoc, List.append_assoc] at this
    rw [show r.toHeader.dataSize = r.body.length from rfl, ← hlen]
    rw [show r.toHeader.identifier = r.identifier.2 from rfl,
      show r.toHeader.itemIdentifier = r.item.2 from rfl,
      show r.toHeader.parentIdentifier = r.parent.2 from rfl,
      show r.toHeader.lastUpdateTime = r.time.2 from rfl, this]
    simp only [descriptors, List.append_assoc, List.singleton_append, List.length_append, Nat.add_assoc]

theorem readVarInt_zero (l : Bytes) : readVarInt (0 :: l) = .ok (0, 1) := by
  unfold readVarInt
  rw [List.getElem?_cons_zero]
  rfl

theorem header_zeros (m : Nat) :
    readRecordHeader (List.replicate m 0) =
      if m < 4 then .error .parseError else if m < 9 then .error .indexError
      else .ok (⟨0, 0, 0, 0, 0, 0⟩, 9) := by
  by_cases h : m < 9
  · have : ∀ m : Fin 9, readRecordHeader (List.replicate m.val 0) =
      if m.val < 4 then .error .parseError else if m.val < 9 then .error .indexError
      else .ok (⟨0, 0, 0, 0, 0, 0⟩, 9) := by decide
    exact this ⟨m, h⟩
  · obtain ⟨k, rfl⟩ : ∃ k, m = k + 9 := ⟨m - 9, by omega⟩
    rw [if_neg (by omega), if_neg (by omega)]
    have e : List.replicate (k + 9) (0 : UInt8) = 0 :: 0 :: 0 :: 0 :: 0 :: 0 :: 0 :: 0 :: 0 :: List.replicate k 0 := by
      simp [List.replicate_succ]
    rw [e]
    unfold readRecordHeader
    rw [if_neg (by simp only [List.length_cons]; omega)]
    rw [show (0 :: 0 :: 0 :: 0 :: 0 :: 0 :: 0 :: 0 :: 0 :: List.replicate k (0 : UInt8)).drop 4 =
      0 :: 0 :: 0 :: 0 :: 0 :: List.replicate k 0 from rfl, readVarInt_zero]
    dsimp only
    rw [show (0 :: 0 :: 0 :: 0 :: 0 :: 0 :: 0 :: 0 :: 0 :: List.replicate k (0 : UInt8))[4 + 1]? = some 0 from rfl]
    dsimp only
    rw [show (0 :: 0 :: 0 :: 0 :: 0 :: 0 :: 0 :: 0 :: 0 :: List.replicate k (0 : UInt8)).drop (4 + 1 + 1) =
      0 :: 0 :: 0 :: List.replicate k 0 from rfl]
    simp only [readVarInts, readVarInt_zero, List.drop_succ_cons, List.drop_zero]
    rfl

theorem pageValuesLoop_zeros (page : Bytes) (pageOffset : Nat) (m : Nat) :
    ∀ (off fuel : Nat) (acc : List Descriptor), 0 < m → page.drop off = List.replicate m 0 → ∀ ds,
      pageValuesLoop page pageOffset fuel off acc ≠ some (.ok ds) := by
  induction m using Nat.strongRecOn with
  | _ m ih =>
    intro off fuel acc hm hd ds
    cases fuel with
    | zero => simp [pageValuesLoop]
    | succ fuel =>
      have hl : off < page.length := by
        by_contra hc
        rw [List.drop_eq_nil_of_le (by omega)] at hd
        have := congrArg List.length hd
        simp at this
        omega
      rw [pageValuesLoop, if_pos hl, hd, header_zeros]
      by_cases h4 : m < 4
      · rw [if_pos h4]; simp
      · rw [if_neg h4]
        by_cases h9 : m < 9
        · rw [if_pos h9]; simp
        · rw [if_neg h9]
          dsimp only
          refine ih (m - 4) (by omega) _ _ _ (by omega) ?_ ds
          rw [← List.drop_drop, hd, List.drop_replicate]

/-- **C141** (pages that are not full): a plain page with unused zero bytes after its records is never
read: it raises an error whatever its records are. -/
theorem C141_unused_fails (rs : List Rec) (pageOffset unused fuel : Nat) (h : ∀ r ∈ rs, r.Ok) (hu : 0 < unused)
    (ds : List Descriptor) :
    pageValuesLoop (rs.flatMap Rec.bytes ++ List.replicate unused 0) pageOffset fuel 0 [] ≠ some (.ok ds) := by
  by_cases hf : rs.length ≤ fuel
  · obtain ⟨k, rfl⟩ : ∃ k, fuel = rs.length + k := ⟨fuel - rs.length, by omega⟩
    have := pageValuesLoop_prefix pageOffset rs [] (List.replicate unused 0) [] k h
    rw [List.nil_append] at this
    simp only [List.length_nil] at this
    rw [this]
    refine pageValuesLoop_zeros _ pageOffset unused _ _ _ hu ?_ ds
    rw [Nat.zero_add, List.drop_left]
  · intro hc
    have key : ∀ (rs : List Rec) (pre post : Bytes) (acc : List Descriptor) (fuel : Nat), (∀ r ∈ rs, r.Ok) →
        fuel < rs.length → pageValuesLoop (pre ++ rs.flatMap Rec.bytes ++ post) pageOffset fuel pre.length acc = none := by
      intro rs pre post acc fuel h hf
      have h2 := pageValuesLoop_prefix pageOffset (rs.take fuel) pre ((rs.drop fuel).flatMap Rec.bytes ++ post) acc 0
        (fun r hr => h r (List.mem_of_mem_take hr))
      have e : pre ++ (rs.take fuel).flatMap Rec.bytes ++ ((rs.drop fuel).flatMap Rec.bytes ++ post) =
          pre ++ rs.flatMap Rec.bytes ++ post := by
        conv => rhs; rw [← List.take_append_drop fuel rs, List.flatMap_append]
        simp
      rw [e, List.length_take, Nat.min_eq_left (by omega), Nat.add_zero, pageValuesLoop] at h2
      exact h2
    have := key rs [] (List.replicate unused 0) [] fuel h (by omega)
    rw [List.nil_append, List.length_nil] at this
    rw [this] at hc
    cases hc

/-- The claim is false. -/
theorem C141_unused_claim_false : ¬ C141_unused_claim := by
  intro h
  obtain ⟨fuel, hf⟩ := h [smallRecord] 0x1000 1 (by
    intro r hr
    simp only [List.mem_singleton] at hr
    subst hr
    exact smallRecord_ok)
  exact C141_unused_fails [smallRecord] 0x1000 1 fuel (by
    intro r hr
    simp only [List.mem_singleton] at hr
    subst hr
    exact smallRecord_ok) (by decide) _ hf

/-- The claim that a malformed page of records raises a parse error. -/
def C141_errors_claim : Prop :=
  ∀ (zlib : Bytes → Res Bytes) (lz4 : Bytes → Nat → Option Bytes → Res Bytes) (data : Bytes) (off : Nat) (e : Err),
    (∀ b, zlib b = .error .parseError) → (∀ b n d, lz4 b n d = .error .parseError) →
    readRecordPage zlib lz4 data off = .error e → e = .parseError

/-- The claim is false: a compressed page without data raises an index error. -/
theorem C141_errors_claim_false : ¬ C141_errors_claim := by
  intro h
  have := h (fun _ => .error .parseError) (fun _ _ _ => .error .parseError) (pageHeader 20 20 0x09 1) 0 .indexError
    (fun _ => rfl) (fun _ _ _ => rfl) (by decide)
  exact absurd this (by decide)

/-! ### Look-ups -/

/-- All cached pages are those of the file. -/
def Faithful (readPage : Nat → Res Bytes) (s : StoreState) : Prop := ∀ x ∈ s.cache, readPage x.1 = .ok x.2

theorem cached_of_faithful (readPage : Nat → Res Bytes) (s : StoreState) (off : Nat) (page : Bytes)
    (h : Faithful readPage s) (hc : s.cached off = some page) : readPage off = .ok page := by
  unfold StoreState.cached at hc
  simp only [Option.map_eq_some_iff] at hc
  obtain ⟨x, hx, rfl⟩ := hc
  have h1 := List.mem_of_find?_eq_some hx
  have h2 := List.find?_some hx
  simp only [decide_eq_true_eq] at h2
  rw [← h2]
  exact h x (List.mem_reverse.1 h1)

/-- The item with the identifier, read from the file. -/
def fromFile (readPage : Nat → Res Bytes) (other : Nat → Nat → Bytes → Res (Val × Nat)) (types : Nat → Option MetaType)
    (ds : List Descriptor) (identifier : Nat) : Res (Option Item) :=
  match ds.reverse.find? (fun d => decide (d.identifier = identifier)) with
  | none => .ok none
  | some d =>
    match readPage d.pageOffset with
    | .error e => .error e
    | .ok page => (readItem other types page d.pageValueOffset).map some

theorem getItem_fromFile (readPage : Nat → Res Bytes) (other : Nat → Nat → Bytes → Res (Val × Nat))
    (types : Nat → Option MetaType) (s : StoreState) (identifier : Nat) (h : Faithful readPage s) :
    (getItem readPage other types s identifier).1 = fromFile readPage other types s.descriptors identifier ∧
      Faithful readPage (getItem readPage other types s identifier).2 ∧
      (getItem readPage other types s identifier).2.descriptors = s.descriptors := by
  unfold getItem fromFile StoreState.find
  cases hf : s.descriptors.reverse.find? (fun d => decide (d.identifier = identifier)) with
  | none => exact ⟨rfl, h, rfl⟩
  | some d =>
    dsimp only
    split
    · rename_i b page hc
      rw [cached_of_faithful readPage s _ _ h hc]
      exact ⟨rfl, h, rfl⟩
    · cases hr : readPage d.pageOffset with
      | error e => exact ⟨rfl, h, rfl⟩
      | ok page =>
        refine ⟨rfl, ?_, rfl⟩
        intro x hx
        rw [List.mem_append, List.mem_singleton] at hx
        rcases hx with hx | rfl
        · exact h x hx
        · exact hr

theorem loadPages_faithful (readPage : Nat → Res Bytes) (blocks : List Nat) (s t : StoreState)
    (h : Faithful readPage s) (hl : loadPages readPage blocks s = .ok t) : Faithful readPage t := by
  induction blocks generalizing s with
  | nil => cases hl; exact h
  | cons block blocks ih =>
    rw [loadPages] at hl
    split at hl
    · cases hl
    · rename_i page hp
      split at hl
      · cases hl
      · cases hl
      · refine ih _ ?_ hl
        intro x hx
        rw [List.mem_append, List.mem_singleton] at hx
        rcases hx with hx | rfl
        · exact h x hx
        · exact hp

/-- **C142** (cache): in every sequence of look-ups on a store each gives the item as it is read from
the file, whatever was looked up before. -/
theorem C142_cache (readPage : Nat → Res Bytes) (other : Nat → Nat → Bytes → Res (Val × Nat))
    (types : Nat → Option MetaType) (blocks : List Nat) (s : StoreState) (ids : List Nat)
    (hl : loadPages readPage blocks ⟨[], []⟩ = .ok s) :
    getItems readPage other types s ids = ids.map (fromFile readPage other types s.descriptors) := by
  have key : ∀ (ids : List Nat) (s : StoreState), Faithful readPage s →
      getItems readPage other types s ids = ids.map (fromFile readPage other types s.descriptors) := by
    intro ids
    induction ids with
    | nil => intros; rfl
    | cons i is ih =>
      intro s hs
      obtain ⟨h1, h2, h3⟩ := getItem_fromFile readPage other types s i hs
      rw [getItems, h1, ih _ h2, h3, List.map_cons]
  exact key ids s (loadPages_faithful readPage blocks ⟨[], []⟩ s (by intro x hx; simp at hx) hl)

/-- The descriptors of pages of records. -/
def allDescriptors (ps : List (Nat × List Rec)) : List Descriptor :=
  ps.flatMap (fun p => descriptors (p.1 * 0x1000) 0 p.2)

theorem loadPages_of (readPage : Nat → Res Bytes) (ps : List (Nat × List Rec)) (s : StoreState)
    (hp : ∀ p ∈ ps, readPage (p.1 * 0x1000) = .ok (p.2.flatMap Rec.bytes)) (hr : ∀ p ∈ ps, ∀ r ∈ p.2, r.Ok) :
    ∃ t, loadPages readPage (ps.map (·.1)) s = .ok t ∧ t.descriptors = s.descriptors ++ allDescriptors ps := by
  induction ps generalizing s with
  | nil => exact ⟨s, rfl, by simp [allDescriptors]⟩
  | cons p ps ih =>
    rw [List.map_cons, loadPages, hp p (by simp)]
    dsimp only
    rw [C63_page_descriptors (p.1 * 0x1000) p.2 _ (hr p (by simp)) (by
      have : p.2.length ≤ (p.2.flatMap Rec.bytes).length := by
        generalize p.2 = rs
        induction rs with
        | nil => simp
        | cons r rs ih =>
          have := rec_bytes_length r
          rw [List.flatMap_cons, List.length_append, List.length_cons]
          omega
      omega)]
    dsimp only
    obtain ⟨t, h1, h2⟩ := ih ⟨s.cache ++ [(p.1 * 0x1000, p.2.flatMap Rec.bytes)],
      s.descriptors ++ descriptors (p.1 * 0x1000) 0 p.2⟩ (fun q hq => hp q (by simp [hq])) (fun q hq => hr q (by simp [hq]))
    refine ⟨t, h1, ?_⟩
    rw [h2]
    simp [allDescriptors]

theorem descriptors_identifiers (pageOffset off : Nat) (rs : List Rec) :
    (descriptors pageOffset off rs).map (·.identifier) = rs.map (·.identifier.2) := by
  induction rs generalizing off with
  | nil => rfl
  | cons r rs ih => rw [descriptors, List.map_cons, List.map_cons, ih]

theorem mem_allDescriptors (ps : List (Nat × List Rec)) (d : Descriptor) (h : d ∈ allDescriptors ps) :
    ∃ p ∈ ps, ∃ r ∈ p.2, r.identifier.2 = d.identifier := by
  unfold allDescriptors at h
  rw [List.mem_flatMap] at h
  obtain ⟨p, hp, hd⟩ := h
  have : d.identifier ∈ (descriptors (p.1 * 0x1000) 0 p.2).map (·.identifier) := List.mem_map.2 ⟨d, hd, rfl⟩
  rw [descriptors_identifiers, List.mem_map] at this
  obtain ⟨r, hr, he⟩ := this
  exact ⟨p, hp, r, hr, he⟩

/-- **C142** (look-up of an unknown identifier): an identifier that no record of the store has leads
to nothing. -/
theorem C142_missing (readPage : Nat → Res Bytes) (other : Nat → Nat → Bytes → Res (Val × Nat))
    (types : Nat → Option MetaType) (ps : List (Nat × List Rec)) (identifier : Nat)
    (hp : ∀ p ∈ ps, readPage (p.1 * 0x1000) = .ok (p.2.flatMap Rec.bytes)) (hr : ∀ p ∈ ps, ∀ r ∈ p.2, r.Ok)
    (h : ∀ p ∈ ps, ∀ r ∈ p.2, r.identifier.2 ≠ identifier) :
    ∃ s, loadPages readPage (ps.map (·.1)) ⟨[], []⟩ = .ok s ∧
      (getItem readPage other types s identifier).1 = .ok none := by
  obtain ⟨s, h1, h2⟩ := loadPages_of readPage ps ⟨[], []⟩ hp hr
  refine ⟨s, h1, ?_⟩
  have : s.find identifier = none := by
    unfold StoreState.find
    rw [List.find?_eq_none]
    intro d hd
    rw [List.mem_reverse, h2, List.nil_append] at hd
    obtain ⟨p, hp', r, hr', he⟩ := mem_allDescriptors ps d hd
    have := h p hp' r hr'
    simp only [decide_eq_true_eq]
    omega
  unfold getItem
  rw [this]

/-- The full claim of C142: the item with the identifier of a record has the attributes of the
record. -/
def C142_item_claim : Prop :=
  ∀ (readPage : Nat → Res Bytes) (other : Nat → Nat → Bytes → Res (Val × Nat)) (types : Nat → Option MetaType)
    (block : Nat) (r : Rec) (as : List Attr), r.Ok → Means other types 0 r.attributes as →
    readPage (block * 0x1000) = .ok r.bytes →
    ∃ s, loadPages readPage [block] ⟨[], []⟩ = .ok s ∧
      (getItem readPage other types s r.identifier.2).1 = .ok (some (r.toHeader, as))

theorem attributes_length_le (ss : List Stored) : ss.length ≤ (ss.flatMap Stored.bytes).length := by
  induction ss with
  | nil => simp
  | cons s ss ih =>
    have : 1 ≤ s.bytes.length := by rw [Stored.bytes, List.length_append, encodeVarInt_length]; omega
    rw [List.flatMap_cons, List.length_append, List.length_cons]
    omega

/-- What the look-up of an identifier gives: the last record of the store with the identifier, with
the attributes `C60_record` reads. -/
theorem C142_item (readPage : Nat → Res Bytes) (other : Nat → Nat → Bytes → Res (Val × Nat))
    (types : Nat → Option MetaType) (ps qs : List (Nat × List Rec)) (block : Nat) (before after : List Rec) (r : Rec)
    (as : List Attr)
    (hp : ∀ p ∈ ps ++ (block, before ++ r :: after) :: qs, readPage (p.1 * 0x1000) = .ok (p.2.flatMap Rec.bytes))
    (hr : ∀ p ∈ ps ++ (block, before ++ r :: after) :: qs, ∀ x ∈ p.2, x.Ok)
    (ha : ∀ x ∈ after, x.identifier.2 ≠ r.identifier.2) (hq : ∀ p ∈ qs, ∀ x ∈ p.2, x.identifier.2 ≠ r.identifier.2)
    (hm : Means other types 0 r.attributes as) :
    ∃ s, loadPages readPage ((ps ++ (block, before ++ r :: after) :: qs).map (·.1)) ⟨[], []⟩ = .ok s ∧
      (getItem readPage other types s r.identifier.2).1 =
        .ok (some (r.toHeader, as.take (kept r.attributes))) := by
  obtain ⟨s, h1, h2⟩ := loadPages_of readPage _ ⟨[], []⟩ hp hr
  refine ⟨s, h1, ?_⟩
  rw [(getItem_fromFile readPage other types s r.identifier.2
    (loadPages_faithful readPage _ ⟨[], []⟩ s (by intro x hx; simp at hx) h1)).1]
  have hfind : s.descriptors.reverse.find? (fun d => decide (d.identifier = r.identifier.2)) =
      some { pageOffset := block * 0x1000, pageValueOffset := (before.flatMap Rec.bytes).length + 20,
             identifier := r.identifier.2, itemIdentifier := r.item.2, parentIdentifier := r.parent.2,
             lastUpdateTime := r.time.2 } := by
    rw [h2, List.nil_append]
    unfold allDescriptors
    rw [List.flatMap_append, List.flatMap_cons]
    dsimp only
    rw [descriptors_split]
    simp only [List.reverse_append, List.reverse_cons, List.append_assoc, List.find?_append]
    rw [List.find?_eq_none.2 ?_, List.find?_eq_none.2 ?_]
    · simp
    · intro d hd
      rw [List.mem_reverse] at hd
      have := List.mem_map_of_mem (f := (·.identifier)) hd
      rw [descriptors_identifiers, List.mem_map] at this
      obtain ⟨x, hx, he⟩ := this
      have := ha x hx
      simp only [decide_eq_true_eq]
      omega
    · intro d hd
      rw [List.mem_reverse] at hd
      obtain ⟨p, hp', x, hx, he⟩ := mem_allDescriptors qs d hd
      have := hq p hp' x hx
      simp only [decide_eq_true_eq]
      omega
  unfold fromFile
  rw [hfind]
  dsimp only
  rw [hp (block, before ++ r :: after) (by simp)]
  dsimp only
  unfold readItem
  rw [C63_descriptor_finds_record other types before after r as _ (hr (block, before ++ r :: after) (by simp) r (by simp)) hm (by
    have h1 := attributes_length_le r.attributes
    simp only [List.flatMap_append, List.flatMap_cons, List.length_append, Rec.bytes, Rec.body]
    omega)]
  rfl

/-- **C142** (partial, look-up): the item with an identifier is the last record of the store with that
identifier, with all its attributes when the last one takes more than four bytes. -/
theorem C142_item_partial (readPage : Nat → Res Bytes) (other : Nat → Nat → Bytes → Res (Val × Nat))
    (types : Nat → Option MetaType) (ps qs : List (Nat × List Rec)) (block : Nat) (before after : List Rec) (r : Rec)
    (as : List Attr)
    (hp : ∀ p ∈ ps ++ (block, before ++ r :: after) :: qs, readPage (p.1 * 0x1000) = .ok (p.2.flatMap Rec.bytes))
    (hr : ∀ p ∈ ps ++ (block, before ++ r :: after) :: qs, ∀ x ∈ p.2, x.Ok)
    (ha : ∀ x ∈ after, x.identifier.2 ≠ r.identifier.2) (hq : ∀ p ∈ qs, ∀ x ∈ p.2, x.identifier.2 ≠ r.identifier.2)
    (hm : Means other types 0 r.attributes as) (hl : ∀ s, r.attributes.getLast? = some s → 4 < s.bytes.length) :
    ∃ s, loadPages readPage ((ps ++ (block, before ++ r :: after) :: qs).map (·.1)) ⟨[], []⟩ = .ok s ∧
      (getItem readPage other types s r.identifier.2).1 = .ok (some (r.toHeader, as)) := by
  obtain ⟨s, h1, h2⟩ := C142_item readPage other types ps qs block before after r as hp hr ha hq hm
  refine ⟨s, h1, ?_⟩
  rw [h2, kept_all _ hl, means_length other types 0 _ _ hm, List.take_length]

/-- The claim is false: the item of a small record has no attributes. -/
theorem C142_item_claim_false : ¬ C142_item_claim := by
  intro h
  have hm : Means (fun _ _ _ => .error .parseError) smallTypes 0 smallRecord.attributes
      [⟨"kMDItemX", 0, 0, .int 6⟩] := by
    refine ⟨by left; decide, ?_, trivial⟩
    intro rest
    exact C60_integer_value _ ⟨"kMDItemX", 0, 0⟩ 0 6 rest (by decide) (by decide) (by left; decide)
  obtain ⟨s, h1, h2⟩ := h (fun _ => .ok smallRecord.bytes) (fun _ _ _ => .error .parseError) smallTypes 1 smallRecord _
    smallRecord_ok hm rfl
  obtain ⟨s', h1', h2'⟩ := C142_item (fun _ => .ok smallRecord.bytes) (fun _ _ _ => .error .parseError) smallTypes [] [] 1
    [] [] smallRecord _ (by simp) (by simpa using smallRecord_ok) (by simp) (by simp) hm
  have e : s = s' := by
    have : loadPages (fun _ => .ok smallRecord.bytes) [1] ⟨[], []⟩ = .ok s' := h1'
    rw [h1] at this
    exact Except.ok.inj this
  subst e
  rw [h2] at h2'
  exact absurd h2' (by decide)

/-! ### The file -/

/-- The header of a store file. -/
def storeHeader (first : Bytes) (mapOffset mapSize pageSize types values values41 lists localized : Nat) (more path : Bytes) :
    Bytes :=
  [[0x38, 0x74, 0x73, 0x64], first, leBytes 4 mapOffset, leBytes 4 mapSize, leBytes 4 pageSize, leBytes 4 types,
    leBytes 4 values, leBytes 4 values41, leBytes 4 lists, leBytes 4 localized, more, path].flatten

/-- What a table of the store holds: the entries of its streams map when the header has no block for
it, else those of its property pages. -/
def TableOf (decode : Bytes → Option Str) (names : Nat → Str) (streams : Nat → Res (List Bytes)) (data : Bytes)
    (fuel number block : Nat) (t : Table) : Prop :=
  (block = 0 ∧ ∃ vs, streams number = .ok vs ∧
    streamTable (if number < 3 then streamAttribute decode number else streamIndex names) vs = .ok t) ∨
  (block ≠ 0 ∧ ∃ pages, Chain (readPropertyPage (pageValues decode names) data) (block * 0x1000) pages ∧
    pages.length < fuel ∧ t = pages.flatten)

theorem readTable_of (decode : Bytes → Option Str) (names : Nat → Str) (streams : Nat → Res (List Bytes)) (data : Bytes)
    (fuel number block : Nat) (t : Table) (h : TableOf decode names streams data fuel number block t) :
    readTable decode streams data fuel number block names = some (.ok t) := by
  unfold readTable
  rcases h with ⟨h0, vs, h1, h2⟩ | ⟨h0, pages, h1, h2, rfl⟩
  · rw [if_pos h0, h1]
    dsimp only
    rw [h2]
  · rw [if_neg h0, C138_chain decode names data block pages fuel h1 h2]

/-- **C142** (the file): reading a store fills each of its tables from the place its header gives,
names the values of lists by the table of metadata values, and loads the pages of the map. -/
theorem C142_file (decode : Bytes → Option Str) (pathOk : Bytes → Bool) (streams : Nat → Res (List Bytes))
    (readPage : Nat → Res Bytes) (fuel : Nat) (first : Bytes)
    (mapOffset mapSize pageSize types values values41 lists localized : Nat) (more path rest : Bytes)
    (tb : Tables) (unknown : Table) (blocks : List Nat) (s : StoreState)
    (hf : first.length = 32) (hm : more.length = 256) (hpath : path.length = 256) (hok : pathOk path = true)
    (h1 : mapOffset < 2 ^ 32) (h2 : mapSize < 2 ^ 32) (h3 : types < 2 ^ 32) (h4 : values < 2 ^ 32)
    (h5 : values41 < 2 ^ 32) (h6 : lists < 2 ^ 32) (h7 : localized < 2 ^ 32)
    (data : Bytes)
    (hdata : data = storeHeader first mapOffset mapSize pageSize types values values41 lists localized more path ++ rest)
    (hmap : mapPagesLoop data (mapOffset + mapSize) fuel mapOffset [] = some (.ok blocks))
    (ht : TableOf decode (fun _ => []) streams data fuel 1 types tb.types)
    (hv : TableOf decode (fun _ => []) streams data fuel 2 values tb.values)
    (hu : TableOf decode (fun i => nameOr [] (tb.values.get i)) streams data fuel 3 values41 unknown)
    (hl : TableOf decode (fun i => nameOr [] (tb.values.get i)) streams data fuel 4 lists tb.lists)
    (hz : TableOf decode (fun i => nameOr [] (tb.values.get i)) streams data fuel 5 localized tb.localized)
    (hs : loadPages readPage blocks ⟨[], []⟩ = .ok s) :
    readStore decode pathOk streams readPage fuel data = some (.ok (tb, s)) := by
  let head := storeHeader first mapOffset mapSize pageSize types values values41 lists localized more path
  have hlen : head.length = 580 := by simp [head, storeHeader, hf, hm, hpath]
  have hparse : parseStoreHeader pathOk head = some ⟨mapOffset, mapSize, types, values, values41, lists, localized⟩ := by
    have f1 : leNat (slice head 36 40) = mapOffset :=
      leField [[0x38, 0x74, 0x73, 0x64], first] 4 mapOffset _ 36 40 (by simp [hf]) rfl h1
    have f2 : leNat (slice head 40 44) = mapSize :=
      leField [[0x38, 0x74, 0x73, 0x64], first, leBytes 4 mapOffset] 4 mapSize _ 40 44 (by simp [hf]) rfl h2
    have f3 : leNat (slice head 48 52) = types :=
      leField [[0x38, 0x74, 0x73, 0x64], first, leBytes 4 mapOffset, leBytes 4 mapSize, leBytes 4 pageSize] 4 types _ 48 52
        (by simp [hf]) rfl h3
    have f4 : leNat (slice head 52 56) = values :=
      leField [[0x38, 0x74, 0x73, 0x64], first, leBytes 4 mapOffset, leBytes 4 mapSize, leBytes 4 pageSize,
        leBytes 4 types] 4 values _ 52 56 (by simp [hf]) rfl h4
    have f5 : leNat (slice head 56 60) = values41 :=
      leField [[0x38, 0x74, 0x73, 0x64], first, leBytes 4 mapOffset, leBytes 4 mapSize, leBytes 4 pageSize,
        leBytes 4 types, leBytes 4 values] 4 values41 _ 56 60 (by simp [hf]) rfl h5
    have f6 : leNat (slice head 60 64) = lists :=
      leField [[0x38, 0x74, 0x73, 0x64], first, leBytes 4 mapOffset, leBytes 4 mapSize, leBytes 4 pageSize,
        leBytes 4 types, leBytes 4 values, leBytes 4 values41] 4 lists _ 60 64 (by simp [hf]) rfl h6
    have f7 : leNat (slice head 64 68) = localized :=
      leField [[0x38, 0x74, 0x73, 0x64], first, leBytes 4 mapOffset, leBytes 4 mapSize, leBytes 4 pageSize,
        leBytes 4 types, leBytes 4 values, leBytes 4 values41, leBytes 4 lists] 4 localized _ 64 68 (by simp [hf]) rfl h7
    have f8 : slice head 324 580 = path :=
      slice_fields [[0x38, 0x74, 0x73, 0x64], first, leBytes 4 mapOffset, leBytes 4 mapSize, leBytes 4 pageSize,
        leBytes 4 types, leBytes 4 values, leBytes 4 values41, leBytes 4 lists, leBytes 4 localized, more] path [] 324 580
        (by simp [hf, hm]) (by rw [hpath])
    unfold parseStoreHeader
    rw [f1, f2, f3, f4, f5, f6, f7, f8, if_pos ⟨rfl, hok⟩]
  have hst : structAt ((fixedMap 580 id).refine (parseStoreHeader pathOk)) data 0 =
      .ok (⟨mapOffset, mapSize, types, values, values41, lists, localized⟩, 580) := by
    have h0 := structAt_fixed_append 580 id [] head rest (by decide) hlen
    rw [List.nil_append] at h0
    rw [structAt_refine, hdata]
    simp only [List.length_nil, Nat.cast_zero] at h0
    rw [h0]
    dsimp only [id]
    rw [hparse]
    rfl
  unfold readStore
  rw [hst]
  dsimp only
  rw [hmap, readTable_of _ _ _ _ _ _ _ _ ht, readTable_of _ _ _ _ _ _ _ _ hv]
  simp only [andThen]
  rw [readTable_of _ _ _ _ _ _ _ _ hu, readTable_of _ _ _ _ _ _ _ _ hl, readTable_of _ _ _ _ _ _ _ _ hz]
  dsimp only
  rw [hs]
  rfl

/-! ### Cases that meet the hypotheses -/

/-- A page with one block that is not compressed. -/
example : (Packing.lz4 [.raw smallRecord.bytes] [0, 0]).Ok (fun _ => .error .parseError) (fun _ _ _ => .error .libraryError)
    smallRecord.bytes 0x1009 11 := by
  refine ⟨by decide, by decide, by simp, ?_, by simp [Block.content]⟩
  simp [BlocksOk, Block.content]
  decide

/-- A page compressed with zlib. -/
example : (Packing.zlib [0x78, 1]).Ok (fun b => if b = [0x78, 1] then .ok smallRecord.bytes else .error .libraryError)
    (fun _ _ _ => .error .libraryError) smallRecord.bytes 0x09 11 :=
  ⟨by decide, by decide, ⟨[1], rfl⟩, rfl⟩

/-- Two pages with a record each, the identifier of the second record is found. -/
example : let other : Rec := { smallRecord with identifier := (0, 9) }
    (∀ p ∈ ([(1, [smallRecord])] : List (Nat × List Rec)) ++ (2, [] ++ other :: []) :: [],
      (fun off => if off = 0x1000 then .ok smallRecord.bytes else if off = 0x2000 then .ok other.bytes
        else .error .parseError : Nat → Res Bytes) (p.1 * 0x1000) = .ok (p.2.flatMap Rec.bytes)) := by
  intro other p hp
  simp only [List.cons_append, List.nil_append, List.mem_cons, List.not_mem_nil, or_false] at hp
  rcases hp with rfl | rfl <;> decide

end Dtf.Spotlight
