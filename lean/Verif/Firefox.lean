import Verif.Records

/-!
# Firefox cache files of version 1: map files and block files (C105)
-/

namespace Dtf.Firefox
open Py DataFormat

/-! ## Model -/

/-- `firefox_cache1_map_header` (firefox_cache1.yaml) with the check of the version (firefox_cache1.py 72-78): the size
of the data.  The header has 276 bytes. -/
def mapHeaderMap : DataTypeMap Nat :=
  (fixedMap 276 id).refine (fun b => if beNat (slice b 0 2) = 1 then some (beNat (slice b 4 8)) else none)

/-- `firefox_cache1_map_record` (firefox_cache1.yaml). -/
structure MapRecord where
  hash : Nat
  rank : Nat
  dataLocation : Nat
  metadataLocation : Nat
deriving DecidableEq, Repr

def recordMap : DataTypeMap MapRecord :=
  (fixedMap 16 id).refine (fun b =>
    some ⟨beNat (slice b 0 4), beNat (slice b 4 8), beNat (slice b 8 12), beNat (slice b 12 16)⟩)

/-- `CacheMapFile.ReadFileObject` (firefox_cache1.py 104-118) with `_ReadFileHeader` (53-81). -/
def readMap (data : Bytes) (fuel : Nat) : Option (Res (List MapRecord)) :=
  match structAt mapHeaderMap data 0 with
  | .error e => some (.error e)
  | .ok (size, n) =>
    if (size : Int) ≠ data.length - n then some (.error .parseError)
    else readUntil recordMap data data.length fuel n.toNat []

/-- `firefox_cache1_entry` (firefox_cache1.yaml). -/
structure Entry where
  major : Nat
  minor : Nat
  location : Nat
  fetchCount : Int
  fetched : Nat
  modified : Nat
  expiration : Nat
  dataSize : Nat
  request : Bytes
  information : Bytes
deriving DecidableEq, Repr

/-- The request is in ASCII. -/
def parseEntry (b : Bytes) : Option Entry :=
  let n := beNat (slice b 28 32)
  let request := slice b 36 (36 + n)
  if request.all (· < 128) then
    some ⟨beNat (slice b 0 2), beNat (slice b 2 4), beNat (slice b 4 8), signed 4 (beNat (slice b 8 12)),
      beNat (slice b 12 16), beNat (slice b 16 20), beNat (slice b 20 24), beNat (slice b 24 28), request,
      slice b (36 + n) b.length⟩
  else none

def entryMap : DataTypeMap Entry :=
  (sizedMap 36 (fun b => beNat (slice b 28 32) + beNat (slice b 32 36)) id).refine parseEntry

/-- The offset of the next block after a number of bytes (firefox_cache1.py 191-194). -/
def nextBlock (block size : Nat) : Nat := if size % block > 0 then size + (block - size % block) else size

/-- `_ReadCacheEntry` (firefox_cache1.py 166-194): what is shown and the position after it. -/
def readEntry (block : Nat) (data : Bytes) (off : Nat) : Res (Option Entry × Nat) :=
  match structAt entryMap data off with
  | .error .parseError => .ok (none, off + block)
  | .error e => .error e
  | .ok (e, size) => .ok (if e.major = 1 then some e else none, off + nextBlock block size.toNat)

/-- `os.path.basename(self._path)` to the size of the blocks (firefox_cache1.py 205-213). -/
def blockSize (name : List Char) : Option Nat :=
  if name = "_CACHE_001_".toList then some 256
  else if name = "_CACHE_002_".toList then some 1024
  else if name = "_CACHE_003_".toList then some 4096
  else none

/-- `CacheBlockFile.ReadFileObject` (firefox_cache1.py 196-218): the entries that are shown. -/
def readBlocks (name : List Char) (data : Bytes) (fuel : Nat) : Option (Res (List Entry)) :=
  match blockSize name with
  | none => some (.error .parseError)
  | some block =>
    match walk (readEntry block data) data.length fuel 0 [] with
    | none => none
    | some (.error e) => some (.error e)
    | some (.ok es) => some (.ok (es.filterMap id))

/-! ## The specification -/

def MapRecord.bytes (r : MapRecord) : Bytes :=
  [beBytes 4 r.hash, beBytes 4 r.rank, beBytes 4 r.dataLocation, beBytes 4 r.metadataLocation].flatten

def MapRecord.Ok (r : MapRecord) : Prop :=
  r.hash < 2 ^ 32 ∧ r.rank < 2 ^ 32 ∧ r.dataLocation < 2 ^ 32 ∧ r.metadataLocation < 2 ^ 32

/-- The header: major and minor version, the size of the records and 268 other bytes. -/
def mapBytes (minor : Nat) (other : Bytes) (rs : List MapRecord) : Bytes :=
  [beBytes 2 1, beBytes 2 minor, beBytes 4 (16 * rs.length), other].flatten ++ rs.flatMap (·.bytes)

def Entry.bytes (e : Entry) : Bytes :=
  [beBytes 2 e.major, beBytes 2 e.minor, beBytes 4 e.location, beBytes 4 (unsigned 4 e.fetchCount), beBytes 4 e.fetched,
    beBytes 4 e.modified, beBytes 4 e.expiration, beBytes 4 e.dataSize, beBytes 4 e.request.length,
    beBytes 4 e.information.length].flatten ++ (e.request ++ e.information)

def Entry.Ok (e : Entry) : Prop :=
  e.major < 2 ^ 16 ∧ e.minor < 2 ^ 16 ∧ e.location < 2 ^ 32 ∧ Utmp.Fits 4 e.fetchCount ∧ e.fetched < 2 ^ 32 ∧
    e.modified < 2 ^ 32 ∧ e.expiration < 2 ^ 32 ∧ e.dataSize < 2 ^ 32 ∧ e.request.length < 2 ^ 32 ∧
    e.information.length < 2 ^ 32 ∧ ∀ c ∈ e.request, c < 128

/-- What a block file has: entries that are filled up to the end of their last block, and blocks that are not in use. -/
inductive Item where
  | entry (e : Entry) (fill : Bytes)
  | free (b : Bytes)

def Item.bytes : Item → Bytes
  | .entry e fill => e.bytes ++ fill
  | .free b => b

def Item.entry? : Item → Option Entry
  | .entry e _ => some e
  | .free _ => none

def Item.Ok (block : Nat) : Item → Prop
  | .entry e fill => e.Ok ∧ e.major = 1 ∧ fill.length < block ∧ (e.bytes ++ fill).length % block = 0
  | .free b => b.length = block ∧ beNat (slice b 0 2) ≠ 1

/-- All entries of a block file are shown. -/
def C105_blocks_claim : Prop := ∀ (name : List Char) (block : Nat) (items : List Item), blockSize name = some block →
  (∀ i ∈ items, i.Ok block) → ∃ fuel, readBlocks name (items.flatMap (·.bytes)) fuel = some (.ok (items.filterMap (·.entry?)))

/-! ## Proofs: map files -/

theorem record_encodes (r : MapRecord) (h : r.Ok) : Encodes recordMap r.bytes r := by
  obtain ⟨h1, h2, h3, h4⟩ := h
  refine encodes_refine _ _ _ _ _ (encodes_fixed 16 id _ (by decide) (by simp [MapRecord.bytes])) ?_
  dsimp only [id]
  generalize hB : r.bytes = B
  unfold MapRecord.bytes at hB
  have f0 : beNat (slice B 0 4) = r.hash := hB ▸ beField [] 4 _ _ 0 4 rfl rfl (by omega)
  have f1 : beNat (slice B 4 8) = r.rank := hB ▸ beField [_] 4 _ _ 4 8 (by simp) rfl (by omega)
  have f2 : beNat (slice B 8 12) = r.dataLocation := hB ▸ beField [_, _] 4 _ _ 8 12 (by simp) rfl (by omega)
  have f3 : beNat (slice B 12 16) = r.metadataLocation := hB ▸ beField [_, _, _] 4 _ _ 12 16 (by simp) rfl (by omega)
  rw [f0, f1, f2, f3]

/-- All records of a map file are read. -/
theorem C105_map (minor : Nat) (other : Bytes) (ho : other.length = 268) (rs : List MapRecord) (h : ∀ r ∈ rs, r.Ok)
    (hn : 16 * rs.length < 2 ^ 32) (fuel : Nat) :
    readMap (mapBytes minor other rs) (rs.length + fuel + 1) = some (.ok rs) := by
  have hl : [beBytes 2 1, beBytes 2 minor, beBytes 4 (16 * rs.length), other].flatten.length = 276 := by simp [ho]
  have hr : (rs.flatMap (·.bytes)).length = 16 * rs.length :=
    flatMap_fixed_length 16 _ (by intro r; simp [MapRecord.bytes]) rs
  have he : Encodes mapHeaderMap [beBytes 2 1, beBytes 2 minor, beBytes 4 (16 * rs.length), other].flatten
      (16 * rs.length) := by
    refine encodes_refine _ _ _ _ _ (encodes_fixed 276 id _ (by decide) hl) ?_
    dsimp only [id]
    have f0 : beNat (slice [beBytes 2 1, beBytes 2 minor, beBytes 4 (16 * rs.length), other].flatten 0 2) = 1 :=
      beField [] 2 _ _ 0 2 rfl rfl (by omega)
    have f1 : beNat (slice [beBytes 2 1, beBytes 2 minor, beBytes 4 (16 * rs.length), other].flatten 4 8) =
      16 * rs.length := beField [_, _] 4 _ _ 4 8 (by simp) rfl (by omega)
    rw [f0, f1, if_pos rfl]
  have h0 := he [] (rs.flatMap (·.bytes))
  unfold readMap mapBytes
  rw [show structAt mapHeaderMap ([beBytes 2 1, beBytes 2 minor, beBytes 4 (16 * rs.length), other].flatten ++
    rs.flatMap (·.bytes)) 0 = .ok (16 * rs.length, _) from h0]
  dsimp only
  rw [if_neg (by rw [List.length_append, hr]; omega), Int.toNat_natCast]
  refine readUntil_all recordMap (·.bytes) rs (fun r hr => record_encodes r (h r hr)) ?_ _ fuel
  intro r _ hz
  have := congrArg List.length hz
  simp [MapRecord.bytes] at this

/-- A map file that is accepted has version 1, the size in its header and records up to its end. -/
theorem C105_map_complete (data : Bytes) (fuel : Nat) (rs : List MapRecord) (h : readMap data fuel = some (.ok rs)) :
    beNat (slice data 0 2) = 1 ∧ data.length = 276 + beNat (slice data 4 8) ∧ data.length = 276 + 16 * rs.length := by
  unfold readMap at h
  split at h
  · cases h
  · rename_i size n hx
    obtain ⟨h1, h2, h3⟩ := structAt_fixed_ok 276 _ data 0 size n (by decide) hx
    split at h
    · cases h
    · rename_i hs
      rw [h3, Int.toNat_natCast] at h
      obtain ⟨xs, e1, e2⟩ := readUntil_fixed_length 16 (by decide) _ data fuel 276 [] rs (by omega) h
      simp only [List.nil_append] at e1
      rw [e1]
      rw [Nat.zero_add, slice_slice data 0 276 0 2 (by decide), slice_slice data 0 276 4 8 (by decide)] at h2
      simp only [Nat.zero_add] at h2
      split at h2
      · rename_i hv
        cases h2
        exact ⟨hv, by omega, e2⟩
      · cases h2

/-! ## Proofs: block files -/

theorem parseEntry_bytes (e : Entry) (h : e.Ok) : parseEntry e.bytes = some e := by
  obtain ⟨h0, h1, h2, h3, h4, h5, h6, h7, h8, h9, h10⟩ := h
  have hu := unsigned_lt 4 e.fetchCount
  unfold parseEntry
  have hl : e.bytes.length = 36 + e.request.length + e.information.length := by simp [Entry.bytes]; omega
  generalize hB : e.bytes = B at hl
  have hB' : [beBytes 2 e.major, beBytes 2 e.minor, beBytes 4 e.location, beBytes 4 (unsigned 4 e.fetchCount),
    beBytes 4 e.fetched, beBytes 4 e.modified, beBytes 4 e.expiration, beBytes 4 e.dataSize, beBytes 4 e.request.length,
    beBytes 4 e.information.length, e.request, e.information].flatten = B := by rw [← hB]; simp [Entry.bytes]
  have f0 : beNat (slice B 0 2) = e.major := hB' ▸ beField [] 2 _ _ 0 2 rfl rfl (by omega)
  have f1 : beNat (slice B 2 4) = e.minor := hB' ▸ beField [_] 2 _ _ 2 4 (by simp) rfl (by omega)
  have f2 : beNat (slice B 4 8) = e.location := hB' ▸ beField [_, _] 4 _ _ 4 8 (by simp) rfl (by omega)
  have f3 : beNat (slice B 8 12) = unsigned 4 e.fetchCount := hB' ▸ beField [_, _, _] 4 _ _ 8 12 (by simp) rfl hu
  have f4 : beNat (slice B 12 16) = e.fetched := hB' ▸ beField [_, _, _, _] 4 _ _ 12 16 (by simp) rfl (by omega)
  have f5 : beNat (slice B 16 20) = e.modified := hB' ▸ beField [_, _, _, _, _] 4 _ _ 16 20 (by simp) rfl (by omega)
  have f6 : beNat (slice B 20 24) = e.expiration :=
    hB' ▸ beField [_, _, _, _, _, _] 4 _ _ 20 24 (by simp) rfl (by omega)
  have f7 : beNat (slice B 24 28) = e.dataSize :=
    hB' ▸ beField [_, _, _, _, _, _, _] 4 _ _ 24 28 (by simp) rfl (by omega)
  have f8 : beNat (slice B 28 32) = e.request.length :=
    hB' ▸ beField [_, _, _, _, _, _, _, _] 4 _ _ 28 32 (by simp) rfl (by omega)
  have f9 : slice B 36 (36 + e.request.length) = e.request :=
    hB' ▸ slice_fields [_, _, _, _, _, _, _, _, _, _] _ _ 36 (36 + e.request.length) (by simp) (by simp)
  have f10 : slice B (36 + e.request.length) B.length = e.information := by
    rw [hl]
    exact hB' ▸ slice_fields [_, _, _, _, _, _, _, _, _, _, _] _ _ (36 + e.request.length)
      (36 + e.request.length + e.information.length) (by simp; omega) (by simp)
  dsimp only
  rw [f8, f0, f1, f2, f3, f4, f5, f6, f7, f9, f10, signed_unsigned 4 _ h3.1 h3.2,
    if_pos (by rw [List.all_eq_true]; intro c hc; simpa using h10 c hc)]

theorem entry_encodes (e : Entry) (h : e.Ok) : Encodes entryMap e.bytes e := by
  refine encodes_refine _ _ _ _ _ (encodes_sized 36 _ id _ (by decide) (by simp [Entry.bytes]; omega) ?_)
    (parseEntry_bytes e h)
  obtain ⟨h0, h1, h2, h3, h4, h5, h6, h7, h8, h9, h10⟩ := h
  unfold Entry.bytes
  rw [List.take_left' (by simp)]
  have f8 : beNat (slice [beBytes 2 e.major, beBytes 2 e.minor, beBytes 4 e.location, beBytes 4 (unsigned 4 e.fetchCount),
      beBytes 4 e.fetched, beBytes 4 e.modified, beBytes 4 e.expiration, beBytes 4 e.dataSize, beBytes 4 e.request.length,
      beBytes 4 e.information.length].flatten 28 32) = e.request.length :=
    beField [_, _, _, _, _, _, _, _] 4 _ _ 28 32 (by simp) rfl (by omega)
  have f9 : beNat (slice [beBytes 2 e.major, beBytes 2 e.minor, beBytes 4 e.location, beBytes 4 (unsigned 4 e.fetchCount),
      beBytes 4 e.fetched, beBytes 4 e.modified, beBytes 4 e.expiration, beBytes 4 e.dataSize, beBytes 4 e.request.length,
      beBytes 4 e.information.length].flatten 32 36) = e.information.length :=
    beField [_, _, _, _, _, _, _, _, _] 4 _ _ 32 36 (by simp) rfl (by omega)
  rw [f8, f9]
  simp only [List.length_append, List.flatten_cons, List.flatten_nil, beBytes_length, List.length_nil]

theorem nextBlock_fill (block a b : Nat) (hb : b < block) (h : (a + b) % block = 0) : nextBlock block a = a + b := by
  unfold nextBlock
  obtain ⟨k, hk⟩ := Nat.dvd_of_mod_eq_zero h
  by_cases h0 : b = 0
  · subst h0
    rw [Nat.add_zero] at h
    rw [h, if_neg (by omega), Nat.add_zero]
  · have h1 : a % block = block - b := by
      have hk0 : 0 < k := by
        rcases Nat.eq_zero_or_pos k with rfl | hk0
        · omega
        · exact hk0
      obtain ⟨k', rfl⟩ : ∃ k', k = k' + 1 := ⟨k - 1, by omega⟩
      rw [Nat.mul_succ] at hk
      rw [show a = (block - b) + block * k' by omega, Nat.add_mul_mod_self_left, Nat.mod_eq_of_lt (by omega)]
    rw [h1, if_pos (by omega)]
    omega

theorem readEntry_entry (block : Nat) (e : Entry) (fill : Bytes) (h : (Item.entry e fill).Ok block) (pre post : Bytes) :
    readEntry block (pre ++ (Item.entry e fill).bytes ++ post) pre.length =
      .ok (some e, (pre ++ (Item.entry e fill).bytes).length) := by
  obtain ⟨h1, h2, h3, h4⟩ := h
  have eq : pre ++ (Item.entry e fill).bytes ++ post = pre ++ e.bytes ++ (fill ++ post) := by simp [Item.bytes]
  unfold readEntry
  rw [eq, entry_encodes e h1 pre (fill ++ post)]
  dsimp only
  rw [if_pos h2, Int.toNat_natCast, nextBlock_fill block _ fill.length h3 (by rwa [← List.length_append])]
  simp [Item.bytes]

/-- A block that is not in use is skipped if what it would have as an entry is not read or is within the block. -/
def Harmless (b : Bytes) : Prop := b.length < 36 + beNat (slice b 28 32) + beNat (slice b 32 36) → False

theorem readEntry_free (block : Nat) (b : Bytes) (h : (Item.free b).Ok block) (hb : 36 ≤ block) (hh : Harmless b)
    (pre post : Bytes) :
    readEntry block (pre ++ b ++ post) pre.length = .ok (none, (pre ++ b).length) := by
  obtain ⟨h1, h2⟩ := h
  have hh' : 36 + beNat (slice b 28 32) + beNat (slice b 32 36) ≤ b.length := Nat.le_of_not_lt hh
  generalize hn : 36 + beNat (slice b 28 32) + beNat (slice b 32 36) = n at hh'
  have eq : pre ++ b ++ post = pre ++ b.take n ++ (b.drop n ++ post) := by
    rw [List.append_assoc pre (b.take n), ← List.append_assoc (b.take n), List.take_append_drop, List.append_assoc]
  have hs (i j : Nat) (hj : j ≤ 36) : slice (b.take n) i j = slice b i j := slice_take b n i j (by omega)
  have hl : (b.take n).length = n := by rw [List.length_take]; omega
  have he : Encodes (sizedMap 36 (fun b => beNat (slice b 28 32) + beNat (slice b 32 36)) id) (b.take n) (id (b.take n)) := by
    refine encodes_sized 36 _ id _ (by decide) (by omega) ?_
    rw [slice_take _ 36 28 32 (by decide), slice_take _ 36 32 36 (by decide), hs 28 32 (by decide), hs 32 36 (by decide), hl]
    omega
  have hx := he pre (b.drop n ++ post)
  unfold readEntry entryMap
  rw [structAt_refine, eq, hx]
  dsimp only [id]
  cases hp : parseEntry (b.take n) with
  | none => simp [h1]
  | some e =>
    dsimp only
    have hm : e.major = beNat (slice b 0 2) := by
      unfold parseEntry at hp
      dsimp only at hp
      split at hp
      · cases hp
        exact congrArg beNat (hs 0 2 (by decide))
      · cases hp
    rw [if_neg (by rw [hm]; exact h2), Int.toNat_natCast, hl]
    have : nextBlock block n = block := by
      unfold nextBlock
      by_cases hnb : n = block
      · rw [hnb, Nat.mod_self, if_neg (by omega)]
      · rw [Nat.mod_eq_of_lt (by omega), if_pos (by omega)]
        omega
    rw [this, List.length_append, h1]

theorem walk_blocks (block : Nat) (hb : 36 ≤ block) (items : List Item) (h : ∀ i ∈ items, i.Ok block)
    (hh : ∀ b, Item.free b ∈ items → Harmless b) (pre : Bytes) (fuel : Nat) (acc : List (Option Entry)) :
    walk (readEntry block (pre ++ items.flatMap (·.bytes))) (pre ++ items.flatMap (·.bytes)).length
      (items.length + fuel + 1) pre.length acc = some (.ok (acc ++ items.map (·.entry?))) := by
  induction items generalizing pre acc with
  | nil => simp [walk]
  | cons i items ih =>
    have eq : pre ++ (i :: items).flatMap (·.bytes) = pre ++ i.bytes ++ items.flatMap (·.bytes) := by simp
    have hi := h i (by simp)
    have hr : readEntry block (pre ++ i.bytes ++ items.flatMap (·.bytes)) pre.length =
        .ok (i.entry?, (pre ++ i.bytes).length) := by
      cases i with
      | entry e fill => exact readEntry_entry block e fill hi pre _
      | free b => exact readEntry_free block b hi hb (hh b (by simp)) pre _
    have hl : 0 < i.bytes.length := by
      cases i with
      | entry e fill => simp [Item.bytes, Entry.bytes]; omega
      | free b => have := hi.1; simp only [Item.bytes]; omega
    rw [eq, List.length_cons, show items.length + 1 + fuel + 1 = (items.length + fuel + 1) + 1 by omega, walk,
      if_pos (by simp only [List.length_append]; omega), hr]
    dsimp only
    rw [ih (fun j hj => h j (by simp [hj])) (fun b hb => hh b (by simp [hb]))]
    simp

theorem blockSize_ge (name : List Char) (block : Nat) (h : blockSize name = some block) : 36 ≤ block := by
  unfold blockSize at h
  split at h
  · cases h; decide
  · split at h
    · cases h; decide
    · split at h
      · cases h; decide
      · cases h

/-- All entries are shown, of files in which the blocks that are not in use would not be entries longer than a block. -/
theorem C105_blocks_partial (name : List Char) (block : Nat) (items : List Item) (hn : blockSize name = some block)
    (h : ∀ i ∈ items, i.Ok block) (hh : ∀ b, Item.free b ∈ items → Harmless b) (fuel : Nat) :
    readBlocks name (items.flatMap (·.bytes)) (items.length + fuel + 1) = some (.ok (items.filterMap (·.entry?))) := by
  unfold readBlocks
  rw [hn]
  dsimp only
  have := walk_blocks block (blockSize_ge name block hn) items h hh [] fuel []
  simp only [List.nil_append, List.length_nil] at this
  rw [this]
  dsimp only
  rw [List.filterMap_map]
  rfl

/-- The blocks of the three files have 256, 1024 and 4096 bytes. -/
theorem C105_block_files (k : Nat) (hk : k < 3) (items : List Item) (h : ∀ i ∈ items, i.Ok (256 * 4 ^ k))
    (hh : ∀ b, Item.free b ∈ items → Harmless b) (fuel : Nat) :
    readBlocks ("_CACHE_00".toList ++ Text.digits 10 (k + 1) ++ ['_']) (items.flatMap (·.bytes)) (items.length + fuel + 1) =
      some (.ok (items.filterMap (·.entry?))) := by
  refine C105_blocks_partial _ _ items ?_ h hh fuel
  have : k = 0 ∨ k = 1 ∨ k = 2 := by omega
  rcases this with rfl | rfl | rfl <;> decide +kernel

/-- Reading ends for all files. -/
theorem C105_terminates (name : List Char) (data : Bytes) : readBlocks name data (data.length + 1) ≠ none := by
  unfold readBlocks
  split
  · simp
  · rename_i block hb
    have hb' := blockSize_ge name block hb
    have key : ∀ fuel off acc, data.length - off < fuel → walk (readEntry block data) data.length fuel off acc ≠ none := by
      intro fuel
      induction fuel with
      | zero => intro off acc h; omega
      | succ fuel ih =>
        intro off acc h
        rw [walk]
        split
        · unfold readEntry
          split
          · simp
          · rename_i x m hm
            split at hm
            · cases hm
              exact ih _ _ (by omega)
            · cases hm
            · rename_i e size hx
              cases hm
              have hp := positive_refine _ parseEntry (positive_sized 36 _ id (by decide)) data off e size hx
              have : size.toNat ≤ nextBlock block size.toNat := by unfold nextBlock; split <;> omega
              exact ih _ _ (by omega)
        · simp
    have := key (data.length + 1) 0 [] (by omega)
    split
    · rename_i hw
      exact absurd hw this
    · simp
    · simp

/-- A file with another name is refused. -/
theorem C105_name (name : List Char) (data : Bytes) (fuel : Nat)
    (h : name ∉ ["_CACHE_001_".toList, "_CACHE_002_".toList, "_CACHE_003_".toList]) :
    readBlocks name data fuel = some (.error .parseError) := by
  simp only [List.mem_cons, List.not_mem_nil, or_false, not_or] at h
  unfold readBlocks blockSize
  rw [if_neg h.1, if_neg h.2.1, if_neg h.2.2]

/-- A block that is not in use, with what would be the header of an entry of two blocks. -/
def staleBlock : Bytes := List.replicate 30 0 ++ [1, 0] ++ List.replicate 224 0

def sampleEntry : Entry := ⟨1, 19, 5, 1, 2, 3, 4, 6, [104, 116], [1, 2, 3]⟩

def sampleItem : Item := .entry sampleEntry (List.replicate 215 0)

theorem sampleEntry_ok : sampleEntry.Ok := by
  refine ⟨by decide, by decide, by decide, ⟨by decide, by decide⟩, by decide, by decide, by decide, by decide, by decide,
    by decide, by decide⟩

theorem sampleItem_ok : sampleItem.Ok 256 := ⟨sampleEntry_ok, rfl, by decide +kernel, by decide +kernel⟩

theorem readBlocks_mono (name : List Char) (data : Bytes) (fuel k : Nat) (r : Res (List Entry))
    (h : readBlocks name data fuel = some r) : readBlocks name data (fuel + k) = some r := by
  unfold readBlocks at h ⊢
  split at h
  · exact h
  · split at h
    · cases h
    · rename_i hw
      rw [walk_mono _ _ _ k _ _ _ hw]
      exact h
    · rename_i hw
      rw [walk_mono _ _ _ k _ _ _ hw]
      exact h

/-- The entry after a block that is not in use is missed. -/
theorem C105_blocks_claim_false : ¬ C105_blocks_claim := by
  intro h
  obtain ⟨fuel, hf⟩ := h "_CACHE_001_".toList 256 [.free staleBlock, sampleItem] (by decide)
    (by
      intro i hi
      simp only [List.mem_cons, List.not_mem_nil, or_false] at hi
      rcases hi with rfl | rfl
      · exact ⟨by decide +kernel, by decide +kernel⟩
      · exact sampleItem_ok)
  have h1 : readBlocks "_CACHE_001_".toList ([Item.free staleBlock, sampleItem].flatMap (·.bytes)) 2 = some (.ok []) := by
    decide +kernel
  have h2 := readBlocks_mono _ _ 2 fuel _ h1
  have h3 := readBlocks_mono _ _ fuel 2 _ hf
  rw [Nat.add_comm] at h3
  rw [h3] at h2
  revert h2
  decide

example : readBlocks "_CACHE_001_".toList ([Item.free (List.replicate 256 0), sampleItem].flatMap (·.bytes)) 3 =
    some (.ok [sampleEntry]) :=
  C105_blocks_partial "_CACHE_001_".toList 256 [.free (List.replicate 256 0), sampleItem] (by decide)
    (by
      intro i hi
      simp only [List.mem_cons, List.not_mem_nil, or_false] at hi
      rcases hi with rfl | rfl
      · exact ⟨by decide +kernel, by decide +kernel⟩
      · exact sampleItem_ok)
    (by
      intro b hb
      simp only [List.mem_cons, List.not_mem_nil, or_false, sampleItem, reduceCtorEq, Item.free.injEq] at hb
      subst hb
      unfold Harmless
      decide +kernel) 0

end Dtf.Firefox
