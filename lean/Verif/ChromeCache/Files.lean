import Verif.ChromeCache.Props
import Verif.Slices
import Verif.Fields

/-!
# Files and directories of the Chrome cache (C159, C160)

The rest of dtformats/chrome_cache.py: index files, data block files, cache entries and directories.
-/

namespace Dtf.ChromeCache
open Py DataFormat

/-! ## Model -/

/-- The version that a header must have (chrome_cache.py 367-374 and 549-556): `"2.0"` or `"2.1"`. -/
def supported (b : Bytes) : Bool := leNat (slice b 6 8) = 2 ∧ (leNat (slice b 4 6) = 0 ∨ leNat (slice b 4 6) = 1)

/-- `chrome_cache_index_file_header` (chrome_cache.yaml 141-176): the creation time. -/
def parseIndexHeader (b : Bytes) : Option Nat :=
  if leNat (slice b 0 4) = 0xC103CAC3 ∧ supported b then some (leNat (slice b 40 48)) else none

def indexHeaderMap : DataTypeMap Nat := (fixedMap 256 id).refine parseIndexHeader

/-- `chrome_cache_index_file_lru_data` (chrome_cache.yaml 178-213), which is not used further. -/
def lruMap : DataTypeMap Bytes := fixedMap 112 id

/-- What `ReadFileObject` of an index file (chrome_cache.py 620-631) sets: `_ReadFileHeader` (529-558), `_ReadLRUData` (560-573)
and `_ReadIndexTable`. -/
def readIndex (data : Bytes) : Res (Nat × List (Nat × CacheAddress)) :=
  match structAt indexHeaderMap data 0 with
  | .error e => .error e
  | .ok (creation, _) =>
    match structAt lruMap data 256 with
    | .error e => .error e
    | .ok _ => .ok (creation, readIndexTable 0 (data.drop 368))

/-- `chrome_cache_data_block_file_header` (chrome_cache.yaml 49-84): the block size and the number of entries. -/
def parseBlockHeader (b : Bytes) : Option (Nat × Nat) :=
  if leNat (slice b 0 4) = 0xC104CAC3 ∧ supported b then some (leNat (slice b 12 16), leNat (slice b 16 20)) else none

def blockHeaderMap : DataTypeMap (Nat × Nat) := (fixedMap 8192 id).refine parseBlockHeader

/-- `ReadFileObject` of a data block file (`_ReadFileHeader`, chrome_cache.py 350-377, and 426-435). -/
def readBlocks (data : Bytes) : Res (Nat × Nat) :=
  match structAt blockHeaderMap data 0 with
  | .error e => .error e
  | .ok (x, _) => .ok x

/-- `CacheEntry`. -/
structure Entry where
  hash : Nat
  next : CacheAddress
  rankings : CacheAddress
  creation : Nat
  key : List Char
deriving DecidableEq

/-- `decode("ascii")`, and with `errors="replace"` where that fails (chrome_cache.py 399-407). -/
def decodeKey (b : Bytes) : List Char :=
  b.map (fun c => if c.toNat < 128 then Char.ofNat c.toNat else Char.ofNat 0xFFFD)

/-- `chrome_cache_entry` (chrome_cache.yaml 86-139) with chrome_cache.py 396-424: the key is what is before the first byte of 0. -/
def parseEntry (b : Bytes) : Entry :=
  ⟨leNat (slice b 0 4), cacheAddress (leNat (slice b 4 8)), cacheAddress (leNat (slice b 8 12)), leNat (slice b 24 32),
    decodeKey ((slice b 96 256).takeWhile (· ≠ 0))⟩

def entryMap : DataTypeMap Entry := fixedMap 256 parseEntry

/-- `ReadCacheEntry` (chrome_cache.py 379-424). -/
def readEntry (data : Bytes) (off : Nat) : Res Entry :=
  match structAt entryMap data off with
  | .error e => .error e
  | .ok (e, _) => .ok e

/-- What `ParseFile` (chrome_cache.py 754-784) reads. -/
inductive FileKind
  | index (creation : Nat) (table : List (Nat × CacheAddress))
  | blocks (blockSize entries : Nat)
deriving DecidableEq

def parseFile (data : Bytes) : Res FileKind :=
  let signature := data.take 4
  if signature.length < 4 then .error .parseError
  else if leNat signature = 0xC104CAC3 then
    match readBlocks data with
    | .error e => .error e
    | .ok (s, n) => .ok (.blocks s n)
  else if leNat signature = 0xC103CAC3 then
    match readIndex data with
    | .error e => .error e
    | .ok (c, t) => .ok (.index c t)
  else .error .parseError

/-- The file system helper that checks for files, the native one that opens them, as the classes of the files are not given the
helper (chrome_cache.py 672 and 689-691), `str(datetime)` of a creation time, and `key.decode("ascii")`. -/
structure Env where
  join : List (Option (List Char)) → Res (List Char)
  existing : List Char → Bool
  native : List Char → Res Bytes
  date : Nat → Res (List Char)
  decode : List Char → Res (List Char)

/-- `JoinPath` of both helpers has one argument (file_system.py 149-158, dfvfs_helpers.py 88-97): a sequence of segments.  What the
one of dfVFS gives for it is not modelled. -/
def joinPath : List (Option (List Char)) → Res (List Char)
  | [some segments] => .ok ('/' :: Text.join ['/'] (segments.map ([·])))
  | _ => .error .typeError

/-- `decode` of the key (chrome_cache.py 719-729): it is a string already, which has none. -/
def strDecode (_ : List Char) : Res (List Char) := .error .attributeError

/-- The data block files that were opened, by name. -/
abbrev Blocks := List (Option (List Char) × Bytes)

/-- The loop that opens data block files (chrome_cache.py 675-694). -/
def openBlocks (env : Env) (path : List Char) : List CacheAddress → Blocks → Bool → Res (Blocks × Bool)
  | [], files, all => .ok (files, all)
  | a :: r, files, all =>
    if (files.lookup a.filename).isSome then openBlocks env path r files all
    else
      match env.join [some path, a.filename] with
      | .error e => .error e
      | .ok p =>
        if env.existing p then
          match env.native p with
          | .error e => .error e
          | .ok data =>
            match readBlocks data with
            | .error e => .error e
            | .ok _ => openBlocks env path r (files ++ [(a.filename, data)]) all
        else openBlocks env path r files false

/-- `ReadCacheEntry` of an address. -/
def entryAt (files : Blocks) (a : CacheAddress) : Option (Res Entry) :=
  match files.lookup a.filename with
  | none => none
  | some data =>
    match a.blockOffset with
    | none => some (.error .typeError)
    | some off => some (readEntry data off)

/-- The line that is printed for an entry (chrome_cache.py 741). -/
abbrev Line := List Char × List Char

/-- The chain of an address (chrome_cache.py 699-744), at most as many entries as the number. -/
def printChain (env : Env) (files : Blocks) : Nat → CacheAddress → Res (List Line)
  | 0, _ => .ok []
  | n + 1, a =>
    if a.value = 0 then .ok []
    else
      match entryAt files a with
      | none => .ok []
      | some (.error e) => .error e
      | some (.ok entry) =>
        match env.decode entry.key with
        | .error e => .error e
        | .ok _ =>
          match env.date entry.creation with
          | .error e => .error e
          | .ok d => (printChain env files n entry.next).map ((d, entry.key) :: ·)

def printChains (env : Env) (files : Blocks) : List CacheAddress → Res (List Line)
  | [] => .ok []
  | a :: r =>
    match printChain env files 64 a with
    | .error e => .error e
    | .ok l => (printChains env files r).map (l ++ ·)

/-- `ParseDirectory` (chrome_cache.py 659-752). -/
def parseDirectory (env : Env) (path : List Char) : Res (List Line) :=
  match env.join [some path, some "index".toList] with
  | .error e => .error e
  | .ok p =>
    if env.existing p then
      match env.native p with
      | .error e => .error e
      | .ok data =>
        match readIndex data with
        | .error e => .error e
        | .ok (_, table) =>
          match openBlocks env path (table.map (·.2)) [] true with
          | .error e => .error e
          | .ok (files, all) => if all then printChains env files (table.map (·.2)) else .error .parseError
    else .error .parseError

/-! ## C159: files -/

/-- The first fields of a header. -/
def versionFields (signature minor major : Nat) : List Bytes := [leBytes 4 signature, leBytes 2 minor, leBytes 2 major]

/-- An index file: 32 bytes and 208 bytes that are not used around the creation time, the data about what was used last, and the
table. -/
def indexBytes (minor major : Nat) (counts : Bytes) (creation : Nat) (rest lru : Bytes) (words : List Nat) : Bytes :=
  (versionFields 0xC103CAC3 minor major ++ [counts, leBytes 8 creation, rest]).flatten ++ lru ++ words.flatMap (leBytes 4)

/-- The entries of a table: the words that are not 0, with their positions. -/
def tableEntries (words : List Nat) : List (Nat × CacheAddress) :=
  ((List.range words.length).zip words).filterMap (fun x => if x.2 = 0 then none else some (x.1, cacheAddress x.2))

theorem readIndexTable_words (words : List Nat) (h : ∀ w ∈ words, w < 2 ^ 32) (tail : Bytes) (ht : tail.length < 4) (base : Nat) :
    readIndexTable base (words.flatMap (leBytes 4) ++ tail) =
      ((List.range' base words.length).zip words).filterMap
        (fun x => if x.2 = 0 then none else some (x.1, cacheAddress x.2)) := by
  induction words generalizing base with
  | nil =>
    simp only [List.flatMap_nil, List.nil_append]
    match tail, ht with
    | [], _ => rfl
    | [_], _ => rfl
    | [_, _], _ => rfl
    | [_, _, _], _ => rfl
    | _ :: _ :: _ :: _ :: _, ht => simp only [List.length_cons] at ht; omega
  | cons w words ih =>
    have hw := h w List.mem_cons_self
    have hl : (leBytes 4 w).length = 4 := by simp
    obtain ⟨b0, b1, b2, b3, hb⟩ : ∃ b0 b1 b2 b3, leBytes 4 w = [b0, b1, b2, b3] := by
      match leBytes 4 w, hl with
      | [b0, b1, b2, b3], _ => exact ⟨b0, b1, b2, b3, rfl⟩
    have hv : leNat [b0, b1, b2, b3] = w := by
      rw [← hb]
      exact leNat_leBytes_of_lt 4 w (by omega)
    rw [List.flatMap_cons, hb]
    simp only [List.cons_append, List.nil_append, List.append_assoc]
    rw [readIndexTable, hv]
    simp only [List.length_cons, List.range'_succ, List.zip_cons_cons, List.filterMap_cons]
    rw [ih (fun x hx => h x (List.mem_cons_of_mem _ hx))]
    by_cases h0 : w = 0
    · simp [h0]
    · simp [h0]

/-- C159.  An index file of a supported version is read with its creation time and all its addresses, each under its position. -/
theorem C159_index (minor : Nat) (counts rest lru tail : Bytes) (creation : Nat) (words : List Nat) (hm : minor ≤ 1)
    (hc : counts.length = 32) (hr : rest.length = 208) (hl : lru.length = 112) (hcr : creation < 2 ^ 64)
    (hw : ∀ w ∈ words, w < 2 ^ 32) (ht : tail.length < 4) :
    readIndex (indexBytes minor 2 counts creation rest lru words ++ tail) = .ok (creation, tableEntries words) := by
  generalize hf : (versionFields 0xC103CAC3 minor 2 ++ [counts, leBytes 8 creation, rest]).flatten = header
  have hlen : header.length = 256 := by rw [← hf]; simp [versionFields, hc, hr]
  have hp : parseIndexHeader header = some creation := by
    have f0 := leField [] 4 0xC103CAC3 [leBytes 2 minor, leBytes 2 2, counts, leBytes 8 creation, rest] 0 4 rfl rfl (by omega)
    have f1 := leField [leBytes 4 0xC103CAC3] 2 minor [leBytes 2 2, counts, leBytes 8 creation, rest] 4 6 (by simp) rfl (by omega)
    have f2 := leField [leBytes 4 0xC103CAC3, leBytes 2 minor] 2 2 [counts, leBytes 8 creation, rest] 6 8 (by simp) rfl (by omega)
    have f3 := leField [leBytes 4 0xC103CAC3, leBytes 2 minor, leBytes 2 2, counts] 8 creation [rest] 40 48 (by simp [hc]) rfl
      (by omega)
    rw [← hf]
    simp only [versionFields, List.nil_append, List.cons_append] at f0 f1 f2 f3 ⊢
    unfold parseIndexHeader supported
    rw [f0, f1, f2, f3, if_pos]
    refine ⟨rfl, ?_⟩
    simp
    omega
  have e1 : indexBytes minor 2 counts creation rest lru words ++ tail =
      [] ++ header ++ (lru ++ (words.flatMap (leBytes 4) ++ tail)) := by
    rw [← hf]; simp [indexBytes]
  have e2 : indexBytes minor 2 counts creation rest lru words ++ tail = header ++ lru ++ (words.flatMap (leBytes 4) ++ tail) := by
    rw [← hf]; simp [indexBytes]
  have s1 := encodes_refine _ parseIndexHeader _ _ _ (encodes_fixed 256 id header (by omega) hlen) hp []
    (lru ++ (words.flatMap (leBytes 4) ++ tail))
  rw [← e1] at s1
  simp only [List.length_nil, Int.natCast_zero] at s1
  have s2 := structAt_fixed_append 112 id header lru (words.flatMap (leBytes 4) ++ tail) (by omega) hl
  rw [← e2, hlen] at s2
  unfold readIndex
  rw [show indexHeaderMap = (fixedMap 256 id).refine parseIndexHeader from rfl, s1]
  dsimp only
  rw [show lruMap = fixedMap 112 id from rfl, show (256 : Int) = ((256 : Nat) : Int) from rfl, s2]
  dsimp only
  rw [e2, List.drop_left' (by simp [hlen, hl]), readIndexTable_words words hw tail ht 0]
  rw [tableEntries, List.range_eq_range']

example : tableEntries [0, 0xA0010002, 0, 5] = [(1, cacheAddress 0xA0010002), (3, cacheAddress 5)] := rfl

theorem slice_zero (data : Bytes) (n a b : Nat) (h : b ≤ n) : slice ((data.drop 0).take n) a b = slice data a b := by
  simp [slice, List.drop_take, List.take_take]
  omega

/-- C159.  An index file is read exactly if it has the size, the signature and the version; any other raises a parse error. -/
theorem C159_index_accepted (data : Bytes) :
    ((∃ x, readIndex data = .ok x) ↔ 368 ≤ data.length ∧ leNat (slice data 0 4) = 0xC103CAC3 ∧ leNat (slice data 6 8) = 2 ∧
      leNat (slice data 4 6) ≤ 1) ∧ ∀ e, readIndex data = .error e → e = .parseError := by
  unfold readIndex indexHeaderMap lruMap
  rw [structAt_refine, show (0 : Int) = ((0 : Nat) : Int) from rfl, show (256 : Int) = ((256 : Nat) : Int) from rfl,
    structAt_fixed _ _ _ _ (by omega), structAt_fixed _ _ _ _ (by omega)]
  by_cases h1 : data.length < 0 + 256
  · rw [if_pos h1]
    exact ⟨⟨fun ⟨x, hx⟩ => (by cases hx), fun h => (by omega)⟩, fun e he => (by cases he; rfl)⟩
  · rw [if_neg h1]
    dsimp only [id]
    have hp : parseIndexHeader ((data.drop 0).take 256) =
        if leNat (slice data 0 4) = 0xC103CAC3 ∧ leNat (slice data 6 8) = 2 ∧ leNat (slice data 4 6) ≤ 1 then
          some (leNat (slice data 40 48)) else none := by
      unfold parseIndexHeader supported
      rw [slice_zero _ _ _ _ (by omega), slice_zero _ _ _ _ (by omega), slice_zero _ _ _ _ (by omega),
        slice_zero _ _ _ _ (by omega)]
      congr 1
      simp only [decide_eq_true_eq, eq_iff_iff]
      constructor
      · rintro ⟨a, b, c⟩; exact ⟨a, b, by omega⟩
      · rintro ⟨a, b, c⟩; exact ⟨a, b, by omega⟩
    rw [hp]
    by_cases h2 : leNat (slice data 0 4) = 0xC103CAC3 ∧ leNat (slice data 6 8) = 2 ∧ leNat (slice data 4 6) ≤ 1
    · rw [if_pos h2]
      dsimp only
      by_cases h3 : data.length < 256 + 112
      · rw [if_pos h3]
        exact ⟨⟨fun ⟨x, hx⟩ => (by cases hx), fun h => (by omega)⟩, fun e he => (by cases he; rfl)⟩
      · rw [if_neg h3]
        exact ⟨⟨fun _ => ⟨by omega, h2⟩, fun _ => ⟨_, rfl⟩⟩, fun e he => (by cases he)⟩
    · rw [if_neg h2]
      exact ⟨⟨fun ⟨x, hx⟩ => (by cases hx), fun h => absurd h.2 h2⟩, fun e he => (by cases he; rfl)⟩

/-- C159.  The same for a data block file, with the size of blocks and the number of entries. -/
theorem C159_blocks (data : Bytes) (x : Nat × Nat) :
    (readBlocks data = .ok x ↔ 8192 ≤ data.length ∧ leNat (slice data 0 4) = 0xC104CAC3 ∧ leNat (slice data 6 8) = 2 ∧
      leNat (slice data 4 6) ≤ 1 ∧ x = (leNat (slice data 12 16), leNat (slice data 16 20))) ∧
      ∀ e, readBlocks data = .error e → e = .parseError := by
  unfold readBlocks blockHeaderMap
  rw [structAt_refine, show (0 : Int) = ((0 : Nat) : Int) from rfl, structAt_fixed _ _ _ _ (by omega)]
  by_cases h1 : data.length < 0 + 8192
  · rw [if_pos h1]
    exact ⟨⟨fun hx => (by cases hx), fun h => (by omega)⟩, fun e he => (by cases he; rfl)⟩
  · rw [if_neg h1]
    dsimp only [id]
    have hp : parseBlockHeader ((data.drop 0).take 8192) =
        if leNat (slice data 0 4) = 0xC104CAC3 ∧ leNat (slice data 6 8) = 2 ∧ leNat (slice data 4 6) ≤ 1 then
          some (leNat (slice data 12 16), leNat (slice data 16 20)) else none := by
      unfold parseBlockHeader supported
      rw [slice_zero _ _ _ _ (by omega), slice_zero _ _ _ _ (by omega), slice_zero _ _ _ _ (by omega),
        slice_zero _ _ _ _ (by omega), slice_zero _ _ _ _ (by omega)]
      congr 1
      simp only [decide_eq_true_eq, eq_iff_iff]
      constructor
      · rintro ⟨a, b, c⟩; exact ⟨a, b, by omega⟩
      · rintro ⟨a, b, c⟩; exact ⟨a, b, by omega⟩
    rw [hp]
    by_cases h2 : leNat (slice data 0 4) = 0xC104CAC3 ∧ leNat (slice data 6 8) = 2 ∧ leNat (slice data 4 6) ≤ 1
    · rw [if_pos h2]
      dsimp only
      refine ⟨⟨fun hx => ?_, fun h => ?_⟩, fun e he => (by cases he)⟩
      · simp only [Except.ok.injEq] at hx
        exact ⟨by omega, h2.1, h2.2.1, h2.2.2, hx.symm⟩
      · rw [h.2.2.2.2]
    · rw [if_neg h2]
      exact ⟨⟨fun hx => (by cases hx), fun h => absurd ⟨h.2.1, h.2.2.1, h.2.2.2.1⟩ h2⟩, fun e he => (by cases he; rfl)⟩

/-- C159.  A file is read by what its first four bytes are: both kinds of files are known, and no other. -/
theorem C159_file (data : Bytes) (k : FileKind) :
    parseFile data = .ok k ↔ (∃ s n, k = .blocks s n ∧ readBlocks data = .ok (s, n)) ∨
      (∃ c t, k = .index c t ∧ readIndex data = .ok (c, t)) := by
  have hb := fun s n => (C159_blocks data (s, n)).1
  have hi := (C159_index_accepted data).1
  have e : slice data 0 4 = data.take 4 := by simp [slice]
  unfold parseFile
  dsimp only
  by_cases h1 : (data.take 4).length < 4
  · rw [if_pos h1]
    rw [List.length_take] at h1
    refine ⟨fun h => (by cases h), ?_⟩
    rintro (⟨s, n, -, h⟩ | ⟨c, t, -, h⟩)
    · have := (hb s n).mp h; omega
    · have := hi.mp ⟨_, h⟩; omega
  · rw [if_neg h1]
    by_cases h2 : leNat (data.take 4) = 0xC104CAC3
    · rw [if_pos h2]
      constructor
      · intro h
        cases hr : readBlocks data with
        | error x => rw [hr] at h; cases h
        | ok x =>
          obtain ⟨s, n⟩ := x
          rw [hr] at h
          simp only [Except.ok.injEq] at h
          exact .inl ⟨s, n, h.symm, rfl⟩
      · rintro (⟨s, n, rfl, h⟩ | ⟨c, t, -, h⟩)
        · rw [h]
        · have := hi.mp ⟨_, h⟩
          rw [e, h2] at this
          exact absurd this.2.1 (by decide)
    · rw [if_neg h2]
      by_cases h3 : leNat (data.take 4) = 0xC103CAC3
      · rw [if_pos h3]
        constructor
        · intro h
          cases hr : readIndex data with
          | error x => rw [hr] at h; cases h
          | ok x =>
            obtain ⟨c, t⟩ := x
            rw [hr] at h
            simp only [Except.ok.injEq] at h
            exact .inr ⟨c, t, h.symm, rfl⟩
        · rintro (⟨s, n, -, h⟩ | ⟨c, t, rfl, h⟩)
          · have := (hb s n).mp h
            rw [e] at this
            exact absurd this.2.1 h2
          · rw [h]
      · rw [if_neg h3]
        refine ⟨fun h => (by cases h), ?_⟩
        rintro (⟨s, n, -, h⟩ | ⟨c, t, -, h⟩)
        · have := (hb s n).mp h
          rw [e] at this
          exact absurd this.2.1 h2
        · have := hi.mp ⟨_, h⟩
          rw [e] at this
          exact absurd this.2.1 h3

/-- An entry as it is stored: counts and state (12 bytes) and sizes, addresses and flags (56 bytes) are not used, nor are the size of
the key and the address of a long key. -/
structure StoredEntry where
  hash : Nat
  next : Nat
  rankings : Nat
  counts : Bytes
  creation : Nat
  keySize : Nat
  longKey : Nat
  streams : Bytes
  area : Bytes

def StoredEntry.Ok (e : StoredEntry) : Prop :=
  e.hash < 2 ^ 32 ∧ e.next < 2 ^ 32 ∧ e.rankings < 2 ^ 32 ∧ e.counts.length = 12 ∧ e.creation < 2 ^ 64 ∧ e.keySize < 2 ^ 32 ∧
    e.longKey < 2 ^ 32 ∧ e.streams.length = 56 ∧ e.area.length = 160

def StoredEntry.bytes (e : StoredEntry) : Bytes :=
  [leBytes 4 e.hash, leBytes 4 e.next, leBytes 4 e.rankings, e.counts, leBytes 8 e.creation, leBytes 4 e.keySize,
    leBytes 4 e.longKey, e.streams, e.area].flatten

theorem readEntry_bytes (e : StoredEntry) (h : e.Ok) (pre post : Bytes) :
    readEntry (pre ++ e.bytes ++ post) pre.length =
      .ok ⟨e.hash, cacheAddress e.next, cacheAddress e.rankings, e.creation, decodeKey (e.area.takeWhile (· ≠ 0))⟩ := by
  obtain ⟨h1, h2, h3, h4, h5, h6, h7, h8, h9⟩ := h
  have hl : e.bytes.length = 256 := by simp [StoredEntry.bytes, h4, h8, h9]
  unfold readEntry
  rw [show entryMap = fixedMap 256 parseEntry from rfl, structAt_fixed_append 256 parseEntry pre e.bytes post (by omega) hl]
  dsimp only
  congr 1
  have f0 := leField [] 4 e.hash [leBytes 4 e.next, leBytes 4 e.rankings, e.counts, leBytes 8 e.creation, leBytes 4 e.keySize,
    leBytes 4 e.longKey, e.streams, e.area] 0 4 rfl rfl (by omega)
  have f1 := leField [leBytes 4 e.hash] 4 e.next [leBytes 4 e.rankings, e.counts, leBytes 8 e.creation, leBytes 4 e.keySize,
    leBytes 4 e.longKey, e.streams, e.area] 4 8 (by simp) rfl (by omega)
  have f2 := leField [leBytes 4 e.hash, leBytes 4 e.next] 4 e.rankings [e.counts, leBytes 8 e.creation, leBytes 4 e.keySize,
    leBytes 4 e.longKey, e.streams, e.area] 8 12 (by simp) rfl (by omega)
  have f3 := leField [leBytes 4 e.hash, leBytes 4 e.next, leBytes 4 e.rankings, e.counts] 8 e.creation [leBytes 4 e.keySize,
    leBytes 4 e.longKey, e.streams, e.area] 24 32 (by simp [h4]) rfl (by omega)
  have f4 := slice_fields [leBytes 4 e.hash, leBytes 4 e.next, leBytes 4 e.rankings, e.counts, leBytes 8 e.creation,
    leBytes 4 e.keySize, leBytes 4 e.longKey, e.streams] e.area [] 96 256 (by simp [h4, h8]) (by omega)
  simp only [List.nil_append, List.cons_append] at f0 f1 f2 f3 f4
  unfold parseEntry StoredEntry.bytes
  rw [f0, f1, f2, f3, f4]

/-- C159.  An entry is read with its hash, addresses and creation time, and with its key if that is ASCII and in the entry. -/
theorem C159_entry (e : StoredEntry) (h : e.Ok) (key : List Char) (pad pre post : Bytes)
    (hk : ∀ c ∈ key, 0 < c.toNat ∧ c.toNat < 128) (ha : e.area = key.map (fun c => UInt8.ofNat c.toNat) ++ pad)
    (hp : pad = [] ∨ ∃ r, pad = 0 :: r) :
    readEntry (pre ++ e.bytes ++ post) pre.length =
      .ok ⟨e.hash, cacheAddress e.next, cacheAddress e.rankings, e.creation, key⟩ := by
  rw [readEntry_bytes e h pre post, ha]
  have hto : ∀ c ∈ key, (UInt8.ofNat c.toNat).toNat = c.toNat := by
    intro c hc
    have := hk c hc
    simp only [UInt8.toNat_ofNat']
    omega
  have ht : (key.map (fun c => UInt8.ofNat c.toNat) ++ pad).takeWhile (· ≠ 0) = key.map (fun c => UInt8.ofNat c.toNat) := by
    rw [List.takeWhile_append_of_pos]
    · rcases hp with rfl | ⟨r, rfl⟩ <;> simp
    · intro x hx
      obtain ⟨c, hc, rfl⟩ := List.mem_map.mp hx
      have h1 := hto c hc
      have h2 := hk c hc
      simp only [decide_eq_true_eq]
      intro h0
      rw [h0] at h1
      simp at h1
      omega
  rw [ht]
  congr 2
  unfold decodeKey
  rw [List.map_map]
  conv => rhs; rw [← List.map_id key]
  apply List.map_congr_left
  intro c hc
  have h1 := hto c hc
  have h2 := hk c hc
  simp only [Function.comp_apply, h1, id]
  rw [if_pos h2.2]
  exact Char.ofNat_toNat c

/-- C159.  The size of the key and the address of a long key are not used: two entries that differ in them only are read alike. -/
theorem C159_long_key (e : StoredEntry) (h : e.Ok) (keySize longKey : Nat) (hs : keySize < 2 ^ 32) (hl : longKey < 2 ^ 32)
    (pre post : Bytes) :
    readEntry (pre ++ { e with keySize := keySize, longKey := longKey : StoredEntry }.bytes ++ post) pre.length =
      readEntry (pre ++ e.bytes ++ post) pre.length := by
  have h' : ({ e with keySize := keySize, longKey := longKey : StoredEntry }).Ok :=
    ⟨h.1, h.2.1, h.2.2.1, h.2.2.2.1, h.2.2.2.2.1, hs, hl, h.2.2.2.2.2.2.2⟩
  rw [readEntry_bytes e h, readEntry_bytes _ h']

/-- C159, as a user reads it: entries with different keys are read with different keys, where a key of more than 160 bytes is the
one at the address of a long key. -/
def C159_keys_claim : Prop :=
  ∀ (e e' : StoredEntry) (pre post : Bytes) (x x' : Entry), e.Ok → e'.Ok → 160 < e.keySize → 160 < e'.keySize →
    e.longKey ≠ e'.longKey → readEntry (pre ++ e.bytes ++ post) pre.length = .ok x →
    readEntry (pre ++ e'.bytes ++ post) pre.length = .ok x' → x.key ≠ x'.key

/-- C159.  The claim is false: the key of both is what is in the entry. -/
theorem C159_keys_claim_false : ¬ C159_keys_claim := by
  intro h
  have ok : ∀ n, n < 2 ^ 32 → (⟨1, 0, 0, List.replicate 12 0, 0, 200, n, List.replicate 56 0, List.replicate 160 0⟩ : StoredEntry).Ok :=
    fun n hn => ⟨by dsimp only; omega, by dsimp only; omega, by dsimp only; omega, List.length_replicate, by dsimp only; omega,
      by dsimp only; omega, hn, List.length_replicate,
      List.length_replicate⟩
  exact h ⟨1, 0, 0, List.replicate 12 0, 0, 200, 1, List.replicate 56 0, List.replicate 160 0⟩
    ⟨1, 0, 0, List.replicate 12 0, 0, 200, 2, List.replicate 56 0, List.replicate 160 0⟩ [] [] _ _ (ok 1 (by omega))
    (ok 2 (by omega)) (by decide) (by decide) (by decide) (readEntry_bytes _ (ok 1 (by omega)) [] [])
    (readEntry_bytes _ (ok 2 (by omega)) [] []) rfl

example : (⟨0xABCD, 0xA0010002, 0x90000001, List.replicate 12 0, 13000000000000000, 3, 0, List.replicate 56 0,
    [0x61, 0x2e, 0x62] ++ List.replicate 157 0⟩ : StoredEntry).Ok :=
  ⟨by decide, by decide, by decide, by simp, by decide, by decide, by decide, by simp, by simp⟩

/-! ## C160: directories -/

theorem cacheAddress_value (a : Nat) : (cacheAddress a).value = a := by
  unfold cacheAddress
  dsimp only
  repeat' split
  all_goals rfl

/-- The environment of the code: both helpers have a `JoinPath` of one argument, and strings have no `decode`. -/
structure Env.Code (env : Env) : Prop where
  join : ∀ a b, env.join [a, b] = .error .typeError
  decode : env.decode = strDecode

/-- C160.  No directory can be read: with either file system helper there is a type error, whatever is in the directory. -/
theorem C160_never (env : Env) (h : env.Code) (path : List Char) : parseDirectory env path = .error .typeError := by
  unfold parseDirectory
  rw [h.join]

/-- C160.  With a `JoinPath` of two arguments, only directories without an entry can be read. -/
theorem C160_no_entries (env : Env) (h : env.decode = strDecode) (path : List Char) (lines : List Line)
    (hp : parseDirectory env path = .ok lines) :
    lines = [] ∧ ∃ p data c, env.join [some path, some "index".toList] = .ok p ∧ env.native p = .ok data ∧
      readIndex data = .ok (c, []) := by
  have hopen : ∀ (l : List CacheAddress) (files files' : Blocks) (all : Bool), openBlocks env path l files all = .ok (files', true) →
      all = true ∧ (∀ x, (files.lookup x).isSome → (files'.lookup x).isSome) ∧ ∀ a ∈ l, (files'.lookup a.filename).isSome := by
    intro l
    induction l with
    | nil =>
      intro files files' all hl
      simp only [openBlocks, Except.ok.injEq, Prod.mk.injEq] at hl
      refine ⟨hl.2, fun x hx => hl.1 ▸ hx, fun a ha => (by cases ha)⟩
    | cons a l ih =>
      intro files files' all hl
      rw [openBlocks] at hl
      split at hl
      · rename_i hf
        obtain ⟨h1, h2, h3⟩ := ih _ _ _ hl
        refine ⟨h1, h2, fun b hb => ?_⟩
        rcases List.mem_cons.mp hb with rfl | hb
        · exact h2 _ hf
        · exact h3 b hb
      · split at hl
        · cases hl
        · split at hl
          · split at hl
            · cases hl
            · rename_i data _
              split at hl
              · cases hl
              · obtain ⟨h1, h2, h3⟩ := ih _ _ _ hl
                have hmono : ∀ x, (files.lookup x).isSome → ((files ++ [(a.filename, data)]).lookup x).isSome := by
                  intro x hx
                  rw [List.lookup_append]
                  cases hxx : files.lookup x with
                  | none => rw [hxx] at hx; cases hx
                  | some _ => rfl
                have hnew : ((files ++ [(a.filename, data)]).lookup a.filename).isSome := by
                  rw [List.lookup_append]
                  cases files.lookup a.filename <;> simp
                refine ⟨h1, fun x hx => h2 x (hmono x hx), fun b hb => ?_⟩
                rcases List.mem_cons.mp hb with rfl | hb
                · exact h2 _ hnew
                · exact h3 b hb
          · have := (ih _ _ _ hl).1
            cases this
  have hvalue : ∀ (b : Bytes) base x, x ∈ readIndexTable base b → x.2.value ≠ 0 := by
    intro b base x hx
    obtain ⟨i, c⟩ := x
    obtain ⟨k, _, _, h3, h4⟩ := (readIndexTable_mem b base i c).mp hx
    have hval : (cacheAddress (tableValue b k)).value = tableValue b k := by
      exact cacheAddress_value _
    dsimp only
    rw [h4, hval]
    exact h3
  unfold parseDirectory at hp
  cases hj : env.join [some path, some "index".toList] with
  | error e => rw [hj] at hp; cases hp
  | ok p =>
    rw [hj] at hp
    dsimp only at hp
    split at hp
    · cases hn : env.native p with
      | error e => rw [hn] at hp; cases hp
      | ok data =>
        rw [hn] at hp
        dsimp only at hp
        cases hi : readIndex data with
        | error e => rw [hi] at hp; cases hp
        | ok x =>
          obtain ⟨c, table⟩ := x
          rw [hi] at hp
          dsimp only at hp
          cases ho : openBlocks env path (table.map (·.2)) [] true with
          | error e => rw [ho] at hp; cases hp
          | ok y =>
            obtain ⟨files, all⟩ := y
            rw [ho] at hp
            dsimp only at hp
            cases all with
            | false => cases hp
            | true =>
              simp only [if_true] at hp
              have ht : table = readIndexTable 0 (data.drop 368) := by
                unfold readIndex at hi
                split at hi
                · cases hi
                · split at hi
                  · cases hi
                  · simp only [Except.ok.injEq, Prod.mk.injEq] at hi
                    exact hi.2.symm
              cases table with
              | nil =>
                simp only [List.map_nil, printChains, Except.ok.injEq] at hp
                exact ⟨hp.symm, p, data, c, rfl, hn, hi⟩
              | cons a r =>
                exfalso
                obtain ⟨i, a⟩ := a
                have h0 : a.value ≠ 0 := hvalue _ 0 (i, a) (ht ▸ List.mem_cons_self)
                have hf := (hopen _ _ _ _ ho).2.2 a (by simp)
                simp only [List.map_cons] at hp
                rw [printChains, printChain, if_neg h0] at hp
                cases hl : files.lookup a.filename with
                | none => rw [hl] at hf; cases hf
                | some blocks =>
                  have he : entryAt files a ≠ none := by
                    unfold entryAt
                    rw [hl]
                    dsimp only
                    split <;> simp
                  cases hea : entryAt files a with
                  | none => exact he hea
                  | some r =>
                    rw [hea] at hp
                    cases r with
                    | error e => cases hp
                    | ok entry =>
                      dsimp only at hp
                      rw [h] at hp
                      cases hp
    · cases hp

/-- C160, the part that holds: if keys had a `decode`, the lines of a chain would be those of its first 64 entries, in order. -/
theorem C160_chain_partial (env : Env) (files : Blocks) (hd : ∀ k, ∃ s, env.decode k = .ok s) (date : Nat → List Char)
    (entry : Nat → Entry) (l : List Nat) (a : Nat)
    (hdate : ∀ x ∈ l, env.date (entry x).creation = .ok (date (entry x).creation))
    (hentry : ∀ x ∈ l, entryAt files (cacheAddress x) = some (.ok (entry x)))
    (h : Chain (fun x => if entryAt files (cacheAddress x) = none then none else some (entry x).next.value) a l)
    (hnext : ∀ x ∈ l, (entry x).next = cacheAddress (entry x).next.value) :
    printChain env files 64 (cacheAddress a) =
      .ok ((l.take 64).map (fun x => (date (entry x).creation, (entry x).key))) := by
  have hval := cacheAddress_value
  have key : ∀ n, printChain env files n (cacheAddress a) =
      .ok ((l.take n).map (fun x => (date (entry x).creation, (entry x).key))) := by
    intro n
    induction n generalizing a l with
    | zero => simp [printChain]
    | succ n ih =>
      rw [printChain, hval]
      cases h with
      | zero => simp
      | missing _ h1 =>
        by_cases h0 : a = 0
        · simp [h0]
        · rw [if_neg h0]
          have : entryAt files (cacheAddress a) = none := by
            by_cases hx : entryAt files (cacheAddress a) = none
            · exact hx
            · rw [if_neg hx] at h1; cases h1
          rw [this]
          simp
      | next _ b l' h1 h2 h3 =>
        rw [if_neg h1, hentry a List.mem_cons_self]
        dsimp only
        obtain ⟨s, hs⟩ := hd (entry a).key
        rw [hs]
        dsimp only
        rw [hdate a List.mem_cons_self]
        dsimp only
        have hb : (entry a).next.value = b := by
          rw [if_neg (by rw [hentry a List.mem_cons_self]; simp)] at h2
          simpa using h2
        rw [hnext a List.mem_cons_self, hb, ih l' b (fun x hx => hdate x (List.mem_cons_of_mem _ hx))
          (fun x hx => hentry x (List.mem_cons_of_mem _ hx)) h3 (fun x hx => hnext x (List.mem_cons_of_mem _ hx))]
        simp [Except.map]
  exact key 64

/-- C160, the part that holds, for all the addresses of a table: their chains are printed one after the other. -/
theorem C160_chains_partial (env : Env) (files : Blocks) (hd : ∀ k, ∃ s, env.decode k = .ok s) (date : Nat → List Char)
    (entry : Nat → Entry) (chains : List (Nat × List Nat))
    (h : ∀ c ∈ chains, (∀ x ∈ c.2, env.date (entry x).creation = .ok (date (entry x).creation)) ∧
      (∀ x ∈ c.2, entryAt files (cacheAddress x) = some (.ok (entry x))) ∧
      Chain (fun x => if entryAt files (cacheAddress x) = none then none else some (entry x).next.value) c.1 c.2 ∧
      (∀ x ∈ c.2, (entry x).next = cacheAddress (entry x).next.value)) :
    printChains env files (chains.map (fun c => cacheAddress c.1)) =
      .ok (chains.flatMap (fun c => (c.2.take 64).map (fun x => (date (entry x).creation, (entry x).key)))) := by
  induction chains with
  | nil => rfl
  | cons c chains ih =>
    obtain ⟨h1, h2, h3, h4⟩ := h c List.mem_cons_self
    rw [List.map_cons, printChains, C160_chain_partial env files hd date entry c.2 c.1 h1 h2 h3 h4]
    dsimp only
    rw [ih (fun c' hc => h c' (List.mem_cons_of_mem _ hc))]
    rfl

/-- C160, as a user reads it: the entries of a directory with an index file and the data block files of its addresses are
printed. -/
def C160_directory_claim : Prop :=
  ∀ (env : Env) (path p : List Char) (data : Bytes) (c : Nat) (table : List (Nat × CacheAddress)), env.Code →
    env.existing p = true → env.native p = .ok data → readIndex data = .ok (c, table) → ∃ lines, parseDirectory env path = .ok lines

theorem code_exists (existing : List Char → Bool) (native : List Char → Res Bytes) (date : Nat → Res (List Char)) :
    (⟨joinPath, existing, native, date, strDecode⟩ : Env).Code := ⟨fun a _ => by cases a <;> rfl, rfl⟩

/-- C160.  The claim is false, also for a directory without an entry. -/
theorem C160_directory_claim_false : ¬ C160_directory_claim := by
  intro h
  have hi := C159_index 0 (List.replicate 32 0) (List.replicate 208 0) (List.replicate 112 0) [] 0 [] (by omega) List.length_replicate
    List.length_replicate List.length_replicate (by omega) (by simp) (by simp)
  obtain ⟨lines, hl⟩ := h ⟨joinPath, fun _ => true, fun _ => .ok (indexBytes 0 2 (List.replicate 32 0) 0 (List.replicate 208 0)
    (List.replicate 112 0) [] ++ []), fun _ => .ok [], strDecode⟩ [] [] _ _ _ (code_exists _ _ _) rfl rfl hi
  rw [C160_never _ (code_exists _ _ _)] at hl
  cases hl

end Dtf.ChromeCache
