import Verif.DataFormat.Sized

/-!
# LevelDB: varints, log files, descriptor files, table files

Models `dtformats/leveldb.py`.  Debug output is not modelled.  What the log and descriptor readers
print in debug mode is returned as values, because they return nothing otherwise.
-/

namespace Dtf.LevelDB
open Py DataFormat

/-! ## Variable size integers -/

/-- The loop of `_ReadVariableSizeInteger` (leveldb.py 96-101): `value` is the integer so far,
`shift` the bit shift, `byte` the last byte, `n` the bytes read, and the rest of the data. -/
def varintLoop (value shift : Nat) (byte : UInt8) (n : Nat) : Bytes → Nat × Nat
  | [] => (value, n)
  | c :: rest =>
    if byte.toNat &&& 0x80 ≠ 0 then
      varintLoop (value ||| ((c.toNat &&& 0x7F) <<< (shift + 7))) (shift + 7) c (n + 1) rest
    else (value, n)

/-- `LevelDBDatabaseFile._ReadVariableSizeInteger` (leveldb.py 79-105). -/
def readVarint : Bytes → Res (Nat × Nat)
  | [] => .error .indexError
  | b :: rest => .ok (varintLoop (b.toNat &&& 0x7F) 0 b 1 rest)

/-! ## Log files -/

/-- A block of a log file (leveldb.yaml, `leveldb_log_block`). -/
structure LogBlock where
  recordType : Nat
  recordData : Bytes
deriving DecidableEq, Repr

/-- The map of `leveldb_log_block`: checksum (4), data size (2), type (1), data. -/
def logBlockMap : DataTypeMap LogBlock :=
  sizedMap 7 (fun h => leNat (slice h 4 6))
    (fun s => ⟨leNat (slice s 6 7), s.drop 7⟩)

/-- What reading a log does: the offsets of the blocks read, the results of parsing the records,
and the exception that ended it, if any. -/
structure LogRun (β : Type) where
  blocks : List Int
  records : List β
  error : Option Err
deriving DecidableEq, Repr

/-- `LevelDBDatabaseLogFile.ReadFileObject` (leveldb.py 239-271).  `parse` is `_ReadRecord`, which
the descriptor file overrides.  The record offset (leveldb.py 251, 258), which is only used in
messages, is left out.  `none` means out of fuel. -/
def logLoop {β : Type} (parse : Bytes → Res β) (data : Bytes) :
    Nat → Int → Int → Bytes → Option (LogRun β)
  | 0, _, _, _ => none
  | fuel + 1, fileOffset, pageSize, recordData =>
    if fileOffset < data.length then
      match structAt logBlockMap data fileOffset with
      | .error e => some ⟨[fileOffset], [], some e⟩
      | .ok (block, bytesRead) =>
        let recordData :=
          if block.recordType = 1 ∨ block.recordType = 2 then block.recordData
          else if block.recordType = 3 ∨ block.recordType = 4 then recordData ++ block.recordData
          else recordData
        let parsed : Res (Option β) :=
          if block.recordType = 1 ∨ block.recordType = 4 then
            match parse recordData with
            | .ok r => .ok (some r)
            | .error e => .error e
          else .ok none
        match parsed with
        | .error e => some ⟨[fileOffset], [], some e⟩
        | .ok r =>
          let nextOffset := fileOffset + bytesRead
          let nextSize := pageSize - bytesRead
          let skip := decide (nextSize ≤ 6)
          let rest := logLoop parse data fuel
            (if skip then nextOffset + nextSize else nextOffset)
            (if skip then 32768 else nextSize) recordData
          match rest with
          | none => none
          | some run => some ⟨fileOffset :: run.blocks, r.toList ++ run.records, run.error⟩
    else some ⟨[], [], none⟩

/-- Reading a whole log file, with fuel that suffices (see `C16_terminates`). -/
def readLog {β : Type} (parse : Bytes → Res β) (data : Bytes) : Option (LogRun β) :=
  logLoop parse data (data.length / 7 + 2) 0 32768 []

/-- `_ReadRecordValueSlice` (leveldb.py 214-237): the data and the bytes consumed. -/
def readSlice (data : Bytes) : Res (Bytes × Nat) :=
  match readVarint data with
  | .error e => .error e
  | .ok (size, n) => .ok (slice data n (n + size), n + size)

/-- A value of a log record: a deletion or a put. -/
inductive Put
  | delete (key : Bytes)
  | put (key value : Bytes)
deriving DecidableEq, Repr

/-- The loop of `_ReadRecord` (leveldb.py 165-186) on the data from `data_offset` on.
`fuel` bounds the iterations; every iteration consumes at least two bytes. -/
def readPuts : Nat → Bytes → Option (Res (List Put))
  | 0, _ => none
  | _ + 1, [] => some (.ok [])
  | fuel + 1, t :: data =>
    if t.toNat ≠ 0 ∧ t.toNat ≠ 1 then some (.error .parseError)
    else
      match readSlice data with
      | .error e => some (.error e)
      | .ok (key, n) =>
        if t.toNat = 1 then
          match readSlice (data.drop n) with
          | .error e => some (.error e)
          | .ok (value, m) =>
            (readPuts fuel ((data.drop n).drop m)).map fun r => r.map (Put.put key value :: ·)
        else (readPuts fuel (data.drop n)).map fun r => r.map (Put.delete key :: ·)

/-- A write batch: sequence number, number of values, values. -/
structure Batch where
  sequence : Nat
  count : Nat
  values : List Put
deriving DecidableEq, Repr

/-- The map of `leveldb_log_value_header`: 64-bit sequence number, 32-bit number of values. -/
def valueHeaderMap : DataTypeMap (Nat × Nat) :=
  fixedMap 12 (fun s => (leNat (slice s 0 8), leNat (slice s 8 12)))

/-- `LevelDBDatabaseLogFile._ReadRecord` (leveldb.py 146-186). -/
def readBatch (data : Bytes) : Res Batch :=
  match readStructureFromByteStream (some valueHeaderMap) data with
  | .error e => .error e
  | .ok (sequence, count) =>
    match readPuts (data.length + 1) (data.drop 12) with
    | none => .error .runtimeError
    | some (.error e) => .error e
    | some (.ok values) => .ok ⟨sequence, count, values⟩

/-! ## Descriptor files -/

/-- A value of a version edit (leveldb.py 277-286). -/
inductive Edit
  | comparator (name : Bytes)
  | logNumber (n : Nat)
  | nextFileNumber (n : Nat)
  | lastSequence (n : Nat)
  | compactPointer (level : Nat) (key : Bytes)
  | deletedFile (level number : Nat)
  | newFile (level number size : Nat) (smallest largest : Bytes)
  | prevLogNumber (n : Nat)
deriving DecidableEq, Repr

/-- The body of the loop for one tag (leveldb.py 318-389): the edit and the bytes consumed after
the tag.  `_ReadRecordValueInteger` (391-410) is the varint reader.  The comparator name is kept as
bytes; its UTF-8 decoding (429) is the parameter `utf8`, which says whether the bytes decode. -/
def readEditBody (utf8 : Bytes → Bool) (tag : Nat) (data : Bytes) : Res (Edit × Nat) :=
  if tag = 1 then
    match readSlice data with
    | .error e => .error e
    | .ok (s, n) => if utf8 s then .ok (.comparator s, n) else .error .unicodeError
  else if tag = 2 then
    match readVarint data with
    | .error e => .error e
    | .ok (v, n) => .ok (.logNumber v, n)
  else if tag = 3 then
    match readVarint data with
    | .error e => .error e
    | .ok (v, n) => .ok (.nextFileNumber v, n)
  else if tag = 4 then
    match readVarint data with
    | .error e => .error e
    | .ok (v, n) => .ok (.lastSequence v, n)
  else if tag = 5 then
    match readVarint data with
    | .error e => .error e
    | .ok (level, n) =>
      match readSlice (data.drop n) with
      | .error e => .error e
      | .ok (key, m) => .ok (.compactPointer level key, n + m)
  else if tag = 6 then
    match readVarint data with
    | .error e => .error e
    | .ok (level, n) =>
      match readVarint (data.drop n) with
      | .error e => .error e
      | .ok (number, m) => .ok (.deletedFile level number, n + m)
  else if tag = 7 then
    match readVarint data with
    | .error e => .error e
    | .ok (level, n) =>
      match readVarint (data.drop n) with
      | .error e => .error e
      | .ok (number, m) =>
        match readVarint ((data.drop n).drop m) with
        | .error e => .error e
        | .ok (size, k) =>
          match readSlice (((data.drop n).drop m).drop k) with
          | .error e => .error e
          | .ok (smallest, j) =>
            match readSlice ((((data.drop n).drop m).drop k).drop j) with
            | .error e => .error e
            | .ok (largest, i) =>
              .ok (.newFile level number size smallest largest, n + m + k + j + i)
  else if tag = 9 then
    match readVarint data with
    | .error e => .error e
    | .ok (v, n) => .ok (.prevLogNumber v, n)
  else .error .parseError

/-- The loop of `LevelDBDatabaseDescriptorFile._ReadRecord` (leveldb.py 305-389) on the data from
`data_offset` on. -/
def readEdits (utf8 : Bytes → Bool) : Nat → Bytes → Option (Res (List Edit))
  | 0, _ => none
  | _ + 1, [] => some (.ok [])
  | fuel + 1, data =>
    match readVarint data with
    | .error e => some (.error e)
    | .ok (tag, n) =>
      match readEditBody utf8 tag (data.drop n) with
      | .error e => some (.error e)
      | .ok (edit, m) =>
        (readEdits utf8 fuel ((data.drop n).drop m)).map fun r => r.map (edit :: ·)

/-- `LevelDBDatabaseDescriptorFile._ReadRecord` (leveldb.py 288-389). -/
def readVersionEdit (utf8 : Bytes → Bool) (data : Bytes) : Res (List Edit) :=
  match readEdits utf8 (data.length + 1) data with
  | none => .error .runtimeError
  | some r => r

/-! ## Table files -/

/-- `LevelDBDatabaseTableEntry` (leveldb.py 40-58). -/
structure Entry where
  key : Bytes
  sequence : Nat
  valueType : Nat
  value : Bytes
deriving DecidableEq, Repr

/-- One round of the loop of `_ReadTable` (leveldb.py 719-806).  `off` is `data_offset` and `shared`
is `shared_key_data`.  It returns the entry with the next `data_offset` and `shared_key_data`. -/
def readTableEntry (table : Bytes) (off : Nat) (shared : Bytes) : Res (Entry × Nat × Bytes) :=
  match readVarint (table.drop off) with
  | .error e => .error e
  | .ok (sharedSize, n1) =>
    match readVarint (table.drop (off + n1)) with
    | .error e => .error e
    | .ok (nonSharedSize, n2) =>
      match readVarint (table.drop (off + n1 + n2)) with
      | .error e => .error e
      | .ok (valueSize, n3) =>
        let off := off + n1 + n2 + n3
        let keyEnd := off + nonSharedSize
        let keyData := slice table off keyEnd
        let keyData := if sharedSize > 0 then shared.take sharedSize ++ keyData else keyData
        let keySize := if sharedSize > 0 then nonSharedSize + sharedSize else nonSharedSize
        if keySize < 8 then .error .parseError
        else
          -- `key_data[-8:]` through `_ReadStructureFromByteStream` with "uint64le"
          match readStructureFromByteStream (some (fixedMap 8 leNat))
              (keyData.drop (keyData.length - 8)) with
          | .error e => .error e
          | .ok suffix =>
            .ok (⟨keyData.take (keyData.length - 8), suffix >>> 8, suffix &&& 0xFF,
              slice table keyEnd (keyEnd + valueSize)⟩, keyEnd + valueSize, keyData)

/-- The loop of `_ReadTable` (leveldb.py 711-808).  `table` is the decompressed block, `stop` is
`table_data_end_offset`.  The offset arithmetic is over non-negative values, except `stop`. -/
def tableLoop (table : Bytes) (stop : Int) : Nat → Nat → Bytes → Option (Res (List Entry))
  | 0, _, _ => none
  | fuel + 1, off, shared =>
    if (off : Int) < stop then
      match readTableEntry table off shared with
      | .error e => some (.error e)
      | .ok (entry, off', shared') =>
        (tableLoop table stop fuel off' shared').map fun r => r.map (entry :: ·)
    else some (.ok [])

/-- `_ReadTable` (leveldb.py 645-808) on the decompressed block.  It is a generator, but both
callers (553, 614) turn it into a list first. -/
def readTable (table : Bytes) : Res (List Entry) :=
  match readStructureFromByteStream (some (fixedMap 4 leNat)) (table.drop (table.length - 4)) with
  | .error e => .error e
  | .ok count =>
    let stop : Int := (table.length : Int) - 4 - 4 * count
    -- the array map needs `4 * count` bytes of `table_data[table_data_end_offset:]`
    if (sliceInt table stop table.length).length < 4 * count then .error .parseError
    else
      match tableLoop table stop (table.length + 1) 0 [] with
      | none => .error .runtimeError
      | some r => r

/-- The decompressors (snappy and zstd), which may raise. -/
structure Decompress where
  snappy : Bytes → Res Bytes
  zstd : Bytes → Res Bytes

/-- `LevelDBDatabaseTableFile._ReadBlock` (leveldb.py 459-507). -/
def readBlock (dec : Decompress) (data : Bytes) (off size : Nat) : Res Bytes :=
  match (readData (some ⟨data, 0⟩) off size).1 with
  | .error e => .error e
  | .ok block =>
    match structAt (fixedMap 5 (fun s => leNat (s.take 1))) data ((off + size : Nat) : Int) with
    | .error e => .error e
    | .ok (compression, _) =>
      if compression = 0 then .ok block
      else if compression = 1 then dec.snappy block
      else if compression = 2 then dec.zstd block
      else .error .parseError

/-- `_ReadBlockHandle` (leveldb.py 509-536): offset, size and the bytes read. -/
def readHandle (data : Bytes) : Res (Nat × Nat × Nat) :=
  match readVarint data with
  | .error e => .error e
  | .ok (off, n) =>
    match readVarint (data.drop n) with
    | .error e => .error e
    | .ok (size, m) => .ok (off, size, n + m)

/-- `_ReadDataBlock` (leveldb.py 538-557). -/
def readDataBlock (dec : Decompress) (data : Bytes) (off size : Nat) : Res (List Entry) :=
  match readBlock dec data off size with
  | .error e => .error e
  | .ok table => readTable table

/-- The loop of `_ReadIndexBlock` (leveldb.py 618-623).  It is a generator: entries of earlier data
blocks have been yielded when a later one raises, so the result carries both. -/
def readIndexEntries (dec : Decompress) (data : Bytes) : List Entry → List Entry × Option Err
  | [] => ([], none)
  | e :: es =>
    match readHandle e.value with
    | .error err => ([], some err)
    | .ok (off, size, _) =>
      match readDataBlock dec data off size with
      | .error err => ([], some err)
      | .ok entries =>
        let r := readIndexEntries dec data es
        (entries ++ r.1, r.2)

/-- `ReadFileObject` and `_ReadFileFooter` (leveldb.py 559-597, 810-821): the offset and size of
the index block.  The signature is checked by the data type map: a wrong one is a mapping error. -/
def readFooter (data : Bytes) : Res (Nat × Nat) :=
  let map : DataTypeMap (Option Bytes) :=
    fixedMap 48 (fun s =>
      if s.drop 40 = [0x57, 0xfb, 0x80, 0x8b, 0x24, 0x75, 0x47, 0xdb] then some (s.take 40) else none)
  match structAt map data ((data.length : Int) - 48) with
  | .error e => .error e
  | .ok (none, _) => .error .parseError
  | .ok (some footer, _) =>
    match readHandle footer with
    | .error e => .error e
    | .ok (metaOff, metaSize, n) =>
      match readHandle (footer.drop n) with
      | .error e => .error e
      | .ok (indexOff, indexSize, _) =>
        match (readData (some ⟨data, 0⟩) metaOff metaSize).1 with
        | .error e => .error e
        | .ok _ => .ok (indexOff, indexSize)

/-- `Open` followed by `ReadTableEntries` (leveldb.py 810-834). -/
def readTableEntries (dec : Decompress) (data : Bytes) : List Entry × Option Err :=
  match readFooter data with
  | .error e => ([], some e)
  | .ok (indexOff, indexSize) =>
    match readDataBlock dec data indexOff indexSize with
    | .error e => ([], some e)
    | .ok index => readIndexEntries dec data index

end Dtf.LevelDB
