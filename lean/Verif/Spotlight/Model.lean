import Verif.DataFormat.Sized

/-!
# Model of the Apple Spotlight store reader (`dtformats/spotlight_storedb.py`)

Modelled: the variable size integer, streams map offsets and values, LZ4 pages, the walk over map
pages and property pages, record headers, record pages, records and the attribute values that are
integers, lists of integers, bytes and binary data.  The values of the attribute types 0x09, 0x0A,
0x0B, 0x0C and 0x0F (floats, strings, references) are a parameter, which `Verif/Spotlight/Tables.lean`
fills in, as is LZ4 itself.
-/

namespace Dtf.Spotlight
open Py DataFormat

/-! ## Variable size integers -/

/-- `for bitmask in (0x80, ..., 0xFF)` (spotlight_storedb.py lines 181-185 and 1906-1910): the
number of additional bytes and the bitmask the loop ends with. -/
def countLoop (byteValue : Nat) : List Nat → Nat → Nat → Nat × Nat
  | [], count, last => (count, last)
  | bitmask :: rest, count, _ =>
    if byteValue &&& bitmask ≠ bitmask then (count, bitmask)
    else countLoop byteValue rest (count + 1) bitmask

def bitmasks : List Nat := [0x80, 0xC0, 0xE0, 0xF0, 0xF8, 0xFC, 0xFE, 0xFF]

/-- `while number_of_additional_bytes > 0` (lines 193-199 and 1918-1924). -/
def additionalLoop (data : Bytes) : Nat → Nat → Nat → Res (Nat × Nat)
  | 0, value, bytesRead => .ok (value, bytesRead)
  | n + 1, value, bytesRead =>
    match data[bytesRead]? with
    | none => .error .indexError
    | some b => additionalLoop data n (value * 256 + b.toNat) (bytesRead + 1)

/-- `_ReadVariableSizeInteger` (lines 169-201; an identical copy is on lines 1894-1926). -/
def readVarInt (data : Bytes) : Res (Nat × Nat) :=
  match data[0]? with
  | none => .error .indexError
  | some b =>
    let (n, bitmask) := countLoop b.toNat bitmasks 0 0
    let first := if n > 4 then 0
      else if n > 0 then b.toNat &&& (bitmask ^^^ 0xFF) else b.toNat
    additionalLoop data n first 1

/-- `_ReadVariableSizeIntegers` (lines 1928-1950), the values in the order of the names. -/
def readVarInts : Nat → Bytes → Res (List Nat × Nat)
  | 0, _ => .ok ([], 0)
  | k + 1, data =>
    match readVarInt data with
    | .error e => .error e
    | .ok (v, n) =>
      match readVarInts k (data.drop n) with
      | .error e => .error e
      | .ok (vs, m) => .ok (v :: vs, n + m)

/-! ## Streams maps -/

/-- The loop over the offsets (lines 369-387): the ranges and the last offset. -/
def rangesLoop : List Nat → Nat → List (Int × Int) × Nat
  | [], last => ([], last)
  | offset :: rest, last =>
    let (rs, l) := rangesLoop rest offset
    (((last : Int), (offset : Int) - last) :: rs, l)

/-- `SpotlightStreamsMapOffsetsFile.ReadFileObject` (lines 369-398): the ranges of the offsets. -/
def streamRanges (dataSize : Nat) (offsets : List Nat) : List (Int × Int) :=
  let (rs, last) := match offsets with
    | [] => ([], 0)
    | first :: rest => rangesLoop rest first
  if last ≠ 0 then rs ++ [((last : Int), (dataSize : Int) - last)] else rs

/-- `SpotlightStreamsMapDataFile.ReadFileObject` (lines 212-229): the stream values. -/
def streamValues (fileData : Bytes) (dataSize : Nat) (ranges : List (Int × Int)) : List Bytes :=
  let data := fileData.take dataSize
  ranges.map (fun r => sliceInt data r.1 (r.1 + r.2))

/-! ## LZ4 pages -/

def markerCompressed : Bytes := [0x62, 0x76, 0x34, 0x31]
def markerRaw : Bytes := [0x62, 0x76, 0x34, 0x2d]
def markerEnd : Bytes := [0x62, 0x76, 0x34, 0x24]

/-- `_DecompressLZ4Block` (lines 577-629).  `lz4` is `lz4.block.decompress`: the compressed data,
the uncompressed size and the dictionary. -/
def lz4Block (lz4 : Bytes → Nat → Option Bytes → Res Bytes) (data : Bytes)
    (previous : Option Bytes) : Res (Bytes × Nat) :=
  if data.length < 12 then .error .parseError
  else
    let signature := data.take 4
    let uncompressedSize := leNat (slice data 4 8)
    let compressedSize := leNat (slice data 8 12)
    if signature = markerCompressed then
      match lz4 (slice data 12 (12 + compressedSize)) uncompressedSize previous with
      | .error e => .error e
      | .ok out => .ok (out, 12 + compressedSize)
    else if signature = markerRaw then
      .ok (slice data 8 (8 + uncompressedSize), 8 + uncompressedSize)
    else .error .parseError

/-- The loop of `_DecompressLZ4PageData` (lines 650-677) over the data that is left.  `marker` is
the variable `lz4_block_marker`, which is unbound when the loop never runs. -/
def lz4Loop (lz4 : Bytes → Nat → Option Bytes → Res Bytes) :
    Nat → Bytes → Option Bytes → Option Bytes → Bytes → Option (Res Bytes)
  | 0, _, _, _, _ => none
  | fuel + 1, data, marker, last, acc =>
    if data = [] then
      if marker = none then some (.error .unboundLocalError)
      else if marker ≠ some markerEnd then some (.error .parseError) else some (.ok acc)
    else if data.take 4 = markerEnd then some (.ok acc)
    else
      match lz4Block lz4 data last with
      | .error e => some (.error e)
      | .ok (out, n) => lz4Loop lz4 fuel (data.drop n) (some (data.take 4)) (some out) (acc ++ out)

/-- `_DecompressLZ4PageData` (lines 631-677). -/
def lz4Page (lz4 : Bytes → Nat → Option Bytes → Res Bytes) (fuel : Nat) (data : Bytes) :
    Option (Res Bytes) :=
  lz4Loop lz4 fuel data none none []

/-! ## Walks over pages -/

/-- The map page header (spotlight_storedb.yaml `spotlight_store_db_map_page_header`). -/
structure MapHeader where
  signature : Bytes
  pageSize : Nat
  numberOfValues : Nat
deriving Repr, DecidableEq

def parseMapHeader (bs : Bytes) : MapHeader :=
  { signature := bs.take 4, pageSize := leNat (slice bs 4 8), numberOfValues := leNat (slice bs 8 12) }

/-- `_ReadMapPageValues` (lines 972-997): the block numbers of the values of a page. -/
def mapPageValues (data : Bytes) : Nat → Nat → Res (List Nat)
  | 0, _ => .ok []
  | n + 1, off =>
    match structAt (fixedMap 16 (fun bs => leNat (slice bs 8 12))) data off with
    | .error e => .error e
    | .ok (v, size) =>
      match mapPageValues data n (off + size.toNat) with
      | .error e => .error e
      | .ok vs => .ok (v :: vs)

/-- `_ReadMapPage` (lines 920-952): the page size and the block numbers. -/
def readMapPage (data : Bytes) (off : Nat) : Res (Nat × List Nat) :=
  match structAt (fixedMap 20 parseMapHeader) data off with
  | .error e => .error e
  | .ok (h, size) =>
    -- The signatures are part of the structure definition, a mismatch is a mapping error.
    if h.signature ≠ [0x31, 0x6d, 0x62, 0x64] ∧ h.signature ≠ [0x32, 0x6d, 0x62, 0x64] then
      .error .parseError
    else
      match mapPageValues data h.numberOfValues (off + size.toNat) with
      | .error e => .error e
      | .ok vs => .ok (h.pageSize, vs)

/-- `_ReadMapPages` (lines 954-970). -/
def mapPagesLoop (data : Bytes) (endOff : Nat) : Nat → Nat → List Nat → Option (Res (List Nat))
  | 0, _, _ => none
  | fuel + 1, off, acc =>
    if off < endOff then
      match readMapPage data off with
      | .error e => some (.error e)
      | .ok (pageSize, vs) => mapPagesLoop data endOff fuel (off + pageSize) (acc ++ vs)
    else some (.ok acc)

/-- The property page header (spotlight_storedb.yaml `spotlight_store_db_property_page_header`). -/
structure PropertyHeader where
  signature : Bytes
  pageSize : Nat
  usedPageSize : Nat
  tableType : Nat
  uncompressedSize : Nat
deriving Repr, DecidableEq

def parsePropertyHeader (bs : Bytes) : PropertyHeader :=
  { signature := bs.take 4, pageSize := leNat (slice bs 4 8), usedPageSize := leNat (slice bs 8 12),
    tableType := leNat (slice bs 12 16), uncompressedSize := leNat (slice bs 16 20) }

/-- `_ReadPropertyPage` (lines 1470-1526): what the page adds to the table and the next block
number.  `values` stands for `_ReadMetadataAttributePageValues` and `_ReadIndexPageValues`, which
get the header and the data of the page. -/
def readPropertyPage {β : Type} (values : PropertyHeader → Bytes → Res (List β)) (data : Bytes)
    (off : Nat) : Res (List β × Nat) :=
  match structAt (fixedMap 20 parsePropertyHeader) data off with
  | .error e => .error e
  | .ok (h, size) =>
    if h.signature ≠ [0x32, 0x70, 0x62, 0x64] then .error .parseError
    else if h.tableType ≠ 0x11 ∧ h.tableType ≠ 0x21 ∧ h.tableType ≠ 0x41 ∧ h.tableType ≠ 0x81 then
      .error .parseError
    else
      let pageData := (File.read ⟨data, off + size.toNat⟩ ((h.pageSize : Int) - size)).1
      if pageData.length < 12 then .error .parseError
      else
        let next := leNat (pageData.take 4)
        if h.tableType = 0x41 then .ok ([], next)
        else
          match values h pageData with
          | .error e => .error e
          | .ok vs => .ok (vs, next)

/-- The loop of `_ReadPropertyPages` (lines 1563-1580).  `readPage` is `_ReadPropertyPage`: what a
page at an offset adds to the table, and the next block number. -/
def propertyPagesLoop {β : Type} (readPage : Nat → Res (List β × Nat)) :
    Nat → Nat → List β → Option (Res (List β))
  | 0, _, _ => none
  | fuel + 1, off, acc =>
    if off ≠ 0 then
      match readPage off with
      | .error e => some (.error e)
      | .ok (vs, next) => propertyPagesLoop readPage fuel (next * 0x1000) (acc ++ vs)
    else some (.ok acc)

/-! ## Records -/

/-- `SpotlightStoreRecordHeader` as set by `_ReadRecordHeader` (lines 1704-1710). -/
structure RecordHeader where
  dataSize : Nat
  identifier : Nat
  flags : Nat
  itemIdentifier : Nat
  parentIdentifier : Nat
  lastUpdateTime : Nat
deriving Repr, DecidableEq

/-- `_ReadRecordHeader` (lines 1658-1712). -/
def readRecordHeader (data : Bytes) : Res (RecordHeader × Nat) :=
  if data.length < 4 then .error .parseError
  else
    match readVarInt (data.drop 4) with
    | .error e => .error e
    | .ok (identifier, n1) =>
      match data[4 + n1]? with
      | none => .error .indexError
      | some flags =>
        match readVarInts 3 (data.drop (4 + n1 + 1)) with
        | .error e => .error e
        | .ok ([item, parent, time], n2) =>
          .ok ({ dataSize := leNat (data.take 4), identifier := identifier, flags := flags.toNat,
                 itemIdentifier := item, parentIdentifier := parent, lastUpdateTime := time },
               4 + n1 + 1 + n2)
        | .ok _ => .error .runtimeError

/-- A record descriptor (lines 1824-1830). -/
structure Descriptor where
  pageOffset : Nat
  pageValueOffset : Nat
  identifier : Nat
  itemIdentifier : Nat
  parentIdentifier : Nat
  lastUpdateTime : Nat
deriving Repr, DecidableEq

/-- The loop of `_ReadRecordPageValues` (lines 1767-1834): the descriptors in the order they are
put in the dictionary `_record_descriptors`. -/
def pageValuesLoop (page : Bytes) (pageOffset : Nat) :
    Nat → Nat → List Descriptor → Option (Res (List Descriptor))
  | 0, _, _ => none
  | fuel + 1, off, acc =>
    if off < page.length then
      match readRecordHeader (page.drop off) with
      | .error e => some (.error e)
      | .ok (h, _) =>
        pageValuesLoop page pageOffset fuel (off + (4 + h.dataSize))
          (acc ++ [{ pageOffset := pageOffset, pageValueOffset := off + 20,
                     identifier := h.identifier, itemIdentifier := h.itemIdentifier,
                     parentIdentifier := h.parentIdentifier, lastUpdateTime := h.lastUpdateTime }])
    else some (.ok acc)

/-- A metadata type (`SpotlightStoreMetadataType`, the members the reader uses). -/
structure MetaType where
  keyName : String
  valueType : Nat
  propertyType : Nat
deriving Repr, DecidableEq

/-- The value of an attribute.  `lib` stands for the values that are not modelled. -/
inductive Val
  | int (n : Nat)
  | ints (l : List Nat)
  | data (b : Bytes)
  | absent
  | lib (b : Bytes)
  /-- A floating-point value, by its bits. -/
  | float (bits : Nat)
  | floats (l : List Nat)
  | text (s : List Char)
  | texts (l : List (List Char))
deriving Repr, DecidableEq

/-- A metadata attribute (lines 1073-1077). -/
structure Attr where
  key : String
  valueType : Nat
  propertyType : Nat
  value : Val
deriving Repr, DecidableEq

/-- `while data_offset < data_size` (lines 1455-1464), started with `data_offset` 0. -/
def intListLoop (data : Bytes) (dataSize : Nat) : Nat → Nat → List Nat → Option (Res (List Nat))
  | 0, _, _ => none
  | fuel + 1, off, acc =>
    if off < dataSize then
      match readVarInt (slice data off dataSize) with
      | .error e => some (.error e)
      | .ok (v, n) => intListLoop data dataSize fuel (off + n) (acc ++ [v])
    else some (.ok acc)

/-- `_ReadMetadataAttributeVariableSizeIntegerValue` (lines 1438-1468).  The fuel suffices
(`intListLoop_terminates`). -/
def readIntValue (propertyType : Nat) (data : Bytes) : Res (Val × Nat) :=
  if propertyType &&& 2 = 0 then
    match readVarInt data with
    | .error e => .error e
    | .ok (v, n) => .ok (.int v, n)
  else
    match readVarInt data with
    | .error e => .error e
    | .ok (dataSize, n) =>
      match intListLoop data dataSize (data.length + 1) 0 [] with
      | none => .error .runtimeError
      | some (.error e) => .error e
      | some (.ok l) => .ok (.ints l, n + dataSize)

/-- `_ReadMetadataAttributeByteValue` (lines 1084-1126).  The array has the given size in bytes. -/
def readByteValue (propertyType : Nat) (data : Bytes) : Res (Val × Nat) :=
  if propertyType &&& 2 ≠ 0 then
    match readVarInt data with
    | .error e => .error e
    | .ok (dataSize, n) =>
      if (slice data n (n + dataSize)).length < dataSize then .error .parseError
      else .ok (.ints ((slice data n (n + dataSize)).map (·.toNat)), n + dataSize)
  else
    match data[0]? with
    | none => .error .parseError
    | some b => .ok (.int b.toNat, 1)

/-- `_ReadMetadataAttribute` (lines 999-1082).  `other` reads the value types 0x09, 0x0A, 0x0B, 0x0C
and 0x0F. -/
def readAttribute (other : Nat → Nat → Bytes → Res (Val × Nat)) (metaType : Option MetaType)
    (data : Bytes) : Res (Option Attr × Nat) :=
  match metaType with
  | none => .ok (none, 0)
  | some t =>
    let r : Res (Val × Nat) :=
      if t.keyName = "kMDStoreAccumulatedSizes" then .ok (.data data, data.length)
      else if t.valueType = 0x00 ∨ t.valueType = 0x02 ∨ t.valueType = 0x06 then
        match readVarInt data with
        | .error e => .error e
        | .ok (v, n) => .ok (.int v, n)
      else if t.valueType = 0x07 then readIntValue t.propertyType data
      else if t.valueType = 0x08 then readByteValue t.propertyType data
      else if t.valueType = 0x09 ∨ t.valueType = 0x0A ∨ t.valueType = 0x0C ∨ t.valueType = 0x0B then
        other t.valueType t.propertyType data
      else if t.valueType = 0x0E then
        match readVarInt data with
        | .error e => .error e
        | .ok (dataSize, n) => .ok (.data (slice data n (n + dataSize)), n + dataSize)
      else if t.valueType = 0x0F then other t.valueType t.propertyType data
      else .ok (.absent, 0)
    match r with
    | .error e => .error e
    | .ok (v, n) =>
      .ok (some { key := t.keyName, valueType := t.valueType, propertyType := t.propertyType,
                  value := v }, n)

/-- One round of the loop of `_ReadRecord` (lines 1619-1653) at an offset in the page: the
attribute, its type index and the number of bytes. -/
def readRecordAttr (other : Nat → Nat → Bytes → Res (Val × Nat)) (types : Nat → Option MetaType)
    (page : Bytes) (endOff off typeIndex : Nat) : Res (Attr × Nat × Nat) :=
  match readVarInt (slice page off endOff) with
  | .error e => .error e
  | .ok (rel, n) =>
    match readAttribute other (types (typeIndex + rel)) (slice page (off + n) endOff) with
    | .error e => .error e
    -- `metadata_attribute.key` on None (line 1653)
    | .ok (none, _) => .error .attributeError
    | .ok (some a, m) => .ok (a, typeIndex + rel, n + m)

/-- The loop of `_ReadRecord` (lines 1618-1654): the attributes in the order they are put in the
dictionary `attributes`. -/
def recordLoop (other : Nat → Nat → Bytes → Res (Val × Nat)) (types : Nat → Option MetaType)
    (page : Bytes) (endOff dataSize : Nat) :
    Nat → Nat → Nat → Nat → List Attr → Option (Res (List Attr))
  | 0, _, _, _, _ => none
  | fuel + 1, off, recordOff, typeIndex, acc =>
    if recordOff < dataSize then
      match readRecordAttr other types page endOff off typeIndex with
      | .error e => some (.error e)
      | .ok (a, index, n) =>
        recordLoop other types page endOff dataSize fuel (off + n) (recordOff + n) index (acc ++ [a])
    else some (.ok acc)

/-- `_ReadRecord` (lines 1582-1656) with `page_value_offset` of at least 20, as all descriptors
have. -/
def readRecord (other : Nat → Nat → Bytes → Res (Val × Nat)) (types : Nat → Option MetaType)
    (fuel : Nat) (page : Bytes) (pageValueOffset : Nat) : Option (Res (RecordHeader × List Attr)) :=
  let off := pageValueOffset - 20
  match readRecordHeader (page.drop off) with
  | .error e => some (.error e)
  | .ok (h, n) =>
    match recordLoop other types page (off + n + h.dataSize) h.dataSize fuel (off + n) n 0 [] with
    | none => none
    | some (.error e) => some (.error e)
    | some (.ok as) => some (.ok (h, as))

end Dtf.Spotlight
