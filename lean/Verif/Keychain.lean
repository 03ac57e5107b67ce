import Verif.Holds

/-!
# Keychain databases (C50)
-/

namespace Dtf.Keychain
open Py DataFormat

/-! ## Model -/

/-- A value of an attribute. -/
inductive Value where
  | null
  | int (n : Nat)
  | text (s : Bytes)
  | date (s : Bytes)
  | blob (s : Bytes)
deriving DecidableEq, Repr

/-- `KeychainDatabaseColumn` (keychain.py 11-25). -/
structure Column where
  format : Option Nat
  ident : Option Nat
  name : Option Bytes
deriving DecidableEq, Repr

/-- A record: the rows of the schema tables have their own keys, which are left out. -/
inductive Record where
  | schema (values : List Value)
  | row (values : List (Option Bytes × Value))
deriving DecidableEq, Repr

/-- `KeychainDatabaseTable` (keychain.py 28-44). -/
structure Table where
  ident : Nat
  name : Bytes
  columns : List Column
  records : List Record
deriving DecidableEq, Repr

def isAscii (b : Bytes) : Bool := b.all (· < 128)

/-- A number of 32-bit integers in big-endian. -/
def words : Nat → Bytes → List Nat
  | 0, _ => []
  | n + 1, b => beNat (b.take 4) :: words n (b.drop 4)

/-- `tables.get` (keychain.py 404, 675, 697, 763, 836). -/
def getTable (tables : List Table) (id : Nat) : Option Table := tables.find? (·.ident = id)

/-- A change of a table that is in the tables. -/
def changeTable (tables : List Table) (id : Nat) (f : Table → Table) : List Table :=
  tables.map (fun t => if t.ident = id then f t else t)

/-- `tables[table.relation_identifier] = table` (keychain.py 834). -/
def putTable (tables : List Table) (t : Table) : List Table :=
  if (getTable tables t.ident).isSome then changeTable tables t.ident (fun _ => t) else tables ++ [t]

/-- `record[column.attribute_name] = attribute_value` (keychain.py 484). -/
def putValue (d : List (Option Bytes × Value)) (k : Option Bytes) (v : Value) : List (Option Bytes × Value) :=
  if d.any (·.1 = k) then d.map (fun e => if e.1 = k then (k, v) else e) else d ++ [(k, v)]

def addRecord (r : Record) (t : Table) : Table := { t with records := t.records ++ [r] }

def addColumn (c : Column) (t : Table) : Table := { t with columns := t.columns ++ [c] }

/-- What `_ReadStructureFromByteStream` maps for a string or a blob with its size before it (keychain.yaml 46-76). -/
def sized (b : Bytes) : Res Bytes :=
  if b.length < 4 then .error .parseError
  else if b.length < 4 + beNat (slice b 0 4) then .error .parseError
  else .ok (slice b 4 (4 + beNat (slice b 0 4)))

/-- `data[offset:]` after the offset was made relative to the data (keychain.py 227-228, 271-272, 315-316, 357-358). -/
def valueData (b : Bytes) (start off : Nat) : Bytes := sliceInt b ((off : Int) - (start + 1)) b.length

/-- `_ReadAttributeValueInteger` (keychain.py 280-320), for signed integers too. -/
def readInt (b : Bytes) (start off : Nat) : Res (Option Nat) :=
  if off = 0 then .ok none
  else if (valueData b start off).length < 4 then .error .parseError
  else .ok (some (beNat (slice (valueData b start off) 0 4)))

/-- `_ReadAttributeValueString` (keychain.py 322-364). -/
def readText (b : Bytes) (start off : Nat) : Res (Option Bytes) :=
  if off = 0 then .ok none
  else
    match sized (valueData b start off) with
    | .error e => .error e
    | .ok s => if isAscii s then .ok (some s) else .error .parseError

/-- `_ReadAttributeValueBinaryData` (keychain.py 192-234): the bytes that are shown. -/
def readBlob (b : Bytes) (start off : Nat) : Res (Option Bytes) :=
  if off = 0 then .ok none
  else
    match sized (valueData b start off) with
    | .error e => .error e
    | .ok s => .ok (some s)

/-- `rstrip("\x00")`. -/
def rstrip (s : Bytes) : Bytes := (s.reverse.dropWhile (· = 0)).reverse

/-- `_ReadAttributeValueDateTime` (keychain.py 236-278). -/
def readDate (b : Bytes) (start off : Nat) : Res (Option Bytes) :=
  if off = 0 then .ok none
  else if (valueData b start off).length < 16 then .error .parseError
  else if isAscii (slice (valueData b start off) 0 16) then .ok (some (rstrip (slice (valueData b start off) 0 16)))
  else .error .parseError

def ofOption {α : Type} (f : α → Value) : Res (Option α) → Res Value
  | .error e => .error e
  | .ok none => .ok .null
  | .ok (some x) => .ok (f x)

/-- The value of a column (keychain.py 465-482), by `_ATTRIBUTE_DATA_READ_FUNCTIONS` (keychain.py 105-111). -/
def readValue (format : Option Nat) (b : Bytes) (start off : Nat) : Res Value :=
  match format with
  | some 0 => ofOption .text (readText b start off)
  | some 1 => ofOption .int (readInt b start off)
  | some 2 => ofOption .int (readInt b start off)
  | some 5 => ofOption .date (readDate b start off)
  | some 6 => ofOption .blob (readBlob b start off)
  | _ => .ok .null

/-- `keychain_record_header` (keychain.yaml 136-154): the size of the record. -/
def recordHeader : DataTypeMap Nat := (fixedMap 24 id).refine (fun b => some (beNat (slice b 0 4)))

/-- `_ReadRecordAttributeValueOffset` (keychain.py 488-535), after the header. -/
def readOffsets (data : Bytes) (off n : Nat) : Res (List Nat) :=
  if data.length < off + 24 + 4 * n then .error .parseError
  else .ok (words n (slice data (off + 24) (off + 24 + 4 * n)))

/-- `file_object.read` of the rest of a record (keychain.py 419-422, 581-586); negative sizes as in `open(path, "rb")`. -/
def readRest (data : Bytes) (pos : Nat) (size : Int) : Res Bytes :=
  if size < -1 then .error .valueError else .ok (File.read ⟨data, pos⟩ size).1

/-- The record header, the offsets and the values data (keychain.py 410-422, 575-586); there is at least one offset. -/
def readParts (data : Bytes) (off n : Nat) : Res (List Nat × Bytes) :=
  match structAt recordHeader data off with
  | .error e => .error e
  | .ok (size, _) =>
    match readOffsets data off n with
    | .error e => .error e
    | .ok offsets =>
      match readRest data (off + 24 + 4 * n) ((size : Int) - (24 + 4 * n : Nat)) with
      | .error e => .error e
      | .ok b => .ok (offsets, b)

/-- The loop over the columns (keychain.py 442-484). -/
def readValues (b : Bytes) (start : Nat) : List (Column × Nat) → List (Option Bytes × Value) →
    Res (List (Option Bytes × Value))
  | [], acc => .ok acc
  | (c, o) :: cs, acc =>
    match readValue c.format b start o with
    | .error e => .error e
    | .ok v => readValues b start cs (putValue acc c.name v)

/-- `_ReadRecord` (keychain.py 390-486). -/
def readRow (data : Bytes) (type off : Nat) (tables : List Table) : Res (List Table) :=
  match getTable tables type with
  | none => .error .parseError
  | some t =>
    if t.columns = [] then
      match structAt recordHeader data off with
      | .error e => .error e
      | .ok _ => .ok (changeTable tables type (addRecord (.row [])))
    else
      match readParts data off t.columns.length with
      | .error e => .error e
      | .ok (offsets, b) =>
        match readValues b (24 + 4 * t.columns.length) (t.columns.zip offsets) [] with
        | .error e => .error e
        | .ok values => .ok (changeTable tables type (addRecord (.row values)))

/-- `keychain_record_schema_information` (keychain.yaml 179-192). -/
def infoMap : DataTypeMap (Nat × Bytes) :=
  (sizedMap 8 (fun b => beNat (slice b 4 8)) id).refine (fun b => some (beNat (slice b 0 4), b.drop 8))

/-- What is done with the information on a table (keychain.py 830-847). -/
def addInfo (id : Nat) (name : Bytes) (tables : List Table) : Res (List Table) :=
  let tables := putTable tables ⟨id, name, [], []⟩
  match getTable tables 0 with
  | none => .error .parseError
  | some _ => .ok (changeTable tables 0 (addRecord (.schema [.int id, .text name])))

/-- `_ReadRecordSchemaInformation` (keychain.py 779-847). -/
def readInfo (data : Bytes) (off : Nat) (tables : List Table) : Res (List Table) :=
  match structAt recordHeader data off with
  | .error e => .error e
  | .ok _ =>
    match readOffsets data off 2 with
    | .error e => .error e
    | .ok offsets =>
      if offsets = [0x21, 0x25] then
        match structAt infoMap data ((off + 32 : Nat) : Int) with
        | .error e => .error e
        | .ok ((id, name), _) => if isAscii name then addInfo id name tables else .error .unicodeError
      else .error .parseError

/-- `keychain_record_schema_indexes` (keychain.yaml 161-177). -/
def indexMap : DataTypeMap (List Nat) := (fixedMap 20 id).refine (fun b => some (words 5 b))

/-- `_ReadRecordSchemaIndexes` (keychain.py 713-777). -/
def readIndex (data : Bytes) (off : Nat) (tables : List Table) : Res (List Table) :=
  match structAt recordHeader data off with
  | .error e => .error e
  | .ok _ =>
    match readOffsets data off 5 with
    | .error e => .error e
    | .ok offsets =>
      if offsets = [0x2d, 0x31, 0x35, 0x39, 0x3d] then
        match structAt indexMap data ((off + 44 : Nat) : Int) with
        | .error e => .error e
        | .ok (values, _) =>
          if (getTable tables (values.headD 0)).isSome ∧ (getTable tables 1).isSome then
            .ok (changeTable tables 1 (addRecord (.schema (values.map .int))))
          else .error .parseError
      else .error .parseError

/-- The name of an attribute that has none, which is the identifier in characters (keychain.py 682-688). -/
def fallbackName (b : Bytes) (name : Option Bytes) (off : Nat) : Res (Option Bytes) :=
  if name = none ∧ off ≠ 0 then
    let s := sliceInt b ((off : Int) - 49) ((off : Int) - 49 + 4)
    if isAscii s then .ok (some s) else .error .unicodeError
  else .ok name

def valueOf {α : Type} (f : α → Value) : Option α → Value
  | none => .null
  | some x => f x

/-- What is done with an attribute (keychain.py 675-711).  A missing relation identifier cannot be shown in the message
of the error. -/
def addAttribute (rel ident nameFormat : Option Nat) (name : Res (Option Bytes)) (format : Option Nat)
    (tables : List Table) : Res (List Table) :=
  match rel with
  | none => .error .typeError
  | some rel =>
    match getTable tables rel with
    | none => .error .parseError
    | some _ =>
      match name with
      | .error e => .error e
      | .ok name =>
        let tables := changeTable tables rel (addColumn ⟨format, ident, name⟩)
        match getTable tables 2 with
        | none => .error .parseError
        | some _ =>
          .ok (changeTable tables 2 (addRecord (.schema
            [.int rel, valueOf .int ident, valueOf .int nameFormat, valueOf .text name, valueOf .int format])))

/-- `_ReadRecordSchemaAttributes` (keychain.py 563-711). -/
def readAttribute (data : Bytes) (off : Nat) (tables : List Table) : Res (List Table) :=
  match readParts data off 6 with
  | .error e => .error e
  | .ok (offsets, b) =>
    match readInt b 48 (offsets.getD 0 0), readInt b 48 (offsets.getD 1 0), readInt b 48 (offsets.getD 2 0),
      readText b 48 (offsets.getD 3 0), readInt b 48 (offsets.getD 5 0) with
    | .ok rel, .ok ident, .ok nameFormat, .ok name, .ok format =>
      addAttribute rel ident nameFormat (fallbackName b name (offsets.getD 1 0)) format tables
    | _, _, _, _, _ => .error .parseError

/-- The choice by the type of the table (keychain.py 869-882). -/
def readRecord (data : Bytes) (type off : Nat) (tables : List Table) : Res (List Table) :=
  if type = 0 then readInfo data off tables
  else if type = 1 then readIndex data off tables
  else if type = 2 then readAttribute data off tables
  else readRow data type off tables

/-- The loop over the records (keychain.py 863-882). -/
def readRecords (data : Bytes) (type base : Nat) : List Nat → List Table → Res (List Table)
  | [], tables => .ok tables
  | o :: os, tables =>
    if o = 0 then readRecords data type base os tables
    else
      match readRecord data type (o + base) tables with
      | .error e => .error e
      | .ok tables => readRecords data type base os tables

/-- `keychain_table_header` (keychain.yaml 115-134): the type and the record offsets. -/
def tableHeader : DataTypeMap (Nat × List Nat) :=
  (sizedMap 28 (fun b => 4 * beNat (slice b 24 28)) id).refine
    (fun b => some (beNat (slice b 4 8), words (beNat (slice b 24 28)) (b.drop 28)))

/-- `_ReadTable` (keychain.py 849-882). -/
def readTable (data : Bytes) (off : Nat) (tables : List Table) : Res (List Table) :=
  match structAt tableHeader data off with
  | .error e => .error e
  | .ok ((type, offsets), _) => readRecords data type off offsets tables

/-- `keychain_tables_array` (keychain.yaml 100-113): the offsets of the tables. -/
def tablesArray : DataTypeMap (List Nat) :=
  (sizedMap 8 (fun b => 4 * beNat (slice b 4 8)) id).refine (fun b => some (words (beNat (slice b 4 8)) (b.drop 8)))

/-- The loop over the tables (keychain.py 945-949). -/
def readTables (data : Bytes) (base : Nat) : List Nat → List Table → Res (List Table)
  | [], tables => .ok tables
  | o :: os, tables =>
    match readTable data (base + o) tables with
    | .error e => .error e
    | .ok tables => readTables data base os tables

/-- `keychain_file_header` (keychain.yaml 78-98) with its signature: the offset of the array. -/
def fileHeader : DataTypeMap Nat :=
  (fixedMap 20 id).refine (fun b => if slice b 0 4 = [107, 121, 99, 104] then some (beNat (slice b 12 16)) else none)

/-- `ReadFileObject` (keychain.py 951-964). -/
def readFile (data : Bytes) : Res (List Table) :=
  match structAt fileHeader data 0 with
  | .error e => .error e
  | .ok (off, _) =>
    match structAt tablesArray data off with
    | .error e => .error e
    | .ok (offsets, _) => readTables data off offsets []

/-! ## The specification

Nothing is said on where the parts of a database are; only what is at the places that are pointed at. -/

def IsAscii (b : Bytes) : Prop := ∀ c ∈ b, c.toNat < 128

/-- A value that a column has. -/
inductive Stored where
  | null
  | uint (n : Nat)
  | sint (n : Nat)
  | text (s : Bytes)
  | date (s : Bytes)
  | blob (s : Bytes)

/-- The bytes of a value. The time and date is 15 characters and a zero byte. -/
def Stored.bytes : Stored → Bytes
  | .null => []
  | .uint n => beBytes 4 n
  | .sint n => beBytes 4 n
  | .text s => beBytes 4 s.length ++ s
  | .date s => s ++ [0]
  | .blob s => beBytes 4 s.length ++ s

/-- The values a column of a format can have. -/
def Stored.Ok (format : Option Nat) : Stored → Prop
  | .null => True
  | .uint n => format = some 2 ∧ n < 2 ^ 32
  | .sint n => format = some 1 ∧ n < 2 ^ 31
  | .text s => format = some 0 ∧ s.length < 2 ^ 32 ∧ IsAscii s
  | .date s => format = some 5 ∧ s.length = 15 ∧ IsAscii s ∧ s.getLast? ≠ some 0
  | .blob s => format = some 6 ∧ s.length < 2 ^ 32

def Stored.value : Stored → Value
  | .null => .null
  | .uint n => .int n
  | .sint n => .int n
  | .text s => .text s
  | .date s => .date s
  | .blob s => .blob s

/-- A value is where an offset says, which is 1 more than that in the record; the offset is 0 for no value. -/
def ValueAt (rec : Bytes) (start off : Nat) (v : Stored) : Prop :=
  (off = 0 ∧ v = .null) ∨ (start < off ∧ v ≠ .null ∧ Holds rec (off - 1) v.bytes)

/-- The bytes of a record: its size and offsets, and the values where the offsets say. -/
def RecordBytes (rec : Bytes) (formats : List (Option Nat)) (offsets : List Nat) (values : List Stored) : Prop :=
  ∃ fields body, rec = [beBytes 4 rec.length, fields, offsets.flatMap (beBytes 4), body].flatten ∧
    fields.length = 20 ∧ rec.length < 2 ^ 32 ∧ (∀ o ∈ offsets, o < 2 ^ 32) ∧ offsets.length = formats.length ∧
    values.length = formats.length ∧
    ∀ (i : Nat) f o v, formats[i]? = some f → offsets[i]? = some o → values[i]? = some v →
      v.Ok f ∧ ValueAt rec (24 + 4 * formats.length) o v

/-- An attribute of a relation. It has a name, or its identifier is one. -/
structure Attr where
  rel : Nat
  ident : Nat
  nameFormat : Nat
  name : Option Bytes
  format : Nat

def Attr.Ok (a : Attr) : Prop := ∀ b, a.name = none → b = beBytes 4 a.ident → IsAscii b

def Attr.shownName (a : Attr) : Bytes := a.name.getD (beBytes 4 a.ident)

def Attr.column (a : Attr) : Column := ⟨some a.format, some a.ident, some a.shownName⟩

/-- The values of the record of an attribute; the fifth is another kind of name, which is not read. -/
def Attr.values (a : Attr) : List Stored :=
  [.uint a.rel, .uint a.ident, .uint a.nameFormat, (match a.name with | none => .null | some s => .text s), .null,
    .uint a.format]

def attrFormats : List (Option Nat) := [some 2, some 2, some 2, some 0, some 6, some 2]

/-- The tables of a database: what the schema says on each, and the rows. -/
structure Database where
  infos : List (Nat × Bytes)
  attrs : List Attr
  rows : List (Nat × List (List Stored))

/-- The columns of a table. -/
def Database.columns (d : Database) (id : Nat) : List Column := (d.attrs.filter (·.rel = id)).map (·.column)

/-- What is to be shown of a row. -/
def rowOf (columns : List Column) (values : List Stored) : Record :=
  .row ((columns.map (·.name)).zip (values.map (·.value)))

/-- The records of a table. -/
def Database.records (d : Database) (id : Nat) : List Record :=
  if id = 0 then d.infos.map (fun i => .schema [.int i.1, .text i.2])
  else if id = 2 then
    d.attrs.map (fun a => .schema [.int a.rel, .int a.ident, .int a.nameFormat, .text a.shownName, .int a.format])
  else (d.rows.filter (·.1 = id)).flatMap (fun r => r.2.map (rowOf (d.columns id)))

/-- What is to be read. -/
def Database.tables (d : Database) : List Table :=
  d.infos.map (fun i => ⟨i.1, i.2, d.columns i.1, d.records i.1⟩)

/-- The record of the information on a table. -/
def infoBytes (fields : Bytes) (i : Nat × Bytes) : Bytes :=
  [fields, beBytes 4 0x21, beBytes 4 0x25, beBytes 4 i.1, beBytes 4 i.2.length, i.2].flatten

/-- A table with its records at some places, some of which are not used. -/
def TableAt {α : Type} (data : Bytes) (off type : Nat) (At : Nat → α → Prop) (xs : List α) : Prop :=
  ∃ (fields fields' : Bytes) (offsets : List Nat), fields.length = 4 ∧ fields'.length = 16 ∧ offsets.length < 2 ^ 32 ∧
    (∀ o ∈ offsets, o < 2 ^ 32) ∧ type < 2 ^ 32 ∧
    Holds data off [fields, beBytes 4 type, fields', beBytes 4 offsets.length, offsets.flatMap (beBytes 4)].flatten ∧
    (offsets.filter (· ≠ 0)).length = xs.length ∧
    ∀ (i : Nat) o x, (offsets.filter (· ≠ 0))[i]? = some o → xs[i]? = some x → At (o + off) x

def InfoAt (data : Bytes) (off : Nat) (i : Nat × Bytes) : Prop :=
  ∃ fields : Bytes, fields.length = 24 ∧ i.1 < 2 ^ 32 ∧ i.2.length < 2 ^ 32 ∧ IsAscii i.2 ∧
    Holds data off (infoBytes fields i)

def AttrAt (data : Bytes) (off : Nat) (a : Attr) : Prop :=
  ∃ rec offsets, Holds data off rec ∧ RecordBytes rec attrFormats offsets a.values ∧ a.Ok

def RowAt (columns : List Column) (data : Bytes) (off : Nat) (values : List Stored) : Prop :=
  ∃ rec offsets, Holds data off rec ∧ RecordBytes rec (columns.map (·.format)) offsets values

/-- A file with a database: the table of the tables comes first and begins with itself, then the table of the
attributes, then the others in any order. -/
def FileOf (data : Bytes) (d : Database) : Prop :=
  ∃ (fields fields' fields'' : Bytes) (base infoOff attrOff : Nat) (rowOffs : List Nat),
    fields.length = 8 ∧ fields'.length = 4 ∧ fields''.length = 4 ∧ base < 2 ^ 32 ∧
    Holds data 0 [[107, 121, 99, 104], fields, beBytes 4 base, fields'].flatten ∧
    rowOffs.length + 2 < 2 ^ 32 ∧ (∀ o ∈ infoOff :: attrOff :: rowOffs, o < 2 ^ 32) ∧
    Holds data base [fields'', beBytes 4 (rowOffs.length + 2),
      (infoOff :: attrOff :: rowOffs).flatMap (beBytes 4)].flatten ∧
    TableAt data (base + infoOff) 0 (InfoAt data) d.infos ∧
    TableAt data (base + attrOff) 2 (AttrAt data) d.attrs ∧
    rowOffs.length = d.rows.length ∧
    ∀ (i : Nat) o r, rowOffs[i]? = some o → d.rows[i]? = some r →
      TableAt data (base + o) r.1 (RowAt (d.columns r.1) data) r.2

/-- A database that is well-formed: its schema is complete and the columns of a table have different names. -/
def Database.Ok (d : Database) : Prop :=
  (d.infos.map (·.1)).Nodup ∧ (∃ name, d.infos.head? = some (0, name)) ∧ (∃ name, (2, name) ∈ d.infos) ∧
    (∀ a ∈ d.attrs, ∃ name, (a.rel, name) ∈ d.infos) ∧
    (∀ r ∈ d.rows, 2 < r.1 ∧ (∃ name, (r.1, name) ∈ d.infos) ∧ d.columns r.1 ≠ []) ∧
    ∀ i ∈ d.infos, ((d.columns i.1).map (·.name)).Nodup

/-! ## Proofs: the parts -/

theorem isAscii_iff (b : Bytes) : isAscii b = true ↔ IsAscii b := by
  unfold isAscii IsAscii
  rw [List.all_eq_true]
  constructor
  · intro h c hc
    have := h c hc
    simpa [UInt8.lt_iff_toNat_lt] using this
  · intro h c hc
    have := h c hc
    simpa [UInt8.lt_iff_toNat_lt] using this

theorem flatMap_beBytes_length (l : List Nat) : (l.flatMap (beBytes 4)).length = 4 * l.length := by
  induction l with
  | nil => rfl
  | cons i l ih => rw [List.flatMap_cons, List.length_append, ih, List.length_cons, length_beBytes]; omega

theorem words_flatMap (l : List Nat) (h : ∀ n ∈ l, n < 2 ^ 32) (rest : Bytes) :
    words l.length (l.flatMap (beBytes 4) ++ rest) = l := by
  induction l with
  | nil => rfl
  | cons n l ih =>
    have e : (n :: l).flatMap (beBytes 4) ++ rest = beBytes 4 n ++ (l.flatMap (beBytes 4) ++ rest) := by simp
    rw [e, List.length_cons, words, List.take_left' (by simp), List.drop_left' (by simp),
      ih (fun m hm => h m (by simp [hm])), beNat_beBytes_of_lt _ _ (h n (by simp))]

/-- A value is where it is in what is left of a record. -/
theorem valueData_holds (rec : Bytes) (start off : Nat) (b : Bytes) (hs : start ≤ rec.length) (ho : start < off)
    (h : Holds rec (off - 1) b) : ∃ rest, valueData (rec.drop start) start off = b ++ rest := by
  obtain ⟨pre, post, rfl, hp⟩ := h
  have hi : sliceIndex ((pre ++ b ++ post).drop start).length ((off : Int) - (start + 1)) = pre.length - start := by
    unfold sliceIndex
    rw [if_neg (by omega)]
    simp only [List.length_drop, List.length_append]
    omega
  have hj : sliceIndex ((pre ++ b ++ post).drop start).length ((pre ++ b ++ post).drop start).length =
      ((pre ++ b ++ post).drop start).length := by
    unfold sliceIndex
    rw [if_neg (by omega)]
    omega
  refine ⟨post, ?_⟩
  unfold valueData sliceInt
  rw [hi, hj, slice, List.take_length, List.drop_drop, show start + (pre.length - start) = pre.length by omega,
    List.append_assoc, List.drop_left]

theorem sized_bytes (s rest : Bytes) (h : s.length < 2 ^ 32) : sized (beBytes 4 s.length ++ s ++ rest) = .ok s := by
  have f : beNat (slice (beBytes 4 s.length ++ s ++ rest) 0 4) = s.length := by
    have : slice (beBytes 4 s.length ++ s ++ rest) 0 4 = beBytes 4 s.length := by
      simp only [slice, List.drop_zero, List.append_assoc]
      exact List.take_left' (by simp)
    rw [this, beNat_beBytes_of_lt _ _ (by omega)]
  unfold sized
  rw [f, if_neg (by simp), if_neg (by simp)]
  congr 1
  have := slice_at (beBytes 4 s.length) s rest s.length (Nat.le_refl _)
  rw [length_beBytes, List.take_length] at this
  exact this

theorem rstrip_date (s : Bytes) (h : s.getLast? ≠ some 0) : rstrip (s ++ [0]) = s := by
  unfold rstrip
  rw [List.reverse_append]
  show ((0 :: s.reverse).dropWhile (fun b => decide (b = 0))).reverse = s
  rw [List.dropWhile_cons, if_pos (by rfl)]
  have : s.reverse.dropWhile (fun b => decide (b = 0)) = s.reverse := by
    cases hr : s.reverse with
    | nil => rfl
    | cons c l =>
      have hc : c ≠ 0 := by
        intro hc
        apply h
        have : s = (c :: l).reverse := by rw [← hr, List.reverse_reverse]
        rw [this, hc]
        simp
      rw [List.dropWhile_cons, if_neg (by simp [hc])]
  rw [this, List.reverse_reverse]

theorem readValue_at (rec : Bytes) (format : Option Nat) (start off : Nat) (v : Stored) (hs : start ≤ rec.length)
    (hv : v.Ok format) (h : ValueAt rec start off v) :
    readValue format (rec.drop start) start off = .ok v.value := by
  rcases h with ⟨rfl, rfl⟩ | ⟨h1, h2, h3⟩
  · unfold readValue readText readInt readBlob readDate
    split <;> rfl
  · have ho : off ≠ 0 := by omega
    obtain ⟨rest, hr⟩ := valueData_holds rec start off _ hs h1 h3
    cases v with
    | null => exact absurd rfl h2
    | uint n =>
      obtain ⟨rfl, hn⟩ := hv
      simp only [Stored.bytes] at hr
      have f : slice (beBytes 4 n ++ rest) 0 4 = beBytes 4 n := by
        simp only [slice, List.drop_zero]
        exact List.take_left' (by simp)
      simp only [readValue, readInt]
      rw [if_neg ho, hr, if_neg (by simp), f, beNat_beBytes_of_lt _ _ (by omega)]
      rfl
    | sint n =>
      obtain ⟨rfl, hn⟩ := hv
      simp only [Stored.bytes] at hr
      have f : slice (beBytes 4 n ++ rest) 0 4 = beBytes 4 n := by
        simp only [slice, List.drop_zero]
        exact List.take_left' (by simp)
      simp only [readValue, readInt]
      rw [if_neg ho, hr, if_neg (by simp), f, beNat_beBytes_of_lt _ _ (by omega)]
      rfl
    | text s =>
      obtain ⟨rfl, hn, ha⟩ := hv
      simp only [Stored.bytes] at hr
      simp only [readValue, readText]
      rw [if_neg ho, hr, sized_bytes _ _ hn]
      dsimp only
      rw [if_pos ((isAscii_iff s).mpr ha)]
      rfl
    | date s =>
      obtain ⟨rfl, hn, ha, hl⟩ := hv
      simp only [Stored.bytes] at hr
      have f : slice (s ++ [0] ++ rest) 0 16 = s ++ [0] := by
        simp only [slice, List.drop_zero]
        exact List.take_left' (by simp [hn])
      have ha' : isAscii (s ++ [0]) = true := by
        rw [isAscii_iff]
        intro c hc
        rcases List.mem_append.mp hc with hc | hc
        · exact ha c hc
        · rw [List.mem_singleton.mp hc]; decide
      simp only [readValue, readDate]
      rw [if_neg ho, hr, if_neg (by simp [hn]; omega), f, if_pos ha', rstrip_date s hl]
      rfl
    | blob s =>
      obtain ⟨rfl, hn⟩ := hv
      simp only [Stored.bytes] at hr
      simp only [readValue, readBlob]
      rw [if_neg ho, hr, sized_bytes _ _ hn]
      rfl

theorem readParts_holds (data rec : Bytes) (off : Nat) (formats : List (Option Nat)) (offsets : List Nat)
    (values : List Stored) (hh : Holds data off rec) (hr : RecordBytes rec formats offsets values) :
    readParts data off formats.length = .ok (offsets, rec.drop (24 + 4 * formats.length)) ∧
      24 + 4 * formats.length ≤ rec.length := by
  obtain ⟨fields, body, he, h1, h2, h3, h4, h5, _⟩ := hr
  have hl : rec.length = 24 + 4 * formats.length + body.length := by
    rw [he]
    simp only [List.flatten_cons, List.flatten_nil, List.append_nil, List.length_append, length_beBytes,
      flatMap_beBytes_length, h1, h4]
    omega
  have heq : rec = [beBytes 4 rec.length, fields].flatten ++ (offsets.flatMap (beBytes 4) ++ body) := by
    conv => lhs; rw [he]
    simp
  have hhead : structAt recordHeader data off = .ok (rec.length, 24) := by
    have henc : Encodes recordHeader [beBytes 4 rec.length, fields].flatten rec.length := by
      refine encodes_refine _ _ _ _ _ (encodes_fixed 24 id _ (by omega) (by simp [h1])) ?_
      have f : beNat (slice [beBytes 4 rec.length, fields].flatten 0 4) = rec.length :=
        beField [] 4 _ _ 0 4 rfl rfl (by omega)
      rw [id, f]
    have := encodes_holds _ _ _ henc data off (holds_prefix _ _ _ (offsets.flatMap (beBytes 4) ++ body) (by
      rw [← heq]; exact hh))
    rw [this]
    simp [h1]
  have hoff := holds_suffix data off _ _ (by rw [← heq]; exact hh)
  have hlen : [beBytes 4 rec.length, fields].flatten.length = 24 := by simp [h1]
  rw [hlen] at hoff
  have hoff1 := holds_slice _ _ _ (holds_prefix _ _ _ _ hoff)
  rw [flatMap_beBytes_length, h4] at hoff1
  have hrec := holds_slice _ _ _ hh
  have hread : readOffsets data off formats.length = .ok offsets := by
    unfold readOffsets
    rw [if_neg (by omega), hoff1.1]
    have := words_flatMap offsets h3 []
    rw [List.append_nil, h4] at this
    rw [this]
  have hbody := holds_slice _ _ _ (holds_suffix _ _ _ _ hoff)
  rw [flatMap_beBytes_length, h4] at hbody
  have hdrop : rec.drop (24 + 4 * formats.length) = body := by
    have e : rec = ([beBytes 4 rec.length, fields].flatten ++ offsets.flatMap (beBytes 4)) ++ body := by
      rw [List.append_assoc]; exact heq
    rw [e]
    exact List.drop_left' (by rw [List.length_append, hlen, flatMap_beBytes_length, h4])
  have hrest : readRest data (off + 24 + 4 * formats.length) ((rec.length : Int) - (24 + 4 * formats.length : Nat)) =
      .ok body := by
    unfold readRest
    rw [if_neg (by omega)]
    unfold File.read
    dsimp only
    rw [if_neg (by omega)]
    have hn : ((rec.length : Int) - (24 + 4 * formats.length : Nat)).toNat = body.length := by omega
    rw [hn]
    have := hbody.1
    rw [slice_eq_take_drop, Nat.add_sub_cancel_left] at this
    rw [this]
  unfold readParts
  rw [hhead]
  dsimp only
  rw [hread]
  dsimp only
  rw [hrest, hdrop]
  exact ⟨rfl, by omega⟩

/-! ## Proofs: rows -/

theorem putValue_new (d : List (Option Bytes × Value)) (k : Option Bytes) (v : Value) (h : k ∉ d.map (·.1)) :
    putValue d k v = d ++ [(k, v)] := by
  unfold putValue
  rw [if_neg]
  intro hc
  rw [List.any_eq_true] at hc
  obtain ⟨e, he, hk⟩ := hc
  simp only [decide_eq_true_eq] at hk
  exact h (hk ▸ List.mem_map_of_mem he)

theorem readValues_row (rec : Bytes) (start : Nat) (hs : start ≤ rec.length) (columns : List Column)
    (offsets : List Nat) (values : List Stored) (acc : List (Option Bytes × Value))
    (h1 : offsets.length = columns.length) (h2 : values.length = columns.length)
    (h : ∀ (i : Nat) f o v, (columns.map (·.format))[i]? = some f → offsets[i]? = some o → values[i]? = some v →
      v.Ok f ∧ ValueAt rec start o v)
    (hn : (acc.map (·.1) ++ columns.map (·.name)).Nodup) :
    readValues (rec.drop start) start (columns.zip offsets) acc =
      .ok (acc ++ (columns.map (·.name)).zip (values.map (·.value))) := by
  induction columns generalizing offsets values acc with
  | nil => simp [readValues]
  | cons c columns ih =>
    match offsets, values, h1, h2 with
    | o :: offsets, v :: values, h1, h2 =>
      obtain ⟨g1, g2⟩ := h 0 c.format o v rfl rfl rfl
      rw [List.zip_cons_cons, readValues, readValue_at rec _ _ _ v hs g1 g2]
      dsimp only
      have hk : c.name ∉ acc.map (·.1) := by
        intro hc
        rw [List.map_cons, List.nodup_append] at hn
        exact hn.2.2 _ hc _ (by simp) rfl
      rw [putValue_new _ _ _ hk, ih offsets values _ (by simpa using h1) (by simpa using h2)
        (fun i f o v a b c => h (i + 1) f o v (by simpa using a) (by simpa using b) (by simpa using c))
        (by simpa using hn)]
      simp

theorem getTable_map (infos : List (Nat × Bytes)) (cols : Nat → List Column) (recs : Nat → List Record) (id : Nat)
    (name : Bytes) (h : (id, name) ∈ infos) (hn : (infos.map (·.1)).Nodup) :
    getTable (infos.map (fun i => ⟨i.1, i.2, cols i.1, recs i.1⟩)) id = some ⟨id, name, cols id, recs id⟩ := by
  induction infos with
  | nil => cases h
  | cons i infos ih =>
    rw [List.map_cons, List.nodup_cons] at hn
    unfold getTable
    rw [List.map_cons, List.find?_cons]
    by_cases hi : i.1 = id
    · have : i = (id, name) := by
        rcases List.mem_cons.mp h with h | h
        · exact h.symm
        · exact absurd (List.mem_map_of_mem (f := (·.1)) h) (by rw [← hi]; exact hn.1)
      subst this
      simp
    · rw [show decide (i.1 = id) = false by simp [hi]]
      rcases List.mem_cons.mp h with h | h
      · exact absurd (congrArg Prod.fst h).symm hi
      · exact ih h hn.2

theorem changeTable_record (infos : List (Nat × Bytes)) (cols : Nat → List Column) (recs : Nat → List Record) (id : Nat)
    (r : Record) :
    changeTable (infos.map (fun i => ⟨i.1, i.2, cols i.1, recs i.1⟩)) id (addRecord r) =
      infos.map (fun i => ⟨i.1, i.2, cols i.1, if i.1 = id then recs i.1 ++ [r] else recs i.1⟩) := by
  unfold changeTable
  rw [List.map_map]
  apply List.map_congr_left
  intro i _
  simp only [Function.comp]
  split <;> rfl

theorem changeTable_column (infos : List (Nat × Bytes)) (cols : Nat → List Column) (recs : Nat → List Record) (id : Nat)
    (c : Column) :
    changeTable (infos.map (fun i => ⟨i.1, i.2, cols i.1, recs i.1⟩)) id (addColumn c) =
      infos.map (fun i => ⟨i.1, i.2, if i.1 = id then cols i.1 ++ [c] else cols i.1, recs i.1⟩) := by
  unfold changeTable
  rw [List.map_map]
  apply List.map_congr_left
  intro i _
  simp only [Function.comp]
  split <;> rfl

theorem readRow_at (data : Bytes) (infos : List (Nat × Bytes)) (cols : Nat → List Column) (recs : Nat → List Record)
    (id : Nat) (name : Bytes) (h : (id, name) ∈ infos) (hn : (infos.map (·.1)).Nodup) (hc : cols id ≠ [])
    (hnames : ((cols id).map (·.name)).Nodup) (off : Nat) (values : List Stored) (hr : RowAt (cols id) data off values) :
    readRow data id off (infos.map (fun i => ⟨i.1, i.2, cols i.1, recs i.1⟩)) =
      .ok (infos.map (fun i => ⟨i.1, i.2, cols i.1,
        if i.1 = id then recs i.1 ++ [rowOf (cols id) values] else recs i.1⟩)) := by
  obtain ⟨rec, offsets, h1, h2⟩ := hr
  obtain ⟨hp, hle⟩ := readParts_holds data rec off _ offsets values h1 h2
  rw [List.length_map] at hp hle
  unfold readRow
  rw [getTable_map infos cols recs id name h hn]
  dsimp only
  rw [if_neg hc, hp]
  dsimp only
  obtain ⟨_, _, _, _, _, _, h4, h5, h6⟩ := h2
  rw [List.length_map] at h4 h5 h6
  rw [readValues_row rec _ hle (cols id) offsets values [] h4 h5 h6 (by simpa using hnames)]
  dsimp only
  rw [changeTable_record]
  rfl

/-! ## Proofs: the schema -/

theorem readInfo_at (data : Bytes) (off : Nat) (i : Nat × Bytes) (h : InfoAt data off i) (tables : List Table) :
    readInfo data off tables = addInfo i.1 i.2 tables := by
  obtain ⟨fields, h1, h2, h3, h4, h5⟩ := h
  have e : infoBytes fields i = fields ++ (([0x21, 0x25] : List Nat).flatMap (beBytes 4) ++
      [beBytes 4 i.1, beBytes 4 i.2.length, i.2].flatten) := by simp [infoBytes]
  rw [e] at h5
  have hhead : structAt recordHeader data off = .ok (beNat (slice fields 0 4), (fields.length : Int)) := by
    refine encodes_holds _ _ _ ?_ _ _ (holds_prefix _ _ _ _ h5)
    exact encodes_refine _ _ _ _ _ (encodes_fixed 24 id _ (by omega) h1) rfl
  have hoff := holds_suffix _ _ _ _ h5
  rw [h1] at hoff
  have hoff1 := holds_slice _ _ _ (holds_prefix _ _ _ _ hoff)
  rw [flatMap_beBytes_length] at hoff1
  have hread : readOffsets data off 2 = .ok [0x21, 0x25] := by
    unfold readOffsets
    have hle := hoff1.2
    simp only [List.length_cons, List.length_nil] at hle
    rw [if_neg (by omega)]
    have := words_flatMap [0x21, 0x25] (by simp) []
    rw [List.append_nil] at this
    have hs := hoff1.1
    simp only [List.length_cons, List.length_nil] at hs this
    rw [hs, this]
  have hinfo : structAt infoMap data ((off + 32 : Nat) : Int) =
      .ok ((i.1, i.2), ([beBytes 4 i.1, beBytes 4 i.2.length, i.2].flatten.length : Int)) := by
    have hs := holds_suffix _ _ _ _ hoff
    rw [flatMap_beBytes_length] at hs
    simp only [List.length_cons, List.length_nil] at hs
    refine encodes_holds _ _ _ ?_ _ _ hs
    have f1 : ∀ tail : Bytes, beNat (slice ([beBytes 4 i.1, beBytes 4 i.2.length].flatten ++ tail) 4 8) = i.2.length := by
      intro tail
      have := beField [beBytes 4 i.1] 4 i.2.length [tail] 4 8 (by simp) rfl (by omega)
      simpa using this
    have e : [beBytes 4 i.1, beBytes 4 i.2.length, i.2].flatten = [beBytes 4 i.1, beBytes 4 i.2.length].flatten ++ i.2 := by
      simp
    have ht : [beBytes 4 i.1, beBytes 4 i.2.length, i.2].flatten.take 8 = [beBytes 4 i.1, beBytes 4 i.2.length].flatten := by
      rw [e]; exact List.take_left' (by simp)
    refine encodes_refine _ _ _ _ _ (encodes_sized 8 _ id _ (by omega) (by simp; omega) ?_) ?_
    · rw [ht]
      have := f1 []
      rw [List.append_nil] at this
      rw [this]
      simp only [List.flatten_cons, List.flatten_nil, List.append_nil, List.length_append, length_beBytes]
      omega
    · have f0 : beNat (slice [beBytes 4 i.1, beBytes 4 i.2.length, i.2].flatten 0 4) = i.1 :=
        beField [] 4 _ _ 0 4 rfl rfl (by omega)
      have hd : [beBytes 4 i.1, beBytes 4 i.2.length, i.2].flatten.drop 8 = i.2 := by
        rw [e]; exact List.drop_left' (by simp)
      rw [id, f0, hd]
  unfold readInfo
  rw [hhead]
  dsimp only
  rw [hread]
  dsimp only
  rw [if_pos rfl, hinfo]
  dsimp only
  rw [if_pos ((isAscii_iff _).mpr h4)]

theorem fallbackName_at (rec : Bytes) (a : Attr) (ha : a.Ok) (o : Nat) (hl : 48 ≤ rec.length)
    (h : ValueAt rec 48 o (.uint a.ident)) : fallbackName (rec.drop 48) a.name o = .ok (some a.shownName) := by
  rcases h with ⟨_, h⟩ | ⟨h1, _, pre, post, rfl, hp⟩
  · cases h
  · unfold fallbackName Attr.shownName
    cases hn : a.name with
    | some s => simp
    | none =>
      rw [if_pos ⟨rfl, by omega⟩]
      have hs : sliceInt ((pre ++ Stored.bytes (.uint a.ident) ++ post).drop 48) ((o : Int) - 49) ((o : Int) - 49 + 4) =
          beBytes 4 a.ident := by
        have hbl : (Stored.bytes (.uint a.ident)).length = 4 := by simp [Stored.bytes]
        have hi : sliceIndex ((pre ++ Stored.bytes (.uint a.ident) ++ post).drop 48).length ((o : Int) - 49) =
            pre.length - 48 := by
          unfold sliceIndex
          rw [if_neg (by omega)]
          simp only [List.length_drop, List.length_append]
          omega
        have hj : sliceIndex ((pre ++ Stored.bytes (.uint a.ident) ++ post).drop 48).length ((o : Int) - 49 + 4) =
            pre.length - 48 + 4 := by
          unfold sliceIndex
          rw [if_neg (by omega)]
          simp only [List.length_drop, List.length_append]
          omega
        unfold sliceInt
        rw [hi, hj, slice_eq_take_drop, List.drop_drop, show 48 + (pre.length - 48) = pre.length by omega,
          List.append_assoc, List.drop_left, Nat.add_sub_cancel_left]
        exact List.take_left' hbl
      dsimp only
      rw [hs, if_pos ((isAscii_iff _).mpr (ha _ hn rfl))]
      rfl

theorem readAttribute_at (data : Bytes) (off : Nat) (a : Attr) (h : AttrAt data off a) (tables : List Table) :
    readAttribute data off tables =
      addAttribute (some a.rel) (some a.ident) (some a.nameFormat) (.ok (some a.shownName)) (some a.format) tables := by
  obtain ⟨rec, offsets, h1, h2, ha⟩ := h
  obtain ⟨hp, hle⟩ := readParts_holds data rec off _ offsets _ h1 h2
  obtain ⟨_, _, _, _, _, _, h4, h5, h6⟩ := h2
  match offsets, h4 with
  | [o0, o1, o2, o3, o4, o5], _ =>
    have hle : 48 ≤ rec.length := hle
    have v : ∀ (i o : Nat) (w : Stored) (f : Option Nat), attrFormats[i]? = some f → [o0, o1, o2, o3, o4, o5][i]? = some o →
        a.values[i]? = some w → readValue f (rec.drop 48) 48 o = .ok w.value := by
      intro i o w f e1 e2 e3
      obtain ⟨g1, g2⟩ := h6 i f o w e1 e2 e3
      exact readValue_at rec f 48 o w hle g1 g2
    have toInt : ∀ o n, readValue (some 2) (rec.drop 48) 48 o = .ok (.int n) → readInt (rec.drop 48) 48 o = .ok (some n) := by
      intro o n hv
      simp only [readValue] at hv
      cases hr : readInt (rec.drop 48) 48 o with
      | error e => rw [hr] at hv; cases hv
      | ok x =>
        rw [hr] at hv
        cases x with
        | none => cases hv
        | some m => cases hv; rfl
    have r0 := toInt _ _ (v 0 o0 (.uint a.rel) (some 2) rfl rfl rfl)
    have r1 := toInt _ _ (v 1 o1 (.uint a.ident) (some 2) rfl rfl rfl)
    have r2 := toInt _ _ (v 2 o2 (.uint a.nameFormat) (some 2) rfl rfl rfl)
    have r5 := toInt _ _ (v 5 o5 (.uint a.format) (some 2) rfl rfl rfl)
    have r3 : readText (rec.drop 48) 48 o3 = .ok a.name := by
      have hv := v 3 o3 _ (some 0) rfl rfl rfl
      simp only [readValue] at hv
      cases hr : readText (rec.drop 48) 48 o3 with
      | error e => rw [hr] at hv; cases hv
      | ok x =>
        rw [hr] at hv
        cases hn : a.name with
        | none =>
          rw [hn] at hv
          cases x with
          | none => rfl
          | some m => cases hv
        | some s =>
          rw [hn] at hv
          cases x with
          | none => cases hv
          | some m => cases hv; rfl
    have hf := fallbackName_at rec a ha o1 hle (h6 1 (some 2) o1 _ rfl rfl rfl).2
    unfold readAttribute
    rw [show (6 : Nat) = attrFormats.length from rfl, hp]
    dsimp only
    simp only [List.getD_cons_zero, List.getD_cons_succ]
    rw [show 24 + 4 * attrFormats.length = 48 from rfl, r0, r1, r2, r3, r5]
    dsimp only
    rw [hf]

/-! ## Proofs: the database -/

/-- The records of a table are read one after the other. -/
theorem readRecords_fold {α : Type} (data : Bytes) (type base : Nat) (At : Nat → α → Prop)
    (S : List α → List Table) (xs done : List α) (offsets : List Nat)
    (hlen : (offsets.filter (· ≠ 0)).length = xs.length)
    (hat : ∀ (i : Nat) o x, (offsets.filter (· ≠ 0))[i]? = some o → xs[i]? = some x → At (o + base) x)
    (hstep : ∀ front x back, xs = front ++ x :: back → ∀ off, At off x →
      readRecord data type off (S (done ++ front)) = .ok (S (done ++ front ++ [x]))) :
    readRecords data type base offsets (S done) = .ok (S (done ++ xs)) := by
  induction offsets generalizing xs done with
  | nil =>
    have : xs = [] := List.length_eq_zero_iff.mp hlen.symm
    subst this
    simp [readRecords]
  | cons o offsets ih =>
    rw [readRecords]
    by_cases ho : o = 0
    · rw [if_pos ho]
      have hf : (o :: offsets).filter (· ≠ 0) = offsets.filter (· ≠ 0) := by
        rw [List.filter_cons_of_neg (by simp [ho])]
      rw [hf] at hlen hat
      exact ih xs done hlen hat hstep
    · rw [if_neg ho]
      have hf : (o :: offsets).filter (· ≠ 0) = o :: offsets.filter (· ≠ 0) := by
        rw [List.filter_cons_of_pos (by simp [ho])]
      rw [hf] at hlen hat
      cases xs with
      | nil => cases hlen
      | cons x xs =>
        have := hstep [] x xs rfl (o + base) (hat 0 o x rfl rfl)
        rw [List.append_nil] at this
        rw [this]
        dsimp only
        rw [ih xs (done ++ [x]) (by simpa using hlen)
          (fun i o x a b => hat (i + 1) o x (by simpa using a) (by simpa using b))
          (fun front y back he off hy => by
            have := hstep (x :: front) y back (by rw [he]; rfl) off hy
            simpa using this)]
        simp

theorem readTable_fold {α : Type} (data : Bytes) (off type : Nat) (At : Nat → α → Prop)
    (S : List α → List Table) (xs : List α) (h : TableAt data off type At xs)
    (hstep : ∀ front x back, xs = front ++ x :: back → ∀ off, At off x →
      readRecord data type off (S front) = .ok (S (front ++ [x]))) :
    readTable data off (S []) = .ok (S xs) := by
  obtain ⟨fields, fields', offsets, h1, h2, h3, h4, h5, h6, h7, h8⟩ := h
  have e : [fields, beBytes 4 type, fields', beBytes 4 offsets.length, offsets.flatMap (beBytes 4)].flatten =
      [fields, beBytes 4 type, fields', beBytes 4 offsets.length].flatten ++ offsets.flatMap (beBytes 4) := by simp
  have hl : [fields, beBytes 4 type, fields', beBytes 4 offsets.length].flatten.length = 28 := by simp [h1, h2]
  have ht : ∃ k, structAt tableHeader data off = .ok ((type, offsets), k) := by
    refine ⟨_, encodes_holds _ _ _ ?_ _ _ h6⟩
    have f2 : ∀ tail : List Bytes, beNat (slice (fields :: beBytes 4 type :: fields' :: beBytes 4 offsets.length ::
        tail).flatten 24 28) = offsets.length := by
      intro tail
      exact beField [fields, beBytes 4 type, fields'] 4 _ tail 24 28 (by simp [h1, h2]) rfl (by omega)
    refine encodes_refine _ _ _ _ _ (encodes_sized 28 _ id _ (by omega) (by rw [e, List.length_append, hl]; omega) ?_) ?_
    · rw [e, List.take_left' hl, f2 [], List.length_append, hl, flatMap_beBytes_length]
    · have f1 : beNat (slice [fields, beBytes 4 type, fields', beBytes 4 offsets.length,
          offsets.flatMap (beBytes 4)].flatten 4 8) = type :=
        beField [fields] 4 _ _ 4 8 (by simp [h1]) rfl (by omega)
      have hw := words_flatMap offsets h4 []
      rw [List.append_nil] at hw
      have hd : [fields, beBytes 4 type, fields', beBytes 4 offsets.length, offsets.flatMap (beBytes 4)].flatten.drop 28 =
          offsets.flatMap (beBytes 4) := by rw [e]; exact List.drop_left' hl
      rw [id, f1, f2, hd, hw]
  obtain ⟨_, ht⟩ := ht
  unfold readTable
  rw [ht]
  dsimp only
  have := readRecords_fold data type off At S xs [] offsets h7 h8 (by simpa using hstep)
  simpa using this

/-- The tables after some of the information was read. -/
def afterInfos (p : List (Nat × Bytes)) : List Table :=
  p.map (fun i => ⟨i.1, i.2, [], if i.1 = 0 then p.map (fun i => .schema [.int i.1, .text i.2]) else []⟩)

theorem getTable_none (tables : List Table) (id : Nat) (h : id ∉ tables.map (·.ident)) : getTable tables id = none := by
  unfold getTable
  rw [List.find?_eq_none]
  intro t ht hc
  exact h (List.mem_map.mpr ⟨t, ht, by simpa using hc⟩)

theorem addInfo_step (p : List (Nat × Bytes)) (i : Nat × Bytes) (hn : ((p ++ [i]).map (·.1)).Nodup)
    (h0 : ∃ name, (p ++ [i]).head? = some (0, name)) : addInfo i.1 i.2 (afterInfos p) = .ok (afterInfos (p ++ [i])) := by
  have hi : i.1 ∉ p.map (·.1) := by
    rw [List.map_append, List.nodup_append] at hn
    intro hc
    exact hn.2.2 _ hc _ (by simp) rfl
  have hput : putTable (afterInfos p) ⟨i.1, i.2, [], []⟩ =
      (p ++ [i]).map (fun j => ⟨j.1, j.2, [],
        if j.1 = 0 ∧ p ≠ [] then p.map (fun i => .schema [.int i.1, .text i.2]) else []⟩) := by
    unfold putTable
    rw [getTable_none _ _ (by simpa [afterInfos, Function.comp_def] using hi), if_neg (by simp)]
    rw [List.map_append, List.map_singleton]
    congr 1
    · unfold afterInfos
      apply List.map_congr_left
      intro j hj
      have : p ≠ [] := List.ne_nil_of_mem hj
      simp [this]
    · cases p with
      | nil => simp
      | cons q p =>
        obtain ⟨name, hq⟩ := h0
        have hq : q = (0, name) := by simpa using hq
        have : i.1 ≠ 0 := by
          intro hc
          apply hi
          rw [hc, hq]
          simp
        simp [this]
  have hget : ∃ t, getTable ((p ++ [i]).map (fun j => (⟨j.1, j.2, [],
        if j.1 = 0 ∧ p ≠ [] then p.map (fun i => .schema [.int i.1, .text i.2]) else []⟩ : Table))) 0 = some t := by
    obtain ⟨name, h0⟩ := h0
    exact ⟨_, getTable_map (p ++ [i]) (fun _ => [])
      (fun n => if n = 0 ∧ p ≠ [] then p.map (fun i => .schema [.int i.1, .text i.2]) else []) 0 name
      (List.mem_of_head? h0) hn⟩
  obtain ⟨t, hget⟩ := hget
  unfold addInfo
  rw [hput]
  dsimp only
  rw [hget]
  dsimp only
  congr 1
  rw [changeTable_record (p ++ [i]) (fun _ => [])
      (fun n => if n = 0 ∧ p ≠ [] then p.map (fun i => .schema [.int i.1, .text i.2]) else [])]
  unfold afterInfos
  apply List.map_congr_left
  intro j _
  by_cases hj : j.1 = 0
  · by_cases hp : p = []
    · subst hp; simp [hj]
    · simp [hj, hp]
  · simp [hj]

/-- The tables after some of the attributes were read. -/
def afterAttrs (infos : List (Nat × Bytes)) (p : List Attr) : List Table :=
  infos.map (fun i => ⟨i.1, i.2, (p.filter (·.rel = i.1)).map (·.column),
    if i.1 = 0 then infos.map (fun i => .schema [.int i.1, .text i.2])
    else if i.1 = 2 then
      p.map (fun a => .schema [.int a.rel, .int a.ident, .int a.nameFormat, .text a.shownName, .int a.format])
    else []⟩)

theorem addAttribute_step (infos : List (Nat × Bytes)) (hn : (infos.map (·.1)).Nodup) (p : List Attr) (a : Attr)
    (ha : ∃ name, (a.rel, name) ∈ infos) (h2 : ∃ name, (2, name) ∈ infos) :
    addAttribute (some a.rel) (some a.ident) (some a.nameFormat) (.ok (some a.shownName)) (some a.format)
      (afterAttrs infos p) = .ok (afterAttrs infos (p ++ [a])) := by
  obtain ⟨name, ha⟩ := ha
  obtain ⟨name2, h2⟩ := h2
  let cols : Nat → List Column := fun n => (p.filter (·.rel = n)).map (·.column)
  let recs : Nat → List Record := fun n => if n = 0 then infos.map (fun i => .schema [.int i.1, .text i.2])
    else if n = 2 then
      p.map (fun a => .schema [.int a.rel, .int a.ident, .int a.nameFormat, .text a.shownName, .int a.format])
    else []
  have hS : afterAttrs infos p = infos.map (fun i => ⟨i.1, i.2, cols i.1, recs i.1⟩) := rfl
  unfold addAttribute
  rw [hS]
  dsimp only
  rw [getTable_map infos cols recs a.rel name ha hn]
  dsimp only
  rw [changeTable_column infos cols recs,
    getTable_map infos (fun n => if n = a.rel then cols n ++ [(⟨some a.format, some a.ident, some a.shownName⟩ : Column)] else cols n)
      recs 2 name2 h2 hn]
  dsimp only
  rw [changeTable_record infos (fun n => if n = a.rel then
      cols n ++ [(⟨some a.format, some a.ident, some a.shownName⟩ : Column)] else cols n) recs]
  congr 1
  unfold afterAttrs
  apply List.map_congr_left
  intro i _
  congr 1
  · by_cases hi : i.1 = a.rel
    · rw [if_pos hi, List.filter_append, List.map_append]
      have : [a].filter (fun x => decide (x.rel = i.1)) = [a] := by simp [hi]
      rw [this]
      rfl
    · rw [if_neg hi, List.filter_append]
      have : [a].filter (fun x => decide (x.rel = i.1)) = [] := by simp [Ne.symm hi]
      rw [this, List.append_nil]
  · by_cases hi : i.1 = 2
    · rw [if_pos hi]
      simp [recs, hi, valueOf]
    · rw [if_neg hi]
      simp [recs, hi]

/-- The tables after some of the rows were read. -/
def afterRows (d : Database) (p : List (Nat × List (List Stored))) : List Table :=
  Database.tables ⟨d.infos, d.attrs, p⟩

theorem readRow_step (data : Bytes) (d : Database) (hd : d.Ok) (p : List (Nat × List (List Stored))) (id : Nat)
    (front : List (List Stored)) (x : List Stored) (h2 : 2 < id) (hi : ∃ name, (id, name) ∈ d.infos)
    (hc : d.columns id ≠ []) (off : Nat) (hx : RowAt (d.columns id) data off x) :
    readRecord data id off (afterRows d (p ++ [(id, front)])) = .ok (afterRows d (p ++ [(id, front ++ [x])])) := by
  obtain ⟨hn, _, _, _, _, hnames⟩ := hd
  obtain ⟨name, hi⟩ := hi
  unfold readRecord
  rw [if_neg (by omega), if_neg (by omega), if_neg (by omega)]
  have := readRow_at data d.infos d.columns (Database.records ⟨d.infos, d.attrs, p ++ [(id, front)]⟩) id name hi hn hc
    (hnames _ hi) off x hx
  refine Eq.trans this ?_
  congr 1
  unfold afterRows Database.tables
  apply List.map_congr_left
  intro i _
  have hcols : Database.columns ⟨d.infos, d.attrs, p ++ [(id, front ++ [x])]⟩ i.1 = d.columns i.1 := rfl
  rw [hcols]
  congr 1
  by_cases h : i.1 = id
  · rw [if_pos h, h]
    unfold Database.records
    rw [if_neg (by omega), if_neg (by omega), if_neg (by omega), if_neg (by omega)]
    simp only [List.filter_append, List.flatMap_append]
    simp
    rfl
  · rw [if_neg h]
    unfold Database.records
    have e1 : [(id, front)].filter (fun r => decide (r.1 = i.1)) = [] := by simp [Ne.symm h]
    have e2 : [(id, front ++ [x])].filter (fun r => decide (r.1 = i.1)) = [] := by simp [Ne.symm h]
    simp only [List.filter_append, e1, e2]
    rfl

theorem afterRows_nil (d : Database) (p : List (Nat × List (List Stored))) (id : Nat) :
    afterRows d (p ++ [(id, [])]) = afterRows d p := by
  unfold afterRows Database.tables
  apply List.map_congr_left
  intro i _
  have hcols : Database.columns ⟨d.infos, d.attrs, p ++ [(id, [])]⟩ i.1 = d.columns i.1 := rfl
  have hcols' : Database.columns ⟨d.infos, d.attrs, p⟩ i.1 = d.columns i.1 := rfl
  rw [hcols, hcols']
  congr 1
  unfold Database.records
  by_cases h : id = i.1
  · have e1 : [(id, ([] : List (List Stored)))].filter (fun r => decide (r.1 = i.1)) = [(id, [])] := by simp [h]
    simp only [List.filter_append, e1, List.flatMap_append]
    simp [Database.columns]
  · have e1 : [(id, ([] : List (List Stored)))].filter (fun r => decide (r.1 = i.1)) = [] := by simp [h]
    simp only [List.filter_append, e1, List.append_nil]
    rfl

theorem readTables_rows (data : Bytes) (base : Nat) (d : Database) (hd : d.Ok)
    (rows p : List (Nat × List (List Stored))) (offs : List Nat) (hlen : offs.length = rows.length)
    (hrows : ∀ r ∈ rows, 2 < r.1 ∧ (∃ name, (r.1, name) ∈ d.infos) ∧ d.columns r.1 ≠ [])
    (hat : ∀ (i : Nat) o r, offs[i]? = some o → rows[i]? = some r →
      TableAt data (base + o) r.1 (RowAt (d.columns r.1) data) r.2) :
    readTables data base offs (afterRows d p) = .ok (afterRows d (p ++ rows)) := by
  induction rows generalizing offs p with
  | nil =>
    have : offs = [] := List.length_eq_zero_iff.mp hlen
    subst this
    simp [readTables]
  | cons r rows ih =>
    cases offs with
    | nil => cases hlen
    | cons o offs =>
      obtain ⟨g1, g2, g3⟩ := hrows r (by simp)
      have ht := readTable_fold data (base + o) r.1 (RowAt (d.columns r.1) data) (fun xs => afterRows d (p ++ [(r.1, xs)]))
        r.2 (hat 0 o r rfl rfl) (fun front x back _ off hx => readRow_step data d hd p r.1 front x g1 g2 g3 off hx)
      rw [afterRows_nil] at ht
      rw [readTables, ht]
      dsimp only
      rw [show (r.1, r.2) = r from rfl, ih (p ++ [r]) offs (by simpa using hlen) (fun r hr => hrows r (by simp [hr]))
        (fun i o r a b => hat (i + 1) o r (by simpa using a) (by simpa using b))]
      simp

/-- Of a database whose schema tables come first, every table is read with its columns and its rows, in order,
wherever its parts are in the file.  What is left out of the claim: signed numbers below zero, columns of one table
with the same name, tables of rows before the schema tables, and rows of tables without columns. -/
theorem C50_database_partial (data : Bytes) (d : Database) (hd : d.Ok) (h : FileOf data d) :
    readFile data = .ok d.tables := by
  obtain ⟨fields, fields', fields'', base, infoOff, attrOff, rowOffs, h1, h2, h3, h4, h5, h6, h7, h8, hinfo, hattr, h9,
    hrow⟩ := h
  have hh : ∃ k, structAt fileHeader data 0 = .ok (base, k) := by
    refine ⟨_, encodes_holds _ _ _ ?_ data 0 h5⟩
    refine encodes_refine _ _ _ _ _ (encodes_fixed 20 id _ (by omega) (by simp [h1, h2])) ?_
    have f0 : slice [[107, 121, 99, 104], fields, beBytes 4 base, fields'].flatten 0 4 = [107, 121, 99, 104] :=
      slice_fields [] [107, 121, 99, 104] _ 0 4 rfl rfl
    have f1 : beNat (slice [[107, 121, 99, 104], fields, beBytes 4 base, fields'].flatten 12 16) = base :=
      beField [[107, 121, 99, 104], fields] 4 base _ 12 16 (by simp [h1]) rfl (by omega)
    rw [id, f0, f1, if_pos rfl]
  have ha : ∃ k, structAt tablesArray data base = .ok (infoOff :: attrOff :: rowOffs, k) := by
    refine ⟨_, encodes_holds _ _ _ ?_ _ _ h8⟩
    have e : [fields'', beBytes 4 (rowOffs.length + 2), (infoOff :: attrOff :: rowOffs).flatMap (beBytes 4)].flatten =
        [fields'', beBytes 4 (rowOffs.length + 2)].flatten ++ (infoOff :: attrOff :: rowOffs).flatMap (beBytes 4) := by
      simp
    have hl : [fields'', beBytes 4 (rowOffs.length + 2)].flatten.length = 8 := by simp [h3]
    have f : ∀ tail : List Bytes, beNat (slice (fields'' :: beBytes 4 (rowOffs.length + 2) :: tail).flatten 4 8) =
        rowOffs.length + 2 := by
      intro tail
      exact beField [fields''] 4 _ tail 4 8 (by simp [h3]) rfl (by omega)
    refine encodes_refine _ _ _ _ _ (encodes_sized 8 _ id _ (by omega) (by rw [e, List.length_append, hl]; omega) ?_) ?_
    · rw [e, List.take_left' hl, f [], List.length_append, hl, flatMap_beBytes_length]
      simp only [List.length_cons]
    · have hw := words_flatMap (infoOff :: attrOff :: rowOffs) h7 []
      rw [List.append_nil] at hw
      have hd : [fields'', beBytes 4 (rowOffs.length + 2),
          (infoOff :: attrOff :: rowOffs).flatMap (beBytes 4)].flatten.drop 8 =
          (infoOff :: attrOff :: rowOffs).flatMap (beBytes 4) := by rw [e]; exact List.drop_left' hl
      rw [id, f, hd]
      congr 1
  have hd' := hd
  obtain ⟨hn, h0, htwo, hattrs, hrows, hnames⟩ := hd
  have r1 : readTable data (base + infoOff) [] = .ok (afterInfos d.infos) := by
    refine readTable_fold data _ 0 (InfoAt data) afterInfos d.infos hinfo ?_
    intro front x back he off hx
    show readInfo data off _ = _
    rw [readInfo_at data off x hx]
    refine addInfo_step front x ?_ ?_
    · have : ((front ++ [x]) ++ back).map (·.1) = d.infos.map (·.1) := by rw [he]; simp
      rw [← this, List.map_append, List.nodup_append] at hn
      exact hn.1
    · obtain ⟨name, h0⟩ := h0
      refine ⟨name, ?_⟩
      rw [he] at h0
      cases front with
      | nil => simpa using h0
      | cons f front => simpa using h0
  have r2 : readTable data (base + attrOff) (afterInfos d.infos) = .ok (afterAttrs d.infos d.attrs) := by
    have hS : afterInfos d.infos = afterAttrs d.infos [] := by
      unfold afterInfos afterAttrs
      apply List.map_congr_left
      intro i _
      simp
    rw [hS]
    refine readTable_fold data _ 2 (AttrAt data) (afterAttrs d.infos) d.attrs hattr ?_
    intro front x back he off hx
    show readAttribute data off _ = _
    rw [readAttribute_at data off x hx]
    exact addAttribute_step d.infos hn front x (hattrs x (by rw [he]; simp)) htwo
  have r3 := readTables_rows data base d hd' d.rows [] rowOffs h9 hrows hrow
  have hS : afterAttrs d.infos d.attrs = afterRows d [] := by
    unfold afterAttrs afterRows Database.tables Database.records
    rfl
  obtain ⟨_, hh⟩ := hh
  obtain ⟨_, ha⟩ := ha
  unfold readFile
  rw [hh]
  dsimp only
  rw [ha]
  dsimp only
  rw [readTables, r1]
  dsimp only
  rw [readTables, r2]
  dsimp only
  rw [hS, r3]
  rfl

/-! ## A database -/

def sampleInfos : List (Nat × Bytes) := [(0, [97]), (2, [98]), (9, [99])]

def sampleAttrs : List Attr := [⟨9, 0x6e616d65, 0, none, 0⟩, ⟨9, 2, 1, some [110], 2⟩]

def sampleDatabase : Database := ⟨sampleInfos, sampleAttrs, [(9, [[.text [104, 105], .uint 7]])]⟩

def sampleTable (type : Nat) (offsets : List Nat) : Bytes :=
  [List.replicate 4 0, beBytes 4 type, List.replicate 16 0, beBytes 4 offsets.length, offsets.flatMap (beBytes 4)].flatten

def sampleRecord (offsets : List Nat) (body : Bytes) : Bytes :=
  [beBytes 4 (24 + 4 * offsets.length + body.length), List.replicate 20 0, offsets.flatMap (beBytes 4), body].flatten

def sampleAttr1 : Bytes := sampleRecord [49, 53, 57, 0, 0, 61] ([9, 0x6e616d65, 0, 0].flatMap (beBytes 4))

def sampleAttr2 : Bytes := sampleRecord [49, 53, 57, 61, 0, 66]
  ([9, 2, 1].flatMap (beBytes 4) ++ Stored.bytes (.text [110]) ++ beBytes 4 2)

def sampleRow : Bytes := sampleRecord [33, 39] (Stored.bytes (.text [104, 105]) ++ beBytes 4 7)

def sampleFile (offsets : List Nat) : Bytes :=
  [[107, 121, 99, 104], List.replicate 8 0, beBytes 4 20, List.replicate 4 0,
    List.replicate 4 0, beBytes 4 3, offsets.flatMap (beBytes 4),
    sampleTable 0 [44, 0, 85, 126], sampleInfos.flatMap (infoBytes (List.replicate 24 0)),
    sampleTable 2 [36, 100], sampleAttr1, sampleAttr2,
    sampleTable 9 [32], sampleRow].flatten

theorem valueAt_of (rec : Bytes) (start off : Nat) (v : Stored) (hv : v ≠ .null)
    (h : start < off ∧ off - 1 ≤ rec.length ∧ slice rec (off - 1) (off - 1 + v.bytes.length) = v.bytes) :
    ValueAt rec start off v := .inr ⟨h.1, hv, holds_of_slice _ _ _ h.2.2 h.2.1⟩

/-- The hypotheses hold for a database of two columns, one of which has no name but its identifier. -/
theorem sample_fileOf : FileOf (sampleFile [20, 187, 356]) sampleDatabase ∧ sampleDatabase.Ok := by
  constructor
  · refine ⟨List.replicate 8 0, List.replicate 4 0, List.replicate 4 0, 20, 20, 187, [356], rfl, rfl, rfl, by decide,
      holds_of_slice _ _ _ (by decide +kernel) (by decide +kernel), by decide, by decide,
      holds_of_slice _ _ _ (by decide +kernel) (by decide +kernel), ?_, ?_, rfl, ?_⟩
    · refine ⟨List.replicate 4 0, List.replicate 16 0, [44, 0, 85, 126], rfl, rfl, by decide, by decide, by decide,
        holds_of_slice _ _ _ (by decide +kernel) (by decide +kernel), by decide, ?_⟩
      refine zip_all _ _ _ ?_
      intro p hp
      have hp : p ∈ [(44, (0, [97])), (85, (2, [98])), (126, ((9 : Nat), ([99] : Bytes)))] := hp
      simp only [List.mem_cons, List.not_mem_nil, or_false] at hp
      rcases hp with rfl | rfl | rfl
      all_goals
        refine ⟨List.replicate 24 0, rfl, by decide, by decide, ?_, holds_of_slice _ _ _ (by decide +kernel) (by decide +kernel)⟩
        rw [← isAscii_iff]
        rfl
    · refine ⟨List.replicate 4 0, List.replicate 16 0, [36, 100], rfl, rfl, by decide, by decide, by decide,
        holds_of_slice _ _ _ (by decide +kernel) (by decide +kernel), by decide, ?_⟩
      refine zip_all _ _ _ ?_
      intro p hp
      have hp : p ∈ [(36, (⟨9, 0x6e616d65, 0, none, 0⟩ : Attr)), (100, ⟨9, 2, 1, some [110], 2⟩)] := hp
      simp only [List.mem_cons, List.not_mem_nil, or_false] at hp
      rcases hp with rfl | rfl
      · refine ⟨sampleAttr1, [49, 53, 57, 0, 0, 61], holds_of_slice _ _ _ (by decide +kernel) (by decide +kernel),
          ⟨List.replicate 20 0, [9, 0x6e616d65, 0, 0].flatMap (beBytes 4), by decide +kernel, rfl, by decide +kernel,
            by decide, rfl, rfl, ?_⟩, ?_⟩
        · refine zip_all3 _ _ _ _ ?_
          intro p hp
          have hp : p ∈ [(some 2, 49, Stored.uint 9), (some 2, 53, .uint 0x6e616d65), (some 2, 57, .uint 0),
            (some 0, 0, .null), (some 6, 0, .null), (some 2, 61, .uint 0)] := hp
          simp only [List.mem_cons, List.not_mem_nil, or_false] at hp
          rcases hp with rfl | rfl | rfl | rfl | rfl | rfl
          · exact ⟨⟨rfl, by decide⟩, valueAt_of _ _ _ _ nofun (by decide +kernel)⟩
          · exact ⟨⟨rfl, by decide⟩, valueAt_of _ _ _ _ nofun (by decide +kernel)⟩
          · exact ⟨⟨rfl, by decide⟩, valueAt_of _ _ _ _ nofun (by decide +kernel)⟩
          · exact ⟨trivial, .inl ⟨rfl, rfl⟩⟩
          · exact ⟨trivial, .inl ⟨rfl, rfl⟩⟩
          · exact ⟨⟨rfl, by decide⟩, valueAt_of _ _ _ _ nofun (by decide +kernel)⟩
        · intro b _ hb
          rw [hb, ← isAscii_iff]
          decide
      · refine ⟨sampleAttr2, [49, 53, 57, 61, 0, 66], holds_of_slice _ _ _ (by decide +kernel) (by decide +kernel),
          ⟨List.replicate 20 0, [9, 2, 1].flatMap (beBytes 4) ++ Stored.bytes (.text [110]) ++ beBytes 4 2,
            by decide +kernel, rfl, by decide +kernel, by decide, rfl, rfl, ?_⟩, nofun⟩
        refine zip_all3 _ _ _ _ ?_
        intro p hp
        have hp : p ∈ [(some 2, 49, Stored.uint 9), (some 2, 53, .uint 2), (some 2, 57, .uint 1),
          (some 0, 61, .text [110]), (some 6, 0, .null), (some 2, 66, .uint 2)] := hp
        simp only [List.mem_cons, List.not_mem_nil, or_false] at hp
        rcases hp with rfl | rfl | rfl | rfl | rfl | rfl
        · exact ⟨⟨rfl, by decide⟩, valueAt_of _ _ _ _ nofun (by decide +kernel)⟩
        · exact ⟨⟨rfl, by decide⟩, valueAt_of _ _ _ _ nofun (by decide +kernel)⟩
        · exact ⟨⟨rfl, by decide⟩, valueAt_of _ _ _ _ nofun (by decide +kernel)⟩
        · exact ⟨⟨rfl, by decide, (isAscii_iff _).mp rfl⟩, valueAt_of _ _ _ _ nofun (by decide +kernel)⟩
        · exact ⟨trivial, .inl ⟨rfl, rfl⟩⟩
        · exact ⟨⟨rfl, by decide⟩, valueAt_of _ _ _ _ nofun (by decide +kernel)⟩
    · refine zip_all _ _ _ ?_
      intro p hp
      have hp : p = (356, (9, [[Stored.text [104, 105], .uint 7]])) := List.mem_singleton.mp hp
      subst hp
      refine ⟨List.replicate 4 0, List.replicate 16 0, [32], rfl, rfl, by decide, by decide, by decide,
        holds_of_slice _ _ _ (by decide +kernel) (by decide +kernel), by decide, ?_⟩
      refine zip_all _ _ _ ?_
      intro p hp
      have hp : p = (32, [Stored.text [104, 105], .uint 7]) := List.mem_singleton.mp hp
      subst hp
      refine ⟨sampleRow, [33, 39], holds_of_slice _ _ _ (by decide +kernel) (by decide +kernel),
        ⟨List.replicate 20 0, Stored.bytes (.text [104, 105]) ++ beBytes 4 7, by decide +kernel, rfl, by decide +kernel,
          by decide, rfl, rfl, ?_⟩⟩
      refine zip_all3 _ _ _ _ ?_
      intro p hp
      have hp : p ∈ [(some 0, 33, Stored.text [104, 105]), (some 2, 39, .uint 7)] := hp
      simp only [List.mem_cons, List.not_mem_nil, or_false] at hp
      rcases hp with rfl | rfl
      · exact ⟨⟨rfl, by decide, (isAscii_iff _).mp rfl⟩, valueAt_of _ _ _ _ nofun (by decide +kernel)⟩
      · exact ⟨⟨rfl, by decide⟩, valueAt_of _ _ _ _ nofun (by decide +kernel)⟩
  · refine ⟨by decide, ⟨_, rfl⟩, ⟨[98], by decide⟩, ?_, ?_, by decide +kernel⟩
    · intro a ha
      refine ⟨[99], ?_⟩
      have ha : a ∈ [(⟨9, 0x6e616d65, 0, none, 0⟩ : Attr), ⟨9, 2, 1, some [110], 2⟩] := ha
      simp only [List.mem_cons, List.not_mem_nil, or_false] at ha
      rcases ha with rfl | rfl <;> decide
    · intro r hr
      have hr : r = (9, [[Stored.text [104, 105], .uint 7]]) := List.mem_singleton.mp hr
      subst hr
      exact ⟨by decide, ⟨[99], by decide⟩, by decide⟩

example : readFile (sampleFile [20, 187, 356]) = .ok sampleDatabase.tables :=
  C50_database_partial _ _ sample_fileOf.2 sample_fileOf.1

/-! ## What is not so -/

/-- A signed integer keeps its value. -/
def C50_signed_claim : Prop := ∀ (rec : Bytes) (start off : Nat) (n : Int), -2 ^ 31 ≤ n → n < 2 ^ 31 → start ≤ rec.length →
  start < off → Holds rec (off - 1) (beBytes 4 (unsigned 4 n)) →
  ∃ m : Nat, readValue (some 1) (rec.drop start) start off = .ok (.int m) ∧ (m : Int) = n

/-- Signed integers are read as if they were unsigned. -/
theorem C50_signed (rec : Bytes) (start off : Nat) (n : Int) (hs : start ≤ rec.length) (ho : start < off)
    (h : Holds rec (off - 1) (beBytes 4 (unsigned 4 n))) :
    readValue (some 1) (rec.drop start) start off = .ok (.int (unsigned 4 n)) := by
  obtain ⟨rest, hr⟩ := valueData_holds rec start off _ hs ho h
  have f : slice (beBytes 4 (unsigned 4 n) ++ rest) 0 4 = beBytes 4 (unsigned 4 n) := by
    simp only [slice, List.drop_zero]
    exact List.take_left' (by simp)
  simp only [readValue, readInt]
  rw [if_neg (by omega), hr, if_neg (by simp), f, beNat_beBytes_of_lt _ _ (unsigned_lt 4 n)]
  rfl

theorem C50_signed_claim_false : ¬ C50_signed_claim := by
  intro h
  obtain ⟨m, _, hm⟩ := h (beBytes 4 (unsigned 4 (-1))) 0 1 (-1) (by decide) (by decide) (by decide) (by decide)
    ⟨[], [], by simp, rfl⟩
  omega

/-- A value for every column of a row. -/
def C50_names_claim : Prop := ∀ (data : Bytes) (t : Table) (off : Nat) (values : List Stored), t.columns ≠ [] →
  RowAt t.columns data off values →
  readRow data t.ident off [t] = .ok [{ t with records := t.records ++ [rowOf t.columns values] }]

/-- Of two columns with the same name only the value of the last is kept. -/
theorem C50_names_claim_false : ¬ C50_names_claim := by
  intro h
  have hr : RowAt [⟨some 2, some 1, some [110]⟩, ⟨some 2, some 2, some [110]⟩]
      (sampleRecord [33, 37] (beBytes 4 5 ++ beBytes 4 7)) 0 [.uint 5, .uint 7] := by
    refine ⟨sampleRecord [33, 37] (beBytes 4 5 ++ beBytes 4 7), [33, 37], ⟨[], [], by simp, rfl⟩,
      ⟨List.replicate 20 0, beBytes 4 5 ++ beBytes 4 7, by decide +kernel, rfl, by decide +kernel,
        by decide, rfl, rfl, ?_⟩⟩
    refine zip_all3 _ _ _ _ ?_
    intro p hp
    have hp : p ∈ [(some 2, 33, Stored.uint 5), (some 2, 37, .uint 7)] := hp
    simp only [List.mem_cons, List.not_mem_nil, or_false] at hp
    rcases hp with rfl | rfl
    · exact ⟨⟨rfl, by decide⟩, valueAt_of _ _ _ _ nofun (by decide +kernel)⟩
    · exact ⟨⟨rfl, by decide⟩, valueAt_of _ _ _ _ nofun (by decide +kernel)⟩
  have := h _ ⟨9, [], [⟨some 2, some 1, some [110]⟩, ⟨some 2, some 2, some [110]⟩], []⟩ 0 _ (by simp) hr
  revert this
  decide +kernel

/-- The tables are the same whatever the order in which the file has them. -/
def C50_order_claim : Prop := ∀ (data : Bytes) (base : Nat) (offsets offsets' : List Nat) (tables tables' : List Table),
  offsets.Perm offsets' → readTables data base offsets [] = .ok tables → readTables data base offsets' [] = .ok tables' →
  tables = tables'

/-- A row that comes before the attributes of its table is read without an error, but with no values. -/
theorem C50_order_claim_false : ¬ C50_order_claim := by
  intro h
  have h1 : (readTables (sampleFile [20, 187, 356]) 20 [20, 356, 187] []).map (fun t => t.map (·.records.length)) =
      .ok [3, 2, 1] := by decide +kernel
  have h2 : (readTables (sampleFile [20, 187, 356]) 20 [20, 187, 356] []).map (fun t => t.map (·.records.length)) =
      .ok [3, 2, 1] := by decide +kernel
  have h3 : readTables (sampleFile [20, 187, 356]) 20 [20, 187, 356] [] ≠
      readTables (sampleFile [20, 187, 356]) 20 [20, 356, 187] [] := by decide +kernel
  revert h1 h2 h3
  cases e1 : readTables (sampleFile [20, 187, 356]) 20 [20, 187, 356] [] with
  | error e => intro _ h2; cases h2
  | ok t =>
    cases e2 : readTables (sampleFile [20, 187, 356]) 20 [20, 356, 187] [] with
    | error e => intro h1; cases h1
    | ok t' =>
      intro _ _ h3
      exact h3 (congrArg _ (h _ _ _ _ t t' (by decide) e1 e2))

/-- Of the values of columns with the same name the last is kept. -/
theorem C50_last_value (d : List (Option Bytes × Value)) (k : Option Bytes) (v : Value) :
    (putValue d k v).lookup k = some v := by
  unfold putValue
  split
  · rename_i h
    induction d with
    | nil => simp at h
    | cons e d ih =>
      rw [List.map_cons]
      by_cases he : e.1 = k
      · rw [if_pos he, List.lookup_cons_self]
      · rw [if_neg he, List.lookup_cons, beq_eq_false_iff_ne.mpr (fun h => he h.symm)]
        refine ih ?_
        rw [List.any_cons] at h
        simpa [he] using h
  · rename_i h
    induction d with
    | nil => simp
    | cons e d ih =>
      rw [List.any_cons, Bool.or_eq_true, not_or] at h
      rw [List.cons_append, List.lookup_cons, beq_eq_false_iff_ne.mpr (fun hk => h.1 (by simp [hk]))]
      exact ih h.2

/-- A record of an index, with offsets of values as all databases have them. -/
def indexBytes (header : Bytes) (values : List Nat) : Bytes :=
  header ++ [0x2d, 0x31, 0x35, 0x39, 0x3d].flatMap (beBytes 4) ++ values.flatMap (beBytes 4)

/-- A record of an index is added to the table of the indexes, when the table it is for is there. -/
theorem C50_index (data : Bytes) (off : Nat) (header : Bytes) (values : List Nat) (tables : List Table)
    (hh : header.length = 24) (hv : values.length = 5) (hw : ∀ v ∈ values, v < 2 ^ 32)
    (h : Holds data off (indexBytes header values)) (h1 : (getTable tables 1).isSome)
    (h2 : (getTable tables (values.headD 0)).isSome) :
    readRecord data 1 off tables = .ok (changeTable tables 1 (addRecord (.schema (values.map .int)))) := by
  have hb : ((([0x2d, 0x31, 0x35, 0x39, 0x3d] : List Nat).flatMap (beBytes 4)).length = 20) := by decide
  have hvl : (values.flatMap (beBytes 4)).length = 20 := by rw [flatMap_fixed_length 4 _ (by simp), hv]
  unfold indexBytes at h
  have hp := holds_prefix _ _ _ _ h
  have ho := holds_slice _ _ _ (holds_suffix _ _ _ _ hp)
  have hs := holds_suffix _ _ _ _ h
  rw [List.length_append, hh, hb] at hs
  rw [hh, hb] at ho
  have hr : structAt recordHeader data off = .ok (beNat (slice header 0 4), (header.length : Int)) :=
    encodes_holds recordHeader header (beNat (slice header 0 4))
      (encodes_refine (fixedMap 24 id) (fun b => some (beNat (slice b 0 4))) _ _ _ (encodes_fixed 24 id _ (by decide) hh) rfl)
      data off (holds_prefix _ _ _ _ hp)
  have hi : structAt indexMap data ((off + 44 : Nat) : Int) = .ok (values, ((values.flatMap (beBytes 4)).length : Int)) := by
    refine encodes_holds _ _ _ (encodes_refine _ _ _ _ _ (encodes_fixed 20 id _ (by decide) hvl) ?_) data (off + 44)
      (by rwa [← Nat.add_assoc] at hs)
    have := words_flatMap values hw []
    rw [List.append_nil, hv] at this
    rw [id, this]
  rw [readRecord, if_neg (by decide), if_pos rfl]
  unfold readIndex readOffsets
  rw [hr]
  dsimp only
  rw [if_neg (by omega), ho.1]
  have hw' := words_flatMap [0x2d, 0x31, 0x35, 0x39, 0x3d] (by decide) []
  rw [List.append_nil] at hw'
  rw [show words 5 _ = _ from hw']
  dsimp only
  rw [if_pos rfl, hi]
  dsimp only
  rw [if_pos ⟨h2, h1⟩]

example : readRecord (indexBytes (List.replicate 24 0) [3, 4, 5, 6, 7]) 1 0 [⟨1, [], [], []⟩, ⟨3, [], [], []⟩] =
    .ok [⟨1, [], [], [.schema [.int 3, .int 4, .int 5, .int 6, .int 7]]⟩, ⟨3, [], [], []⟩] :=
  C50_index _ 0 (List.replicate 24 0) [3, 4, 5, 6, 7] _ rfl rfl (by decide) ⟨[], [], by simp, rfl⟩ rfl rfl

/-- An index for a table that is not there is an error. -/
theorem C50_index_missing (data : Bytes) (off : Nat) (tables tables' : List Table)
    (h : readRecord data 1 off tables = .ok tables') :
    (getTable tables (beNat (slice data (off + 44) (off + 48)))).isSome ∧ (getTable tables 1).isSome := by
  rw [readRecord, if_neg (by decide), if_pos rfl] at h
  unfold readIndex at h
  split at h
  · cases h
  · split at h
    · cases h
    · split at h
      · split at h
        · cases h
        · rename_i values k hx
          obtain ⟨h1, h2, _⟩ := structAt_fixed_ok 20 _ data (off + 44) values k (by decide) hx
          split at h
          · rename_i hc
            simp only [Option.some.injEq] at h2
            rw [← h2, words, List.headD_cons, slice_eq_take_drop, List.take_take,
              show min 4 (off + 44 + 20 - (off + 44)) = off + 48 - (off + 44) by omega, ← slice_eq_take_drop] at hc
            exact hc
          · cases h
      · cases h

end Dtf.Keychain
