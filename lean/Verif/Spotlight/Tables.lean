import Verif.Spotlight.Records
import Verif.Slices
import Verif.Fields

/-!
# Spotlight property tables, streams maps and the values that use them (C138, C139, C140)

The tables of a store name the metadata types and values and list the values of an attribute.  They
are stored in property pages or in the streams map files next to the store.
-/

namespace Dtf.Spotlight
open Py DataFormat

abbrev Str := List Char

/-! ## Model -/

/-- What a property table holds: a metadata type (`spotlight_store_db_property_value11`,
`spotlight_metadata_attribute_type`), the name of a metadata value
(`spotlight_store_db_property_value21`, `spotlight_metadata_attribute_value`) or a list of names
(`SpotlightStoreIndexValue`). -/
inductive Entry
  | type (t : MetaType)
  | value (name : Str)
  | list (names : List Str)
deriving Repr, DecidableEq

/-- The dictionary `property_table`, as its assignments in order. -/
abbrev Table := List (Nat × Entry)

/-- `property_table.get(index)`. -/
def Table.get (t : Table) (index : Nat) : Option Entry :=
  (t.reverse.find? (fun x => decide (x.1 = index))).map (·.2)

/-- `getattr(metadata_value, "value_name", default)` (spotlight_storedb.py lines 808, 892 and
1324). -/
def nameOr (default : Str) : Option Entry → Str
  | some (.value n) => n
  | _ => default

/-- `getattr(metadata_list, "values_list", [])` (lines 1304 and 1317). -/
def listOr : Option Entry → List Str
  | some (.list l) => l
  | _ => []

/-- `self._metadata_types.get(index)` as `_ReadMetadataAttribute` sees it (lines 1011-1016): an
entry without a value type is as good as none. -/
def Table.types (t : Table) (index : Nat) : Option MetaType :=
  match t.get index with
  | some (.type m) => some m
  | _ => none

/-- A UTF-8 string with a terminator (spotlight_storedb.yaml `cstring`): the string and its size.
`decode` is the decoder. -/
def readCString (decode : Bytes → Option Str) (data : Bytes) : Res (Str × Nat) :=
  match cstr data with
  | none => .error .parseError
  | some b =>
    match decode b with
    | none => .error .parseError
    | some s => .ok (s, b.length + 1)

/-- `count` little-endian values of `width` bytes. -/
def words (width : Nat) : Nat → Bytes → List Nat
  | 0, _ => []
  | count + 1, data => leNat (data.take width) :: words width count (data.drop width)

/-- A value of the page of `_ReadMetadataAttributePageValues` (lines 1235-1275): what is put in the
table and its size. -/
def readPageValue (decode : Bytes → Option Str) (tableType : Nat) (data : Bytes) :
    Res ((Nat × Entry) × Nat) :=
  if tableType = 0x11 then
    if data.length < 6 then .error .parseError
    else
      match readCString decode (data.drop 6) with
      | .error e => .error e
      | .ok (s, n) =>
        .ok ((leNat (data.take 4), .type ⟨String.ofList s, leNat (slice data 4 5), leNat (slice data 5 6)⟩),
          6 + n)
  else
    if data.length < 4 then .error .parseError
    else
      match readCString decode (data.drop 4) with
      | .error e => .error e
      | .ok (s, n) => .ok ((leNat (data.take 4), .value s), 4 + n)

/-- The index size, its padding and the names of the index values (lines 775-809 and 866-893): the
names and the number of bytes.  `names` gives the name of a metadata value. -/
def readIndexValues (names : Nat → Str) (data : Bytes) : Res (List Str × Nat) :=
  match readVarInt data with
  | .error e => .error e
  | .ok (size, n) =>
    let padding := size % 4
    let indexSize := size - padding
    if (data.drop (n + padding)).length < indexSize then .error .parseError
    else .ok ((words 4 (indexSize / 4) (data.drop (n + padding))).map names, n + padding + indexSize)

/-- A value of the page of `_ReadIndexPageValues` (lines 763-833). -/
def readIndexValue (names : Nat → Str) (data : Bytes) : Res ((Nat × Entry) × Nat) :=
  if data.length < 4 then .error .parseError
  else
    match readIndexValues names (data.drop 4) with
    | .error e => .error e
    | .ok (l, n) => .ok ((leNat (data.take 4), .list l), 4 + n)

/-- `while page_data_offset < page_data_size` (lines 762-836 and 1255-1278). -/
def pageLoop (read : Bytes → Res ((Nat × Entry) × Nat)) (page : Bytes) (endOff : Nat) :
    Nat → Nat → Table → Option (Res Table)
  | 0, _, _ => none
  | fuel + 1, off, acc =>
    if off < endOff then
      match read (page.drop off) with
      | .error e => some (.error e)
      | .ok (x, n) => pageLoop read page endOff fuel (off + n) (acc ++ [x])
    else some (.ok acc)

/-- `_ReadMetadataAttributePageValues` (lines 1220-1278) and `_ReadIndexPageValues` (lines
741-836), as `_ReadPropertyPage` picks them (lines 1515-1521).  The fuel suffices
(`pageLoop_terminates`). -/
def pageValues (decode : Bytes → Option Str) (names : Nat → Str) (h : PropertyHeader) (page : Bytes) :
    Res Table :=
  let read := if h.tableType = 0x81 then readIndexValue names else readPageValue decode h.tableType
  match pageLoop read page (h.usedPageSize - 20) (page.length + 1) 12 [] with
  | none => .error .runtimeError
  | some r => r

/-! ### Streams maps -/

/-- `_ReadStreamsMap` (lines 1836-1892) with the contents of the three files.  The sizes are those
of the header (lines 293-295), the offsets are read on lines 353-362. -/
def readStreamsMap (header offsets data : Bytes) : Res (List Bytes) :=
  if header.length < 56 then .error .parseError
  else if header.take 8 ≠ [0x00, 0x50, 0x61, 0x74, 0x61, 0x44, 0x00, 0x00] then .error .parseError
  else
    let dataSize := leNat (slice header 20 24)
    let count := leNat (slice header 28 32)
    if (offsets.take (count * 4)).length < count * 4 then .error .parseError
    else .ok (streamValues data dataSize (streamRanges dataSize (words 4 count offsets)))

/-- A stream value of `_ReadMetadataAttributeStreamsMap` (lines 1367-1390).  A value whose size does
not match is skipped. -/
def streamAttribute (decode : Bytes → Option Str) (number : Nat) (value : Bytes) : Res (Option Entry) :=
  match readVarInt value with
  | .error e => .error e
  | .ok (dataSize, n) =>
    if n + dataSize ≠ value.length then .ok none
    else
      let body := value.drop n
      if number = 1 then
        if body.length < 2 then .error .parseError
        else
          match readCString decode (body.drop 2) with
          | .error e => .error e
          | .ok (s, _) =>
            .ok (some (.type ⟨String.ofList s, leNat (slice body 0 1), leNat (slice body 1 2)⟩))
      else
        match readCString decode body with
        | .error e => .error e
        | .ok (s, _) => .ok (some (.value s))

/-- A stream value of `_ReadIndexStreamsMap` (lines 861-918). -/
def streamIndex (names : Nat → Str) (value : Bytes) : Res (Option Entry) :=
  match readVarInt value with
  | .error e => .error e
  | .ok (_, n) =>
    match readIndexValues names (value.drop n) with
    | .error e => .error e
    | .ok (l, _) => .ok (some (.list l))

/-- `for index, stream_value in enumerate(stream_values)` (lines 854-918 and 1360-1390), from an
index. -/
def streamLoop (read : Bytes → Res (Option Entry)) : Nat → List Bytes → Res Table
  | _, [] => .ok []
  | index, v :: vs =>
    if index = 0 then streamLoop read (index + 1) vs
    else
      match read v with
      | .error e => .error e
      | .ok e =>
        match streamLoop read (index + 1) vs with
        | .error err => .error err
        | .ok t => .ok ((e.map (fun x => (index, x))).toList ++ t)

def streamTable (read : Bytes → Res (Option Entry)) (values : List Bytes) : Res Table :=
  streamLoop read 0 values

/-! ### Values -/

/-- `_ReadMetadataAttributeFloat32Value` (lines 1128-1172) and `_ReadMetadataAttributeFloat64Value`
(lines 1174-1218), of the width.  The order of the bytes is that of the machine, here
little-endian. -/
def readFloatValue (width propertyType : Nat) (data : Bytes) : Res (Val × Nat) :=
  if propertyType &&& 2 = 0 then
    if data.length < width then .error .parseError
    else .ok (.float (leNat (data.take width)), width)
  else
    match readVarInt data with
    | .error e => .error e
    | .ok (dataSize, n) =>
      if (slice data n (n + dataSize)).length < dataSize then .error .parseError
      else .ok (.floats (words width (dataSize / width) (slice data n (n + dataSize))), n + dataSize)

/-- An array of strings of the size of the data (spotlight_storedb.yaml `array_of_cstring`). -/
def readCStrings (decode : Bytes → Option Str) : Nat → Bytes → Option (Res (List Str))
  | 0, _ => none
  | fuel + 1, data =>
    if data = [] then some (.ok [])
    else
      match readCString decode data with
      | .error e => some (.error e)
      | .ok (s, n) => (readCStrings decode fuel (data.drop n)).map (·.map (s :: ·))

/-- `value.split("\x16\x02")[0]` (lines 1309-1310 and 1427-1428). -/
def beforeMark : Str → Str
  | [] => []
  | c :: cs => if c = '\x16' ∧ cs.head? = some '\x02' then [] else c :: beforeMark cs

/-- `_ReadMetadataAttributeStringValue` (lines 1392-1436).  The fuel suffices
(`readCStrings_terminates`). -/
def readStringValue (decode : Bytes → Option Str) (propertyType : Nat) (data : Bytes) :
    Res (Val × Nat) :=
  match readVarInt data with
  | .error e => .error e
  | .ok (dataSize, n) =>
    if (slice data n (n + dataSize)).length < dataSize then .error .parseError
    else
      match readCStrings decode (data.length + 1) (slice data n (n + dataSize)) with
      | none => .error .runtimeError
      | some (.error e) => .error e
      | some (.ok l) =>
        if propertyType &&& 3 = 2 then .ok (.texts l, n + dataSize)
        else
          match l with
          | [] => .error .indexError
          | s :: _ =>
            .ok (.text (if propertyType &&& 3 = 3 then beforeMark s else s), n + dataSize)

def null : Str := ['(', 'n', 'u', 'l', 'l', ')']

/-- The tables of a store. -/
structure Tables where
  types : Table
  values : Table
  lists : Table
  localized : Table

/-- `_ReadMetadataAttributeReferenceValue` (lines 1280-1326). -/
def readReferenceValue (t : Tables) (propertyType : Nat) (data : Bytes) : Res (Val × Nat) :=
  match readVarInt data with
  | .error e => .error e
  | .ok (index, n) =>
    if propertyType &&& 3 = 3 then
      match listOr (t.localized.get index) with
      | [] => .ok (.text null, n)
      | s :: _ => .ok (.text (beforeMark s), n)
    else if propertyType &&& 3 = 2 then .ok (.texts (listOr (t.lists.get index)), n)
    else .ok (.text (nameOr null (t.values.get index)), n)

/-- The value types of `_ReadMetadataAttribute` that `Verif/Spotlight/Model.lean` leaves open (lines
1042-1053 and 1065-1068). -/
def otherValue (decode : Bytes → Option Str) (t : Tables) (valueType propertyType : Nat) (data : Bytes) :
    Res (Val × Nat) :=
  if valueType = 0x09 then readFloatValue 4 propertyType data
  else if valueType = 0x0A ∨ valueType = 0x0C then readFloatValue 8 propertyType data
  else if valueType = 0x0B then readStringValue decode propertyType data
  else readReferenceValue t propertyType data

/-! ## Specification -/

/-- An entry of a property table as stored. -/
inductive StoredEntry
  | type (index : Nat) (valueType propertyType : UInt8) (key : Bytes)
  | value (index : Nat) (name : Bytes)
  | list (index width : Nat) (padding : Bytes) (indexes : List Nat)

def StoredEntry.index : StoredEntry → Nat
  | .type i _ _ _ => i
  | .value i _ => i
  | .list i _ _ _ => i

/-- A list of values: its size, with the padding, the padding and the numbers of the values. -/
def listBytes (width : Nat) (padding : Bytes) (indexes : List Nat) : Bytes :=
  encodeVarInt width (padding.length + 4 * indexes.length) ++ (padding ++ indexes.flatMap (leBytes 4))

def StoredEntry.bytes : StoredEntry → Bytes
  | .type i v p key => leBytes 4 i ++ ([v, p] ++ (key ++ [0]))
  | .value i name => leBytes 4 i ++ (name ++ [0])
  | .list i w padding indexes => leBytes 4 i ++ listBytes w padding indexes

/-- The bytes hold no terminator and stand for the text. -/
def TextOf (decode : Bytes → Option Str) (b : Bytes) (s : Str) : Prop := (∀ x ∈ b, x ≠ 0) ∧ decode b = some s

/-- The list fits its fields: the padding brings the size of the list to a multiple of four no
further than needed. -/
def ListOk (width : Nat) (padding : Bytes) (indexes : List Nat) : Prop :=
  Fits width (padding.length + 4 * indexes.length) ∧ padding.length < 4 ∧ ∀ i ∈ indexes, i < 2 ^ 32

/-- The stored entry stands for an entry of the table. -/
def StoredEntry.Stands (decode : Bytes → Option Str) (names : Nat → Str) : StoredEntry → Entry → Prop
  | .type i v p key, e => i < 2 ^ 32 ∧ ∃ s, TextOf decode key s ∧ e = .type ⟨String.ofList s, v.toNat, p.toNat⟩
  | .value i name, e => i < 2 ^ 32 ∧ ∃ s, TextOf decode name s ∧ e = .value s
  | .list i w padding indexes, e => i < 2 ^ 32 ∧ ListOk w padding indexes ∧ e = .list (indexes.map names)

/-- The table type of a page with such entries. -/
def StoredEntry.tableType : StoredEntry → Nat
  | .type .. => 0x11
  | .value .. => 0x21
  | .list .. => 0x81

/-- The header of a page: a signature and four sizes and types. -/
def pageHeader (pageSize usedSize tableType uncompressedSize : Nat) : Bytes :=
  [[0x32, 0x70, 0x62, 0x64], leBytes 4 pageSize, leBytes 4 usedSize, leBytes 4 tableType,
    leBytes 4 uncompressedSize].flatten

/-- A property page: the header, the number of the next block, eight more bytes, the entries and the
rest of the page. -/
def propertyPage (tableType next : Nat) (more : Bytes) (es : List StoredEntry) (unused : Bytes) : Bytes :=
  pageHeader (32 + (es.flatMap StoredEntry.bytes).length + unused.length)
      (32 + (es.flatMap StoredEntry.bytes).length) tableType 0 ++
    (leBytes 4 next ++ (more ++ (es.flatMap StoredEntry.bytes ++ unused)))

/-- Entry by entry, the stored entries stand for the entries. -/
def AllStand (decode : Bytes → Option Str) (names : Nat → Str) : List StoredEntry → List Entry → Prop
  | [], [] => True
  | s :: ss, e :: es => s.Stands decode names e ∧ AllStand decode names ss es
  | _, _ => False

/-! ## Proofs -/

theorem pageLoop_all (read : Bytes → Res ((Nat × Entry) × Nat)) (xs : List (Bytes × (Nat × Entry)))
    (pre post : Bytes) (fuel : Nat) (acc : Table)
    (h : ∀ x ∈ xs, x.1 ≠ [] ∧ ∀ rest, read (x.1 ++ rest) = .ok (x.2, x.1.length)) (hf : xs.length < fuel) :
    pageLoop read (pre ++ xs.flatMap (·.1) ++ post) (pre.length + (xs.flatMap (·.1)).length) fuel pre.length acc =
      some (.ok (acc ++ xs.map (·.2))) := by
  induction xs generalizing pre fuel acc with
  | nil =>
    cases fuel with
    | zero => omega
    | succ fuel => simp [pageLoop]
  | cons x xs ih =>
    cases fuel with
    | zero => omega
    | succ fuel =>
      obtain ⟨hx, hr⟩ := h x (by simp)
      have hl : 0 < x.1.length := List.length_pos_of_ne_nil hx
      rw [pageLoop, if_pos (by rw [List.flatMap_cons, List.length_append]; omega), List.append_assoc, List.drop_left,
        List.flatMap_cons, List.append_assoc, hr]
      dsimp only
      have := ih (pre ++ x.1) fuel (acc ++ [x.2]) (fun y hy => h y (List.mem_cons_of_mem _ hy))
        (by simp at hf; omega)
      rw [List.length_append, List.append_assoc, List.append_assoc] at this
      rw [List.length_append, ← Nat.add_assoc, this]
      simp

theorem readCString_of (decode : Bytes → Option Str) (b : Bytes) (s : Str) (rest : Bytes) (h : TextOf decode b s) :
    readCString decode (b ++ ([0] ++ rest)) = .ok (s, b.length + 1) := by
  unfold readCString
  rw [show b ++ ([0] ++ rest) = b ++ 0 :: rest from rfl, cstr_append b rest h.1]
  simp only [h.2]

theorem words_of (w : Nat) (l : List Nat) (rest : Bytes) (h : ∀ i ∈ l, i < 256 ^ w) :
    words w l.length (l.flatMap (leBytes w) ++ rest) = l := by
  induction l with
  | nil => rfl
  | cons a l ih =>
    rw [List.length_cons, words, List.flatMap_cons, List.append_assoc]
    have e : (leBytes w a).length = w := leBytes_length w a
    rw [List.take_append_of_le_length (by omega), List.take_of_length_le (by omega),
      leNat_leBytes_of_lt w a (h a (by simp))]
    congr 1
    rw [show (leBytes w a ++ (l.flatMap (leBytes w) ++ rest)).drop w = l.flatMap (leBytes w) ++ rest from by
      rw [List.drop_append, List.drop_of_length_le (by omega), e, Nat.sub_self, List.nil_append, List.drop_zero]]
    exact ih (fun i hi => h i (by simp [hi]))

theorem flatMap_leBytes_length (w : Nat) (l : List Nat) : (l.flatMap (leBytes w)).length = w * l.length := by
  induction l with
  | nil => simp
  | cons a l ih => rw [List.flatMap_cons, List.length_append, ih, leBytes_length, List.length_cons, Nat.mul_succ]; omega

theorem readIndexValues_of (names : Nat → Str) (w : Nat) (padding : Bytes) (indexes : List Nat) (rest : Bytes)
    (h : ListOk w padding indexes) :
    readIndexValues names (listBytes w padding indexes ++ rest) =
      .ok (indexes.map names, (listBytes w padding indexes).length) := by
  obtain ⟨h1, h2, h3⟩ := h
  unfold readIndexValues listBytes
  rw [List.append_assoc, C24_round_trip _ _ _ h1]
  dsimp only
  have e1 : (padding.length + 4 * indexes.length) % 4 = padding.length := by omega
  have e2 : padding.length + 4 * indexes.length - padding.length = 4 * indexes.length := by omega
  have e3 : 4 * indexes.length / 4 = indexes.length := by omega
  rw [e1, e2, e3, ← List.drop_drop, List.drop_left, List.append_assoc, List.drop_left,
    words_of 4 indexes rest h3, if_neg (by rw [List.length_append, flatMap_leBytes_length]; omega)]
  simp only [List.length_append, flatMap_leBytes_length]
  congr 2
  omega

theorem take4 (i : Nat) (rest : Bytes) (h : i < 2 ^ 32) : leNat ((leBytes 4 i ++ rest).take 4) = i := by
  rw [List.take_append_of_le_length (by simp), List.take_of_length_le (by simp), leNat_leBytes_of_lt 4 i h]

theorem drop4 (i : Nat) (rest : Bytes) : (leBytes 4 i ++ rest).drop 4 = rest := by
  have : (leBytes 4 i).length = 4 := leBytes_length 4 i
  conv => lhs; arg 1; rw [← this]
  rw [List.drop_left]

/-- The reader of a page of the type. -/
def readOf (decode : Bytes → Option Str) (names : Nat → Str) (tableType : Nat) : Bytes → Res ((Nat × Entry) × Nat) :=
  if tableType = 0x81 then readIndexValue names else readPageValue decode tableType

theorem readOf_entry (decode : Bytes → Option Str) (names : Nat → Str) (s : StoredEntry) (e : Entry) (rest : Bytes)
    (h : s.Stands decode names e) :
    readOf decode names s.tableType (s.bytes ++ rest) = .ok ((s.index, e), s.bytes.length) := by
  cases s with
  | type i v p key =>
    obtain ⟨hi, t, ht, rfl⟩ := h
    show readPageValue decode 0x11 (leBytes 4 i ++ ([v, p] ++ (key ++ [0])) ++ rest) =
      .ok ((i, _), (leBytes 4 i ++ ([v, p] ++ (key ++ [0]))).length)
    unfold readPageValue
    rw [if_pos rfl, if_neg (by simp; omega), List.append_assoc, take4 i _ hi]
    have e1 : (leBytes 4 i ++ ([v, p] ++ (key ++ [0]) ++ rest)).drop 6 = key ++ ([0] ++ rest) := by
      rw [show 6 = 4 + 2 from rfl, ← List.drop_drop, drop4]; simp
    have e2 : slice (leBytes 4 i ++ ([v, p] ++ (key ++ [0]) ++ rest)) 4 5 = [v] := by
      rw [slice_eq_take_drop, drop4]; rfl
    have e3 : slice (leBytes 4 i ++ ([v, p] ++ (key ++ [0]) ++ rest)) 5 6 = [p] := by
      rw [slice_eq_take_drop, show 5 = 4 + 1 from rfl, ← List.drop_drop, drop4]; rfl
    rw [e1, e2, e3, readCString_of decode key t rest ht]
    simp [leNat]
    omega
  | value i name =>
    obtain ⟨hi, t, ht, rfl⟩ := h
    show readPageValue decode 0x21 (leBytes 4 i ++ (name ++ [0]) ++ rest) =
      .ok ((i, _), (leBytes 4 i ++ (name ++ [0])).length)
    unfold readPageValue
    rw [if_neg (by decide), if_neg (by simp), List.append_assoc, take4 i _ hi, drop4, List.append_assoc,
      readCString_of decode name t rest ht]
    simp
  | list i w padding indexes =>
    obtain ⟨hi, hl, rfl⟩ := h
    show readIndexValue names (leBytes 4 i ++ listBytes w padding indexes ++ rest) =
      .ok ((i, _), (leBytes 4 i ++ listBytes w padding indexes).length)
    unfold readIndexValue
    rw [if_neg (by simp), List.append_assoc, take4 i _ hi, drop4, readIndexValues_of names w padding indexes rest hl]
    simp

theorem stored_ne_nil (s : StoredEntry) : s.bytes ≠ [] := by
  have : 4 ≤ s.bytes.length := by cases s <;> simp [StoredEntry.bytes]
  intro h
  rw [h] at this
  simp at this

theorem allStand_length (decode : Bytes → Option Str) (names : Nat → Str) (ss : List StoredEntry) (es : List Entry)
    (h : AllStand decode names ss es) : ss.length = es.length := by
  induction ss generalizing es with
  | nil => cases es with
    | nil => rfl
    | cons e es => exact absurd h (by simp [AllStand])
  | cons s ss ih => cases es with
    | nil => exact absurd h (by simp [AllStand])
    | cons e es => rw [List.length_cons, List.length_cons, ih es h.2]

theorem allStand_zip (decode : Bytes → Option Str) (names : Nat → Str) (ss : List StoredEntry) (es : List Entry)
    (h : AllStand decode names ss es) : ∀ x ∈ ss.zip es, x.1.Stands decode names x.2 := by
  induction ss generalizing es with
  | nil => simp
  | cons s ss ih => cases es with
    | nil => simp
    | cons e es =>
      intro x hx
      rw [List.zip_cons_cons, List.mem_cons] at hx
      rcases hx with rfl | hx
      · exact h.1
      · exact ih es h.2 x hx

theorem flatMap_length_le (ss : List StoredEntry) : ss.length ≤ (ss.flatMap StoredEntry.bytes).length := by
  induction ss with
  | nil => simp
  | cons s ss ih =>
    have := List.length_pos_of_ne_nil (stored_ne_nil s)
    rw [List.flatMap_cons, List.length_append, List.length_cons]
    omega

theorem pageValues_of (decode : Bytes → Option Str) (names : Nat → Str) (h : PropertyHeader) (ss : List StoredEntry)
    (es : List Entry) (first unused : Bytes) (hf : first.length = 12)
    (hu : h.usedPageSize = 32 + (ss.flatMap StoredEntry.bytes).length) (ht : ∀ s ∈ ss, s.tableType = h.tableType)
    (hs : AllStand decode names ss es) :
    pageValues decode names h (first ++ ss.flatMap StoredEntry.bytes ++ unused) =
      .ok ((ss.map StoredEntry.index).zip es) := by
  have key := pageLoop_all (readOf decode names h.tableType)
    ((ss.zip es).map (fun x => (x.1.bytes, (x.1.index, x.2)))) first unused
    ((first ++ ss.flatMap StoredEntry.bytes ++ unused).length + 1) []
    (by
      intro x hx
      rw [List.mem_map] at hx
      obtain ⟨y, hy, rfl⟩ := hx
      have h1 := allStand_zip decode names ss es hs y hy
      have h2 := ht y.1 (List.of_mem_zip hy).1
      refine ⟨stored_ne_nil y.1, fun rest => ?_⟩
      rw [← h2]
      exact readOf_entry decode names y.1 y.2 rest h1)
    (by
      have := flatMap_length_le ss
      simp only [List.length_map, List.length_zip, List.length_append]
      omega)
  have hlen := allStand_length decode names ss es hs
  have e1 : ((ss.zip es).map (fun x => (x.1.bytes, (x.1.index, x.2)))).flatMap (·.1) =
      ss.flatMap StoredEntry.bytes := by
    rw [List.flatMap_map]
    have : ((ss.zip es).map Prod.fst).flatMap StoredEntry.bytes = ss.flatMap StoredEntry.bytes := by
      rw [List.map_fst_zip (by omega)]
    rw [← this, List.flatMap_map]
  have e2 : ((ss.zip es).map (fun x => (x.1.bytes, (x.1.index, x.2)))).map (·.2) =
      (ss.map StoredEntry.index).zip es := by
    rw [List.map_map, List.zip_map_left]
    rfl
  rw [e1, e2, List.nil_append, hf] at key
  have e3 : h.usedPageSize - 20 = 12 + (ss.flatMap StoredEntry.bytes).length := by omega
  have e4 : pageValues decode names h (first ++ ss.flatMap StoredEntry.bytes ++ unused) =
      match pageLoop (readOf decode names h.tableType) (first ++ ss.flatMap StoredEntry.bytes ++ unused)
        (h.usedPageSize - 20) ((first ++ ss.flatMap StoredEntry.bytes ++ unused).length + 1) 12 [] with
      | none => .error .runtimeError
      | some r => r := rfl
  rw [e4, e3, key]

theorem parsePropertyHeader_of (pageSize usedSize tableType uncompressedSize : Nat) (h1 : pageSize < 2 ^ 32)
    (h2 : usedSize < 2 ^ 32) (h3 : tableType < 2 ^ 32) (h4 : uncompressedSize < 2 ^ 32) :
    parsePropertyHeader (pageHeader pageSize usedSize tableType uncompressedSize) =
      ⟨[0x32, 0x70, 0x62, 0x64], pageSize, usedSize, tableType, uncompressedSize⟩ := by
  have f1 : leNat (slice (pageHeader pageSize usedSize tableType uncompressedSize) 4 8) = pageSize :=
    leField [[0x32, 0x70, 0x62, 0x64]] 4 pageSize _ 4 8 rfl rfl h1
  have f2 : leNat (slice (pageHeader pageSize usedSize tableType uncompressedSize) 8 12) = usedSize :=
    leField [[0x32, 0x70, 0x62, 0x64], leBytes 4 pageSize] 4 usedSize _ 8 12 (by simp) rfl h2
  have f3 : leNat (slice (pageHeader pageSize usedSize tableType uncompressedSize) 12 16) = tableType :=
    leField [[0x32, 0x70, 0x62, 0x64], leBytes 4 pageSize, leBytes 4 usedSize] 4 tableType _ 12 16 (by simp) rfl h3
  have f4 : leNat (slice (pageHeader pageSize usedSize tableType uncompressedSize) 16 20) = uncompressedSize :=
    leField [[0x32, 0x70, 0x62, 0x64], leBytes 4 pageSize, leBytes 4 usedSize, leBytes 4 tableType] 4 uncompressedSize
      [] 16 20 (by simp) rfl h4
  unfold parsePropertyHeader
  rw [f1, f2, f3, f4]
  rfl

/-- **C138** (pages): a property page gives its entries in order, each under its index, and the
number of the next block, whatever is in the rest of the page and around it. -/
theorem C138_page (decode : Bytes → Option Str) (names : Nat → Str) (tableType next : Nat) (more : Bytes)
    (ss : List StoredEntry) (es : List Entry) (unused pre post : Bytes)
    (ht : tableType = 0x11 ∨ tableType = 0x21 ∨ tableType = 0x81) (hss : ∀ s ∈ ss, s.tableType = tableType)
    (hn : next < 2 ^ 32) (hm : more.length = 8)
    (hsize : 32 + (ss.flatMap StoredEntry.bytes).length + unused.length < 2 ^ 32)
    (hs : AllStand decode names ss es) :
    readPropertyPage (pageValues decode names) (pre ++ propertyPage tableType next more ss unused ++ post) pre.length =
      .ok ((ss.map StoredEntry.index).zip es, next) := by
  generalize hL : ss.flatMap StoredEntry.bytes = L at *
  have htt : tableType < 2 ^ 32 := by omega
  generalize hH : pageHeader (32 + L.length + unused.length) (32 + L.length) tableType 0 = head at *
  have hhead : head.length = 20 := by rw [← hH]; simp [pageHeader]
  have e0 : pre ++ propertyPage tableType next more ss unused ++ post =
      pre ++ head ++ ((leBytes 4 next ++ more ++ L ++ unused) ++ post) := by
    simp [propertyPage, hH, hL]
  have hp : parsePropertyHeader head = ⟨[0x32, 0x70, 0x62, 0x64], 32 + L.length + unused.length, 32 + L.length, tableType, 0⟩ := by
    rw [← hH]
    exact parsePropertyHeader_of _ _ _ _ hsize (by omega) htt (by omega)
  unfold readPropertyPage
  rw [e0, structAt_fixed_append 20 parsePropertyHeader pre head _ (by decide) hhead]
  dsimp only
  rw [hp]
  dsimp only
  rw [if_neg (by simp), if_neg (by omega)]
  have e1 : (File.read ⟨pre ++ head ++ ((leBytes 4 next ++ more ++ L ++ unused) ++ post), pre.length + ((20 : Nat) : Int).toNat⟩
      (((32 + L.length + unused.length : Nat) : Int) - ((20 : Nat) : Int))).1 = leBytes 4 next ++ more ++ L ++ unused := by
    have : (leBytes 4 next ++ more ++ L ++ unused).length = 12 + L.length + unused.length := by simp [hm]; omega
    rw [File.read]
    have e2 : ((20 : Nat) : Int).toNat = head.length := by omega
    rw [e2, ← List.length_append, List.drop_left]
    rw [if_neg (by omega)]
    dsimp only
    rw [show (((32 + L.length + unused.length : Nat) : Int) - ((20 : Nat) : Int)).toNat =
      (leBytes 4 next ++ more ++ L ++ unused).length by omega, List.take_left]
  rw [e1, if_neg (by simp [hm]; omega), if_neg (by omega)]
  have e5 : leNat ((leBytes 4 next ++ more ++ L ++ unused).take 4) = next := by
    rw [List.append_assoc, List.append_assoc, take4 _ _ hn]
  subst hL
  rw [e5, pageValues_of decode names _ ss es (leBytes 4 next ++ more) unused (by simp [hm]) rfl hss hs]

/-- **C138** (tables): a chain of property pages gives the entries of all its pages, in the order of
the chain. -/
theorem C138_chain (decode : Bytes → Option Str) (names : Nat → Str) (data : Bytes) (block : Nat)
    (pages : List Table) (fuel : Nat)
    (h : Chain (readPropertyPage (pageValues decode names) data) (block * 0x1000) pages) (hf : pages.length < fuel) :
    propertyPagesLoop (readPropertyPage (pageValues decode names) data) fuel (block * 0x1000) [] =
      some (.ok pages.flatten) := by
  rw [C62_property_chain _ _ pages [] h fuel hf, List.nil_append]

/-- **C138** (look-up): an index leads to the last entry stored under it. -/
theorem C138_lookup (before after : Table) (index : Nat) (e : Entry) (h : ∀ x ∈ after, x.1 ≠ index) :
    Table.get (before ++ (index, e) :: after) index = some e := by
  unfold Table.get
  rw [List.reverse_append, List.reverse_cons, List.append_assoc, List.find?_append,
    List.find?_eq_none.2 (by intro x hx; simpa using h x (List.mem_reverse.1 hx))]
  simp

/-- **C138** (look-up): an index without an entry leads to nothing. -/
theorem C138_missing (t : Table) (index : Nat) (h : ∀ x ∈ t, x.1 ≠ index) : Table.get t index = none := by
  unfold Table.get
  rw [List.find?_eq_none.2 (by intro x hx; simpa using h x (List.mem_reverse.1 hx))]
  rfl

theorem pageLoop_terminates (read : Bytes → Res ((Nat × Entry) × Nat))
    (hr : ∀ d x n, read d = .ok (x, n) → 1 ≤ n ∧ d ≠ []) (page : Bytes) (endOff fuel off : Nat) (acc : Table)
    (hf : page.length < off + fuel) (h0 : 0 < fuel) : pageLoop read page endOff fuel off acc ≠ none := by
  induction fuel generalizing off acc with
  | zero => omega
  | succ fuel ih =>
    rw [pageLoop]
    split
    · split
      · simp
      · rename_i x n hx
        obtain ⟨h1, h2⟩ := hr _ _ _ hx
        have h3 : off < page.length := by
          by_contra hc
          exact h2 (List.drop_eq_nil_of_le (by omega))
        exact ih _ _ (by omega) (by omega)
    · simp

theorem readCString_error (decode : Bytes → Option Str) (data : Bytes) (e : Err) (h : readCString decode data = .error e) :
    e = .parseError := by
  unfold readCString at h
  split at h
  · cases h; rfl
  · split at h
    · cases h; rfl
    · cases h

theorem readPageValue_error (decode : Bytes → Option Str) (tableType : Nat) (data : Bytes) (e : Err)
    (h : readPageValue decode tableType data = .error e) : e = .parseError := by
  unfold readPageValue at h
  split at h
  · split at h
    · cases h; rfl
    · split at h
      · cases h; exact readCString_error _ _ _ (by assumption)
      · cases h
  · split at h
    · cases h; rfl
    · split at h
      · cases h; exact readCString_error _ _ _ (by assumption)
      · cases h

theorem readPageValue_bounds (decode : Bytes → Option Str) (tableType : Nat) (d : Bytes) (x : Nat × Entry) (n : Nat)
    (h : readPageValue decode tableType d = .ok (x, n)) : 1 ≤ n ∧ d ≠ [] := by
  unfold readPageValue at h
  refine ⟨?_, ?_⟩
  · split at h <;> split at h
    · cases h
    · split at h
      · cases h
      · simp only [Except.ok.injEq, Prod.mk.injEq] at h; omega
    · cases h
    · split at h
      · cases h
      · simp only [Except.ok.injEq, Prod.mk.injEq] at h; omega
  · rintro rfl
    simp at h

theorem readIndexValue_bounds (names : Nat → Str) (d : Bytes) (x : Nat × Entry) (n : Nat)
    (h : readIndexValue names d = .ok (x, n)) : 1 ≤ n ∧ d ≠ [] := by
  unfold readIndexValue at h
  refine ⟨?_, ?_⟩
  · split at h
    · cases h
    · split at h
      · cases h
      · simp only [Except.ok.injEq, Prod.mk.injEq] at h; omega
  · rintro rfl
    simp at h

theorem readOf_bounds (decode : Bytes → Option Str) (names : Nat → Str) (tableType : Nat) (d : Bytes) (x : Nat × Entry)
    (n : Nat) (h : readOf decode names tableType d = .ok (x, n)) : 1 ≤ n ∧ d ≠ [] := by
  unfold readOf at h
  split at h
  · exact readIndexValue_bounds _ _ _ _ h
  · exact readPageValue_bounds _ _ _ _ _ h

/-- **C138** (termination): reading the entries of a page ends, for all pages. -/
theorem C138_terminates (decode : Bytes → Option Str) (names : Nat → Str) (h : PropertyHeader) (page : Bytes) :
    pageLoop (if h.tableType = 0x81 then readIndexValue names else readPageValue decode h.tableType) page
      (h.usedPageSize - 20) (page.length + 1) 12 [] ≠ none :=
  pageLoop_terminates _ (fun d x n hx => readOf_bounds decode names h.tableType d x n hx) page _ _ _ _ (by omega) (by omega)

theorem pageLoop_error (read : Bytes → Res ((Nat × Entry) × Nat)) (hr : ∀ d e, read d = .error e → e = .parseError)
    (page : Bytes) (endOff fuel off : Nat) (acc : Table) (e : Err)
    (h : pageLoop read page endOff fuel off acc = some (.error e)) : e = .parseError := by
  induction fuel generalizing off acc with
  | zero => simp [pageLoop] at h
  | succ fuel ih =>
    rw [pageLoop] at h
    split at h
    · split at h
      · simp only [Option.some.injEq, Except.error.injEq] at h
        subst h
        exact hr _ _ (by assumption)
      · exact ih _ _ h
    · simp at h

/-- The full claim of C138 on errors: a malformed page raises a parse error. -/
def C138_errors_claim : Prop :=
  ∀ (decode : Bytes → Option Str) (names : Nat → Str) (h : PropertyHeader) (page : Bytes) (e : Err),
    pageValues decode names h page = .error e → e = .parseError

/-- The claim is false: a list that ends after its index raises an index error. -/
theorem C138_errors_claim_false : ¬ C138_errors_claim := by
  intro h
  have := h (fun _ => none) (fun _ => []) ⟨[], 36, 36, 0x81, 0⟩ (List.replicate 16 0) .indexError (by decide)
  exact absurd this (by decide)

/-- **C138** (partial, errors): a malformed page of metadata types or metadata values raises a parse
error.  A page of lists may raise an index error, see `C138_errors_claim_false`. -/
theorem C138_errors_partial (decode : Bytes → Option Str) (names : Nat → Str) (h : PropertyHeader) (page : Bytes)
    (e : Err) (ht : h.tableType ≠ 0x81) (he : pageValues decode names h page = .error e) : e = .parseError := by
  have ht' := C138_terminates decode names h page
  unfold pageValues at he
  dsimp only at he
  rw [if_neg ht] at he ht'
  split at he
  · rename_i hn
    exact absurd hn ht'
  · rename_i r hr
    subst he
    exact pageLoop_error _ (readPageValue_error decode h.tableType) _ _ _ _ _ _ hr

/-! ### Streams maps -/

/-- A value of a streams map as stored: its size, and a metadata type or the name of a metadata
value; two numbers and a list; or what is left of another value. -/
inductive StoredStream
  | type (width : Nat) (valueType propertyType : UInt8) (key : Bytes)
  | value (width : Nat) (name : Bytes)
  | list (width first listWidth : Nat) (padding : Bytes) (indexes : List Nat) (trailing : Bytes)
  | remnant (width size : Nat) (rest : Bytes)

def StoredStream.bytes : StoredStream → Bytes
  | .type w v p key => encodeVarInt w (key.length + 3) ++ ([v, p] ++ (key ++ ([0] ++ [])))
  | .value w name => encodeVarInt w (name.length + 1) ++ (name ++ ([0] ++ []))
  | .list w first lw padding indexes trailing => encodeVarInt w first ++ (listBytes lw padding indexes ++ trailing)
  | .remnant w size rest => encodeVarInt w size ++ rest

/-- The value of the streams map with the number stands for an entry, or for none. -/
def StoredStream.Stands (decode : Bytes → Option Str) (names : Nat → Str) (number : Nat) :
    StoredStream → Option Entry → Prop
  | .type w v p key, e => number = 1 ∧ Fits w (key.length + 3) ∧
    ∃ s, TextOf decode key s ∧ e = some (.type ⟨String.ofList s, v.toNat, p.toNat⟩)
  | .value w name, e => number = 2 ∧ Fits w (name.length + 1) ∧ ∃ s, TextOf decode name s ∧ e = some (.value s)
  | .list w first lw padding indexes _, e => 3 ≤ number ∧ Fits w first ∧ ListOk lw padding indexes ∧
    e = some (.list (indexes.map names))
  | .remnant w size rest, e => number < 3 ∧ Fits w size ∧ size ≠ rest.length ∧ e = none

/-- The reader of the streams map with the number. -/
def streamRead (decode : Bytes → Option Str) (names : Nat → Str) (number : Nat) : Bytes → Res (Option Entry) :=
  if number < 3 then streamAttribute decode number else streamIndex names

theorem streamRead_of (decode : Bytes → Option Str) (names : Nat → Str) (number : Nat) (s : StoredStream)
    (e : Option Entry) (h : s.Stands decode names number e) : streamRead decode names number s.bytes = .ok e := by
  cases s with
  | type w v p key =>
    obtain ⟨rfl, hw, t, ht, rfl⟩ := h
    show streamAttribute decode 1 (encodeVarInt w (key.length + 3) ++ ([v, p] ++ (key ++ ([0] ++ [])))) = _
    unfold streamAttribute
    rw [C24_round_trip _ _ _ hw]
    dsimp only
    rw [if_neg (by simp), List.drop_left, if_pos rfl, if_neg (by simp),
      show List.drop 2 ([v, p] ++ (key ++ ([0] ++ [])) : Bytes) = key ++ ([0] ++ []) from rfl, readCString_of decode key t [] ht]
    dsimp only
    rw [show slice ([v, p] ++ (key ++ ([0] ++ []))) 0 1 = [v] from rfl,
      show slice ([v, p] ++ (key ++ ([0] ++ []))) 1 2 = [p] from rfl]
    simp [leNat]
  | value w name =>
    obtain ⟨rfl, hw, t, ht, rfl⟩ := h
    show streamAttribute decode 2 (encodeVarInt w (name.length + 1) ++ (name ++ ([0] ++ []))) = _
    unfold streamAttribute
    rw [C24_round_trip _ _ _ hw]
    dsimp only
    rw [if_neg (by simp), List.drop_left, if_neg (by decide), readCString_of decode name t [] ht]
  | list w first lw padding indexes trailing =>
    obtain ⟨hn, hw, hl, rfl⟩ := h
    unfold streamRead streamIndex
    rw [if_neg (by omega)]
    simp only [StoredStream.bytes]
    rw [C24_round_trip _ _ _ hw]
    dsimp only
    rw [List.drop_left, readIndexValues_of names lw padding indexes trailing hl]
  | remnant w size rest =>
    obtain ⟨hn, hw, hs, rfl⟩ := h
    unfold streamRead
    rw [if_pos hn]
    show streamAttribute decode number (encodeVarInt w size ++ rest) = _
    unfold streamAttribute
    rw [C24_round_trip _ _ _ hw]
    dsimp only
    have hne : (encodeVarInt w size).length + size ≠ (encodeVarInt w size ++ rest).length := by
      rw [List.length_append]; omega
    rw [if_pos hne]

/-- Value by value, the stored values stand for the entries. -/
def AllStreams (decode : Bytes → Option Str) (names : Nat → Str) (number : Nat) :
    List StoredStream → List (Option Entry) → Prop
  | [], [] => True
  | s :: ss, e :: es => s.Stands decode names number e ∧ AllStreams decode names number ss es
  | _, _ => False

/-- The entries under the numbers of their values, from a number. -/
def numbered : Nat → List (Option Entry) → Table
  | _, [] => []
  | i, none :: es => numbered (i + 1) es
  | i, some e :: es => (i, e) :: numbered (i + 1) es

theorem streamLoop_of (decode : Bytes → Option Str) (names : Nat → Str) (number index : Nat) (ss : List StoredStream)
    (es : List (Option Entry)) (h : AllStreams decode names number ss es) :
    streamLoop (streamRead decode names number) (index + 1) (ss.map StoredStream.bytes) =
      .ok (numbered (index + 1) es) := by
  induction ss generalizing index es with
  | nil => cases es with
    | nil => rfl
    | cons e es => exact absurd h (by simp [AllStreams])
  | cons s ss ih => cases es with
    | nil => exact absurd h (by simp [AllStreams])
    | cons e es =>
      rw [List.map_cons, streamLoop, if_neg (by omega), streamRead_of decode names number s e h.1]
      dsimp only
      rw [ih (index + 1) es h.2]
      cases e <;> rfl

theorem numbered_index (i : Nat) (es : List (Option Entry)) : ∀ x ∈ numbered i es, i ≤ x.1 := by
  induction es generalizing i with
  | nil => simp [numbered]
  | cons e es ih =>
    intro x hx
    cases e with
    | none =>
      have := ih (i + 1) x hx
      omega
    | some e =>
      rw [numbered, List.mem_cons] at hx
      rcases hx with rfl | hx
      · exact Nat.le_refl _
      · have := ih (i + 1) x hx
        omega

theorem numbered_get (i : Nat) (es : List (Option Entry)) (k : Nat) :
    Table.get (numbered i es) (i + k) = (es[k]?).join := by
  induction es generalizing i k with
  | nil => simp [numbered, Table.get]
  | cons e es ih =>
    cases k with
    | zero =>
      cases e with
      | none =>
        rw [numbered, C138_missing _ _ (by
          intro x hx
          have := numbered_index (i + 1) es x hx
          omega)]
        rfl
      | some e =>
        rw [numbered]
        exact C138_lookup [] _ _ e (by
          intro x hx
          have := numbered_index (i + 1) es x hx
          omega)
    | succ k =>
      have h2 := ih (i + 1) k
      rw [show i + 1 + k = i + (k + 1) by omega] at h2
      rw [List.getElem?_cons_succ, ← h2]
      cases e with
      | none => rw [numbered]
      | some e =>
        rw [numbered]
        unfold Table.get
        rw [List.reverse_cons, List.find?_append]
        cases hf : (numbered (i + 1) es).reverse.find? (fun x => decide (x.1 = i + (k + 1))) with
        | some y => rfl
        | none => simp

/-- **C139** (tables): the values of a streams map from the second on give the entries of the table,
each under the number of its value, and the values with a size that does not match give none. -/
theorem C139_table (decode : Bytes → Option Str) (names : Nat → Str) (number : Nat) (first : Bytes)
    (ss : List StoredStream) (es : List (Option Entry)) (h : AllStreams decode names number ss es) :
    ∃ t, streamTable (if number < 3 then streamAttribute decode number else streamIndex names)
        (first :: ss.map StoredStream.bytes) = .ok t ∧
      Table.get t 0 = none ∧ ∀ k, Table.get t (k + 1) = (es[k]?).join := by
  refine ⟨numbered 1 es, ?_, ?_, ?_⟩
  · unfold streamTable
    rw [streamLoop, if_pos rfl]
    exact streamLoop_of decode names number 0 ss es h
  · refine C138_missing _ _ (fun x hx => ?_)
    have := numbered_index 1 es x hx
    omega
  · intro k
    rw [Nat.add_comm k 1]
    exact numbered_get 1 es k

/-- The header file of a streams map with the size of the data and the number of offsets, the other
values are arbitrary. -/
def streamsHeader (a b c dataSize buckets count : Nat) (rest : Bytes) : Bytes :=
  [[0x00, 0x50, 0x61, 0x74, 0x61, 0x44, 0x00, 0x00], leBytes 4 a, leBytes 4 b, leBytes 4 c, leBytes 4 dataSize,
    leBytes 4 buckets, leBytes 4 count, rest].flatten

/-- The full claim of C139 on files: the values of a streams map are those stored in its files. -/
def C139_files_claim : Prop :=
  ∀ (a b c buckets : Nat) (rest pre : Bytes) (values : List Bytes) (trailing post : Bytes), 24 ≤ rest.length →
    (pre ++ values.flatten).length < 2 ^ 32 → values.length < 2 ^ 32 →
    readStreamsMap (streamsHeader a b c (pre ++ values.flatten).length buckets values.length rest)
      ((offsetsOf pre.length values).flatMap (leBytes 4) ++ trailing) (pre ++ values.flatten ++ post) = .ok values

theorem offsetsOf_length (start : Nat) (vs : List Bytes) : (offsetsOf start vs).length = vs.length := by
  induction vs generalizing start with
  | nil => rfl
  | cons v vs ih => rw [offsetsOf, List.length_cons, List.length_cons, ih]

theorem offsetsOf_le (start : Nat) (vs : List Bytes) : ∀ o ∈ offsetsOf start vs, o ≤ start + vs.flatten.length := by
  induction vs generalizing start with
  | nil => simp [offsetsOf]
  | cons v vs ih =>
    intro o ho
    rw [offsetsOf, List.mem_cons] at ho
    rw [List.flatten_cons, List.length_append]
    rcases ho with rfl | ho
    · omega
    · have := ih _ o ho
      omega

theorem readStreamsMap_of (a b c buckets : Nat) (rest pre : Bytes) (values : List Bytes) (trailing post : Bytes)
    (hr : 24 ≤ rest.length) (hd : (pre ++ values.flatten).length < 2 ^ 32) (hv : values.length < 2 ^ 32) :
    readStreamsMap (streamsHeader a b c (pre ++ values.flatten).length buckets values.length rest)
      ((offsetsOf pre.length values).flatMap (leBytes 4) ++ trailing) (pre ++ values.flatten ++ post) =
    .ok (streamValues (pre ++ values.flatten ++ post) (pre ++ values.flatten).length
      (streamRanges (pre ++ values.flatten).length (offsetsOf pre.length values))) := by
  generalize hD : (pre ++ values.flatten).length = D at *
  have f1 : leNat (slice (streamsHeader a b c D buckets values.length rest) 20 24) = D :=
    leField [[0x00, 0x50, 0x61, 0x74, 0x61, 0x44, 0x00, 0x00], leBytes 4 a, leBytes 4 b, leBytes 4 c] 4 D _ 20 24
      (by simp) rfl hd
  have f2 : leNat (slice (streamsHeader a b c D buckets values.length rest) 28 32) = values.length :=
    leField [[0x00, 0x50, 0x61, 0x74, 0x61, 0x44, 0x00, 0x00], leBytes 4 a, leBytes 4 b, leBytes 4 c, leBytes 4 D,
      leBytes 4 buckets] 4 values.length _ 28 32 (by simp) rfl hv
  have hl := flatMap_leBytes_length 4 (offsetsOf pre.length values)
  rw [offsetsOf_length] at hl
  unfold readStreamsMap
  rw [if_neg (by simp [streamsHeader]; omega), if_neg (by
    rw [show (streamsHeader a b c D buckets values.length rest).take 8 = [0x00, 0x50, 0x61, 0x74, 0x61, 0x44, 0x00, 0x00] from rfl]
    simp)]
  dsimp only
  rw [f1, f2, if_neg (by rw [List.length_take, List.length_append]; omega)]
  have := words_of 4 (offsetsOf pre.length values) trailing (by
    intro i hi
    have := offsetsOf_le _ _ i hi
    rw [List.length_append] at hD
    omega)
  rw [offsetsOf_length] at this
  rw [this]

/-- **C139** (partial, files): the values of a streams map are those stored in its files, in order,
when the last value is not at offset 0. -/
theorem C139_files_partial (a b c buckets : Nat) (rest pre : Bytes) (init : List Bytes) (last trailing post : Bytes)
    (hr : 24 ≤ rest.length) (hd : (pre ++ (init ++ [last]).flatten).length < 2 ^ 32)
    (hv : (init ++ [last]).length < 2 ^ 32) (h0 : pre.length + init.flatten.length ≠ 0) :
    readStreamsMap (streamsHeader a b c (pre ++ (init ++ [last]).flatten).length buckets (init ++ [last]).length rest)
      ((offsetsOf pre.length (init ++ [last])).flatMap (leBytes 4) ++ trailing)
      (pre ++ (init ++ [last]).flatten ++ post) = .ok (init ++ [last]) := by
  rw [readStreamsMap_of a b c buckets rest pre (init ++ [last]) trailing post hr hd hv,
    C61_streams_partial pre init last post h0]

/-- The claim is false: a single value at offset 0 is lost. -/
theorem C139_files_claim_false : ¬ C139_files_claim := by
  intro h
  have := h 0 0 0 0 (List.replicate 24 0) [] [[1, 2, 3]] [] [] (by decide) (by decide) (by decide)
  exact absurd this (by decide)

/-- The claim that a streams map with a malformed value raises a parse error. -/
def C139_errors_claim : Prop :=
  ∀ (decode : Bytes → Option Str) (names : Nat → Str) (number : Nat) (values : List Bytes) (e : Err),
    streamTable (if number < 3 then streamAttribute decode number else streamIndex names) values = .error e →
      e = .parseError

/-- The claim is false: an empty value raises an index error. -/
theorem C139_errors_claim_false : ¬ C139_errors_claim := by
  intro h
  have := h (fun _ => none) (fun _ => []) 1 [[], []] .indexError (by decide)
  exact absurd this (by decide)

/-! ### Values -/

/-- A separator in a text. -/
def HasMark (s : Str) : Prop := ∃ a b, s = a ++ '\x16' :: '\x02' :: b

theorem beforeMark_of (p b : Str) (h : ¬ HasMark (p ++ ['\x16'])) : beforeMark (p ++ '\x16' :: '\x02' :: b) = p := by
  induction p with
  | nil => rw [List.nil_append, beforeMark, if_pos (by simp)]
  | cons c p ih =>
    rw [List.cons_append, beforeMark, if_neg ?_, ih ?_]
    · rintro ⟨x, y, hxy⟩
      exact h ⟨c :: x, y, by rw [List.cons_append, hxy, List.cons_append]⟩
    · rintro ⟨rfl, hc⟩
      cases p with
      | nil => simp at hc
      | cons d p =>
        simp only [List.cons_append, List.head?_cons, Option.some.injEq] at hc
        subst hc
        exact h ⟨[], p ++ ['\x16'], by simp⟩

theorem beforeMark_none (s : Str) (h : ¬ HasMark s) : beforeMark s = s := by
  induction s with
  | nil => rfl
  | cons c s ih =>
    rw [beforeMark, if_neg ?_, ih ?_]
    · rintro ⟨x, y, hxy⟩
      exact h ⟨c :: x, y, by rw [hxy, List.cons_append]⟩
    · rintro ⟨rfl, hc⟩
      cases s with
      | nil => simp at hc
      | cons d s =>
        simp only [List.head?_cons, Option.some.injEq] at hc
        subst hc
        exact h ⟨[], s, rfl⟩

/-- The part of a text before its first separator, or the text when it has none. -/
def FirstPart (s p : Str) : Prop :=
  (∃ b, s = p ++ '\x16' :: '\x02' :: b ∧ ¬ HasMark (p ++ ['\x16'])) ∨ (¬ HasMark s ∧ p = s)

theorem beforeMark_spec (s p : Str) (h : FirstPart s p) : beforeMark s = p := by
  rcases h with ⟨b, rfl, h⟩ | ⟨h, rfl⟩
  · exact beforeMark_of p b h
  · exact beforeMark_none p h

theorem readCStrings_of (decode : Bytes → Option Str) (bs : List (Bytes × Str)) (fuel : Nat)
    (h : ∀ x ∈ bs, TextOf decode x.1 x.2) (hf : bs.length < fuel) :
    readCStrings decode fuel (bs.flatMap (fun x => x.1 ++ [0])) = some (.ok (bs.map (·.2))) := by
  induction bs generalizing fuel with
  | nil =>
    cases fuel with
    | zero => omega
    | succ fuel => simp [readCStrings]
  | cons x bs ih =>
    cases fuel with
    | zero => omega
    | succ fuel =>
      rw [readCStrings, if_neg (by simp), List.flatMap_cons, List.append_assoc,
        readCString_of decode x.1 x.2 _ (h x (by simp))]
      dsimp only
      rw [← List.append_assoc, List.drop_left' (by simp), ih fuel (fun y hy => h y (by simp [hy])) (by simp at hf; omega)]
      rfl

theorem readCStrings_terminates (decode : Bytes → Option Str) (data : Bytes) (fuel : Nat) (hf : data.length < fuel) :
    readCStrings decode fuel data ≠ none := by
  induction fuel generalizing data with
  | zero => omega
  | succ fuel ih =>
    rw [readCStrings]
    split
    · simp
    · rename_i hd
      split
      · simp
      · rename_i s n hs
        have hn : 1 ≤ n := by
          unfold readCString at hs
          split at hs
          · cases hs
          · split at hs
            · cases hs
            · simp only [Except.ok.injEq, Prod.mk.injEq] at hs; omega
        have := ih (data.drop n) (by
          have := List.length_pos_of_ne_nil hd
          rw [List.length_drop]; omega)
        cases hr : readCStrings decode fuel (data.drop n) with
        | none => exact absurd hr this
        | some r => simp

/-- The texts as stored, with their size. -/
def textsBytes (width : Nat) (bs : List (Bytes × Str)) : Bytes :=
  encodeVarInt width (bs.flatMap (fun x => x.1 ++ [0])).length ++ bs.flatMap (fun x => x.1 ++ [0])

theorem texts_length_le (bs : List (Bytes × Str)) : bs.length ≤ (bs.flatMap (fun x => x.1 ++ [0])).length := by
  induction bs with
  | nil => simp
  | cons x bs ih => simp only [List.flatMap_cons, List.length_append, List.length_cons]; omega

theorem sized_slice (w : Nat) (l rest : Bytes) :
    slice (encodeVarInt w l.length ++ (l ++ rest)) (encodeVarInt w l.length).length
      ((encodeVarInt w l.length).length + l.length) = l := by
  rw [slice_eq_take_drop, List.drop_left, Nat.add_sub_cancel_left, List.take_left]

theorem readStringValue_of (decode : Bytes → Option Str) (p w : Nat) (bs : List (Bytes × Str)) (rest : Bytes)
    (hw : Fits w (bs.flatMap (fun x => x.1 ++ [0])).length) (h : ∀ x ∈ bs, TextOf decode x.1 x.2) :
    readStringValue decode p (textsBytes w bs ++ rest) =
      if p &&& 3 = 2 then .ok (.texts (bs.map (·.2)), (textsBytes w bs).length)
      else match bs with
        | [] => .error .indexError
        | x :: _ => .ok (.text (if p &&& 3 = 3 then beforeMark x.2 else x.2), (textsBytes w bs).length) := by
  unfold readStringValue textsBytes
  rw [List.append_assoc, C24_round_trip _ _ _ hw]
  dsimp only
  rw [sized_slice, if_neg (by omega), readCStrings_of decode bs _ h (by
    have := texts_length_le bs
    simp only [List.length_append]; omega)]
  dsimp only
  rw [List.length_append]
  cases bs <;> rfl

/-- The attribute of a type with a value. -/
def attrOf (t : MetaType) (v : Val) : Attr := ⟨t.keyName, t.valueType, t.propertyType, v⟩

theorem readAttribute_other (other : Nat → Nat → Bytes → Res (Val × Nat)) (t : MetaType) (data : Bytes) (v : Val) (n : Nat)
    (hk : t.keyName ≠ "kMDStoreAccumulatedSizes")
    (ht : t.valueType = 0x09 ∨ t.valueType = 0x0A ∨ t.valueType = 0x0C ∨ t.valueType = 0x0B ∨ t.valueType = 0x0F)
    (h : other t.valueType t.propertyType data = .ok (v, n)) :
    readAttribute other (some t) data = .ok (some (attrOf t v), n) := by
  unfold readAttribute
  dsimp only
  rw [if_neg hk, if_neg (by omega), if_neg (by omega), if_neg (by omega)]
  by_cases hf : t.valueType = 0x0F
  · rw [if_neg (by omega), if_neg (by omega), if_pos hf, h]
    rfl
  · rw [if_pos (by omega), h]
    rfl

/-- The width of the floating-point values of a value type. -/
def FloatWidth (valueType width : Nat) : Prop :=
  (valueType = 0x09 ∧ width = 4) ∨ ((valueType = 0x0A ∨ valueType = 0x0C) ∧ width = 8)

theorem otherValue_float (decode : Bytes → Option Str) (tb : Tables) (vt width p : Nat) (data : Bytes)
    (h : FloatWidth vt width) : otherValue decode tb vt p data = readFloatValue width p data := by
  unfold otherValue
  rcases h with ⟨h1, rfl⟩ | ⟨h1, rfl⟩
  · rw [if_pos h1]
  · rw [if_neg (by omega), if_pos h1]

/-- **C140** (floating-point): a floating-point value is read back bit by bit. -/
theorem C140_float (decode : Bytes → Option Str) (tb : Tables) (t : MetaType) (width bits : Nat) (rest : Bytes)
    (hk : t.keyName ≠ "kMDStoreAccumulatedSizes") (ht : FloatWidth t.valueType width) (hp : t.propertyType &&& 2 = 0)
    (hb : bits < 256 ^ width) :
    readAttribute (otherValue decode tb) (some t) (leBytes width bits ++ rest) =
      .ok (some (attrOf t (.float bits)), (leBytes width bits).length) := by
  refine readAttribute_other _ t _ _ _ hk (by rcases ht with h | h <;> omega) ?_
  rw [otherValue_float decode tb _ width _ _ ht]
  unfold readFloatValue
  rw [if_pos hp, if_neg (by simp), List.take_left' (by simp), leNat_leBytes_of_lt _ _ hb, leBytes_length]

/-- **C140** (floating-point): a list of floating-point values is read back bit by bit, in order. -/
theorem C140_floats (decode : Bytes → Option Str) (tb : Tables) (t : MetaType) (width w : Nat) (l : List Nat)
    (rest : Bytes) (hk : t.keyName ≠ "kMDStoreAccumulatedSizes") (ht : FloatWidth t.valueType width)
    (hp : t.propertyType &&& 2 ≠ 0) (hb : ∀ bits ∈ l, bits < 256 ^ width) (hw : Fits w (l.flatMap (leBytes width)).length) :
    readAttribute (otherValue decode tb) (some t)
        ((encodeVarInt w (l.flatMap (leBytes width)).length ++ l.flatMap (leBytes width)) ++ rest) =
      .ok (some (attrOf t (.floats l)),
        (encodeVarInt w (l.flatMap (leBytes width)).length ++ l.flatMap (leBytes width)).length) := by
  refine readAttribute_other _ t _ _ _ hk (by rcases ht with h | h <;> omega) ?_
  rw [otherValue_float decode tb _ width _ _ ht]
  unfold readFloatValue
  rw [if_neg hp, List.append_assoc, C24_round_trip _ _ _ hw]
  dsimp only
  have h0 : 0 < width := by rcases ht with h | h <;> omega
  rw [sized_slice, if_neg (by omega), flatMap_leBytes_length, Nat.mul_div_cancel_left _ h0]
  have := words_of width l [] hb
  rw [List.append_nil] at this
  rw [this, List.length_append, flatMap_leBytes_length]

/-- **C140** (texts): the texts of an attribute that holds a list are read back, in order. -/
theorem C140_texts (decode : Bytes → Option Str) (tb : Tables) (t : MetaType) (w : Nat) (bs : List (Bytes × Str))
    (rest : Bytes) (hk : t.keyName ≠ "kMDStoreAccumulatedSizes") (ht : t.valueType = 0x0B)
    (hp : t.propertyType &&& 3 = 2) (hw : Fits w (bs.flatMap (fun x => x.1 ++ [0])).length)
    (h : ∀ x ∈ bs, TextOf decode x.1 x.2) :
    readAttribute (otherValue decode tb) (some t) (textsBytes w bs ++ rest) =
      .ok (some (attrOf t (.texts (bs.map (·.2)))), (textsBytes w bs).length) := by
  refine readAttribute_other _ t _ _ _ hk (by omega) ?_
  have e : otherValue decode tb t.valueType t.propertyType = readStringValue decode t.propertyType := by
    funext d
    unfold otherValue
    rw [ht]
    rfl
  rw [e, readStringValue_of decode _ w bs rest hw h, if_pos hp]

/-- **C140** (texts): of the texts of an attribute that does not hold a list the first is read, up to
its separator when the attribute is localized. -/
theorem C140_text (decode : Bytes → Option Str) (tb : Tables) (t : MetaType) (w : Nat) (b : Bytes) (s : Str)
    (bs : List (Bytes × Str)) (rest : Bytes) (p : Str) (hk : t.keyName ≠ "kMDStoreAccumulatedSizes")
    (ht : t.valueType = 0x0B) (hp : t.propertyType &&& 3 ≠ 2)
    (hs : (t.propertyType &&& 3 = 3 ∧ FirstPart s p) ∨ (t.propertyType &&& 3 ≠ 3 ∧ p = s))
    (hw : Fits w (((b, s) :: bs).flatMap (fun x => x.1 ++ [0])).length) (h : ∀ x ∈ (b, s) :: bs, TextOf decode x.1 x.2) :
    readAttribute (otherValue decode tb) (some t) (textsBytes w ((b, s) :: bs) ++ rest) =
      .ok (some (attrOf t (.text p)), (textsBytes w ((b, s) :: bs)).length) := by
  refine readAttribute_other _ t _ _ _ hk (by omega) ?_
  have e : otherValue decode tb t.valueType t.propertyType = readStringValue decode t.propertyType := by
    funext d
    unfold otherValue
    rw [ht]
    rfl
  rw [e, readStringValue_of decode _ w _ rest hw h, if_neg hp]
  dsimp only
  rcases hs with ⟨h1, h2⟩ | ⟨h1, h2⟩
  · rw [if_pos h1, beforeMark_spec s p h2]
  · rw [if_neg h1, h2]

/-- **C140** (references): a reference reads as what the table under its index holds: the first of
the localized texts up to its separator, the list of values or the name of the value; and as `(null)`
or an empty list when the table has no such entry. -/
theorem C140_reference (decode : Bytes → Option Str) (tb : Tables) (t : MetaType) (w index : Nat) (rest : Bytes) (v : Val)
    (hk : t.keyName ≠ "kMDStoreAccumulatedSizes") (ht : t.valueType = 0x0F) (hw : Fits w index)
    (hv : (t.propertyType &&& 3 = 3 ∧ ∃ s l p, tb.localized.get index = some (.list (s :: l)) ∧ FirstPart s p ∧ v = .text p) ∨
      (t.propertyType &&& 3 = 3 ∧ (tb.localized.get index = none ∨ tb.localized.get index = some (.list [])) ∧
        v = .text "(null)".toList) ∨
      (t.propertyType &&& 3 = 2 ∧ ∃ l, tb.lists.get index = some (.list l) ∧ v = .texts l) ∨
      (t.propertyType &&& 3 = 2 ∧ tb.lists.get index = none ∧ v = .texts []) ∨
      (t.propertyType &&& 2 = 0 ∧ ∃ s, tb.values.get index = some (.value s) ∧ v = .text s) ∨
      (t.propertyType &&& 2 = 0 ∧ tb.values.get index = none ∧ v = .text "(null)".toList)) :
    readAttribute (otherValue decode tb) (some t) (encodeVarInt w index ++ rest) =
      .ok (some (attrOf t v), (encodeVarInt w index).length) := by
  refine readAttribute_other _ t _ _ _ hk (by omega) ?_
  have e : otherValue decode tb t.valueType t.propertyType = readReferenceValue tb t.propertyType := by
    funext d
    unfold otherValue
    rw [ht]
    rfl
  have e3 : ∀ p : Nat, p &&& 3 = p % 4 := fun p => Nat.and_two_pow_sub_one_eq_mod p 2
  have e2 : ∀ p : Nat, p &&& 2 = 0 → p % 4 ≠ 3 ∧ p % 4 ≠ 2 := by
    intro p h
    have h1 : (p &&& 2) &&& 3 = (p % 4) &&& 2 := by
      rw [← e3, Nat.and_assoc, Nat.and_assoc]
      congr 1
    rw [h] at h1
    have : p % 4 < 4 := Nat.mod_lt _ (by decide)
    generalize p % 4 = q at *
    constructor <;> rintro rfl <;> simp at h1
  rw [e]
  unfold readReferenceValue
  rw [C24_round_trip _ _ _ hw]
  dsimp only
  simp only [e3] at hv ⊢
  rcases hv with ⟨hp, s, l, p, h1, h2, rfl⟩ | ⟨hp, h1, rfl⟩ | ⟨hp, l, h1, rfl⟩ | ⟨hp, h1, rfl⟩ | ⟨hp, s, h1, rfl⟩ | ⟨hp, h1, rfl⟩
  · rw [if_pos hp, h1]
    simp only [listOr, beforeMark_spec s p h2]
  · rw [if_pos hp]
    rcases h1 with h1 | h1 <;> rw [h1] <;> rfl
  · rw [if_neg (by omega), if_pos hp, h1]
    rfl
  · rw [if_neg (by omega), if_pos hp, h1]
    rfl
  · rw [if_neg (e2 _ hp).1, if_neg (e2 _ hp).2, h1]
    rfl
  · rw [if_neg (e2 _ hp).1, if_neg (e2 _ hp).2, h1]
    rfl

/-- The claim that an attribute with a malformed value raises a parse error. -/
def C140_errors_claim : Prop :=
  ∀ (decode : Bytes → Option Str) (tb : Tables) (t : MetaType) (data : Bytes) (e : Err),
    readAttribute (otherValue decode tb) (some t) data = .error e → e = .parseError

/-- The claim is false: an attribute with no text raises an index error. -/
theorem C140_errors_claim_false : ¬ C140_errors_claim := by
  intro h
  have := h (fun _ => none) ⟨[], [], [], []⟩ ⟨"kMDItemTitle", 0x0B, 0⟩ [0] .indexError (by decide)
  exact absurd this (by decide)

/-- The claim that the attributes of a record do not depend on the records after it. -/
def C140_record_claim : Prop :=
  ∀ (decode : Bytes → Option Str) (tb : Tables) (r : Rec) (post1 post2 : Bytes) (fuel : Nat), r.Ok →
    readRecord (otherValue decode tb) tb.types.types fuel (r.bytes ++ post1) 20 =
      readRecord (otherValue decode tb) tb.types.types fuel (r.bytes ++ post2) 20

/-- A record with the sizes of a directory. -/
def sizesRecord : Rec :=
  { identifier := (0, 1), flags := 0, item := (0, 2), parent := (0, 3), time := (0, 4),
    attributes := [⟨0, 5, [1, 2, 3, 4, 5, 6]⟩] }

def sizesTables : Tables := ⟨[(5, .type ⟨"kMDStoreAccumulatedSizes", 0x0E, 0⟩)], [], [], []⟩

/-- The claim is false: the value of the attribute `kMDStoreAccumulatedSizes` takes in the start of
the next record. -/
theorem C140_record_claim_false : ¬ C140_record_claim := by
  intro h
  have := h (fun _ => none) sizesTables sizesRecord [] [7] 3 (by
    refine ⟨?_, ?_, ?_, ?_, by decide⟩ <;> (left; decide))
  exact absurd this (by decide)

/-! ### Cases that meet the hypotheses -/

/-- A decoder of bytes that are characters. -/
def ascii : Bytes → Option Str := fun b => some (b.map (fun x => Char.ofNat x.toNat))

/-- A page with two metadata types. -/
example : AllStand ascii (fun _ => []) [.type 1 0x0B 2 [65, 66], .type 2 0 0 [67]]
    [.type ⟨"AB", 0x0B, 2⟩, .type ⟨"C", 0, 0⟩] := by
  refine ⟨⟨by decide, _, ⟨by decide, rfl⟩, by decide⟩, ⟨by decide, _, ⟨by decide, rfl⟩, by decide⟩, trivial⟩

/-- A page with a list that has a byte of padding. -/
example : AllStand ascii (fun n => if n = 3 then ['x'] else []) [.list 1 0 [0] [3, 4]] [.list [['x'], []]] := by
  refine ⟨⟨by decide, ⟨?_, by decide, by decide⟩, by decide⟩, trivial⟩
  left
  decide

/-- A streams map with a type, a remnant and a type. -/
example : AllStreams ascii (fun _ => []) 1 [.type 0 0x0B 2 [65], .remnant 0 9 [1], .type 0 0 0 [66]]
    [some (.type ⟨"A", 0x0B, 2⟩), none, some (.type ⟨"B", 0, 0⟩)] := by
  refine ⟨⟨rfl, ?_, _, ⟨by decide, rfl⟩, by decide⟩, ⟨by decide, ?_, by decide, rfl⟩,
    ⟨rfl, ?_, _, ⟨by decide, rfl⟩, by decide⟩, trivial⟩ <;> (left; decide)

example : FirstPart ['a', '\x16', '\x02', 'b'] ['a'] := by
  left
  refine ⟨['b'], rfl, ?_⟩
  rintro ⟨x, y, h⟩
  rcases x with _ | ⟨c, _ | ⟨d, x⟩⟩ <;> simp at h

example : readAttribute (otherValue ascii ⟨[], [(7, .value ['v'])], [], []⟩) (some ⟨"kMDItemKind", 0x0F, 0⟩) [7, 9] =
    .ok (some ⟨"kMDItemKind", 0x0F, 0, .text ['v']⟩, 1) := by decide

end Dtf.Spotlight
