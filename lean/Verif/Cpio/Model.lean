import Verif.DataFormat.Sized

/-!
# CPIO archives (dtformats/cpio.py)

Sizes and numbers are integers, because the ASCII formats convert header fields with
`int(value, base)`, which accepts a sign.  Not modelled: the debug output, the attributes of the
header that no archive file entry keeps (they are converted, and the conversion may fail).
-/

namespace Dtf.Cpio
open Py DataFormat

/-! ## `int(value, base)` -/

/-- Whitespace of `int`. -/
def isSpace (b : UInt8) : Bool := b.toNat = 32 ∨ (9 ≤ b.toNat ∧ b.toNat ≤ 13)

/-- The value of a digit, of either case. -/
def digitOf (b : UInt8) : Option Nat :=
  if 48 ≤ b.toNat ∧ b.toNat ≤ 57 then some (b.toNat - 48)
  else if 97 ≤ b.toNat ∧ b.toNat ≤ 122 then some (b.toNat - 87)
  else if 65 ≤ b.toNat ∧ b.toNat ≤ 90 then some (b.toNat - 55)
  else none

/-- The digits of an integer; underscores are allowed between two digits. -/
def scanDigits (base : Nat) : Bytes → Bool → Nat → Option Nat
  | [], afterUnderscore, acc => if afterUnderscore then none else some acc
  | b :: bs, afterUnderscore, acc =>
    if b.toNat = 95 then (if afterUnderscore then none else scanDigits base bs true acc)
    else
      match digitOf b with
      | none => none
      | some d => if d < base then scanDigits base bs false (acc * base + d) else none

/-- The digits with an optional prefix `0x` or `0o`, which an underscore may follow. -/
def scanPrefixed (base : Nat) (s : Bytes) : Option Nat :=
  match s with
  | z :: p :: rest =>
    if z.toNat = 48 ∧ ((base = 16 ∧ (p.toNat = 120 ∨ p.toNat = 88)) ∨
        (base = 8 ∧ (p.toNat = 111 ∨ p.toNat = 79))) then
      match rest with
      | u :: rest' => if u.toNat = 95 then scanDigits base rest' true 0
          else scanDigits base rest true 0
      | [] => none
    else scanDigits base s true 0
  | _ => scanDigits base s true 0

/-- CPython `int(value, base)` of `bytes` for the bases 8 and 16; `none` is a `ValueError`. -/
def pyInt (base : Nat) (value : Bytes) : Option Int :=
  let s := (((value.dropWhile isSpace).reverse).dropWhile isSpace).reverse
  match s with
  | c :: rest =>
    if c.toNat = 45 then (scanPrefixed base rest).map fun n : Nat => -(n : Int)
    else if c.toNat = 43 then (scanPrefixed base rest).map fun n : Nat => (n : Int)
    else (scanPrefixed base s).map fun n : Nat => (n : Int)
  | [] => none

/-! ## File entries -/

/-- The formats (`file_format`, cpio.py 403-414): `newc` and `crc` are read alike. -/
inductive Format
  | binBig
  | binLittle
  | odc
  | newc
  | crc
deriving DecidableEq, Repr

/-- The values of a header that are used. -/
structure Header where
  inode : Int
  mode : Int
  uid : Int
  gid : Int
  mtime : Int
  pathSize : Int
  fileSize : Int
deriving DecidableEq, Repr

/-- The size of a header (cpio.yaml). -/
def headerSize : Format → Nat
  | .binBig | .binLittle => 26
  | .odc => 76
  | .newc | .crc => 110

/-- The 16-bit value at index `i` of a binary header. -/
def word (value : Bytes → Nat) (s : Bytes) (i : Nat) : Nat := value (slice s (2 * i) (2 * i + 2))

/-- A binary header (cpio.yaml; cpio.py 200-207): signature, device, inode, mode, uid, gid, links,
special device, upper and lower half of the time, path size, upper and lower half of the size. -/
def parseBinary (value : Bytes → Nat) (s : Bytes) : Header :=
  { inode := word value s 2, mode := word value s 3, uid := word value s 4, gid := word value s 5,
    mtime := ((word value s 8 <<< 16) ||| word value s 9 : Nat),
    pathSize := word value s 10,
    fileSize := ((word value s 11 <<< 16) ||| word value s 12 : Nat) }

/-- The fields of an ASCII header, of the given widths, converted in turn (cpio.py 209-237).  All
fields after the signature are converted; the order in which the code converts them is not that of
the header, but any failure is the same `ParseError`. -/
def parseFields (base : Nat) : List Nat → Bytes → Option (List Int)
  | [], _ => some []
  | w :: ws, s =>
    match pyInt base (s.take w) with
    | none => none
    | some v =>
      match parseFields base ws (s.drop w) with
      | none => none
      | some vs => some (v :: vs)

/-- The widths of the fields of a portable ASCII header after the signature (cpio.yaml). -/
def odcWidths : List Nat := [6, 6, 6, 6, 6, 6, 6, 11, 6, 11]

/-- The widths of the fields of a new ASCII header after the signature (cpio.yaml). -/
def newcWidths : List Nat := [8, 8, 8, 8, 8, 8, 8, 8, 8, 8, 8, 8, 8]

/-- The portable ASCII header: device, inode, mode, uid, gid, links, special device, time, path size,
file size. -/
def parseOdc (s : Bytes) : Option Header :=
  match parseFields 8 odcWidths (s.drop 6) with
  | some [_, inode, mode, uid, gid, _, _, mtime, pathSize, fileSize] =>
    some ⟨inode, mode, uid, gid, mtime, pathSize, fileSize⟩
  | _ => none

/-- The new ASCII header: inode, mode, uid, gid, links, time, file size, four device numbers, path
size, checksum. -/
def parseNewc (s : Bytes) : Option Header :=
  match parseFields 16 newcWidths (s.drop 6) with
  | some [inode, mode, uid, gid, _, mtime, fileSize, _, _, _, _, pathSize, _] =>
    some ⟨inode, mode, uid, gid, mtime, pathSize, fileSize⟩
  | _ => none

/-- The header from its bytes (cpio.py 183-237). -/
def parseHeader : Format → Bytes → Option Header
  | .binBig, s => some (parseBinary beNat s)
  | .binLittle, s => some (parseBinary leNat s)
  | .odc, s => parseOdc s
  | .newc, s => parseNewc s
  | .crc, s => parseNewc s

/-- The padding at a file offset (cpio.py 256-267 and 294-305). -/
def padding (fmt : Format) (off : Int) : Int :=
  match fmt with
  | .binBig | .binLittle => if off % 2 > 0 then 2 - off % 2 else off % 2
  | .odc => 0
  | .newc | .crc => if off % 4 > 0 then 4 - off % 4 else off % 4

/-- `CPIOArchiveFileEntry` (cpio.py 10-41). -/
structure Entry where
  dataOffset : Int
  dataSize : Int
  gid : Int
  inode : Int
  mtime : Int
  path : Bytes
  mode : Int
  size : Int
  uid : Int
deriving DecidableEq, Repr

/-- `_ReadFileEntry` (cpio.py 169-319).  The file position after the header is the end of the
header, so the path is read from there.  A negative path size reads to the end of the file, as
`io.BytesIO` does; `io.BufferedReader` raises `ValueError` for sizes below -1 instead. -/
def readFileEntry (fmt : Format) (data : Bytes) (off : Int) : Res Entry :=
  match structAt (fixedMap (headerSize fmt) id) data off with
  | .error e => .error e
  | .ok (s, hsize) =>
    match parseHeader fmt s with
    | none => .error .parseError
    | some h =>
      let pathData := (File.read ⟨data, (off + hsize).toNat⟩ h.pathSize).1
      if pathData.any (fun b => 128 ≤ b.toNat) then .error .unicodeError
      else
        let dataOffset := off + hsize + h.pathSize + padding fmt (off + hsize + h.pathSize)
        .ok { dataOffset := dataOffset, dataSize := h.fileSize, gid := h.gid, inode := h.inode,
              mtime := h.mtime, path := pathData.takeWhile (· ≠ 0), mode := h.mode,
              size := hsize + h.pathSize + padding fmt (off + hsize + h.pathSize) + h.fileSize +
                padding fmt (dataOffset + h.fileSize),
              uid := h.uid }

/-- "TRAILER!!!". -/
def trailer : Bytes := [84, 82, 65, 73, 76, 69, 82, 33, 33, 33]

/-- The `_file_entries` dictionary: keys in order of insertion. -/
abbrev Entries := List (Bytes × Entry)

/-- `path in self._file_entries`. -/
def contains (es : Entries) (path : Bytes) : Bool := es.any (fun p => p.1 = path)

/-- What `_ReadFileEntries` leaves behind: the dictionary, the size or the exception. -/
structure Outcome where
  entries : Entries
  result : Res Int
deriving DecidableEq

/-- The loop of `_ReadFileEntries` (cpio.py 329-342); `none` means out of fuel. -/
def entriesLoop (fmt : Format) (data : Bytes) : Nat → Int → Entries → Option Outcome
  | 0, _, _ => none
  | fuel + 1, off, es =>
    if off < data.length ∨ data.length = 0 then
      match readFileEntry fmt data off with
      | .error e => some ⟨es, .error e⟩
      | .ok e =>
        if e.path = trailer then some ⟨es, .ok (off + e.size)⟩
        else if contains es e.path then entriesLoop fmt data fuel (off + e.size) es
        else entriesLoop fmt data fuel (off + e.size) (es ++ [(e.path, e)])
    else some ⟨es, .ok off⟩

/-- The format of the archive (cpio.py 400-417). -/
def detect (data : Bytes) : Option Format :=
  let signature := data.take 6
  if signature.length > 2 then
    if signature.take 2 = [0x71, 0xC7] then some .binBig
    else if signature.take 2 = [0xC7, 0x71] then some .binLittle
    else if signature = [48, 55, 48, 55, 48, 55] then some .odc
    else if signature = [48, 55, 48, 55, 48, 49] then some .newc
    else if signature = [48, 55, 48, 55, 48, 50] then some .crc
    else none
  else none

/-- `ReadFileObject` (cpio.py 391-419). -/
def readArchive (data : Bytes) (fuel : Nat) : Option Outcome :=
  match detect data with
  | none => some ⟨[], .error .parseError⟩
  | some fmt => entriesLoop fmt data fuel 0 []

/-- `FileEntryExistsByPath` (cpio.py 349-361). -/
def existsByPath (es : Entries) (path : Bytes) : Bool :=
  if es.isEmpty then false else contains es path

/-- `GetFileEntryByPath` (cpio.py 377-389); without entries the code returns `False`, which is
modelled as `none` as well (see `getByPathIsFalse`). -/
def getByPath (es : Entries) (path : Bytes) : Option Entry :=
  (es.find? (fun p => p.1 = path)).map (·.2)

/-- Whether `GetFileEntryByPath` returns `False` rather than an entry or `None` (386-387). -/
def getByPathIsFalse (es : Entries) : Bool := es.isEmpty

/-- `GetFileEntries` (cpio.py 363-375). -/
def getEntries (es : Entries) (pathPrefix : Bytes) : List Entry :=
  (es.filter (fun p => pathPrefix.isPrefixOf p.1)).map (·.2)

end Dtf.Cpio
