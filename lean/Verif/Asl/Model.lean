import Verif.DataFormat.Sized

/-!
# Model of the Apple System Log reader (`dtformats/asl.py`)

The whole reader is modelled, with the position of the file object, because a record starts by
reading from that position up to the record.  Decoding of UTF-8 is a parameter: `utf8 b` holds when
`b` can be decoded, and strings are kept as bytes.
-/

namespace Dtf.Asl
open Py DataFormat

/-- The `[string_offset >> (8 * byte_index) & 0xFF for byte_index in range(6, -1, -1)]` of asl.py
lines 206-213. -/
def inlineData (offset : Nat) : Bytes :=
  [6, 5, 4, 3, 2, 1, 0].map (fun i => UInt8.ofNat ((offset >>> (8 * i)) &&& 0xFF))

/-- `.rstrip("\x00")` (asl.py line 247). -/
def rstrip (s : Bytes) : Bytes := (s.reverse.dropWhile (· = 0)).reverse

/-- The map of an `asl_record_string` (asl.yaml): 6 bytes and as many bytes as they say. -/
def stringMap : DataTypeMap Bytes :=
  sizedMap 6 (fun h => beNat (slice h 2 6)) (fun bs => bs.drop 6)

/-- `_ReadRecordString` (asl.py lines 177-247).  Returns the string and the position after it. -/
def readString (utf8 : Bytes → Bool) (data : Bytes) (pos offset : Nat) :
    Res (Option Bytes × Nat) :=
  if offset = 0 then .ok (none, pos)
  else if offset &&& (1 <<< 63) ≠ 0 then
    if offset >>> 60 ≠ 8 then .error .parseError
    else
      let size := (offset >>> 56) &&& 0x0F
      if size ≥ 8 then .error .parseError
      else
        let s := (inlineData offset).take size
        if utf8 s then .ok (some s, pos) else .error .parseError
  else
    match structAt stringMap data offset with
    | .error e => .error e
    | .ok (s, size) =>
      -- dtfabric reports a string that cannot be decoded as a mapping error.
      if utf8 s then .ok (some (rstrip s), offset + size.toNat) else .error .parseError

/-- The members of an `asl_record` (asl.yaml) the reader uses. -/
structure Record where
  dataSize : Nat
  next : Nat
  hostname : Nat
  sender : Nat
  facility : Nat
  message : Nat
deriving Repr, DecidableEq

/-- The size of an `asl_record`. -/
def recordSize : Nat := 98

def parseRecord (bs : Bytes) : Record :=
  { dataSize := beNat (slice bs 2 6), next := beNat (slice bs 6 14),
    hostname := beNat (slice bs 66 74), sender := beNat (slice bs 74 82),
    facility := beNat (slice bs 82 90), message := beNat (slice bs 90 98) }

/-- What a record shows: its strings and the dictionary of its extra fields. -/
structure Shown where
  hostname : Option Bytes
  sender : Option Bytes
  facility : Option Bytes
  message : Option Bytes
  extra : List (Bytes × Option Bytes)
deriving Repr, DecidableEq

/-- `extra_fields[name] = value` (line 128) on a dictionary that keeps the order of insertion. -/
def dictSet (d : List (Bytes × Option Bytes)) (k : Bytes) (v : Option Bytes) :
    List (Bytes × Option Bytes) :=
  if d.any (fun p => p.1 = k) then d.map (fun p => if p.1 = k then (k, v) else p) else d ++ [(k, v)]

/-- The loop over the extra fields (lines 114-128): `n` fields at the start of the additional
data. -/
def extraLoop (utf8 : Bytes → Bool) (data : Bytes) :
    Nat → Bytes → Nat → List (Bytes × Option Bytes) → Res (List (Bytes × Option Bytes) × Nat)
  | 0, _, pos, acc => .ok (acc, pos)
  | n + 1, additional, pos, acc =>
    -- `_ReadRecordExtraField` (lines 145-175)
    if additional.length < 16 then .error .parseError
    else
      match readString utf8 data pos (beNat (slice additional 0 8)) with
      | .error e => .error e
      | .ok (name, pos) =>
        match readString utf8 data pos (beNat (slice additional 8 16)) with
        | .error e => .error e
        | .ok (value, pos) =>
          let acc := match name with
            | none => acc
            | some k => dictSet acc k value
          extraLoop utf8 data n (additional.drop 16) pos acc

/-- The number of rounds of `range(0, size - 8, 16)`. -/
def rangeCount (size : Nat) : Nat := (size - 8 + 15) / 16

/-- `_ReadRecord` (lines 60-143) on a file object at position `pos`: what the record shows, the
offset of the next record and the position after it. -/
def readRecord (utf8 : Bytes → Bool) (data : Bytes) (pos off : Nat) : Res (Shown × Nat × Nat) :=
  match (readData (some ⟨data, pos⟩) pos ((off : Int) - pos)).1 with
  | .error e => .error e
  | .ok _ =>
    match structAt (fixedMap recordSize parseRecord) data off with
    | .error e => .error e
    | .ok (r, size) =>
      let pos := off + size.toNat
      match readString utf8 data pos r.hostname with
      | .error e => .error e
      | .ok (hostname, pos) =>
        match readString utf8 data pos r.sender with
        | .error e => .error e
        | .ok (sender, pos) =>
          match readString utf8 data pos r.facility with
          | .error e => .error e
          | .ok (facility, pos) =>
            match readString utf8 data pos r.message with
            | .error e => .error e
            | .ok (message, pos) =>
              let additionalSize : Int := (r.dataSize : Int) + 6 - size
              if additionalSize % 8 ≠ 0 then .error .parseError
              else
                match (readData (some ⟨data, pos⟩) (off + size) additionalSize).1 with
                | .error e => .error e
                | .ok additional =>
                  match extraLoop utf8 data (rangeCount additional.length) additional
                      (off + size.toNat + additional.length) [] with
                  | .error e => .error e
                  | .ok (extra, pos) =>
                    .ok ({ hostname := hostname, sender := sender, facility := facility,
                           message := message, extra := extra }, r.next, pos)

/-- The loop of `ReadFileObject` (lines 262-265): what the records show. -/
def recordsLoop (utf8 : Bytes → Bool) (data : Bytes) :
    Nat → Nat → Nat → List Shown → Option (Res (List Shown))
  | 0, _, _, _ => none
  | fuel + 1, off, pos, acc =>
    if off < data.length then
      match readRecord utf8 data pos off with
      | .error e => some (.error e)
      | .ok (s, next, pos) =>
        if next = 0 then some (.ok (acc ++ [s]))
        else recordsLoop utf8 data fuel next pos (acc ++ [s])
    else some (.ok acc)

/-- The signature of the file header (asl.yaml `asl_file_header`). -/
def signature : Bytes := [0x41, 0x53, 0x4c, 0x20, 0x44, 0x42, 0, 0, 0, 0, 0, 0]

/-- `ReadFileObject` (lines 249-265) with `_ReadFileHeader` (lines 37-58). -/
def readFile (utf8 : Bytes → Bool) (fuel : Nat) (data : Bytes) : Option (Res (List Shown)) :=
  match structAt (fixedMap 80 id) data 0 with
  | .error e => some (.error e)
  | .ok (h, size) =>
    if h.take 12 ≠ signature then some (.error .parseError)
    else
      let first := beNat (slice h 16 24)
      if first > 0 then recordsLoop utf8 data fuel first size.toNat [] else some (.ok [])

end Dtf.Asl
