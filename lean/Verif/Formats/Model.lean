import Verif.Py
import Verif.Text

/-!
# Model of the display functions

Functions that turn values into text, in dtformats/data_format.py, file_system.py,
firefox_cache1.py, job.py, alias_data.py, keychain.py, systemd.py and the address decoders of
unified_logging.py.  A `str` is a list of characters.  `dfdatetime` is a parameter.
-/

namespace Dtf.Formats
open Py Text

/-- `f"{n:d}"` for a non-negative integer. -/
def dec (n : Nat) : List Char := digits 10 n

/-- `f"{n:0wx}"` for a non-negative integer. -/
def hexw (w n : Nat) : List Char := zpad w (digits 16 n)

/-- `f"{i:d}"`. -/
def decInt (i : Int) : List Char :=
  if i < 0 then '-' :: dec i.natAbs else dec i.natAbs

/-- `f"{i:0wx}"`: the sign counts for the width. -/
def hexInt (w : Nat) (i : Int) : List Char :=
  if i < 0 then '-' :: zpad (w - 1) (digits 16 i.natAbs) else hexw w i.natAbs

/-! ## data_format.py -/

/-- `_FormatArrayOfIntegersAsDecimals` (data_format.py 229-240). -/
def decimals (l : List Int) : List Char := join [',', ' '] (l.map decInt)

/-- `_FormatIntegerAsOffset` (data_format.py 454-463). -/
def offset (i : Int) : List Char :=
  decInt i ++ [' ', '(', '0', 'x'] ++ hexInt 8 i ++ [')']

/-- `_FormatArrayOfIntegersAsOffsets` (data_format.py 242-255). -/
def offsets (l : List Int) : List Char := join [',', ' '] (l.map offset)

/-- `_FormatArrayOfIntegersAsIPv4Address` (data_format.py 257-272) and the IPv4 decoder
(unified_logging.py 707-722); the latter has its own text for other lengths. -/
def ipv4 (a : Bytes) : Option (List Char) :=
  if a.length = 4 then some (join ['.'] (a.map (fun o => dec o.toNat))) else none

/-- `[o1 << 8 | o2 for o1, o2 in zip(a[0::2], a[1::2])]`. -/
def pairs : Bytes → List Nat
  | x :: y :: rest => (x.toNat <<< 8 ||| y.toNat) :: pairs rest
  | _ => []

/-- `_FormatArrayOfIntegersAsIPv6Address` (data_format.py 274-293) and the IPv6 decoder
(unified_logging.py 727-747). -/
def ipv6 (a : Bytes) : Option (List Char) :=
  if a.length = 16 then some (join [':'] ((pairs a).map (hexw 4))) else none

/-- `_FormatArrayOfIntegersAsIPAddress` (bsm.py 852-870). -/
def bsmAddress (a : Bytes) : Option (List Char) :=
  if a.length = 4 then ipv4 a else if a.length = 16 then ipv6 a else none

/-- `SocketAddressFormatStringDecoder.FormatValue` (unified_logging.py 1829-1865). -/
def socketAddress (v : Bytes) : List Char :=
  if v.length = 0 then "<NULL>".toList
  else if v.length ≥ 2 ∧ v.getD 1 0 = 2 ∧ v.length = 16 then
    join ['.'] ((slice v 4 8).map (fun o => dec o.toNat))
  else if v.length ≥ 2 ∧ v.getD 1 0 = 30 ∧ v.length = 28 then
    let text := join [':'] ((pairs (slice v 8 24)).map (fun p => if p ≠ 0 then hexw 4 p else []))
    if text = ":::::::".toList then "::".toList else text
  else "<decode: unsupported value>".toList

/-- The translation table of data_format.py 50-58: the bytes below 0x20 and those from 0x7f up to
and without 0xff are escaped. -/
def streamChar (b : UInt8) : List Char :=
  if b.toNat < 0x20 ∨ (0x7F ≤ b.toNat ∧ b.toNat < 0xFF) then
    ['\\', 'x'] ++ hexw 2 b.toNat
  else [Char.ofNat b.toNat]

/-- `_FormatStreamAsString` (data_format.py 465-476). -/
def streamAsString (s : Bytes) : List Char := s.flatMap streamChar

/-- The tabs after a description (data_format.py 561-562 and 524-525); a string times a negative
number is empty. -/
def tabs (description : List Char) : List Char :=
  List.replicate (8 + 1 - description.length / 8) '\t'

/-- `_FormatValue` (data_format.py 551-563), for a value with the given text. -/
def formatValue (description text : List Char) : List Char :=
  description ++ tabs description ++ [':', ' '] ++ text ++ ['\n']

/-- `str(value)` of the tuple `(text, False)`, when `text` has no quotes or escapes. -/
def tupleText (text : List Char) : List Char := "('".toList ++ text ++ "', False)".toList

/-- An attribute of a structure object after formatting: its text and whether a multi-line text
starts on a new line (`new_line_after_description`). -/
structure Attribute where
  description : Option (List Char)
  text : List Char
  newLine : Bool

/-- The loop body of `_FormatStructureObject` (data_format.py 518-531).  A single-line value
without a description makes `len(None)` raise. -/
def formatAttribute (a : Attribute) : Res (List Char) :=
  if '\n' ∈ a.text then
    match a.description with
    | none => .ok a.text
    | some d =>
      if a.newLine then .ok (d ++ [':', '\n'] ++ a.text)
      else .ok (d ++ tabs d ++ [':', ' '] ++ a.text)
  else
    match a.description with
    | none => .error .typeError
    | some d => .ok (formatValue d a.text)

/-- The loop of `_FormatStructureObject`; attributes that are `None` are skipped. -/
def formatAttributes : List (Option Attribute) → Res (List (List Char))
  | [] => .ok []
  | none :: as => formatAttributes as
  | some a :: as =>
    match formatAttribute a with
    | .error e => .error e
    | .ok t =>
      match formatAttributes as with
      | .error e => .error e
      | .ok ts => .ok (t :: ts)

/-- `s[-2:]`. -/
def lastTwo (s : List Char) : List Char := s.drop (s.length - 2)

/-- `_FormatStructureObject` (data_format.py 489-538). -/
def formatStructure (as : List (Option Attribute)) : Res (List Char) :=
  match formatAttributes as with
  | .error e => .error e
  | .ok lines =>
    if lines = [] ∨ lines.getLastD [] = [] ∨ lastTwo (lines.getLastD []) ≠ ['\n', '\n'] then
      .ok (lines.flatten ++ ['\n'])
    else .ok lines.flatten

/-! ## file_system.py -/

/-- `JoinPath` (file_system.py 149-158). -/
def joinPath (sep : Char) (segments : List (List Char)) : List Char :=
  sep :: join [sep] segments

/-- `SplitPath` (file_system.py 182-193). -/
def splitPath (sep : Char) (path : List Char) : List (List Char) :=
  (splitOn sep path).filter (fun s => s ≠ [])

/-! ## Other formats -/

/-- The fields of `_FormatCacheLocation` (firefox_cache1.py 42-46 and 155-159). -/
structure Location where
  blockNumber : Nat
  extraBlocks : Nat
  selector : Nat
  reserved : Nat
  flag : Nat
deriving DecidableEq, Repr

def cacheLocation (i : Nat) : Location :=
  { blockNumber := i &&& 0x00FFFFFF
    extraBlocks := (i &&& 0x03000000) >>> 24
    selector := (i &&& 0x30000000) >>> 28
    reserved := (i &&& 0x4C000000) >>> 26
    flag := (i &&& 0x80000000) >>> 31 }

/-- `_FormatCacheLocation` (firefox_cache1.py 33-51 and 146-164). -/
def formatCacheLocation (i : Nat) : List Char :=
  let l := cacheLocation i
  "block number: ".toList ++ dec l.blockNumber ++ ", extra blocks: ".toList ++ dec l.extraBlocks ++
    ", location selector: ".toList ++ dec l.selector ++ ", reserved: ".toList ++
    hexw 2 l.reserved ++ ", location flag: ".toList ++ dec l.flag

/-- `_FormatIntegerAsProductVersion` (job.py 114-125). -/
def productVersion (i : Nat) : List Char :=
  let major := (i >>> 8) &&& 0xFF
  let minor := (i >>> 8) &&& 0xFF
  "0x".toList ++ hexw 4 i ++ " (".toList ++ dec major ++ ".".toList ++ dec minor ++ ")".toList

/-- `_FormatIntegerAsHFSTime64bit` (alias_data.py 34-53); `hfs` is the date and time string of
dfdatetime. -/
def hfsTime64 (hfs : Nat → List Char) (i : Nat) : List Char :=
  if i = 0 then "Not set (0)".toList
  else
    let s := hfs (i / 65536)
    if s = [] then "0x".toList ++ hexw 8 i
    else s ++ ['.'] ++ zpad 3 (dec (i % 65536)) ++ " UTC".toList

/-- The loop over record offsets (keychain.py 132-147), table offsets (keychain.py 175-190) and
entry object offsets (systemd.py 99-116).  The value passed on is the tuple that
`_FormatIntegerAsHexadecimal8` returns (data_format.py 366-376). -/
def offsetLines (label : List Char) : Nat → List Nat → List Char
  | _, [] => []
  | index, o :: os =>
    formatValue (label ++ dec index) (tupleText ("0x".toList ++ hexw 8 o)) ++
      offsetLines label (index + 1) os

end Dtf.Formats
