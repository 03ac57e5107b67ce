import Verif.Py
import Verif.Text

/-!
# Model of `BinaryDataFormat._FormatDataInHexadecimal`, data_format.py:160-227

The data is `bytes`; the branch for `str` elements (data_format.py:181-182) never runs.
-/

namespace Dtf.HexDump
open Py Text

/-- `f"{byte_value:02x}"`, data_format.py:184. -/
def hex2 (b : UInt8) : List Char := zpad 2 (digits 16 b.toNat)

/-- `_HEXDUMP_CHARACTER_MAP`, data_format.py:45-47. -/
def printable (b : UInt8) : Char :=
  if b.toNat < 0x20 ∨ b.toNat > 0x7E then '.' else Char.ofNat b.toNat

/-- The hexadecimal column of a row, data_format.py:178-202. -/
def hexString (block : Bytes) : List Char :=
  let values := block.map hex2
  let remaining := 16 - block.length
  let whitespace :=
    if remaining = 0 then []
    else if remaining ≥ 8 then List.replicate (3 * remaining - 1) ' '
    else List.replicate (3 * remaining) ' '
  join [' '] (slice values 0 8) ++ [' ', ' '] ++ join [' '] (slice values 8 16) ++ whitespace

/-- A printed row, data_format.py:215-222. -/
def rowText (index : Nat) (block : Bytes) : List Char :=
  ['0', 'x'] ++ zpad 8 (digits 16 index) ++ [' ', ' '] ++ hexString block ++ [' ', ' '] ++
    block.map printable

/-- The loop over the blocks, data_format.py:170-224, on the data from `index` on.
`inGroup` and `previous` are the loop variables. -/
def dumpLoop (dataSize index : Nat) (rest : Bytes) (inGroup : Bool)
    (previous : Option (List Char)) : List (List Char) :=
  if h : rest = [] then []
  else
    let block := rest.take 16
    let string := hexString block
    -- data_format.py:203-212
    if previous = some string ∧ index + 16 < dataSize then
      if inGroup then dumpLoop dataSize (index + 16) (rest.drop 16) true previous
      else ['.', '.', '.'] :: dumpLoop dataSize (index + 16) (rest.drop 16) true previous
    -- data_format.py:214-224
    else rowText index block :: dumpLoop dataSize (index + 16) (rest.drop 16) false (some string)
termination_by rest.length
decreasing_by
  all_goals
    have := List.length_pos_iff.mpr h
    simp only [List.length_drop]
    omega

/-- `_FormatDataInHexadecimal`, data_format.py:160-227: the text. -/
def dump (data : Bytes) : List Char :=
  join ['\n'] (dumpLoop data.length 0 data false none ++ [[], []])

end Dtf.HexDump
