import Verif.HexDump.Model
import Verif.Formats.Model

/-!
# What is shown in debug mode when a structure is read
-/

namespace Dtf.Formats
open Py Text

/-- The text before a structure is read (data_format.py 700-704). -/
def readingText (description : List Char) (off : Nat) : List Char :=
  "Reading ".toList ++ description ++ " at offset: ".toList ++ dec off ++ " (0x".toList ++ hexw 8 off ++ ")\n".toList

/-- `_DebugPrintData` (data_format.py 70-79). -/
def dataText (description : List Char) (b : Bytes) : List Char := description ++ ":\n".toList ++ HexDump.dump b

/-- `f"{first_letter}{description[1:]} data"` (data_format.py 721-725), of ASCII descriptions. -/
def structureName : List Char → List Char
  | [] => " data".toList
  | c :: s => c.toUpper :: s ++ " data".toList

/-- The text after a structure was read (data_format.py 720-725). -/
def structureText (description : List Char) (b : Bytes) : List Char := dataText (structureName description) b

end Dtf.Formats
