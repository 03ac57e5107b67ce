import Verif.Py
import Verif.Text

/-!
# Specification: reading a hexadecimal dump back

Written from the layout of a dump, not from the code that prints it.
-/

namespace Dtf.HexDump
open Py Text

/-- A line of a dump. -/
inductive Line
  | gap
  | row (offset : Nat) (bytes : Bytes)
  deriving DecidableEq, Repr

/-- The bytes written as pairs of hexadecimal digits. -/
def decodePairs : List Char → Option Bytes
  | [] => some []
  | [_] => none
  | a :: b :: rest =>
    match parseDigits 16 [a, b], decodePairs rest with
    | some v, some bs => some (UInt8.ofNat v :: bs)
    | _, _ => none

/-- A row is `0x`, the offset, two spaces, a column of 48 characters, two spaces and one
character per byte. -/
def parseLine (l : List Char) : Option Line :=
  match l with
  | ['.', '.', '.'] => some .gap
  | '0' :: 'x' :: rest =>
    match parseDigits 16 (rest.takeWhile (· ≠ ' ')), rest.dropWhile (· ≠ ' ') with
    | some offset, ' ' :: ' ' :: rest =>
      let column := rest.take 48
      match decodePairs (column.filter (· ≠ ' ')), rest.drop 48 with
      | some bytes, ' ' :: ' ' :: text =>
        if column.length = 48 ∧ text.length = bytes.length then some (.row offset bytes) else none
      | _, _ => none
    | _, _ => none
  | _ => none

/-- Put the rows together.  A gap stands for copies of the row before it up to the offset
of the row after it. -/
def rebuild : List Line → Bytes → Bytes → Bool → Option Bytes
  | [], acc, _, pending => if pending then none else some acc
  | .gap :: ls, acc, prev, pending => if pending then none else rebuild ls acc prev true
  | .row offset bytes :: ls, acc, prev, pending =>
    let acc :=
      if pending then acc ++ (List.replicate ((offset - acc.length) / 16) prev).flatten else acc
    if acc.length = offset then rebuild ls (acc ++ bytes) bytes false else none

def parseLines : List (List Char) → Option (List Line)
  | [] => some []
  | l :: ls =>
    match parseLine l, parseLines ls with
    | some x, some xs => some (x :: xs)
    | _, _ => none

/-- Read a dump back: the last two lines are empty. -/
def undump (text : List Char) : Option Bytes :=
  match (splitOn '\n' text).reverse with
  | [] :: [] :: lines =>
    match parseLines lines.reverse with
    | some ls => rebuild ls [] [] false
    | none => none
  | _ => none

/-- The character column: printable ASCII stands for itself, anything else is a dot. -/
def shown (b : UInt8) : Char :=
  if 32 ≤ b.toNat ∧ b.toNat < 127 then Char.ofNat b.toNat else '.'

end Dtf.HexDump
