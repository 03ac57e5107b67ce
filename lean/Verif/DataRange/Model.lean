import Verif.Py

/-!
# Model of `dtformats/data_range.py`
-/

namespace Dtf.DataRange
open Py

/-- The state of a `DataRange` object, data_range.py:14-27.  The parent file object is
kept apart because it is shared. -/
structure Range where
  dataOffset : Int
  dataSize : Int
  cur : Int
  deriving DecidableEq, Repr

/-- `DataRange.__init__`, data_range.py:14-27. -/
def init (dataOffset dataSize : Int) : Range := ⟨dataOffset, dataSize, 0⟩

/-- `DataRange.read`, data_range.py:32-70.  Returns the result, the parent file and the
range after the call. -/
def read (f : File) (r : Range) (size : Option Int) : Res Bytes × File × Range :=
  -- data_range.py:48-51
  if r.dataOffset < 0 then (.error .osError, f, r)
  -- data_range.py:53-54
  else if r.dataSize < 0 then (.error .osError, f, r)
  -- data_range.py:56-57
  else if r.cur ≥ r.dataSize then (.ok [], f, r)
  else
    -- data_range.py:59-62
    let size := size.getD r.dataSize
    let size := if r.cur + size > r.dataSize then r.dataSize - r.cur else size
    -- data_range.py:64
    match f.seekSet (r.dataOffset + r.cur) with
    | .error e => (.error e, f, r)
    | .ok f =>
      -- data_range.py:66-70
      let (data, f) := f.read size
      (.ok data, f, { r with cur := r.cur + data.length })

/-- `DataRange.seek`, data_range.py:72-96. -/
def seek (r : Range) (offset whence : Int) : Res Unit × Range :=
  -- data_range.py:83-84
  if r.dataSize < 0 then (.error .osError, r)
  else
    -- data_range.py:86-91
    let target : Res Int :=
      if whence = 1 then .ok (offset + r.cur)
      else if whence = 2 then .ok (offset + r.dataSize)
      else if whence ≠ 0 then .error .osError
      else .ok offset
    match target with
    | .error e => (.error e, r)
    | .ok offset =>
      -- data_range.py:93-96
      if offset < 0 then (.error .osError, r)
      else (.ok (), { r with cur := offset })

/-- `DataRange.tell` and `get_offset`, data_range.py:98-113. -/
def tell (r : Range) : Int := r.cur

/-- `DataRange.get_size`, data_range.py:115-121. -/
def getSize (r : Range) : Int := r.dataSize

/-- A call on a data range. -/
inductive Call
  | read (size : Option Int)
  | seek (offset whence : Int)
  | tell
  | getSize
  deriving DecidableEq, Repr

/-- What a call returns. -/
inductive Out
  | bytes (b : Bytes)
  | int (i : Int)
  | unit
  | raised (e : Err)
  deriving DecidableEq, Repr

/-- Perform one call on a data range. -/
def call (f : File) (r : Range) : Call → Out × File × Range
  | .read size =>
    match read f r size with
    | (.ok b, f, r) => (.bytes b, f, r)
    | (.error e, f, r) => (.raised e, f, r)
  | .seek offset whence =>
    match seek r offset whence with
    | (.ok (), r) => (.unit, f, r)
    | (.error e, r) => (.raised e, f, r)
  | .tell => (.int (tell r), f, r)
  | .getSize => (.int (getSize r), f, r)

/-- What can happen to a file shared by several data ranges: a call on the range with
the given index, or another user moving the position of the parent file. -/
inductive Event
  | call (index : Nat) (c : Call)
  | parentMoved (pos : Nat)
  deriving DecidableEq, Repr

/-- One event on a parent file with the data ranges created over it. -/
def step (f : File) (rs : List Range) : Event → Option Out × File × List Range
  | .parentMoved pos => (none, { f with pos := pos }, rs)
  | .call i c =>
    match rs[i]? with
    | none => (none, f, rs)
    | some r =>
      let (o, f, r) := call f r c
      (some o, f, rs.set i r)

/-- The outputs of a sequence of events, each with the index of the range it is from. -/
def run (f : File) (rs : List Range) : List Event → List (Nat × Out)
  | [] => []
  | e :: es =>
    match step f rs e, e with
    | (some o, f, rs), .call i _ => (i, o) :: run f rs es
    | (_, f, rs), _ => run f rs es

/-- Reading chunks with the given sizes one after the other, stopping at the first
empty result (or when no size is left). -/
def readChunks (f : File) (r : Range) : List Nat → List Bytes × File × Range
  | [] => ([], f, r)
  | n :: ns =>
    match read f r (some n) with
    | (.ok [], f, r) => ([], f, r)
    | (.ok b, f, r) =>
      let (bs, f, r) := readChunks f r ns
      (b :: bs, f, r)
    | (.error _, f, r) => ([], f, r)

end Dtf.DataRange
