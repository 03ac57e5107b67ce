import Verif.Py

/-!
# Model of the reading core of `dtformats/data_format.py`
-/

namespace Dtf.DataFormat
open Py

/-- `BinaryDataFormat._ReadData`, data_format.py:590-632.  The file object is optional
because the code tests for a missing one.  Returns the outcome and the file after the
call. -/
def readData (f : Option File) (fileOffset dataSize : Int) : Res Bytes × Option File :=
  match f with
  -- data_format.py:607-608
  | none => (.error .valueError, none)
  | some f =>
    -- data_format.py:610, outside of the try block
    match f.seekSet fileOffset with
    | .error e => (.error e, some f)
    | .ok f =>
      -- data_format.py:614-632
      let (data, f) := f.read dataSize
      if (data.length : Int) ≠ dataSize then (.error .parseError, some f)
      else (.ok data, some f)

/-- What `MapByteStream` of a dtfabric data type map does with some bytes.  When the byte
stream is too small the context left behind determines the next size hint. -/
inductive MapOutcome (σ : Type)
  | mapped (values : σ)
  | tooSmall (nextHint : Int)
  | mappingError
  deriving DecidableEq, Repr

/-- A dtfabric data type map: the initial size hint and the mapping of bytes.  The
behaviour of the map is arbitrary. -/
structure DataTypeMap (σ : Type) where
  sizeHint : Int
  mapByteStream : Bytes → MapOutcome σ

/-- The loop of `BinaryDataFormat._ReadStructureFromFileObject`, data_format.py:703-744.
`none` means that the fuel did not suffice. -/
def readStructureLoop {σ : Type} (m : DataTypeMap σ) (fileOffset : Int) :
    Nat → File → Bytes → Int → Int → Option (Res (σ × Int) × File)
  | 0, _, _, _, _ => none
  | fuel + 1, f, data, lastDataSize, dataSize =>
    -- data_format.py:708, 741-744
    if dataSize = lastDataSize then some (.error .parseError, f)
    else
      -- data_format.py:709-714
      match readData (some f) (fileOffset + lastDataSize) (dataSize - lastDataSize) with
      | (.error e, f') => some (.error e, f'.getD f)
      | (.ok segment, f') =>
        let f := f'.getD f
        let data := data ++ segment
        -- data_format.py:716-739
        match m.mapByteStream data with
        | .mapped values => some (.ok (values, dataSize), f)
        | .mappingError => some (.error .parseError, f)
        | .tooSmall hint => readStructureLoop m fileOffset fuel f data dataSize hint

/-- `BinaryDataFormat._ReadStructureFromFileObject`, data_format.py:671-744. -/
def readStructure {σ : Type} (m : DataTypeMap σ) (fuel : Nat) (f : File) (fileOffset : Int) :
    Option (Res (σ × Int) × File) :=
  readStructureLoop m fileOffset fuel f [] 0 m.sizeHint

/-- `BinaryDataFormat._ReadStructureFromByteStream`, data_format.py:634-669. -/
def readStructureFromByteStream {σ : Type} (m : Option (DataTypeMap σ)) (byteStream : Bytes) :
    Res σ :=
  -- data_format.py:654-655
  if byteStream = [] then .error .valueError
  else
    match m with
    -- data_format.py:657-658
    | none => .error .valueError
    | some m =>
      -- data_format.py:660-669
      match m.mapByteStream byteStream with
      | .mapped values => .ok values
      | .tooSmall _ => .error .parseError
      | .mappingError => .error .parseError

/-- The state of a `BinaryDataFile` object, data_format.py:848-864: the file object it
holds and whether the object opened it. -/
structure Obj where
  fileObject : Option Nat
  openedInObject : Bool
  deriving DecidableEq, Repr

/-- The file handles the object caused to be opened and that are not closed yet, and the
number of handles opened so far. -/
structure World where
  live : List Nat
  opened : Nat
  deriving DecidableEq, Repr

/-- `BinaryDataFile.__init__`, data_format.py:848-864. -/
def newObj : Obj := ⟨none, false⟩

/-- A call on the object.  `open` carries what the environment does: whether the size of
the file can be determined, whether the file can be opened, and the exception its parsing
raises, if any. -/
inductive Op
  | open (sizeKnown openable : Bool) (parse : Option Err)
  | close
  deriving DecidableEq, Repr

/-- `BinaryDataFile.Open` (data_format.py:881-901) and `Close` (data_format.py:866-879). -/
def stepObj (o : Obj) (w : World) : Op → Res Unit × Obj × World
  | .close =>
    match o.fileObject with
    -- data_format.py:872-873
    | none => (.error .osError, o, w)
    | some h =>
      -- data_format.py:875-879
      let w := if o.openedInObject then { w with live := w.live.erase h } else w
      (.ok (), ⟨none, false⟩, w)
  | .open sizeKnown openable parse =>
    match o.fileObject with
    -- data_format.py:890-891
    | some _ => (.error .osError, o, w)
    | none =>
      -- data_format.py:893-894
      if !sizeKnown then (.error .osError, o, w)
      -- data_format.py:896
      else if !openable then (.error .osError, o, w)
      else
        let h := w.opened
        let w := ⟨h :: w.live, h + 1⟩
        match parse with
        -- data_format.py:898: an exception leaves the method, nothing closes the file
        | some e => (.error e, o, w)
        -- data_format.py:900-901
        | none => (.ok (), ⟨some h, true⟩, w)

/-- A history of calls: the outcomes, the object and the world at the end. -/
def runObj (o : Obj) (w : World) : List Op → List (Res Unit) × Obj × World
  | [] => ([], o, w)
  | op :: ops =>
    let s := stepObj o w op
    let r := runObj s.2.1 s.2.2 ops
    (s.1 :: r.1, r.2)

end Dtf.DataFormat
