import Verif.DataRange.Model

/-!
# Specification of a file held in memory

An independent file: contents and a position.  `size` is the size it reports; for a
window that lies inside its parent it is the length of the contents.
-/

namespace Dtf.DataRange.Spec
open Py

structure MemFile where
  contents : Bytes
  size : Nat
  pos : Nat

/-- Read `n` bytes, or everything that is left. -/
def MemFile.read (m : MemFile) : Option Nat → Bytes × MemFile
  | none => (m.contents.drop m.pos, { m with pos := max m.pos m.contents.length })
  | some n =>
    ((m.contents.drop m.pos).take n,
      { m with pos := m.pos + min n (m.contents.length - m.pos) })

/-- Move the position: relative to the start (0), the position (1) or the end (2). -/
def MemFile.seek (m : MemFile) (offset whence : Int) : Option MemFile :=
  let base : Option Int :=
    if whence = 0 then some 0
    else if whence = 1 then some m.pos
    else if whence = 2 then some m.size
    else none
  base.bind fun b => if 0 ≤ b + offset then some { m with pos := (b + offset).toNat } else none

/-- The bytes of `data` in the window that starts at `offset` and has size `size`. -/
def window (data : Bytes) (offset size : Nat) : Bytes :=
  (data.drop offset).take size

end Dtf.DataRange.Spec

namespace Dtf.DataRange
open Py Spec

/-- The memory file that a range over `data` stands for. -/
def absFile (data : Bytes) (o s p : Nat) : MemFile := ⟨window data o s, s, p⟩

/-- The call as a user of a memory file sees it.  A negative size cannot be expressed. -/
def specCall (m : MemFile) : Call → Out × MemFile
  | .read size =>
    let (b, m) := m.read (size.map Int.toNat)
    (.bytes b, m)
  | .seek offset whence =>
    match m.seek offset whence with
    | some m => (.unit, m)
    | none => (.raised .osError, m)
  | .tell => (.int m.pos, m)
  | .getSize => (.int m.size, m)

def specRun (m : MemFile) : List Call → List Out
  | [] => []
  | c :: cs =>
    let (o, m) := specCall m c
    o :: specRun m cs

/-- The call does not pass a negative read size. -/
def Call.Nonneg : Call → Prop
  | .read (some n) => 0 ≤ n
  | _ => True

/-- The calls of a sequence of events on the range with index `i`. -/
def callsOf (i : Nat) : List Event → List Call
  | [] => []
  | .call j c :: es => if j = i then c :: callsOf i es else callsOf i es
  | .parentMoved _ :: es => callsOf i es

/-- The outputs that belong to the range with index `i`. -/
def outputsOf (i : Nat) (outs : List (Nat × Out)) : List Out :=
  (outs.filter fun p => p.1 = i).map Prod.snd

def Event.Nonneg : Event → Prop
  | .call _ c => c.Nonneg
  | .parentMoved _ => True

end Dtf.DataRange
