import Verif.Py

/-!
# Model of `dtformats/prefetch.py`

The functions take the bytes of `path.upper().encode("utf-16-le")`; upper-casing and the
encoding are not modelled.
-/

namespace Dtf.Prefetch
open Py

/-- `CalculatePrefetchHashXP`, prefetch.py:4-25. -/
def hashXP (path : Bytes) : Int :=
  -- prefetch.py:13-18
  let h := path.foldl (fun (h : Int) b => ((h * 37) + b.toNat) % 0x100000000) 0
  -- prefetch.py:20
  let h := (h * 314159269) % 0x100000000
  -- prefetch.py:22-23
  let h := if h > 0x80000000 then 0x100000000 - h else h
  -- prefetch.py:25
  ((h.natAbs : Int) % 1000000007) % 0x100000000

/-- `CalculatePrefetchHashVista`, prefetch.py:28-44. -/
def hashVista (path : Bytes) : Int :=
  path.foldl (fun (h : Int) b => ((h * 37) + b.toNat) % 0x100000000) 314159

/-- The second loop of `CalculatePrefetchHash2008`, prefetch.py:83-86. -/
def tail2008 (h : Int) : Bytes → Int
  | [] => h
  | b :: bs => tail2008 (((37 * h) + b.toNat) % 0x100000000) bs

/-- The loops of `CalculatePrefetchHash2008`, prefetch.py:62-88, on the bytes from
`path_index` on.  The condition `path_index + 8 < path_length` says that at least nine
bytes remain. -/
def loop2008 (h : Int) : Bytes → Int
  | b0 :: b1 :: b2 :: b3 :: b4 :: b5 :: b6 :: b7 :: b8 :: rest =>
    -- prefetch.py:63-75
    let block : Int := b1.toNat
    let block := block * 37 + b2.toNat
    let block := block * 37 + b3.toNat
    let block := block * 37 + b4.toNat
    let block := block * 37 + b5.toNat
    let block := block * 37 + b6.toNat
    let block := block * 37 + b7.toNat
    -- prefetch.py:77
    let block := block + b0.toNat * 442596621
    -- prefetch.py:79-81
    loop2008 ((block - (h * 803794207)) % 0x100000000) (b8 :: rest)
  | bs => tail2008 h bs

/-- `CalculatePrefetchHash2008`, prefetch.py:47-88. -/
def hash2008 (path : Bytes) : Int := loop2008 314159 path

end Dtf.Prefetch
