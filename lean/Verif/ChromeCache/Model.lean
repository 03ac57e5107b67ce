import Verif.Py
import Verif.Text

/-!
# Chrome cache: hash, addresses, allocation bitmap, index table

Models `dtformats/chrome_cache.py`.
Python integers are unbounded; every value here is non-negative, so `Nat` is used.
-/

namespace Dtf.ChromeCache
open Py

/-- `value & 0xFFFFFFFF`. -/
def mask32 (n : Nat) : Nat := n &&& 0xFFFFFFFF

/-- The 4-byte loop (chrome_cache.py 33-42) followed by the three tail cases
(chrome_cache.py 44-64).  The code walks an index over the key; here the remaining key is the
argument, so that the tail cases are the patterns of length 3, 2, 1 and 0. -/
def sfhLoop (h : Nat) : Bytes → Nat
  | k0 :: k1 :: k2 :: k3 :: rest =>
    let h := mask32 (h + (k0.toNat + (k1.toNat <<< 8)))
    let t := k2.toNat + (k3.toNat <<< 8)
    let t := mask32 (t <<< 11) ^^^ h
    let h := mask32 (h <<< 16) ^^^ t
    let h := mask32 (h + (h >>> 11))
    sfhLoop h rest
  | [k0, k1, k2] =>
    let h := mask32 (h + (k0.toNat + (k1.toNat <<< 8)))
    let h := h ^^^ mask32 (h <<< 16)
    let h := h ^^^ mask32 (k2.toNat <<< 18)
    mask32 (h + (h >>> 11))
  | [k0, k1] =>
    let h := mask32 (h + (k0.toNat + (k1.toNat <<< 8)))
    let h := h ^^^ mask32 (h <<< 11)
    mask32 (h + (h >>> 17))
  | [k0] =>
    let h := mask32 (h + k0.toNat)
    let h := h ^^^ mask32 (h <<< 10)
    mask32 (h + (h >>> 1))
  | [] => h

/-- The final avalanche (chrome_cache.py 66-72). -/
def sfhFinal (h : Nat) : Nat :=
  let h := h ^^^ mask32 (h <<< 3)
  let h := mask32 (h + (h >>> 5))
  let h := h ^^^ mask32 (h <<< 4)
  let h := mask32 (h + (h >>> 17))
  let h := h ^^^ mask32 (h <<< 25)
  mask32 (h + (h >>> 6))

/-- `SuperFastHash` (chrome_cache.py 13-74). -/
def superFastHash (key : Bytes) : Nat :=
  match key with
  | [] => 0
  | _ => sfhFinal (sfhLoop (mask32 key.length) key)

/-- `CacheAddress` attributes (chrome_cache.py 77-142). -/
structure CacheAddress where
  value : Nat
  isInitialized : Bool
  fileType : Nat
  filename : Option (List Char)
  blockNumber : Option Nat
  blockOffset : Option Nat
  blockSize : Option Nat
deriving DecidableEq, Repr

/-- `_FILE_TYPE_BLOCK_SIZES` (chrome_cache.py 109). -/
def blockSizes : List Nat := [0, 36, 256, 1024, 4096]

/-- `CacheAddress.__init__` (chrome_cache.py 111-142). -/
def cacheAddress (a : Nat) : CacheAddress :=
  let isInit := decide (a &&& 0x80000000 ≠ 0)
  let fileType := (a &&& 0x70000000) >>> 28
  if a ≠ 0 then
    if fileType = 0 then
      { value := a, isInitialized := isInit, fileType := fileType,
        filename := some ("f_".toList ++ Text.zpad 6 (Text.digits 16 (a &&& 0x0FFFFFFF))),
        blockNumber := none, blockOffset := none, blockSize := none }
    else if fileType ∈ [1, 2, 3, 4] then
      { value := a, isInitialized := isInit, fileType := fileType,
        filename := some ("data_".toList ++ Text.digits 10 ((a &&& 0x00FF0000) >>> 16)),
        blockNumber := some (a &&& 0x0000FFFF),
        blockSize := some (((a &&& 0x03000000) >>> 24) * blockSizes.getD fileType 0),
        blockOffset := some (8192 + (a &&& 0x0000FFFF) * blockSizes.getD fileType 0) }
    else
      { value := a, isInitialized := isInit, fileType := fileType, filename := none,
        blockNumber := none, blockOffset := none, blockSize := none }
  else
    { value := a, isInitialized := isInit, fileType := fileType, filename := none,
      blockNumber := none, blockOffset := none, blockSize := none }

/-- `CacheAddress.GetDebugString` (chrome_cache.py 144-168), reduced to whether it returns.
The format code `:s` (or `:d`) applied to `None` raises TypeError. -/
def getDebugStringOutcome (c : CacheAddress) : Res Unit :=
  if c.value = 0 then .ok ()
  else if c.fileType = 0 then
    match c.filename with
    | some _ => .ok ()
    | none => .error .typeError
  else
    match c.filename, c.blockNumber, c.blockOffset, c.blockSize with
    | some _, some _, some _, some _ => .ok ()
    | _, _, _, _ => .error .typeError

/-- Loop variables of `_DebugPrintAllocationBitmap` (chrome_cache.py 237-240) and the ranges
printed so far, most recent first. -/
structure BitmapState where
  number : Nat
  start : Nat
  stop : Nat
  inRange : Bool
  out : List (Nat × Nat)
deriving DecidableEq, Repr

/-- The inner loop body for one bit (chrome_cache.py 243-266). -/
def bitmapStep (s : BitmapState) (bit : Bool) : BitmapState :=
  if bit then
    let s := if !s.inRange then { s with start := s.number, stop := s.number, inRange := true } else s
    { s with stop := s.stop + 1, number := s.number + 1 }
  else if s.inRange then
    { s with inRange := false, out := (s.start, s.stop) :: s.out, number := s.number + 1 }
  else { s with number := s.number + 1 }

/-- The inner loop: `value_32bit & 1`, then `value_32bit >>= 1`, 32 times. -/
def bitmapWord (s : BitmapState) (word : Nat) : Nat → BitmapState
  | 0 => s
  | n + 1 => bitmapWord (bitmapStep s (decide (word &&& 1 ≠ 0))) (word >>> 1) n

/-- `_DebugPrintAllocationBitmap` (chrome_cache.py 231-266): the printed ranges in order. -/
def bitmapRanges (words : List Nat) : List (Nat × Nat) :=
  (words.foldl (fun s w => bitmapWord s w 32) ⟨0, 0, 0, false, []⟩).out.reverse

/-- `_ReadIndexTable` (chrome_cache.py 575-615): reads 4 bytes at a time until a short read.
The dictionary is returned as its insertion-ordered list of items.  Reading happens on the bytes
after the header, which is where the file object stands. -/
def readIndexTable (index : Nat) : Bytes → List (Nat × CacheAddress)
  | b0 :: b1 :: b2 :: b3 :: rest =>
    let value := leNat [b0, b1, b2, b3]
    if value ≠ 0 then (index, cacheAddress value) :: readIndexTable (index + 1) rest
    else readIndexTable (index + 1) rest
  | _ => []

/-- The entry chain of `ParseDirectory` (chrome_cache.py 700-742): follows `next` from a cache
address until the address is zero, the data file is missing or 64 entries were read.  `lookup`
answers the address of the next entry, or `none` when the data file is missing.
The result is the list of addresses visited. -/
def entryChain (lookup : Nat → Option Nat) : Nat → Nat → List Nat
  | 0, _ => []
  | n + 1, a =>
    if a = 0 then []
    else match lookup a with
      | none => []
      | some next => a :: entryChain lookup n next

/-- The chain of one index entry: at most 64 entries (chrome_cache.py 702-706). -/
def parseChain (lookup : Nat → Option Nat) (a : Nat) : List Nat := entryChain lookup 64 a

end Dtf.ChromeCache
