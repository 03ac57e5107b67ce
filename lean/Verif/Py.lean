/-!
# The parts of Python the modelled code relies on

Bytes, slices, exceptions as values, and file objects.  These definitions are part of
the trusted base: they are what the model assumes about the Python run-time.
-/

namespace Py

/-- Python `bytes`. -/
abbrev Bytes := List UInt8

/-- The exceptions the modelled code raises or lets through. -/
inductive Err
  | osError
  | parseError
  | valueError
  | indexError
  | typeError
  | attributeError
  | keyError
  | runtimeError
  | unicodeError
  | unboundLocalError
  | recursionError
  | zeroDivisionError
  | libraryError
  deriving DecidableEq, Repr

/-- The outcome of a Python call: a value or a raised exception. -/
abbrev Res (α : Type) := Except Err α

deriving instance DecidableEq for Except

/-- A seekable file object opened for reading: its contents and its position. -/
structure File where
  data : Bytes
  pos : Nat
  deriving DecidableEq, Repr

namespace File

/-- `file.seek(offset, os.SEEK_SET)`: a negative offset is an `OSError` (EINVAL). -/
def seekSet (f : File) (offset : Int) : Res File :=
  if offset < 0 then .error .osError else .ok { f with pos := offset.toNat }

/-- `file.read(size)`: a negative size means everything up to the end of the file. -/
def read (f : File) (size : Int) : Bytes × File :=
  let rest := f.data.drop f.pos
  let out := if size < 0 then rest else rest.take size.toNat
  (out, { f with pos := f.pos + out.length })

end File

/-- `data[a:b]` for non-negative `a` and `b`. -/
def slice {α : Type} (l : List α) (a b : Nat) : List α := (l.take b).drop a

/-- The index a Python slice bound denotes in a sequence of length `n`. -/
def sliceIndex (n : Nat) (i : Int) : Nat :=
  if i < 0 then (i + n).toNat else min i.toNat n

/-- `data[a:b]` for arbitrary integer bounds. -/
def sliceInt {α : Type} (l : List α) (a b : Int) : List α :=
  slice l (sliceIndex l.length a) (sliceIndex l.length b)

/-- The value of bytes read as a little-endian unsigned integer. -/
def leNat : Bytes → Nat
  | [] => 0
  | b :: bs => b.toNat + 256 * leNat bs

/-- The value of bytes read as a big-endian unsigned integer. -/
def beNat (bs : Bytes) : Nat := bs.foldl (fun acc b => acc * 256 + b.toNat) 0

/-- Little-endian bytes of a number, `width` of them. -/
def leBytes : Nat → Nat → Bytes
  | 0, _ => []
  | w + 1, n => UInt8.ofNat n :: leBytes w (n / 256)

/-- Big-endian bytes of a number, `width` of them. -/
def beBytes (w n : Nat) : Bytes := (leBytes w n).reverse

@[simp] theorem leBytes_length (w n : Nat) : (leBytes w n).length = w := by
  induction w generalizing n with
  | zero => rfl
  | succ w ih => simp [leBytes, ih]

@[simp] theorem beBytes_length (w n : Nat) : (beBytes w n).length = w := by
  simp [beBytes]

theorem leNat_leBytes (w n : Nat) : leNat (leBytes w n) = n % 256 ^ w := by
  induction w generalizing n with
  | zero => simp [leBytes, leNat, Nat.mod_one]
  | succ w ih =>
    have h : 256 ^ (w + 1) = 256 * 256 ^ w := by rw [Nat.pow_succ, Nat.mul_comm]
    rw [leBytes, leNat, ih, UInt8.toNat_ofNat', h, Nat.mod_mul]

theorem leNat_lt (bs : Bytes) : leNat bs < 256 ^ bs.length := by
  induction bs with
  | nil => simp [leNat]
  | cons b bs ih =>
    have := b.toNat_lt
    simp only [leNat, List.length_cons, Nat.pow_succ]
    omega

theorem leBytes_leNat (bs : Bytes) : leBytes bs.length (leNat bs) = bs := by
  induction bs with
  | nil => rfl
  | cons b bs ih =>
    have hb := b.toNat_lt
    have h1 : (b.toNat + 256 * leNat bs) / 256 = leNat bs := by omega
    have h2 : UInt8.ofNat (b.toNat + 256 * leNat bs) = b := by
      apply UInt8.toNat_inj.mp
      rw [UInt8.toNat_ofNat']
      omega
    simp only [List.length_cons, leNat, leBytes, h1, h2, ih]

theorem leNat_append (a b : Bytes) : leNat (a ++ b) = leNat a + 256 ^ a.length * leNat b := by
  induction a with
  | nil => simp [leNat]
  | cons x a ih =>
    simp only [List.cons_append, leNat, ih, List.length_cons, Nat.pow_succ, Nat.mul_add]
    rw [Nat.mul_comm (256 ^ a.length) 256, Nat.mul_assoc]
    omega

theorem beNat_eq_leNat_reverse (bs : Bytes) : beNat bs = leNat bs.reverse := by
  unfold beNat
  suffices h : ∀ (l : Bytes) (acc : Nat),
      l.foldl (fun acc b => acc * 256 + b.toNat) acc = leNat l.reverse + 256 ^ l.length * acc by
    simpa using h bs 0
  intro l
  induction l with
  | nil => intro acc; simp [leNat]
  | cons b l ih =>
    intro acc
    rw [List.foldl_cons, ih, List.reverse_cons, leNat_append]
    simp only [leNat, List.length_cons, List.length_reverse, Nat.pow_succ, Nat.mul_zero,
      Nat.add_zero, Nat.mul_add]
    have : 256 ^ l.length * (acc * 256) = 256 ^ l.length * 256 * acc := by
      rw [Nat.mul_comm acc 256, Nat.mul_assoc]
    omega

theorem beNat_beBytes (w n : Nat) : beNat (beBytes w n) = n % 256 ^ w := by
  rw [beNat_eq_leNat_reverse, beBytes, List.reverse_reverse, leNat_leBytes]

theorem beNat_lt (bs : Bytes) : beNat bs < 256 ^ bs.length := by
  rw [beNat_eq_leNat_reverse]
  simpa using leNat_lt bs.reverse

theorem slice_eq_take_drop {α : Type} (l : List α) (a b : Nat) :
    slice l a b = (l.drop a).take (b - a) := by
  unfold slice
  rw [List.drop_take]

@[simp] theorem slice_length {α : Type} (l : List α) (a b : Nat) :
    (slice l a b).length = min b l.length - a := by
  simp [slice]

end Py
