import Mathlib.Data.List.Forall2
import Verif.Cpio.Model

/-!
# What a CPIO archive is, by the format rules

An archive is a list of members; each is a header, the path with a zero byte, padding, the content
and padding.  The numbers of ASCII headers may use digits of either case.
-/

namespace Dtf.Cpio
open Py

/-- `b` is a digit with value `d`, of either case. -/
def IsDigit (b : UInt8) (d : Nat) : Prop :=
  (d < 10 ∧ b.toNat = 48 + d) ∨ (10 ≤ d ∧ d < 16 ∧ b.toNat = 97 + (d - 10)) ∨
    (10 ≤ d ∧ d < 16 ∧ b.toNat = 65 + (d - 10))

/-- `t` is a text of the number `v` in the base, with any number of leading zeros. -/
inductive NumText (base : Nat) : Bytes → Nat → Prop
  | nil : NumText base [] 0
  | snoc (t : Bytes) (v : Nat) (b : UInt8) (d : Nat) (h : NumText base t v) (hd : IsDigit b d)
      (hb : d < base) : NumText base (t ++ [b]) (v * base + d)

/-- A member of an archive.  `header` is the header as stored. -/
structure Member where
  header : Bytes
  device : Nat
  inode : Nat
  mode : Nat
  uid : Nat
  gid : Nat
  links : Nat
  special : Nat
  mtime : Nat
  deviceMajor : Nat
  deviceMinor : Nat
  specialMajor : Nat
  specialMinor : Nat
  checksum : Nat
  path : Bytes
  content : Bytes

/-- The 16-bit values of a binary header after the signature. -/
def Member.words (m : Member) : List Nat :=
  [m.device, m.inode, m.mode, m.uid, m.gid, m.links, m.special, m.mtime / 65536, m.mtime % 65536,
    m.path.length + 1, m.content.length / 65536, m.content.length % 65536]

/-- The fields of a portable ASCII header after the signature: widths and values. -/
def Member.odcFields (m : Member) : List (Nat × Nat) :=
  [(6, m.device), (6, m.inode), (6, m.mode), (6, m.uid), (6, m.gid), (6, m.links), (6, m.special),
    (11, m.mtime), (6, m.path.length + 1), (11, m.content.length)]

/-- The fields of a new ASCII header after the signature: widths and values. -/
def Member.newcFields (m : Member) : List (Nat × Nat) :=
  [(8, m.inode), (8, m.mode), (8, m.uid), (8, m.gid), (8, m.links), (8, m.mtime),
    (8, m.content.length), (8, m.deviceMajor), (8, m.deviceMinor), (8, m.specialMajor),
    (8, m.specialMinor), (8, m.path.length + 1), (8, m.checksum)]

/-- The fields as stored. -/
def FieldTexts (base : Nat) (fields : List (Nat × Nat)) (texts : List Bytes) : Prop :=
  List.Forall₂ (fun f t => t.length = f.1 ∧ NumText base t f.2) fields texts

/-- The stored header is a header of the format with the values of the member. -/
def Member.HeaderOk (fmt : Format) (m : Member) : Prop :=
  match fmt with
  | .binBig => m.header = [0x71, 0xC7] ++ m.words.flatMap (beBytes 2) ∧ ∀ w ∈ m.words, w < 65536
  | .binLittle => m.header = [0xC7, 0x71] ++ m.words.flatMap (leBytes 2) ∧ ∀ w ∈ m.words, w < 65536
  | .odc => ∃ texts, FieldTexts 8 m.odcFields texts ∧
      m.header = [48, 55, 48, 55, 48, 55] ++ texts.flatten
  | .newc => ∃ texts, FieldTexts 16 m.newcFields texts ∧
      m.header = [48, 55, 48, 55, 48, 49] ++ texts.flatten
  | .crc => ∃ texts, FieldTexts 16 m.newcFields texts ∧
      m.header = [48, 55, 48, 55, 48, 50] ++ texts.flatten

/-- The member can be stored: its path is ASCII without zero bytes. -/
def Member.Ok (fmt : Format) (m : Member) : Prop :=
  m.HeaderOk fmt ∧ ∀ b ∈ m.path, b ≠ 0 ∧ b.toNat < 128

/-- To which multiple members and contents are aligned. -/
def alignment : Format → Nat
  | .binBig | .binLittle => 2
  | .odc => 1
  | .newc | .crc => 4

/-- `n` rounded up to the alignment. -/
def alignUp (fmt : Format) (n : Nat) : Nat :=
  (n + (alignment fmt - 1)) / alignment fmt * alignment fmt

/-- The offset of the content of a member that begins at `off`. -/
def Member.contentOffset (fmt : Format) (off : Nat) (m : Member) : Nat :=
  alignUp fmt (off + m.header.length + (m.path.length + 1))

/-- The offset after a member that begins at `off`. -/
def Member.endOffset (fmt : Format) (off : Nat) (m : Member) : Nat :=
  alignUp fmt (m.contentOffset fmt off + m.content.length)

/-- The bytes of a member that begins at `off`. -/
def Member.bytes (fmt : Format) (off : Nat) (m : Member) : Bytes :=
  m.header ++ (m.path ++ [0]) ++
    List.replicate (m.contentOffset fmt off - (off + m.header.length + (m.path.length + 1))) 0 ++
    m.content ++
    List.replicate (m.endOffset fmt off - (m.contentOffset fmt off + m.content.length)) 0

/-- The bytes of an archive whose first member begins at `off`. -/
def archiveBytes (fmt : Format) (off : Nat) : List Member → Bytes
  | [] => []
  | m :: ms => m.bytes fmt off ++ archiveBytes fmt (m.endOffset fmt off) ms

/-- What is to be read for a member that begins at `off`. -/
def Member.entry (fmt : Format) (off : Nat) (m : Member) : Entry :=
  { dataOffset := m.contentOffset fmt off, dataSize := m.content.length, gid := m.gid,
    inode := m.inode, mtime := m.mtime, path := m.path, mode := m.mode,
    size := (m.endOffset fmt off : Int) - off, uid := m.uid }

/-- What is to be read for all members. -/
def archiveEntries (fmt : Format) (off : Nat) : List Member → List Entry
  | [] => []
  | m :: ms => m.entry fmt off :: archiveEntries fmt (m.endOffset fmt off) ms

/-- The first entry of every path, in order. -/
def firstOfPath : List Entry → List Entry
  | [] => []
  | e :: es => e :: (firstOfPath es).filter (fun x => x.path ≠ e.path)

/-- A field as the usual writers store it: the digits with leading zeros. -/
def fieldText (base : Nat) : Nat → Nat → Bytes
  | 0, _ => []
  | w + 1, n =>
    fieldText base w (n / base) ++
      [UInt8.ofNat (if n % base < 10 then 48 + n % base else 65 + (n % base - 10))]

end Dtf.Cpio
