import Verif.Unified.Values
import Verif.Unified.Chunks
import Verif.Fields

/-!
# The catalog of a tracev3 file (C121, C122)

`_ReadCatalog`, `_BuildCatalogProcessInformationEntries`, `_GetCatalogSubSystemStringMap`, `_GetSubSystemStrings` and
`_GetProcessImageValues` of dtformats/unified_logging.py.
-/

namespace Dtf.Unified
open Py Formats Text DataFormat

/-! ## Model: reading a catalog -/

/-- `int16` (aul_tracev3.yaml 29-34). -/
def int16 (b : Bytes) : Option (Int × Bytes) := (num 2 b).map (fun r => (signed 2 r.1, r.2))

/-- `tracev3_catalog_uuid_entry` (aul_tracev3.yaml 214-228). -/
structure ImageEntry where
  size : Nat
  unknown : Nat
  index : Nat
  lower : Nat
  upper : Nat
deriving DecidableEq, Repr

def parseImage (b : Bytes) : Option (ImageEntry × Bytes) := do
  let (size, b) ← num 4 b
  let (unknown, b) ← num 4 b
  let (index, b) ← num 2 b
  let (lower, b) ← num 4 b
  let (upper, b) ← num 2 b
  return (⟨size, unknown, index, lower, upper⟩, b)

/-- `tracev3_catalog_sub_system_entry` (aul_tracev3.yaml 231-241). -/
structure SubEntry where
  identifier : Nat
  subSystem : Nat
  category : Nat
deriving DecidableEq, Repr

def parseSub (b : Bytes) : Option (SubEntry × Bytes) := do
  let (identifier, b) ← num 2 b
  let (subSystem, b) ← num 2 b
  let (category, b) ← num 2 b
  return (⟨identifier, subSystem, category⟩, b)

/-- `tracev3_catalog_process_information_entry` (aul_tracev3.yaml 244-285). -/
structure Process where
  index : Nat
  unknown1 : Nat
  main : Int
  dsc : Int
  upper : Nat
  lower : Nat
  pid : Nat
  euid : Nat
  unknown2 : Nat
  unknown3 : Nat
  images : List ImageEntry
  unknown4 : Nat
  subs : List SubEntry
deriving DecidableEq, Repr

/-- The members before the numbers of entries: index, unknown, indexes of the images, process identifier and others. -/
def parseStart (b : Bytes) : Option ((Nat × Nat × Int × Int × Nat × Nat) × Bytes) := do
  let (index, b) ← num 2 b
  let (unknown1, b) ← num 2 b
  let (main, b) ← int16 b
  let (dsc, b) ← int16 b
  let (upper, b) ← num 8 b
  let (lower, b) ← num 4 b
  return ((index, unknown1, main, dsc, upper, lower), b)

/-- The members after these. -/
def parseRest (b : Bytes) : Option ((Nat × Nat × Nat × Nat × List ImageEntry × Nat × List SubEntry) × Bytes) := do
  let (pid, b) ← num 4 b
  let (euid, b) ← num 4 b
  let (unknown2, b) ← num 4 b
  let (n, b) ← num 4 b
  let (unknown3, b) ← num 4 b
  let (images, b) ← several parseImage n b
  let (m, b) ← num 4 b
  let (unknown4, b) ← num 4 b
  let (subs, b) ← several parseSub m b
  return ((pid, euid, unknown2, unknown3, images, unknown4, subs), b)

/-- The members before the padding. -/
def parseMembers (b : Bytes) : Option (Process × Bytes) := do
  let ((index, unknown1, main, dsc, upper, lower), b) ← parseStart b
  let ((pid, euid, unknown2, unknown3, images, unknown4, subs), b) ← parseRest b
  return (⟨index, unknown1, main, dsc, upper, lower, pid, euid, unknown2, unknown3, images, unknown4, subs⟩, b)

/-- Padding to a multiple of eight bytes from the start of the structure. -/
def padded {α : Type} (read : Bytes → Option (α × Bytes)) (b : Bytes) : Option (α × Bytes) :=
  match read b with
  | none => none
  | some (x, rest) =>
    match raw (align8 (b.length - rest.length) - (b.length - rest.length)) rest with
    | none => none
    | some (_, rest) => some (x, rest)

def parseProcess : Bytes → Option (Process × Bytes) := padded parseMembers

/-- `tracev3_catalog_sub_chunk` (aul_tracev3.yaml 288-315): times, size, algorithm, indexes and offsets. -/
structure SubChunk where
  start : Nat
  stop : Nat
  size : Nat
  algorithm : Nat
  indexes : List Nat
  offsets : List Nat
deriving DecidableEq, Repr

def parseSubChunkMembers (b : Bytes) : Option (SubChunk × Bytes) := do
  let (start, b) ← num 8 b
  let (stop, b) ← num 8 b
  let (size, b) ← num 4 b
  let (algorithm, b) ← num 4 b
  let (n, b) ← num 4 b
  let (indexes, b) ← several (num 2) n b
  let (m, b) ← num 4 b
  let (offsets, b) ← several (num 2) m b
  return (⟨start, stop, size, algorithm, indexes, offsets⟩, b)

def parseSubChunk : Bytes → Option (SubChunk × Bytes) := padded parseSubChunkMembers

/-- The strings in an area of the given bytes: each up to its end-of-string character.  A string without one does
not fit in the area. -/
def splitStrings : Nat → Bytes → Option (List Bytes)
  | 0, _ => none
  | fuel + 1, b =>
    if b = [] then some []
    else match cstr b with
      | none => none
      | some s => (splitStrings fuel (b.drop (s.length + 1))).map (s :: ·)

/-- What is used of a catalog. -/
structure Catalog where
  uuids : List Bytes
  strings : List (List Char)
  processes : List Process
deriving DecidableEq, Repr

/-- The decoded strings; a string that is not UTF-8 is a mapping error of dtfabric. -/
def decodeStrings (utf8 : Bytes → Option (List Char)) : List Bytes → Option (List (List Char))
  | [] => some []
  | s :: ss => do
    let t ← utf8 s
    let ts ← decodeStrings utf8 ss
    return t :: ts

/-- `tracev3_catalog` (aul_tracev3.yaml 318-347): the UUIDs, the strings, the number of processes and of sub chunks.
An offset of the strings that is not a multiple of sixteen is taken for an error. -/
def parseHeader (utf8 : Bytes → Option (List Char)) (b : Bytes) :
    Option ((List Bytes × List (List Char) × Nat × Nat) × Bytes) := do
  let (strings, b) ← num 2 b
  let (processes, b) ← num 2 b
  let (numberOfProcesses, b) ← num 2 b
  let (_, b) ← num 2 b
  let (numberOfSubChunks, b) ← num 2 b
  let (_, b) ← raw 6 b
  let (_, b) ← num 8 b
  if strings % 16 ≠ 0 ∨ processes < strings then none
  else do
    let (uuids, b) ← several (raw 16) (strings / 16) b
    let (area, b) ← raw (processes - strings) b
    let split ← splitStrings (area.length + 1) area
    let texts ← decodeStrings utf8 split
    return ((uuids, texts, numberOfProcesses, numberOfSubChunks), b)

/-- `_ReadCatalog` (unified_logging.py 3519-3590), from the data of the catalog on.  A structure that is read from a
file is made of the bytes from its offset on (C07); every structure starts where the one before it ends.  The sub
chunks are read and not kept. -/
def readCatalog (utf8 : Bytes → Option (List Char)) (b : Bytes) : Res (Catalog × Bytes) :=
  match (do
    let ((uuids, strings, n, m), b) ← parseHeader utf8 b
    let (processes, b) ← several parseProcess n b
    let (_, b) ← several parseSubChunk m b
    return ((⟨uuids, strings, processes⟩ : Catalog), b)) with
  | none => .error .parseError
  | some r => .ok r

/-! ## Model: what is made of a catalog -/

/-- A process with the identifiers of its images: attributes that are only set if the index is not negative. -/
structure ProcessInfo where
  entry : Process
  main : Option Bytes
  dsc : Option Bytes
deriving DecidableEq, Repr

/-- The identifier of an index of the catalog (unified_logging.py 2653-2661). -/
def uuidAt (uuids : List Bytes) (index : Int) : Res (Option Bytes) :=
  if index ≥ 0 then
    match uuids[index.toNat]? with
    | none => .error .indexError
    | some u => .ok (some u)
  else .ok none

/-- The key of a process (unified_logging.py 2678-2681, 3929-3931). -/
def processKey (upper lower : Nat) : List Char := Formats.dec upper ++ '@' :: Formats.dec lower

/-- A round of the loop of `_BuildCatalogProcessInformationEntries` (unified_logging.py 2652-2687). -/
def addProcess (uuids : List Bytes) (table : List (List Char × ProcessInfo)) (p : Process) :
    Res (List (List Char × ProcessInfo)) :=
  match uuidAt uuids p.main with
  | .error e => .error e
  | .ok main =>
    match uuidAt uuids p.dsc with
    | .error e => .error e
    | .ok dsc =>
      if (table.lookup (processKey p.upper p.lower)).isSome then .error .parseError
      else .ok ((processKey p.upper p.lower, ⟨p, main, dsc⟩) :: table)

/-- The loop of `_BuildCatalogProcessInformationEntries` (unified_logging.py 2639-2687). -/
def buildProcesses (uuids : List Bytes) : List (List Char × ProcessInfo) → List Process →
    Res (List (List Char × ProcessInfo))
  | table, [] => .ok table
  | table, p :: ps =>
    match addProcess uuids table p with
    | .error e => .error e
    | .ok table => buildProcesses uuids table ps

/-- `_GetCatalogSubSystemStringMap` (unified_logging.py 3043-3059): the offset goes on by the number of
characters and one. -/
def stringMap : Nat → List (List Char) → List (Nat × List Char)
  | _, [] => []
  | offset, s :: ss => (offset, s) :: stringMap (offset + s.length + 1) ss

/-- `_GetSubSystemStrings` (unified_logging.py 3302-3333): category and sub system. -/
def subSystemStrings (strings : List (Nat × List Char)) (process : Option ProcessInfo) (identifier : Option Nat) :
    Option (List Char) × Option (List Char) :=
  match process, identifier with
  | some p, some i =>
    p.entry.subs.foldl (fun found s =>
      if s.identifier = i then (strings.lookup s.category, strings.lookup s.subSystem) else found) (none, none)
  | _, _ => (none, none)

/-- `_GetProcessImageValues` (unified_logging.py 3274-3300): identifier and path of the image of a process; `path` is
the path in the uuidtext file of an identifier, if there is such a file.  An entry without main UUID has no such
attribute. -/
def processImage (path : Bytes → Option (List Char)) (process : Option ProcessInfo) :
    Res (Option Bytes × Option (List Char)) :=
  match process with
  | none => .ok (none, none)
  | some p =>
    match p.main with
    | none => .error .attributeError
    | some u =>
      match path u with
      | none => .ok (none, none)
      | some text => .ok (some u, some text)

/-! ## Specification: reading a catalog -/

def ImageEntry.bytes (i : ImageEntry) : Bytes :=
  leBytes 4 i.size ++ (leBytes 4 i.unknown ++ (leBytes 2 i.index ++ (leBytes 4 i.lower ++ leBytes 2 i.upper)))

def ImageEntry.Ok (i : ImageEntry) : Prop :=
  i.size < 2 ^ 32 ∧ i.unknown < 2 ^ 32 ∧ i.index < 2 ^ 16 ∧ i.lower < 2 ^ 32 ∧ i.upper < 2 ^ 16

def SubEntry.bytes (s : SubEntry) : Bytes := leBytes 2 s.identifier ++ (leBytes 2 s.subSystem ++ leBytes 2 s.category)

def SubEntry.Ok (s : SubEntry) : Prop := s.identifier < 2 ^ 16 ∧ s.subSystem < 2 ^ 16 ∧ s.category < 2 ^ 16

/-- The entry of a process (documentation, section on the catalog process information entry), before the padding. -/
def Process.members (p : Process) : Bytes :=
  leBytes 2 p.index ++ (leBytes 2 p.unknown1 ++ (leBytes 2 (unsigned 2 p.main) ++ (leBytes 2 (unsigned 2 p.dsc) ++
    (leBytes 8 p.upper ++ (leBytes 4 p.lower ++ (leBytes 4 p.pid ++ (leBytes 4 p.euid ++ (leBytes 4 p.unknown2 ++
      (leBytes 4 p.images.length ++ (leBytes 4 p.unknown3 ++ (p.images.flatMap ImageEntry.bytes ++
        (leBytes 4 p.subs.length ++ (leBytes 4 p.unknown4 ++ p.subs.flatMap SubEntry.bytes)))))))))))))

structure Process.Ok (p : Process) : Prop where
  index : p.index < 2 ^ 16
  unknown1 : p.unknown1 < 2 ^ 16
  main : -2 ^ 15 ≤ p.main ∧ p.main < 2 ^ 15
  dsc : -2 ^ 15 ≤ p.dsc ∧ p.dsc < 2 ^ 15
  upper : p.upper < 2 ^ 64
  lower : p.lower < 2 ^ 32
  pid : p.pid < 2 ^ 32
  euid : p.euid < 2 ^ 32
  unknown2 : p.unknown2 < 2 ^ 32
  unknown3 : p.unknown3 < 2 ^ 32
  unknown4 : p.unknown4 < 2 ^ 32
  images : p.images.length < 2 ^ 32 ∧ ∀ i ∈ p.images, i.Ok
  subs : p.subs.length < 2 ^ 32 ∧ ∀ s ∈ p.subs, s.Ok

def SubChunk.members (c : SubChunk) : Bytes :=
  leBytes 8 c.start ++ (leBytes 8 c.stop ++ (leBytes 4 c.size ++ (leBytes 4 c.algorithm ++ (leBytes 4 c.indexes.length ++
    (c.indexes.flatMap (leBytes 2) ++ (leBytes 4 c.offsets.length ++ c.offsets.flatMap (leBytes 2)))))))

structure SubChunk.Ok (c : SubChunk) : Prop where
  start : c.start < 2 ^ 64
  stop : c.stop < 2 ^ 64
  size : c.size < 2 ^ 32
  algorithm : c.algorithm < 2 ^ 32
  indexes : c.indexes.length < 2 ^ 32 ∧ ∀ i ∈ c.indexes, i < 2 ^ 16
  offsets : c.offsets.length < 2 ^ 32 ∧ ∀ i ∈ c.offsets, i < 2 ^ 16

/-- Bytes and what fills them up to the next multiple of eight. -/
def Filled (members filled : Bytes) : Prop :=
  ∃ fill : Bytes, filled = members ++ fill ∧ fill.length < 8 ∧ filled.length % 8 = 0

def stringArea (ss : List Bytes) : Bytes := ss.flatMap (fun s => s ++ [0])

def headerBytes (uuids ss : List Bytes) (processes subChunks subOffset time : Nat) (reserved : Bytes) : Bytes :=
  leBytes 2 (16 * uuids.length) ++ (leBytes 2 (16 * uuids.length + (stringArea ss).length) ++ (leBytes 2 processes ++
    (leBytes 2 subOffset ++ (leBytes 2 subChunks ++ (reserved ++ (leBytes 8 time ++ (uuids.flatten ++
      stringArea ss)))))))

/-! ## Proofs: reading a catalog -/

theorem several_bytes {α : Type} (read : Bytes → Option (α × Bytes)) (items : List (Bytes × α))
    (h : ∀ i ∈ items, ∀ rest, read (i.1 ++ rest) = some (i.2, rest)) (rest : Bytes) :
    several read items.length ((items.map (·.1)).flatten ++ rest) = some (items.map (·.2), rest) := by
  induction items with
  | nil => rfl
  | cons i is ih =>
    simp only [List.length_cons, several, List.map_cons, List.flatten_cons, List.append_assoc]
    rw [h i (by simp)]
    simp only [Option.bind_eq_bind, Option.bind_some]
    rw [ih (fun j hj => h j (by simp [hj]))]
    rfl

theorem several_flatMap {α : Type} (read : Bytes → Option (α × Bytes)) (enc : α → Bytes) (l : List α)
    (h : ∀ x ∈ l, ∀ rest, read (enc x ++ rest) = some (x, rest)) (rest : Bytes) :
    several read l.length (l.flatMap enc ++ rest) = some (l, rest) := by
  induction l with
  | nil => rfl
  | cons x l ih =>
    simp only [List.length_cons, several, List.flatMap_cons, List.append_assoc]
    rw [h x (by simp)]
    simp only [Option.bind_eq_bind, Option.bind_some]
    rw [ih (fun j hj => h j (by simp [hj]))]
    rfl

theorem parseImage_bytes (i : ImageEntry) (h : i.Ok) (rest : Bytes) : parseImage (i.bytes ++ rest) = some (i, rest) := by
  obtain ⟨h1, h2, h3, h4, h5⟩ := h
  unfold parseImage ImageEntry.bytes
  simp only [List.append_assoc]
  rw [num_bytes 4 _ h1]
  simp only [Option.bind_eq_bind, Option.bind_some]
  rw [num_bytes 4 _ h2, Option.bind_some, num_bytes 2 _ h3, Option.bind_some, num_bytes 4 _ h4, Option.bind_some,
    num_bytes 2 _ h5]
  rfl

theorem parseSub_bytes (s : SubEntry) (h : s.Ok) (rest : Bytes) : parseSub (s.bytes ++ rest) = some (s, rest) := by
  obtain ⟨h1, h2, h3⟩ := h
  unfold parseSub SubEntry.bytes
  simp only [List.append_assoc]
  rw [num_bytes 2 _ h1]
  simp only [Option.bind_eq_bind, Option.bind_some]
  rw [num_bytes 2 _ h2, Option.bind_some, num_bytes 2 _ h3]
  rfl

theorem int16_bytes (i : Int) (h : -2 ^ 15 ≤ i ∧ i < 2 ^ 15) (rest : Bytes) :
    int16 (leBytes 2 (unsigned 2 i) ++ rest) = some (i, rest) := by
  unfold int16
  rw [num_bytes 2 _ (unsigned_lt 2 i)]
  simp only [Option.map_some]
  rw [signed_unsigned 2 i (by norm_num; omega) (by norm_num; omega)]

theorem parseStart_bytes (p : Process) (h : p.Ok) (rest : Bytes) :
    parseStart (leBytes 2 p.index ++ (leBytes 2 p.unknown1 ++ (leBytes 2 (unsigned 2 p.main) ++
      (leBytes 2 (unsigned 2 p.dsc) ++ (leBytes 8 p.upper ++ (leBytes 4 p.lower ++ rest)))))) =
        some ((p.index, p.unknown1, p.main, p.dsc, p.upper, p.lower), rest) := by
  unfold parseStart
  rw [num_bytes 2 _ h.index]
  simp only [Option.bind_eq_bind, Option.bind_some]
  rw [num_bytes 2 _ h.unknown1, Option.bind_some, int16_bytes _ h.main, Option.bind_some, int16_bytes _ h.dsc,
    Option.bind_some, num_bytes 8 _ h.upper, Option.bind_some, num_bytes 4 _ h.lower]
  rfl

theorem parseRest_bytes (p : Process) (h : p.Ok) (rest : Bytes) :
    parseRest (leBytes 4 p.pid ++ (leBytes 4 p.euid ++ (leBytes 4 p.unknown2 ++
      (leBytes 4 p.images.length ++ (leBytes 4 p.unknown3 ++ (p.images.flatMap ImageEntry.bytes ++
        (leBytes 4 p.subs.length ++ (leBytes 4 p.unknown4 ++ (p.subs.flatMap SubEntry.bytes ++ rest))))))))) =
      some ((p.pid, p.euid, p.unknown2, p.unknown3, p.images, p.unknown4, p.subs), rest) := by
  unfold parseRest
  rw [num_bytes 4 _ h.pid]
  simp only [Option.bind_eq_bind, Option.bind_some]
  rw [num_bytes 4 _ h.euid, Option.bind_some, num_bytes 4 _ h.unknown2,
    Option.bind_some, num_bytes 4 _ h.images.1, Option.bind_some, num_bytes 4 _ h.unknown3, Option.bind_some,
    several_flatMap parseImage ImageEntry.bytes _ (fun i hi rest => parseImage_bytes i (h.images.2 i hi) rest),
    Option.bind_some, num_bytes 4 _ h.subs.1, Option.bind_some, num_bytes 4 _ h.unknown4, Option.bind_some,
    several_flatMap parseSub SubEntry.bytes _ (fun i hi rest => parseSub_bytes i (h.subs.2 i hi) rest)]
  rfl

theorem parseMembers_bytes (p : Process) (h : p.Ok) (rest : Bytes) :
    parseMembers (p.members ++ rest) = some (p, rest) := by
  unfold parseMembers Process.members
  simp only [List.append_assoc]
  rw [parseStart_bytes p h, Option.bind_eq_bind, Option.bind_some]
  simp only
  rw [parseRest_bytes p h]
  rfl

theorem padded_bytes {α : Type} (read : Bytes → Option (α × Bytes)) (members filled : Bytes) (x : α)
    (h : ∀ rest, read (members ++ rest) = some (x, rest)) (hf : Filled members filled) (rest : Bytes) :
    padded read (filled ++ rest) = some (x, rest) := by
  obtain ⟨fill, rfl, h1, h2⟩ := hf
  unfold padded
  rw [List.append_assoc, h]
  simp only
  have e : (members ++ (fill ++ rest)).length - (fill ++ rest).length = members.length := by
    simp only [List.length_append]
    omega
  have e2 : align8 members.length - members.length = fill.length := by
    rw [List.length_append] at h2
    rw [align8_eq members.length (members.length + fill.length) (by omega) (by omega) h2]
    omega
  rw [e, e2, raw_bytes]

/-- **C121**: the entry of a process comes out as it was stored, whatever it is filled up with. -/
theorem C121_process (p : Process) (h : p.Ok) (filled : Bytes) (hf : Filled p.members filled) (rest : Bytes) :
    parseProcess (filled ++ rest) = some (p, rest) :=
  padded_bytes parseMembers p.members filled p (parseMembers_bytes p h) hf rest

theorem parseSubChunkMembers_bytes (c : SubChunk) (h : c.Ok) (rest : Bytes) :
    parseSubChunkMembers (c.members ++ rest) = some (c, rest) := by
  unfold parseSubChunkMembers SubChunk.members
  simp only [List.append_assoc]
  rw [num_bytes 8 _ h.start]
  simp only [Option.bind_eq_bind, Option.bind_some]
  rw [num_bytes 8 _ h.stop, Option.bind_some, num_bytes 4 _ h.size, Option.bind_some, num_bytes 4 _ h.algorithm,
    Option.bind_some, num_bytes 4 _ h.indexes.1, Option.bind_some,
    several_flatMap (num 2) (leBytes 2) _ (fun i hi rest => num_bytes 2 i (h.indexes.2 i hi) rest), Option.bind_some,
    num_bytes 4 _ h.offsets.1, Option.bind_some,
    several_flatMap (num 2) (leBytes 2) _ (fun i hi rest => num_bytes 2 i (h.offsets.2 i hi) rest)]
  rfl

theorem splitStrings_area (ss : List Bytes) (h : ∀ s ∈ ss, 0 ∉ s) (fuel : Nat) (hf : (stringArea ss).length < fuel) :
    splitStrings fuel (stringArea ss) = some ss := by
  induction ss generalizing fuel with
  | nil =>
    cases fuel with
    | zero => exact absurd hf (Nat.not_lt_zero _)
    | succ fuel => rfl
  | cons s ss ih =>
    have e : stringArea (s :: ss) = s ++ 0 :: stringArea ss := by simp [stringArea]
    rw [e] at hf ⊢
    cases fuel with
    | zero => exact absurd hf (Nat.not_lt_zero _)
    | succ fuel =>
      unfold splitStrings
      rw [if_neg (by simp), cstr_append s _ (fun b hb he => h s (by simp) (he ▸ hb))]
      simp only
      rw [show (s ++ 0 :: stringArea ss).drop (s.length + 1) = stringArea ss by simp, ih (fun x hx => h x (by simp [hx]))]
      · rfl
      · simp only [List.length_append, List.length_cons] at hf
        omega

/-- Every stored string is decoded to the text at the same place. -/
theorem decodeStrings_map (utf8 : Bytes → Option (List Char)) (ss : List (Bytes × List Char))
    (h : ∀ s ∈ ss, utf8 s.1 = some s.2) : decodeStrings utf8 (ss.map (·.1)) = some (ss.map (·.2)) := by
  induction ss with
  | nil => rfl
  | cons s ss ih =>
    simp [decodeStrings, h s (by simp), ih (fun x hx => h x (by simp [hx]))]

/-- **C121**: the UUIDs, the strings and the processes of a catalog come out as they were stored, in order, for every
number of them. -/
theorem C121_catalog (utf8 : Bytes → Option (List Char)) (uuids : List Bytes) (ss : List (Bytes × List Char))
    (ps : List (Bytes × Process)) (cs : List (Bytes × SubChunk)) (subOffset time : Nat) (reserved rest : Bytes)
    (hu : ∀ u ∈ uuids, u.length = 16) (hs : ∀ s ∈ ss, 0 ∉ s.1 ∧ utf8 s.1 = some s.2)
    (hp : ∀ p ∈ ps, p.2.Ok ∧ Filled p.2.members p.1) (hc : ∀ c ∈ cs, c.2.Ok ∧ Filled c.2.members c.1)
    (hsize : 16 * uuids.length + (stringArea (ss.map (·.1))).length < 2 ^ 16)
    (hn : ps.length < 2 ^ 16) (hm : cs.length < 2 ^ 16) (ho : subOffset < 2 ^ 16) (ht : time < 2 ^ 64)
    (hr : reserved.length = 6) :
    readCatalog utf8 (headerBytes uuids (ss.map (·.1)) ps.length cs.length subOffset time reserved ++
      ((ps.map (·.1)).flatten ++ ((cs.map (·.1)).flatten ++ rest))) =
        .ok (⟨uuids, ss.map (·.2), ps.map (·.2)⟩, rest) := by
  have hh : ∀ tail, parseHeader utf8 (headerBytes uuids (ss.map (·.1)) ps.length cs.length subOffset time reserved ++ tail) =
      some ((uuids, ss.map (·.2), ps.length, cs.length), tail) := by
    intro tail
    unfold parseHeader headerBytes
    simp only [List.append_assoc]
    rw [num_bytes 2 _ (by omega)]
    simp (maxSteps := 1000000) only [Option.bind_eq_bind, Option.bind_some]
    have hraw := raw_bytes reserved
    rw [hr] at hraw
    rw [num_bytes 2 _ (by omega), Option.bind_some, num_bytes 2 _ hn, Option.bind_some, num_bytes 2 _ ho, Option.bind_some,
      num_bytes 2 _ hm, Option.bind_some, hraw, Option.bind_some, num_bytes 8 _ ht, Option.bind_some, if_neg (by omega),
      show 16 * uuids.length / 16 = uuids.length by omega, several_raw uuids hu, Option.bind_some,
      show 16 * uuids.length + (stringArea (ss.map (·.1))).length - 16 * uuids.length =
        (stringArea (ss.map (·.1))).length by omega, raw_bytes, Option.bind_some,
      splitStrings_area (ss.map (·.1)) (by
        intro s hx
        obtain ⟨y, hy, rfl⟩ := List.mem_map.1 hx
        exact (hs y hy).1) _ (Nat.lt_succ_self _), Option.bind_some, decodeStrings_map utf8 ss (fun s hx => (hs s hx).2)]
    rfl
  unfold readCatalog
  rw [hh]
  simp only [Option.bind_eq_bind, Option.bind_some]
  rw [several_bytes parseProcess ps (fun p hx rest => C121_process p.2 (hp p hx).1 p.1 (hp p hx).2 rest), Option.bind_some,
    several_bytes parseSubChunk cs (fun c hx rest => padded_bytes parseSubChunkMembers c.2.members c.1 c.2
      (parseSubChunkMembers_bytes c.2 (hc c hx).1) (hc c hx).2 rest)]
  rfl

/-- **C121**: a catalog that cannot be read is a parse error. -/
theorem C121_error (utf8 : Bytes → Option (List Char)) (b : Bytes) (e : Err) (h : readCatalog utf8 b = .error e) :
    e = .parseError := by
  unfold readCatalog at h
  split at h
  · cases h
    rfl
  · cases h

/-- A process with an image and two sub systems; four bytes short of the next multiple of eight. -/
def sampleProcess : Process :=
  ⟨0, 0, 0, -1, 17, 4, 99, 501, 0, 0, [⟨4096, 0, 0, 0x1000, 1⟩], 0, [⟨1, 0, 3⟩, ⟨2, 0, 5⟩]⟩

theorem sampleProcess_ok : sampleProcess.Ok where
  index := by decide
  unknown1 := by decide
  main := by decide
  dsc := by decide
  upper := by decide
  lower := by decide
  pid := by decide
  euid := by decide
  unknown2 := by decide
  unknown3 := by decide
  unknown4 := by decide
  images := ⟨by decide, by simp [sampleProcess, ImageEntry.Ok]⟩
  subs := ⟨by decide, by simp [sampleProcess, SubEntry.Ok]⟩

example : Filled sampleProcess.members (sampleProcess.members ++ [0, 0, 0, 0]) :=
  ⟨[0, 0, 0, 0], rfl, by decide, by decide +kernel⟩

/-! ## Specification: what is made of a catalog -/

/-- Where the string with a number is, in an area of strings. -/
def areaOffset (ss : List Bytes) (k : Nat) : Nat := (stringArea (ss.take k)).length

/-- The claim of C122 about strings: what is found at an offset is the string that is stored there. -/
def C122_strings_claim : Prop := ∀ (utf8 : Bytes → Option (List Char)) (ss : List (Bytes × List Char)),
  (∀ s ∈ ss, utf8 s.1 = some s.2) → ∀ offset text,
  ((stringMap 0 (ss.map (·.2))).lookup offset = some text ↔
    ∃ k, ∃ h : k < ss.length, offset = areaOffset (ss.map (·.1)) k ∧ text = ss[k].2)

/-- The indexes of the images of a process are those of identifiers of the catalog, or negative. -/
def Process.InRange (uuids : List Bytes) (p : Process) : Prop := p.main < uuids.length ∧ p.dsc < uuids.length

/-- The claim of C122 about processes: the table can be made unless a process is there twice, which is a parse error. -/
def C122_processes_claim : Prop := ∀ (uuids : List Bytes) (ps : List Process) (e : Err),
  buildProcesses uuids [] ps = .error e → e = .parseError

/-- The claim of C122 about images: the image of every process of the table can be looked up. -/
def C122_image_claim : Prop := ∀ (path : Bytes → Option (List Char)) (uuids : List Bytes) (ps : List Process)
  (table : List (List Char × ProcessInfo)), buildProcesses uuids [] ps = .ok table →
  ∀ upper lower, ∃ r, processImage path (table.lookup (processKey upper lower)) = .ok r

/-! ## Proofs: what is made of a catalog -/

theorem processKey_injective (a b c d : Nat) (h : processKey a b = processKey c d) : a = c ∧ b = d := by
  unfold processKey at h
  have h1 := Formats.append_sep_inj '@' _ _ _ _ (Formats.dec_notMem a '@' (by decide))
    (Formats.dec_notMem c '@' (by decide)) h
  exact ⟨Formats.dec_injective _ _ h1.1, Formats.dec_injective _ _ h1.2⟩

theorem stringMap_lookup (ss : List (Bytes × List Char)) (h : ∀ s ∈ ss, s.2.length = s.1.length) (start offset : Nat)
    (text : List Char) : (stringMap start (ss.map (·.2))).lookup offset = some text ↔
      ∃ k, ∃ hk : k < ss.length, offset = start + areaOffset (ss.map (·.1)) k ∧ text = ss[k].2 := by
  induction ss generalizing start with
  | nil =>
    constructor
    · intro x
      cases x
    · rintro ⟨k, hk, _⟩
      exact absurd hk (Nat.not_lt_zero _)
  | cons s ss ih =>
    have ih := ih (fun x hx => h x (by simp [hx])) (start + s.2.length + 1)
    have hstep : ∀ k, areaOffset (s.1 :: ss.map (·.1)) (k + 1) = s.1.length + 1 + areaOffset (ss.map (·.1)) k := by
      intro k
      simp only [areaOffset, List.map_cons, List.take_succ_cons, stringArea, List.flatMap_cons, List.length_append,
        List.length_cons, List.length_nil]
    have h0 : areaOffset (s.1 :: ss.map (·.1)) 0 = 0 := rfl
    have hs := h s (by simp)
    simp only [List.map_cons, stringMap]
    by_cases ho : offset = start
    · rw [List.lookup_cons, show (offset == start) = true by simpa using ho]
      simp only [Option.some.injEq]
      constructor
      · rintro rfl
        exact ⟨0, by simp, by rw [h0]; omega, rfl⟩
      · rintro ⟨k, hk, h1, h2⟩
        cases k with
        | zero => exact h2.symm
        | succ k =>
          rw [hstep] at h1
          omega
    · rw [List.lookup_cons, show (offset == start) = false by simpa using ho]
      simp only
      rw [ih]
      constructor
      · rintro ⟨k, hk, h1, h2⟩
        exact ⟨k + 1, by simpa using hk, by rw [hstep]; omega, h2⟩
      · rintro ⟨k, hk, h1, h2⟩
        cases k with
        | zero =>
          rw [h0] at h1
          omega
        | succ k =>
          rw [hstep] at h1
          exact ⟨k, by simpa using hk, by omega, h2⟩

/-- **C122** (partial): strings with as many characters as bytes, as those of ASCII characters, are found at their
offsets, and nothing is found elsewhere. -/
theorem C122_strings_partial (ss : List (Bytes × List Char)) (h : ∀ s ∈ ss, s.2.length = s.1.length) (offset : Nat)
    (text : List Char) : (stringMap 0 (ss.map (·.2))).lookup offset = some text ↔
      ∃ k, ∃ hk : k < ss.length, offset = areaOffset (ss.map (·.1)) k ∧ text = ss[k].2 := by
  have := stringMap_lookup ss h 0 offset text
  simpa using this

/-- UTF-8 for characters of one and of two bytes. -/
def utf8Two : Bytes → Option (List Char)
  | [] => some []
  | [a] => if a < 0x80 then some [Char.ofNat a.toNat] else none
  | a :: b :: r =>
    if a < 0x80 then (utf8Two (b :: r)).map (Char.ofNat a.toNat :: ·)
    else if 0xC2 ≤ a ∧ a < 0xE0 ∧ 0x80 ≤ b ∧ b < 0xC0 then
      (utf8Two r).map (Char.ofNat ((a.toNat - 0xC0) * 64 + (b.toNat - 0x80)) :: ·)
    else none

/-- **C122** is false: a string after one with a character of two bytes is not found. -/
theorem C122_strings_claim_false : ¬ C122_strings_claim := by
  intro h
  have := (h utf8Two [([0xC3, 0xA9], ['é']), ([98], ['b'])] (by decide) 3 ['b']).2 ⟨1, by decide, by decide, rfl⟩
  revert this
  decide

/-- **C122**: the strings of a sub system are those of the last entry with its identifier. -/
theorem C122_sub_systems (strings : List (Nat × List Char)) (p : ProcessInfo) (before after : List SubEntry)
    (s : SubEntry) (hs : p.entry.subs = before ++ s :: after) (ha : ∀ t ∈ after, t.identifier ≠ s.identifier) :
    subSystemStrings strings (some p) (some s.identifier) =
      (strings.lookup s.category, strings.lookup s.subSystem) := by
  have key : ∀ (after : List SubEntry) (found : Option (List Char) × Option (List Char)),
      (∀ t ∈ after, t.identifier ≠ s.identifier) →
      after.foldl (fun found t => if t.identifier = s.identifier then (strings.lookup t.category, strings.lookup t.subSystem)
        else found) found = found := by
    intro after
    induction after with
    | nil => intros; rfl
    | cons t ts ih =>
      intro found h
      rw [List.foldl_cons, if_neg (h t (by simp))]
      exact ih found (fun x hx => h x (by simp [hx]))
  unfold subSystemStrings
  simp only [hs, List.foldl_append, List.foldl_cons]
  rw [key after _ ha, if_pos trivial]

/-- **C122**: there are no strings without a process, without an identifier, and for an identifier that the process
does not have. -/
theorem C122_no_sub_system (strings : List (Nat × List Char)) (p : ProcessInfo) (i : Nat)
    (h : ∀ s ∈ p.entry.subs, s.identifier ≠ i) :
    subSystemStrings strings (some p) (some i) = (none, none) ∧
      (∀ identifier, subSystemStrings strings none identifier = (none, none)) ∧
      ∀ process, subSystemStrings strings process none = (none, none) := by
  refine ⟨?_, fun identifier => ?_, fun process => ?_⟩
  · have key : ∀ (l : List SubEntry), (∀ t ∈ l, t.identifier ≠ i) →
        l.foldl (fun found t => if t.identifier = i then (strings.lookup t.category, strings.lookup t.subSystem)
          else found) (none, none) = (none, none) := by
      intro l
      induction l with
      | nil => intros; rfl
      | cons t ts ih =>
        intro h
        rw [List.foldl_cons, if_neg (h t (by simp))]
        exact ih (fun x hx => h x (by simp [hx]))
    exact key _ h
  · rfl
  · cases process <;> rfl

/-- The identifier an index stands for. -/
def Denoted (uuids : List Bytes) (index : Int) (u : Option Bytes) : Prop :=
  (index < 0 ∧ u = none) ∨ ∃ k : Nat, ∃ h : k < uuids.length, index = k ∧ u = some uuids[k]

theorem uuidAt_ok (uuids : List Bytes) (index : Int) (u : Option Bytes) :
    uuidAt uuids index = .ok u ↔ Denoted uuids index u := by
  unfold uuidAt Denoted
  by_cases h : index ≥ 0
  · rw [if_pos h]
    obtain ⟨k, rfl⟩ := Int.eq_ofNat_of_zero_le h
    simp only [Int.ofNat_eq_natCast, Int.toNat_natCast]
    by_cases hk : k < uuids.length
    · rw [List.getElem?_eq_getElem hk]
      constructor
      · intro x
        cases x
        exact Or.inr ⟨k, hk, rfl, rfl⟩
      · rintro (⟨x, _⟩ | ⟨j, hj, x, rfl⟩)
        · omega
        · have : k = j := by omega
          subst this
          rfl
    · rw [List.getElem?_eq_none (by omega)]
      constructor
      · intro x
        cases x
      · rintro (⟨x, _⟩ | ⟨j, hj, x, rfl⟩) <;> omega
  · rw [if_neg h]
    constructor
    · intro x
      cases x
      exact Or.inl ⟨by omega, rfl⟩
    · rintro (⟨_, rfl⟩ | ⟨j, hj, x, _⟩)
      · rfl
      · omega

theorem uuidAt_exists (uuids : List Bytes) (index : Int) (h : index < uuids.length) :
    ∃ u, uuidAt uuids index = .ok u := by
  unfold uuidAt
  by_cases h0 : index ≥ 0
  · rw [if_pos h0, List.getElem?_eq_getElem (by omega)]
    exact ⟨_, rfl⟩
  · rw [if_neg h0]
    exact ⟨_, rfl⟩

/-- A process is in a table with the identifiers of its images. -/
def Entered (uuids : List Bytes) (p : Process) (info : ProcessInfo) : Prop :=
  info.entry = p ∧ Denoted uuids p.main info.main ∧ Denoted uuids p.dsc info.dsc

theorem addProcess_ok (uuids : List Bytes) (table out : List (List Char × ProcessInfo)) (p : Process)
    (h : addProcess uuids table p = .ok out) :
    table.lookup (processKey p.upper p.lower) = none ∧
      ∃ info, Entered uuids p info ∧ out = (processKey p.upper p.lower, info) :: table := by
  unfold addProcess at h
  cases h1 : uuidAt uuids p.main with
  | error e =>
    rw [h1] at h
    cases h
  | ok main =>
    rw [h1] at h
    simp only at h
    cases h2 : uuidAt uuids p.dsc with
    | error e =>
      rw [h2] at h
      cases h
    | ok dsc =>
      rw [h2] at h
      simp only at h
      by_cases h3 : (table.lookup (processKey p.upper p.lower)).isSome
      · rw [if_pos h3] at h
        cases h
      · rw [if_neg h3] at h
        cases h
        exact ⟨Option.not_isSome_iff_eq_none.1 h3, ⟨p, main, dsc⟩, ⟨rfl, (uuidAt_ok _ _ _).1 h1, (uuidAt_ok _ _ _).1 h2⟩, rfl⟩

theorem buildProcesses_lookup (uuids : List Bytes) (ps : List Process) (table out : List (List Char × ProcessInfo))
    (h : buildProcesses uuids table ps = .ok out) (upper lower : Nat) :
    (∀ info, table.lookup (processKey upper lower) = some info → out.lookup (processKey upper lower) = some info) ∧
    (table.lookup (processKey upper lower) = none →
      (∀ p ∈ ps, p.upper = upper ∧ p.lower = lower →
        ∃ info, Entered uuids p info ∧ out.lookup (processKey upper lower) = some info) ∧
      ((∀ p ∈ ps, ¬ (p.upper = upper ∧ p.lower = lower)) → out.lookup (processKey upper lower) = none)) := by
  induction ps generalizing table with
  | nil =>
    cases h
    exact ⟨fun _ x => x, fun x => ⟨fun p hp => absurd hp (by simp), fun _ => x⟩⟩
  | cons p ps ih =>
    rw [buildProcesses] at h
    cases ha : addProcess uuids table p with
    | error e =>
      rw [ha] at h
      cases h
    | ok table' =>
      rw [ha] at h
      obtain ⟨hn, info, hi, rfl⟩ := addProcess_ok uuids table table' p ha
      obtain ⟨ih1, ih2⟩ := ih _ h
      by_cases hk : p.upper = upper ∧ p.lower = lower
      · obtain ⟨rfl, rfl⟩ := hk
        have hl : ((processKey p.upper p.lower, info) :: table).lookup (processKey p.upper p.lower) = some info := by
          simp
        refine ⟨fun i x => ?_, fun _ => ⟨fun q hq hqe => ?_, fun hx => ?_⟩⟩
        · rw [hn] at x
          cases x
        · rcases List.mem_cons.1 hq with rfl | hq
          · exact ⟨info, hi, ih1 info hl⟩
          · exfalso
            -- the second process would have been refused
            have hnot : ∀ (ps : List Process) (t : List (List Char × ProcessInfo)),
                (∃ i, t.lookup (processKey p.upper p.lower) = some i) →
                buildProcesses uuids t ps = .ok out → q ∉ ps := by
              intro ps
              induction ps with
              | nil => intro _ _ _; simp
              | cons r rs ihr =>
                intro t ht hb hm
                rw [buildProcesses] at hb
                cases hr : addProcess uuids t r with
                | error e =>
                  rw [hr] at hb
                  cases hb
                | ok t' =>
                  rw [hr] at hb
                  obtain ⟨hrn, ri, _, rfl⟩ := addProcess_ok uuids t t' r hr
                  have hne : ¬ (r.upper = p.upper ∧ r.lower = p.lower) := by
                    rintro ⟨e1, e2⟩
                    rw [e1, e2] at hrn
                    obtain ⟨i, hti⟩ := ht
                    rw [hrn] at hti
                    cases hti
                  rcases List.mem_cons.1 hm with rfl | hm
                  · exact hne hqe
                  · refine ihr _ ?_ hb hm
                    obtain ⟨i, hti⟩ := ht
                    refine ⟨i, ?_⟩
                    rw [List.lookup_cons, show (processKey p.upper p.lower == processKey r.upper r.lower) = false by
                      simp only [beq_eq_false_iff_ne, ne_eq]
                      intro hke
                      obtain ⟨e1, e2⟩ := processKey_injective _ _ _ _ hke
                      exact hne ⟨e1.symm, e2.symm⟩]
                    exact hti
            exact hnot ps _ ⟨info, hl⟩ h hq
        · exact absurd ⟨rfl, rfl⟩ (hx p (by simp))
      · have hl : ((processKey p.upper p.lower, info) :: table).lookup (processKey upper lower) =
            table.lookup (processKey upper lower) := by
          rw [List.lookup_cons, show (processKey upper lower == processKey p.upper p.lower) = false by
            simp only [beq_eq_false_iff_ne, ne_eq]
            intro hke
            obtain ⟨e1, e2⟩ := processKey_injective _ _ _ _ hke
            exact hk ⟨e1.symm, e2.symm⟩]
        rw [hl] at ih1 ih2
        refine ⟨ih1, fun x => ?_⟩
        obtain ⟨ih3, ih4⟩ := ih2 x
        refine ⟨fun q hq hqe => ?_, fun hx => ih4 (fun q hq => hx q (by simp [hq]))⟩
        rcases List.mem_cons.1 hq with rfl | hq
        · exact absurd hqe hk
        · exact ih3 q hq hqe

/-- **C122**: the process with given numbers is found with the identifiers its indexes stand for, and no process is
found for numbers no process has. -/
theorem C122_processes (uuids : List Bytes) (ps : List Process) (table : List (List Char × ProcessInfo))
    (h : buildProcesses uuids [] ps = .ok table) (upper lower : Nat) :
    (∀ p ∈ ps, p.upper = upper ∧ p.lower = lower →
      ∃ info, Entered uuids p info ∧ table.lookup (processKey upper lower) = some info) ∧
    ((∀ p ∈ ps, ¬ (p.upper = upper ∧ p.lower = lower)) → table.lookup (processKey upper lower) = none) :=
  (buildProcesses_lookup uuids ps [] table h upper lower).2 rfl

/-- **C122** is false: an index that is too large gives an `IndexError`. -/
theorem C122_processes_claim_false : ¬ C122_processes_claim := by
  intro h
  have := h [] [sampleProcess] .indexError (by decide)
  cases this

theorem buildProcesses_range (uuids : List Bytes) (ps : List Process) (hr : ∀ p ∈ ps, p.InRange uuids)
    (table : List (List Char × ProcessInfo)) :
    (∃ out, buildProcesses uuids table ps = .ok out) ∨ buildProcesses uuids table ps = .error .parseError := by
  induction ps generalizing table with
  | nil => exact Or.inl ⟨_, rfl⟩
  | cons p ps ih =>
    obtain ⟨m, hm⟩ := uuidAt_exists uuids p.main (hr p (by simp)).1
    obtain ⟨d, hd⟩ := uuidAt_exists uuids p.dsc (hr p (by simp)).2
    rw [buildProcesses]
    have : (∃ t, addProcess uuids table p = .ok t) ∨ addProcess uuids table p = .error .parseError := by
      unfold addProcess
      rw [hm]
      simp only
      rw [hd]
      simp only
      by_cases h3 : (table.lookup (processKey p.upper p.lower)).isSome
      · rw [if_pos h3]
        exact Or.inr rfl
      · rw [if_neg h3]
        exact Or.inl ⟨_, rfl⟩
    rcases this with ⟨t, ht⟩ | ht
    · rw [ht]
      exact ih (fun x hx => hr x (by simp [hx])) t
    · rw [ht]
      exact Or.inr rfl

/-- **C122** (partial): the error is a parse error if the indexes are in range. -/
theorem C122_processes_partial (uuids : List Bytes) (ps : List Process) (hr : ∀ p ∈ ps, p.InRange uuids) (e : Err)
    (h : buildProcesses uuids [] ps = .error e) : e = .parseError := by
  rcases buildProcesses_range uuids ps hr [] with ⟨out, ho⟩ | ho
  · rw [ho] at h
    cases h
  · rw [ho] at h
    cases h
    rfl

theorem buildProcesses_distinct (uuids : List Bytes) (ps : List Process) (hr : ∀ p ∈ ps, p.InRange uuids)
    (table : List (List Char × ProcessInfo)) (ht : ∀ p ∈ ps, table.lookup (processKey p.upper p.lower) = none)
    (hd : ps.Pairwise (fun p q => ¬ (p.upper = q.upper ∧ p.lower = q.lower))) :
    ∃ out, buildProcesses uuids table ps = .ok out := by
  induction ps generalizing table with
  | nil => exact ⟨_, rfl⟩
  | cons p ps ih =>
    obtain ⟨m, hm⟩ := uuidAt_exists uuids p.main (hr p (by simp)).1
    obtain ⟨d, hdd⟩ := uuidAt_exists uuids p.dsc (hr p (by simp)).2
    have ha : addProcess uuids table p = .ok ((processKey p.upper p.lower, ⟨p, m, d⟩) :: table) := by
      unfold addProcess
      rw [hm]
      simp only
      rw [hdd]
      simp only
      rw [if_neg (by simp [ht p (by simp)])]
    rw [buildProcesses, ha]
    rw [List.pairwise_cons] at hd
    refine ih (fun x hx => hr x (by simp [hx])) _ (fun q hq => ?_) hd.2
    rw [List.lookup_cons, show (processKey q.upper q.lower == processKey p.upper p.lower) = false by
      simp only [beq_eq_false_iff_ne, ne_eq]
      intro hke
      obtain ⟨e1, e2⟩ := processKey_injective _ _ _ _ hke
      exact hd.1 q hq ⟨e1.symm, e2.symm⟩]
    exact ht q (by simp [hq])

/-- **C122**: there is a table if all processes have different numbers and indexes that are in range. -/
theorem C122_table (uuids : List Bytes) (ps : List Process) (hr : ∀ p ∈ ps, p.InRange uuids)
    (hd : ps.Pairwise (fun p q => ¬ (p.upper = q.upper ∧ p.lower = q.lower))) :
    ∃ table, buildProcesses uuids [] ps = .ok table :=
  buildProcesses_distinct uuids ps hr [] (fun _ _ => rfl) hd

/-- **C122**: a process that is there twice is refused. -/
theorem C122_twice (uuids : List Bytes) (before between after : List Process) (p q : Process)
    (hr : ∀ x ∈ before ++ p :: (between ++ q :: after), x.InRange uuids) (hk : p.upper = q.upper ∧ p.lower = q.lower) :
    buildProcesses uuids [] (before ++ p :: (between ++ q :: after)) = .error .parseError := by
  rcases buildProcesses_range uuids _ hr [] with ⟨out, ho⟩ | ho
  · exfalso
    have split : ∀ (a b : List Process) (t : List (List Char × ProcessInfo)), buildProcesses uuids t (a ++ b) = .ok out →
        ∃ t', buildProcesses uuids t a = .ok t' ∧ buildProcesses uuids t' b = .ok out := by
      intro a
      induction a with
      | nil => intro b t h; exact ⟨t, rfl, h⟩
      | cons x xs ih =>
        intro b t h
        rw [List.cons_append, buildProcesses] at h
        cases hx : addProcess uuids t x with
        | error e =>
          rw [hx] at h
          cases h
        | ok t1 =>
          rw [hx] at h
          obtain ⟨t', h1, h2⟩ := ih b t1 h
          exact ⟨t', by rw [buildProcesses, hx]; exact h1, h2⟩
    have e : before ++ p :: (between ++ q :: after) = (before ++ p :: between) ++ q :: after := by simp
    rw [e] at ho
    obtain ⟨t, h1, h2⟩ := split _ _ _ ho
    obtain ⟨info, _, hl⟩ := (C122_processes uuids _ t h1 p.upper p.lower).1 p (by simp) ⟨rfl, rfl⟩
    rw [buildProcesses] at h2
    cases hx : addProcess uuids t q with
    | error e =>
      rw [hx] at h2
      cases h2
    | ok t1 =>
      have := (addProcess_ok uuids t t1 q hx).1
      rw [← hk.1, ← hk.2, hl] at this
      cases this
  · exact ho

/-- **C122** is false: a process without a main image has no such attribute. -/
theorem C122_image_claim_false : ¬ C122_image_claim := by
  intro h
  obtain ⟨r, hr⟩ := h (fun _ => none) [] [{ sampleProcess with main := -1 }]
    [(processKey 17 4, ⟨{ sampleProcess with main := -1 }, none, none⟩)] (by decide) 17 4
  revert hr
  rw [show processImage (fun _ => none) (([(processKey 17 4, ⟨{ sampleProcess with main := -1 }, none, none⟩)] :
    List (List Char × ProcessInfo)).lookup (processKey 17 4)) = .error .attributeError from by decide]
  intro hr
  cases hr

/-- **C122** (partial): the image of a process with an index that is not negative is the one with that index, if there
is a file for it. -/
theorem C122_image_partial (path : Bytes → Option (List Char)) (uuids : List Bytes) (ps : List Process)
    (table : List (List Char × ProcessInfo)) (h : buildProcesses uuids [] ps = .ok table) (p : Process) (hp : p ∈ ps)
    (k : Nat) (hk : p.main = k) :
    ∃ hk : k < uuids.length, processImage path (table.lookup (processKey p.upper p.lower)) =
      .ok (match path uuids[k] with | none => (none, none) | some text => (some uuids[k], some text)) := by
  obtain ⟨info, hi, hl⟩ := (C122_processes uuids ps table h p.upper p.lower).1 p hp ⟨rfl, rfl⟩
  rcases hi.2.1 with ⟨hneg, _⟩ | ⟨j, hj, hje, hu⟩
  · omega
  · have : j = k := by omega
    subst this
    refine ⟨hj, ?_⟩
    rw [hl]
    unfold processImage
    simp only [hu]
    cases path uuids[j] <;> rfl

/-- A table of two processes. -/
example : ∃ table, buildProcesses [List.replicate 16 7] [] [sampleProcess, { sampleProcess with lower := 5 }] = .ok table :=
  C122_table _ _ (by simp [Process.InRange, sampleProcess]) (by simp [sampleProcess])

example : subSystemStrings (stringMap 0 ["ab".toList, "c".toList, "def".toList])
    (some ⟨sampleProcess, none, none⟩) (some 2) = (some "def".toList, some "ab".toList) := by decide

end Dtf.Unified
