import Verif.LevelDB.IndexedDB
import Verif.LevelDB.Table
import Verif.Formats.Props

/-!
# The output of the script for LevelDB files (C165)

scripts/leveldb.py.
-/

namespace Dtf.LevelDB
open Py DataFormat IndexedDB

/-! ## Model -/

/-- The bytes compared with in scripts/leveldb.py 93 and 112. -/
def tableMagic : Bytes := [0x57, 0xfb, 0x80, 0x8b, 0x24, 0x75, 0x47, 0xdb]

/-- `seek(-8, os.SEEK_END)` and `read(8)` (scripts/leveldb.py 84-88): a file object refuses an offset
before the start of the file. -/
def lastEight (data : Bytes) : Res Bytes :=
  if data.length < 8 then .error .osError else .ok (data.drop (data.length - 8))

/-- The text of the value type (scripts/leveldb.py 114-119). -/
def typeName (t : Nat) : List Char :=
  if t = 0 then "del".toList else if t = 1 then "val".toList else "UNKNOWN".toList

/-- The line of an entry (scripts/leveldb.py 121-130). -/
def entryLine (e : Entry) : List Char :=
  reprTail e.key ++ " @ ".toList ++ Formats.dec e.sequence ++ " : ".toList ++ typeName e.valueType ++
    " => ".toList ++ reprTail e.value

def heading : List Char := "LevelDB database file information:".toList

/-- The lines printed and the exception that ends the script, if any. -/
abbrev Printed := List (List Char) × Option Err

/-- The script on a log or descriptor that is read into `run`. -/
def printedLog {β : Type} (run : Option (LogRun β)) : Printed :=
  match run with
  | none => ([], some .runtimeError)
  | some run =>
    match run.error with
    | some e => ([], some e)
    | none => ([heading, []], none)

/-- `Main` (scripts/leveldb.py 77-137) after the arguments.  `source` opens a path with the helper made
from the arguments and `native` with the one of the system, which the classes make if they are not
given one (data_format.py 856-857); debug mode, which prints more, is not on. -/
def script (dec : Decompress) (utf8 : Bytes → Bool) (source native : List Char → Res Bytes)
    (path : List Char) : Printed :=
  match source path with
  | .error e => ([], some e)
  | .ok first =>
    match lastEight first with
    | .error e => ([], some e)
    | .ok signature =>
      match (Formats.splitPath '/' path).getLast? with
      | none => ([], some .indexError)
      | some name =>
        match native path with
        | .error e => ([], some e)
        | .ok data =>
          if signature = tableMagic then
            match readFooter data with
            | .error e => ([], some e)
            | .ok _ =>
              let table := readTableEntries dec data
              (heading :: (table.1.map entryLine ++ if table.2 = none then [[]] else []), table.2)
          else if "MANIFEST".toList <+: name then printedLog (readLog (readVersionEdit utf8) data)
          else printedLog (readLog readBatch data)

/-! ## Proofs -/

/-- The bytes of `repr` delimit themselves. -/
theorem escaped_prefix (q : Char) (hq : q = '"' ∨ q = '\'') (x y : Bytes) (r s : List Char)
    (h : x.flatMap (escape q) ++ q :: r = y.flatMap (escape q) ++ q :: s) : x = y ∧ r = s := by
  have head : ∀ b : UInt8, ∀ t u : List Char, escape q b ++ t = q :: u → False := by
    intro b t u hb
    have key : ∀ n : Fin 256, ∀ q ∈ ['"', '\''],
        (escape q (UInt8.ofNat n.val)) ≠ [] ∧ (escape q (UInt8.ofNat n.val)).head? ≠ some q := by
      decide +kernel
    have hk := key ⟨b.toNat, b.toNat_lt⟩ q (by rcases hq with h | h <;> simp [h])
    simp only [UInt8.ofNat_toNat] at hk
    generalize escape q b = w at hk hb
    cases w with
    | nil => exact hk.1 rfl
    | cons c w =>
      simp only [List.cons_append, List.cons.injEq] at hb
      exact hk.2 (by simp [hb.1])
  induction x generalizing y with
  | nil =>
    cases y with
    | nil => simpa using h
    | cons b y =>
      simp only [List.flatMap_nil, List.nil_append, List.flatMap_cons, List.append_assoc] at h
      exact (head _ _ _ h.symm).elim
  | cons a x ih =>
    cases y with
    | nil =>
      simp only [List.flatMap_nil, List.nil_append, List.flatMap_cons, List.append_assoc] at h
      exact (head _ _ _ h).elim
    | cons b y =>
      simp only [List.flatMap_cons, List.append_assoc] at h
      obtain ⟨h1, h2⟩ := escape_prefix q hq _ _ _ _ h
      obtain ⟨h3, h4⟩ := ih _ h2
      exact ⟨by rw [h1, h3], h4⟩

theorem reprTail_prefix (x y : Bytes) (r s : List Char) (h : reprTail x ++ r = reprTail y ++ s) :
    x = y ∧ r = s := by
  simp only [reprTail, List.cons_append, List.cons.injEq, List.append_assoc, List.nil_append] at h
  obtain ⟨hq, h⟩ := h
  rw [hq] at h
  exact escaped_prefix _ (quoteOf_cases y) _ _ _ _ h

theorem dec_prefix (m n : Nat) (c : Char) (hc : c ∉ Formats.dec m) (hc' : c ∉ Formats.dec n)
    (r s : List Char) (h : Formats.dec m ++ c :: r = Formats.dec n ++ c :: s) : m = n ∧ r = s := by
  have : ∀ a b : List Char, c ∉ a → c ∉ b → a ++ c :: r = b ++ c :: s → a = b ∧ r = s := by
    intro a
    induction a with
    | nil =>
      intro b _ hb hab
      cases b with
      | nil => simpa using hab
      | cons d b =>
        simp only [List.nil_append, List.cons_append, List.cons.injEq] at hab
        exact (hb (by simp [hab.1])).elim
    | cons d a ih =>
      intro b ha hb hab
      cases b with
      | nil =>
        simp only [List.nil_append, List.cons_append, List.cons.injEq] at hab
        exact (ha (by simp [hab.1])).elim
      | cons e b =>
        simp only [List.cons_append, List.cons.injEq] at hab
        obtain ⟨h1, h2⟩ := ih b (fun h => ha (List.mem_cons_of_mem _ h))
          (fun h => hb (List.mem_cons_of_mem _ h)) hab.2
        exact ⟨by rw [hab.1, h1], h2⟩
  obtain ⟨h1, h2⟩ := this _ _ hc hc' h
  exact ⟨Formats.dec_injective _ _ h1, h2⟩

/-- What the text of the type tells. -/
theorem typeName_prefix (t u : Nat) (r s : List Char)
    (h : typeName t ++ ' ' :: r = typeName u ++ ' ' :: s) : min t 2 = min u 2 ∧ r = s := by
  unfold typeName at h
  split at h <;> split at h <;> (try split at h) <;> (try split at h) <;> simp at h <;>
    (try exact ⟨by omega, h⟩)

/-- C165.  A line tells the key, the sequence number, the value and whether the type is a deletion, a
value or another one, whatever bytes the key and the value have. -/
theorem C165_line_recovers (d e : Entry) (h : entryLine d = entryLine e) :
    d.key = e.key ∧ d.sequence = e.sequence ∧ d.value = e.value ∧ min d.valueType 2 = min e.valueType 2 := by
  unfold entryLine at h
  simp only [List.append_assoc] at h
  obtain ⟨hk, h⟩ := reprTail_prefix _ _ _ _ h
  have h := List.append_cancel_left h
  have hsp : ∀ n, ' ' ∉ Formats.dec n := fun n => Formats.dec_notMem n ' ' (by decide)
  have e1 : ∀ t : List Char, " : ".toList ++ t = ' ' :: (": ".toList ++ t) := fun _ => rfl
  have e2 : ∀ t : List Char, " => ".toList ++ t = ' ' :: ("=> ".toList ++ t) := fun _ => rfl
  rw [e1, e1] at h
  obtain ⟨hs, h⟩ := dec_prefix _ _ ' ' (hsp _) (hsp _) _ _ h
  have h := List.append_cancel_left h
  rw [e2, e2] at h
  obtain ⟨ht, h⟩ := typeName_prefix _ _ _ _ h
  have h := List.append_cancel_left h
  exact ⟨hk, hs, C19_repr_injective _ _ h, ht⟩

/-- C165.  A deleted entry is shown as `del`, one that is not as `val`, and no other entry is shown as either. -/
theorem C165_types (e : Entry) :
    (typeName e.valueType = ['d', 'e', 'l'] ↔ e.valueType = 0) ∧ (typeName e.valueType = ['v', 'a', 'l'] ↔ e.valueType = 1) := by
  unfold typeName
  split
  · rename_i h
    rw [h]
    decide
  · rename_i h
    split
    · rename_i h'
      rw [h']
      decide
    · rename_i h'
      exact ⟨⟨fun c => absurd c (by decide), fun c => (h c).elim⟩, ⟨fun c => absurd c (by decide), fun c => (h' c).elim⟩⟩

/-- C165.  It would be nice if the line told the entry. -/
def C165_line_injective_claim : Prop := ∀ d e : Entry, entryLine d = entryLine e → d = e

theorem C165_line_injective_claim_false : ¬ C165_line_injective_claim := fun h =>
  absurd (h ⟨[65], 1, 2, [66]⟩ ⟨[65], 1, 3, [66]⟩ (by decide +kernel)) (by decide)

theorem C165_line_injective_partial (d e : Entry) (hd : d.valueType ≤ 1) (he : e.valueType ≤ 1)
    (h : entryLine d = entryLine e) : d = e := by
  obtain ⟨h1, h2, h3, h4⟩ := C165_line_recovers d e h
  have : d.valueType = e.valueType := by omega
  cases d; cases e
  simp_all

/-- A line is one line: it has no line break in it. -/
theorem C165_line_single (e : Entry) : '\n' ∉ entryLine e ∧ '\r' ∉ entryLine e := by
  have hesc : ∀ q : Char, q = '"' ∨ q = '\'' → ∀ b : UInt8, '\n' ∉ escape q b ∧ '\r' ∉ escape q b := by
    intro q hq b
    have key : ∀ n : Fin 256, ∀ q ∈ ['"', '\''], '\n' ∉ escape q (UInt8.ofNat n.val) ∧
        '\r' ∉ escape q (UInt8.ofNat n.val) := by decide +kernel
    have hk := key ⟨b.toNat, b.toNat_lt⟩ q (by rcases hq with h | h <;> simp [h])
    simpa using hk
  have hrepr : ∀ x : Bytes, '\n' ∉ reprTail x ∧ '\r' ∉ reprTail x := by
    intro x
    have hq := quoteOf_cases x
    unfold reprTail
    refine ⟨?_, ?_⟩ <;>
    · simp only [List.mem_cons, List.mem_append, List.mem_flatMap, List.not_mem_nil, or_false, not_or,
        not_exists, not_and]
      refine ⟨?_, fun b _ => ?_, ?_⟩
      · rcases hq with h | h <;> simp [h]
      · first | exact (hesc _ hq b).1 | exact (hesc _ hq b).2
      · rcases hq with h | h <;> simp [h]
  have ht : '\n' ∉ typeName e.valueType ∧ '\r' ∉ typeName e.valueType := by
    unfold typeName
    split
    · decide
    · split <;> decide
  unfold entryLine
  refine ⟨?_, ?_⟩
  · simp only [List.mem_append, not_or]
    exact ⟨⟨⟨⟨⟨⟨(hrepr _).1, by decide⟩, Formats.dec_notMem _ _ (by decide)⟩, by decide⟩, ht.1⟩,
      by decide⟩, (hrepr _).1⟩
  · simp only [List.mem_append, not_or]
    exact ⟨⟨⟨⟨⟨⟨(hrepr _).2, by decide⟩, Formats.dec_notMem _ _ (by decide)⟩, by decide⟩, ht.2⟩,
      by decide⟩, (hrepr _).2⟩

theorem lastEight_append (before magic : Bytes) (h : magic.length = 8) :
    lastEight (before ++ magic) = .ok magic := by
  have hl : (before ++ magic).length = before.length + 8 := by rw [List.length_append, h]
  rw [lastEight, hl, if_neg (by omega), Nat.add_sub_cancel, List.drop_left]

/-- C165.  For every table file that follows the format the script prints the heading, the line of
every entry of every data block in index order, and an empty line. -/
theorem C165_table (dec : Decompress) (utf8 : Bytes → Bool) (fs : List Char → Res Bytes)
    (path name : List Char) (hname : (Formats.splitPath '/' path).getLast? = some name)
    (body padding : Bytes) (metaOff metaSize : Nat)
    (index : BlockSpec) (blocks : List BlockSpec) (data : Bytes) (hdata : fs path = .ok data)
    (hfile : data = body ++ (encodeHandle metaOff metaSize ++ (encodeHandle index.off index.size ++
      padding)) ++ [0x57, 0xfb, 0x80, 0x8b, 0x24, 0x75, 0x47, 0xdb])
    (hfooter : (encodeHandle metaOff metaSize ++ (encodeHandle index.off index.size ++
      padding)).length = 40)
    (hmeta : metaOff + metaSize ≤ data.length)
    (hindex : index.Valid dec data)
    (hpoints : List.Forall₂ PointsAt (index.entries.map (·.2)) blocks)
    (hblocks : ∀ b ∈ blocks, b.Valid dec data) :
    script dec utf8 fs fs path =
      (["LevelDB database file information:".toList] ++
        (blocks.flatMap (·.entries)).map (fun e => entryLine e.2) ++ [[]], none) := by
  have ht := C57_table_file dec body padding metaOff metaSize index blocks data hfile hfooter hmeta
    hindex hpoints hblocks
  have hlast : lastEight data = .ok tableMagic := by
    rw [hfile]
    exact lastEight_append _ tableMagic rfl
  have hf : ∃ x, readFooter data = .ok x := by
    rw [readTableEntries] at ht
    split at ht
    · simp at ht
    · exact ⟨_, by assumption⟩
  obtain ⟨x, hf⟩ := hf
  rw [script, hdata]
  dsimp only
  rw [hlast]
  dsimp only
  rw [hname]
  dsimp only
  rw [if_pos rfl, hf]
  dsimp only
  rw [ht]
  dsimp only
  rw [if_pos rfl, List.map_flatMap]
  simp only [List.map_map, List.cons_append, List.nil_append, List.map_flatMap]
  rfl

/-- C165.  What is printed before an exception is the heading and the entries read until then. -/
theorem C165_until_error (dec : Decompress) (utf8 : Bytes → Bool) (fs : List Char → Res Bytes)
    (path name : List Char) (hname : (Formats.splitPath '/' path).getLast? = some name)
    (data : Bytes) (hdata : fs path = .ok data)
    (hmagic : ∃ before : Bytes, data = before ++ [0x57, 0xfb, 0x80, 0x8b, 0x24, 0x75, 0x47, 0xdb]) (x : Nat × Nat)
    (hfoot : readFooter data = .ok x) (es : List Entry) (err : Err)
    (ht : readTableEntries dec data = (es, some err)) :
    script dec utf8 fs fs path =
      ("LevelDB database file information:".toList :: es.map entryLine, some err) := by
  obtain ⟨before, hb⟩ := hmagic
  have hlast : lastEight data = .ok tableMagic := by
    rw [hb]
    exact lastEight_append before tableMagic rfl
  rw [script, hdata]
  dsimp only
  rw [hlast]
  dsimp only
  rw [hname]
  dsimp only
  rw [if_pos rfl, hfoot]
  dsimp only
  rw [ht]
  dsimp only
  rw [if_neg (by simp), List.append_nil]
  rfl

/-- C165.  It would be nice if every log could be examined. -/
def C165_every_log_claim : Prop :=
  ∀ (dec : Decompress) (utf8 : Bytes → Bool) (fs : List Char → Res Bytes) (path name : List Char)
    (data : Bytes) (run : LogRun Batch), (Formats.splitPath '/' path).getLast? = some name →
    ¬ "MANIFEST".toList <+: name → fs path = .ok data → readLog readBatch data = some run →
    run.error = none → (script dec utf8 fs fs path).2 = none

def noDecompress : Decompress := ⟨fun _ => .error .libraryError, fun _ => .error .libraryError⟩

/-- The log of a new database is empty. -/
theorem C165_every_log_claim_false : ¬ C165_every_log_claim := fun h => by
  have := h noDecompress (fun _ => true) (fun _ => .ok []) "/db/000003.log".toList "000003.log".toList []
    ⟨[], [], none⟩ (by decide +kernel) (by decide +kernel) rfl rfl rfl
  revert this
  decide +kernel

/-- C165.  Of a log that is no table and has at least eight bytes, the script prints the same whatever
the log has, or raises what reading raises. -/
theorem C165_log (dec : Decompress) (utf8 : Bytes → Bool) (fs : List Char → Res Bytes)
    (path name : List Char) (hname : (Formats.splitPath '/' path).getLast? = some name)
    (data : Bytes) (hdata : fs path = .ok data) (hlen : 8 ≤ data.length)
    (hmagic : data.drop (data.length - 8) ≠ [0x57, 0xfb, 0x80, 0x8b, 0x24, 0x75, 0x47, 0xdb])
    (hm : ¬ "MANIFEST".toList <+: name) (run : LogRun Batch) (hrun : readLog readBatch data = some run) :
    script dec utf8 fs fs path =
      match run.error with
      | none => (["LevelDB database file information:".toList, []], none)
      | some e => ([], some e) := by
  have hlast : lastEight data = .ok (data.drop (data.length - 8)) := by
    rw [lastEight, if_neg (by omega)]
  rw [script, hdata]
  dsimp only
  rw [hlast]
  dsimp only
  rw [hname]
  dsimp only
  rw [if_neg (show _ ≠ tableMagic from hmagic), if_neg hm, hrun, printedLog]
  cases run.error <;> rfl

/-- C165.  The same for a descriptor. -/
theorem C165_descriptor (dec : Decompress) (utf8 : Bytes → Bool) (fs : List Char → Res Bytes)
    (path name : List Char) (hname : (Formats.splitPath '/' path).getLast? = some name)
    (data : Bytes) (hdata : fs path = .ok data) (hlen : 8 ≤ data.length)
    (hmagic : data.drop (data.length - 8) ≠ [0x57, 0xfb, 0x80, 0x8b, 0x24, 0x75, 0x47, 0xdb])
    (hm : "MANIFEST".toList <+: name) (run : LogRun (List Edit))
    (hrun : readLog (readVersionEdit utf8) data = some run) :
    script dec utf8 fs fs path =
      match run.error with
      | none => (["LevelDB database file information:".toList, []], none)
      | some e => ([], some e) := by
  have hlast : lastEight data = .ok (data.drop (data.length - 8)) := by
    rw [lastEight, if_neg (by omega)]
  rw [script, hdata]
  dsimp only
  rw [hlast]
  dsimp only
  rw [hname]
  dsimp only
  rw [if_neg (show _ ≠ tableMagic from hmagic), if_pos hm, hrun, printedLog]
  cases run.error <;> rfl

/-- C165.  A file of less than eight bytes is an error. -/
theorem C165_small (dec : Decompress) (utf8 : Bytes → Bool) (source native : List Char → Res Bytes)
    (path : List Char) (data : Bytes) (hdata : source path = .ok data) (h : data.length < 8) :
    script dec utf8 source native path = ([], some .osError) := by
  rw [script, hdata]
  dsimp only
  rw [lastEight, if_pos h]

/-- C165.  It would be nice if the files of an image could be examined. -/
def C165_image_claim : Prop :=
  ∀ (dec : Decompress) (utf8 : Bytes → Bool) (image native : List Char → Res Bytes) (path : List Char),
    script dec utf8 image native path = script dec utf8 image image path

/-- A batch without values in one block. -/
def sampleLog : Bytes :=
  [0, 0, 0, 0, 12, 0, 1, 1, 0, 0, 0, 0, 0, 0, 0, 0, 0, 0, 0]

theorem C165_image_claim_false : ¬ C165_image_claim := fun h => by
  have := h noDecompress (fun _ => true) (fun _ => .ok sampleLog) (fun _ => .error .osError)
    "/db/000003.log".toList
  revert this
  decide +kernel

/-- C165.  The only use of the image is to tell a table from a log. -/
theorem C165_image_partial (dec : Decompress) (utf8 : Bytes → Bool) (image image' native : List Char → Res Bytes)
    (path : List Char) (x y : Bytes) (hx : image path = .ok x) (hy : image' path = .ok y)
    (hlx : 8 ≤ x.length) (hly : 8 ≤ y.length)
    (h : x.drop (x.length - 8) = y.drop (y.length - 8)) :
    script dec utf8 image native path = script dec utf8 image' native path := by
  rw [script, script, hx, hy]
  dsimp only
  rw [lastEight, lastEight, if_neg (by omega), if_neg (by omega), h]

/-- The log is long enough and read, a table file prints its entry. -/
example : readLog readBatch sampleLog = some ⟨[0], [⟨1, 0, []⟩], none⟩ ∧
    script noDecompress (fun _ => true) (fun _ => .ok sampleLog) (fun _ => .ok sampleLog)
      "/db/000003.log".toList = (["LevelDB database file information:".toList, []], none) := by
  decide +kernel

example : entryLine ⟨[65, 39, 0], 3, 1, [9, 34]⟩ = "\"A'\\x00\" @ 3 : val => '\\t\"'".toList := by
  decide +kernel

example : (script noDecompress (fun _ => true) (fun _ => .ok sampleFile) (fun _ => .ok sampleFile)
    "/db/000005.ldb".toList) =
      (["LevelDB database file information:".toList, "'A' @ 3 : val => '\\t\\t\\t\\t\\t'".toList, []], none) := by
  decide +kernel

end Dtf.LevelDB
