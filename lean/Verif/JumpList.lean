import Verif.Records

/-!
# Jump lists: custom destinations files (C103) and the DestList stream of automatic destinations files (C104)
-/

namespace Dtf.JumpList
open Py DataFormat

/-! ## Model -/

/-- What is known of a `JumpListEntry` (jump_list.py 16-48): its identifier and the data its LNK file was read from. -/
structure Entry where
  identifier : List Char
  data : Bytes
deriving DecidableEq, Repr

/-- `_LNK_GUID` (jump_list.py 269). -/
def lnkGuid : Bytes := [1, 0x14, 2, 0, 0, 0, 0, 0, 0xc0, 0, 0, 0, 0, 0, 0, 0x46]

/-- `_CATEGORY_FOOTER_SIGNATURE` (jump_list.py 265). -/
def footerSignature : Bytes := [0xab, 0xfb, 0xbf, 0xba]

/-- `custom_file_header` (jump_list.yaml): the number of categories. -/
def headerMap : DataTypeMap Nat :=
  (fixedMap 12 id).refine (fun b => if leNat (slice b 0 4) = 2 then some (leNat (slice b 4 8)) else none)

/-- `custom_category_header`; other types are refused by the definition and by jump_list.py 342-345. -/
def typeMap : DataTypeMap Nat :=
  (fixedMap 4 id).refine (fun b => if leNat b ≤ 2 then some (leNat b) else none)

/-- `custom_category_header_type_0`: the number of entries.  Decoding the name is not modelled. -/
def customMap : DataTypeMap Nat :=
  (sizedMap 2 (fun b => 2 * leNat b + 4) id).refine (fun b => some (leNat (b.drop (b.length - 4))))

/-- `custom_category_header_type_1` and `custom_category_header_type_2`. -/
def wordMap : DataTypeMap Nat := (fixedMap 4 id).refine (fun b => some (leNat b))

/-- `_ReadCategoryHeader` (jump_list.py 322-385): the number of entries and the size. -/
def readCategoryHeader (data : Bytes) (off : Nat) : Res (Nat × Nat) :=
  match structAt typeMap data off with
  | .error e => .error e
  | .ok (type, n) =>
    match structAt (if type = 0 then customMap else wordMap) data ((off + n.toNat : Nat) : Int) with
    | .error e => .error e
    | .ok (v, m) => .ok (if type = 1 then 0 else v, n.toNat + m.toNat)

def guidMap : DataTypeMap Bytes := (fixedMap 16 id).refine some

/-- One round of the loop over the entries (jump_list.py 473-513): `none` is leaving the loop, otherwise the offset and
what was added.  `lnk` is the library that reads the LNK file: from the data up to the end of the file it makes the
offset after the last byte it has read, or an error.  The identifier is the position of the data range, which is 0
(jump_list.py 422-426, data_range.py). -/
def entryRound (lnk : Bytes → Option Nat) (data : Bytes) (off : Nat) : Res (Option (Nat × List Entry)) :=
  if (data.length : Int) - off < 16 then .ok none
  else
    match structAt guidMap data off with
    | .error e => .error e
    | .ok (guid, _) =>
      if guid = lnkGuid then
        match lnk (data.drop (off + 16)) with
        | none => .error .parseError
        | some n => .ok (some (off + 16 + n, [⟨"0x00000000".toList, data.drop (off + 16)⟩]))
      else if guid.take 4 ≠ footerSignature then .error .parseError
      else .ok (some (off, []))

/-- The loop over the entries of a category.  What was added is kept when there is an error. -/
def readEntries (lnk : Bytes → Option Nat) (data : Bytes) : Nat → Nat → List Entry → List Entry × Res Nat
  | 0, off, acc => (acc, .ok off)
  | n + 1, off, acc =>
    match entryRound lnk data off with
    | .error e => (acc, .error e)
    | .ok none => (acc, .ok off)
    | .ok (some (off', es)) => readEntries lnk data n off' (acc ++ es)

/-- `_ReadCategoryFooter` (jump_list.py 298-320); the position of the file is the offset after the entries. -/
def footerMap : DataTypeMap Unit :=
  (fixedMap 4 id).refine (fun b => if b = footerSignature then some () else none)

/-- The loop over the categories (jump_list.py 465-517). -/
def readCategories (lnk : Bytes → Option Nat) (data : Bytes) : Nat → Nat → List Entry → List Entry × Res Unit
  | 0, _, acc => (acc, .ok ())
  | n + 1, off, acc =>
    match readCategoryHeader data off with
    | .error e => (acc, .error e)
    | .ok (k, size) =>
      match readEntries lnk data k (off + size) acc with
      | (acc, .error e) => (acc, .error e)
      | (acc, .ok off) =>
        match structAt footerMap data off with
        | .error e => (acc, .error e)
        | .ok _ => readCategories lnk data n (off + 4) acc

/-- `CustomDestinationsFile.ReadFileObject` (jump_list.py 452-521): the entries that `GetJumpListEntries` returns after
it (jump_list.py 441-450), from those before it, and whether there was an error. -/
def readCustom (lnk : Bytes → Option Nat) (before : List Entry) (data : Bytes) : List Entry × Res Unit :=
  match structAt headerMap data 0 with
  | .error e => (before, .error e)
  | .ok (n, size) => readCategories lnk data n size.toNat before

/-! ## The specification -/

/-- A category of a custom destinations file; an entry is the data of its LNK file. -/
inductive Category where
  /-- The name is in UTF-16. -/
  | custom (name : Bytes) (entries : List Bytes)
  | known (identifier : Nat)
  | tasks (entries : List Bytes)

def Category.entries : Category → List Bytes
  | .custom _ es => es
  | .known _ => []
  | .tasks es => es

def Category.header : Category → Bytes
  | .custom name es => leBytes 4 0 ++ (leBytes 2 (name.length / 2) ++ name ++ leBytes 4 es.length)
  | .known i => leBytes 4 1 ++ leBytes 4 i
  | .tasks es => leBytes 4 2 ++ leBytes 4 es.length

/-- The class identifier 00021401-0000-0000-c000-000000000046 of shell links, as stored. -/
def classId : Bytes := leBytes 4 0x00021401 ++ leBytes 2 0 ++ leBytes 2 0 ++ [0xc0, 0, 0, 0, 0, 0, 0, 0x46]

/-- The 32-bit value 0xbabffbab behind the entries of a category. -/
def endMark : Bytes := leBytes 4 0xbabffbab

theorem classId_eq : lnkGuid = classId := by decide +kernel

theorem endMark_eq : footerSignature = endMark := by decide +kernel

def entriesBytes (es : List Bytes) : Bytes := es.flatMap (fun l => classId ++ l)

def Category.bytes (c : Category) : Bytes := c.header ++ entriesBytes c.entries ++ endMark

/-- The library reads exactly the data of the entries, whatever comes after. -/
def Category.Ok (lnk : Bytes → Option Nat) (c : Category) : Prop :=
  (∀ l ∈ c.entries, ∀ post, lnk (l ++ post) = some l.length) ∧ c.entries.length < 2 ^ 32 ∧
    match c with
    | .custom name _ => name.length % 2 = 0 ∧ name.length < 2 ^ 17
    | .known i => i < 2 ^ 32
    | .tasks _ => True

def customBytes (unknown : Nat) (cs : List Category) (trailing : Bytes) : Bytes :=
  [leBytes 4 2, leBytes 4 cs.length, leBytes 4 unknown].flatten ++ cs.flatMap (·.bytes) ++ trailing

/-- The entries of a file are those of its categories, in order, each read from the data of its LNK file. -/
def Entries (es : List Entry) (cs : List Category) : Prop :=
  es.length = (cs.flatMap (·.entries)).length ∧
    ∀ (i : Nat) e l, es[i]? = some e → (cs.flatMap (·.entries))[i]? = some l → l <+: e.data

/-- After reading a file the entries are those of the file. -/
def C103_fresh_claim : Prop := ∀ (lnk : Bytes → Option Nat) (before : List Entry) (unknown : Nat) (cs : List Category),
  cs.length < 2 ^ 32 → (∀ c ∈ cs, c.Ok lnk) → Entries (readCustom lnk before (customBytes unknown cs [])).1 cs

/-- The identifiers of the entries of a file are not the same. -/
def C103_identifiers_claim : Prop := ∀ (lnk : Bytes → Option Nat) (unknown : Nat) (cs : List Category),
  cs.length < 2 ^ 32 → (∀ c ∈ cs, c.Ok lnk) →
    ((readCustom lnk [] (customBytes unknown cs [])).1.map (·.identifier)).Nodup

/-! ## Proofs -/

theorem entryRound_lnk (lnk : Bytes → Option Nat) (l pre post : Bytes) (h : ∀ post, lnk (l ++ post) = some l.length) :
    entryRound lnk (pre ++ (classId ++ l) ++ post) pre.length =
      .ok (some ((pre ++ (classId ++ l)).length, [⟨"0x00000000".toList, l ++ post⟩])) := by
  have hg : classId.length = 16 := rfl
  have e : pre ++ (classId ++ l) ++ post = pre ++ classId ++ (l ++ post) := by simp
  have hs : structAt guidMap (pre ++ classId ++ (l ++ post)) pre.length = .ok (classId, (classId.length : Int)) :=
    encodes_refine (fixedMap 16 id) some _ _ _ (encodes_fixed 16 id classId (by decide) rfl) rfl pre (l ++ post)
  have hd : (pre ++ classId ++ (l ++ post)).drop (pre.length + 16) = l ++ post := List.drop_left' (by simp [hg])
  unfold entryRound
  rw [e, if_neg (by simp only [List.length_append, hg]; omega), hs]
  dsimp only
  rw [if_pos classId_eq.symm, hd, h]
  simp [hg, Nat.add_assoc]

/-- The entries of a list of LNK files that are one after the other. -/
def made (rest : Bytes) : List Bytes → List Entry
  | [] => []
  | l :: ls => ⟨"0x00000000".toList, l ++ (entriesBytes ls ++ rest)⟩ :: made rest ls

theorem readEntries_all (lnk : Bytes → Option Nat) (ls : List Bytes) (h : ∀ l ∈ ls, ∀ post, lnk (l ++ post) = some l.length)
    (pre post : Bytes) (acc : List Entry) :
    readEntries lnk (pre ++ entriesBytes ls ++ post) ls.length pre.length acc =
      (acc ++ made post ls, .ok (pre ++ entriesBytes ls).length) := by
  induction ls generalizing pre acc with
  | nil => simp [readEntries, made, entriesBytes]
  | cons l ls ih =>
    have e : pre ++ entriesBytes (l :: ls) ++ post = pre ++ (classId ++ l) ++ (entriesBytes ls ++ post) := by
      simp [entriesBytes]
    have e2 : pre ++ (classId ++ l) ++ (entriesBytes ls ++ post) = pre ++ (classId ++ l) ++ entriesBytes ls ++ post := by
      simp
    rw [e, List.length_cons, readEntries, entryRound_lnk lnk l pre _ (h l (by simp))]
    dsimp only
    rw [e2, ih (fun m hm => h m (by simp [hm]))]
    simp [made, entriesBytes]

theorem typeMap_encodes (t : Nat) (ht : t ≤ 2) : Encodes typeMap (leBytes 4 t) t := by
  refine encodes_refine _ _ _ _ _ (encodes_fixed 4 id _ (by decide) (by simp)) ?_
  dsimp only [id]
  rw [leNat_leBytes_of_lt 4 t (by omega), if_pos ht]

theorem wordMap_encodes (v : Nat) (hv : v < 2 ^ 32) : Encodes wordMap (leBytes 4 v) v := by
  refine encodes_refine _ _ _ _ _ (encodes_fixed 4 id _ (by decide) (by simp)) ?_
  dsimp only [id]
  rw [leNat_leBytes_of_lt 4 v (by omega)]

theorem customMap_encodes (name : Bytes) (n : Nat) (h : name.length % 2 = 0) (hl : name.length < 2 ^ 17) (hn : n < 2 ^ 32) :
    Encodes customMap (leBytes 2 (name.length / 2) ++ name ++ leBytes 4 n) n := by
  refine encodes_refine _ _ _ _ _ (encodes_sized 2 _ id _ (by decide) (by simp) ?_) ?_
  · rw [List.append_assoc, List.take_left' (by simp), leNat_leBytes_of_lt 2 _ (by omega)]
    simp
    omega
  · dsimp only [id]
    rw [List.drop_left' (by simp; omega), leNat_leBytes_of_lt 4 n (by omega)]

theorem readCategoryHeader_bytes (lnk : Bytes → Option Nat) (c : Category) (h : c.Ok lnk) (pre post : Bytes) :
    readCategoryHeader (pre ++ c.header ++ post) pre.length = .ok (c.entries.length, c.header.length) := by
  obtain ⟨_, h2, h3⟩ := h
  have key : ∀ (t v : Nat) (b : Bytes), t ≤ 2 → c.header = leBytes 4 t ++ b →
      Encodes (if t = 0 then customMap else wordMap) b v → (if t = 1 then 0 else v) = c.entries.length →
      readCategoryHeader (pre ++ c.header ++ post) pre.length = .ok (c.entries.length, c.header.length) := by
    intro t v b ht hb he hv
    have e1 : pre ++ c.header ++ post = pre ++ leBytes 4 t ++ (b ++ post) := by rw [hb]; simp
    have e2 : pre ++ leBytes 4 t ++ (b ++ post) = (pre ++ leBytes 4 t) ++ b ++ post := by simp
    unfold readCategoryHeader
    rw [e1, typeMap_encodes t ht pre (b ++ post)]
    dsimp only
    rw [Int.toNat_natCast, ← List.length_append, e2, he (pre ++ leBytes 4 t) post]
    dsimp only
    rw [hv, hb, List.length_append, Int.toNat_natCast]
  cases c with
  | custom name es => exact key 0 es.length _ (by decide) rfl (customMap_encodes name _ h3.1 h3.2 h2) rfl
  | known i => exact key 1 i _ (by decide) rfl (wordMap_encodes i h3) rfl
  | tasks es => exact key 2 es.length _ (by decide) rfl (wordMap_encodes _ h2) rfl

/-- The entries of categories that are one after the other. -/
def madeAll (rest : Bytes) : List Category → List Entry
  | [] => []
  | c :: cs => made (endMark ++ (cs.flatMap (·.bytes) ++ rest)) c.entries ++ madeAll rest cs

theorem readCategories_all (lnk : Bytes → Option Nat) (cs : List Category) (h : ∀ c ∈ cs, c.Ok lnk) (pre rest : Bytes)
    (acc : List Entry) :
    readCategories lnk (pre ++ cs.flatMap (·.bytes) ++ rest) cs.length pre.length acc = (acc ++ madeAll rest cs, .ok ()) := by
  induction cs generalizing pre acc with
  | nil => simp [readCategories, madeAll]
  | cons c cs ih =>
    have hc := h c (by simp)
    have e1 : pre ++ (c :: cs).flatMap (·.bytes) ++ rest =
        pre ++ c.header ++ (entriesBytes c.entries ++ (endMark ++ (cs.flatMap (·.bytes) ++ rest))) := by
      simp [Category.bytes]
    have e2 : pre ++ c.header ++ (entriesBytes c.entries ++ (endMark ++ (cs.flatMap (·.bytes) ++ rest))) =
        (pre ++ c.header) ++ entriesBytes c.entries ++ (endMark ++ (cs.flatMap (·.bytes) ++ rest)) := by simp
    have e3 : (pre ++ c.header) ++ entriesBytes c.entries ++ (endMark ++ (cs.flatMap (·.bytes) ++ rest)) =
        ((pre ++ c.header) ++ entriesBytes c.entries) ++ endMark ++ (cs.flatMap (·.bytes) ++ rest) := by simp
    have e4 : ((pre ++ c.header) ++ entriesBytes c.entries) ++ endMark ++ (cs.flatMap (·.bytes) ++ rest) =
        (((pre ++ c.header) ++ entriesBytes c.entries) ++ endMark) ++ cs.flatMap (·.bytes) ++ rest := by simp
    have hf : Encodes footerMap endMark () :=
      encodes_refine _ _ _ _ _ (encodes_fixed 4 id _ (by decide) rfl) rfl
    rw [e1, List.length_cons, readCategories, readCategoryHeader_bytes lnk c hc]
    dsimp only
    rw [← List.length_append, e2, readEntries_all lnk c.entries hc.1]
    dsimp only
    rw [e3, hf]
    dsimp only
    rw [e4, show (pre ++ c.header ++ entriesBytes c.entries).length + 4 =
      (pre ++ c.header ++ entriesBytes c.entries ++ endMark).length by
        rw [List.length_append (bs := endMark)]; rfl,
      ih (fun d hd => h d (by simp [hd]))]
    simp [madeAll]

theorem header_encodes (n unknown : Nat) (hn : n < 2 ^ 32) :
    Encodes headerMap [leBytes 4 2, leBytes 4 n, leBytes 4 unknown].flatten n := by
  refine encodes_refine _ _ _ _ _ (encodes_fixed 12 id _ (by decide) (by simp)) ?_
  generalize hB : [leBytes 4 2, leBytes 4 n, leBytes 4 unknown].flatten = B
  have f0 : leNat (slice B 0 4) = 2 := hB ▸ leField [] 4 _ _ 0 4 rfl rfl (by omega)
  have f1 : leNat (slice B 4 8) = n := hB ▸ leField [_] 4 _ _ 4 8 (by simp) rfl (by omega)
  show (if leNat (slice B 0 4) = 2 then some (leNat (slice B 4 8)) else none) = _
  rw [f0, f1, if_pos rfl]

theorem readCustom_all (lnk : Bytes → Option Nat) (before : List Entry) (unknown : Nat) (cs : List Category) (rest : Bytes)
    (hn : cs.length < 2 ^ 32) (h : ∀ c ∈ cs, c.Ok lnk) :
    readCustom lnk before (customBytes unknown cs rest) = (before ++ madeAll rest cs, .ok ()) := by
  have he := header_encodes cs.length unknown hn
  have h0 := he [] (cs.flatMap (·.bytes) ++ rest)
  have e : customBytes unknown cs rest = [] ++ [leBytes 4 2, leBytes 4 cs.length, leBytes 4 unknown].flatten ++
      (cs.flatMap (·.bytes) ++ rest) := by simp [customBytes]
  unfold readCustom
  rw [show structAt headerMap (customBytes unknown cs rest) 0 = .ok (cs.length, _) from e ▸ h0]
  dsimp only
  rw [Int.toNat_natCast]
  exact readCategories_all lnk cs h _ rest before

theorem made_length (rest : Bytes) (ls : List Bytes) : (made rest ls).length = ls.length := by
  induction ls with
  | nil => rfl
  | cons l ls ih => simp [made, ih]

theorem made_prefix (rest : Bytes) (ls : List Bytes) :
    ∀ (i : Nat) e l, (made rest ls)[i]? = some e → ls[i]? = some l → l <+: e.data := by
  induction ls with
  | nil => intro i e l h; simp [made] at h
  | cons m ls ih =>
    intro i e l h1 h2
    cases i with
    | zero =>
      simp only [made, List.getElem?_cons_zero, Option.some.injEq] at h1 h2
      rw [← h1, ← h2]
      exact List.prefix_append _ _
    | succ i =>
      simp only [made, List.getElem?_cons_succ] at h1 h2
      exact ih i e l h1 h2

theorem madeAll_entries (rest : Bytes) (cs : List Category) : Entries (madeAll rest cs) cs := by
  induction cs with
  | nil => exact ⟨rfl, fun i e l h => by simp [madeAll] at h⟩
  | cons c cs ih =>
    refine ⟨by simp only [madeAll, List.length_append, List.flatMap_cons, made_length, ih.1], ?_⟩
    intro i e l h1 h2
    rw [madeAll, List.getElem?_append] at h1
    rw [List.flatMap_cons, List.getElem?_append] at h2
    rw [made_length] at h1
    split at h1
    · rename_i hi
      rw [if_pos hi] at h2
      exact made_prefix _ _ i e l h1 h2
    · rename_i hi
      rw [if_neg hi] at h2
      exact ih.2 _ e l h1 h2

/-- All entries of all categories are read, in order, by an object that has read nothing before. -/
theorem C103_entries_partial (lnk : Bytes → Option Nat) (unknown : Nat) (cs : List Category) (trailing : Bytes)
    (hn : cs.length < 2 ^ 32) (h : ∀ c ∈ cs, c.Ok lnk) :
    (readCustom lnk [] (customBytes unknown cs trailing)).2 = .ok () ∧
      Entries (readCustom lnk [] (customBytes unknown cs trailing)).1 cs := by
  rw [readCustom_all lnk [] unknown cs trailing hn h]
  exact ⟨rfl, madeAll_entries trailing cs⟩

theorem readEntries_extra (lnk : Bytes → Option Nat) (n : Nat) (pre post : Bytes) (h : endMark <+: post)
    (acc : List Entry) : readEntries lnk (pre ++ post) n pre.length acc = (acc, .ok pre.length) := by
  induction n with
  | zero => rfl
  | succ n ih =>
    rw [readEntries]
    unfold entryRound
    by_cases hl : ((pre ++ post).length : Int) - pre.length < 16
    · rw [if_pos hl]
    · rw [if_neg hl]
      have hp : 16 ≤ post.length := by rw [List.length_append] at hl; omega
      have hs : structAt guidMap (pre ++ post) pre.length = .ok (post.take 16, ((post.take 16).length : Int)) := by
        have := encodes_refine (fixedMap 16 id) some _ _ _
          (encodes_fixed 16 id (post.take 16) (by decide) (by simp; omega)) rfl pre (post.drop 16)
        rwa [List.append_assoc, List.take_append_drop] at this
      rw [hs]
      dsimp only
      have hf : (post.take 16).take 4 = endMark := by
        rw [List.take_take]
        obtain ⟨t, rfl⟩ := h
        rfl
      rw [if_neg (by intro e; rw [e] at hf; revert hf; decide), if_neg (by rw [hf]; exact fun h => h rfl)]
      dsimp only
      rw [List.append_nil, ih]

theorem readEntries_add (lnk : Bytes → Option Nat) (data : Bytes) (a b off : Nat) (acc : List Entry) (es : List Entry)
    (off' : Nat) (h : readEntries lnk data a off acc = (es, .ok off'))
    (hb : ∀ n ≤ b, readEntries lnk data n off' es = (es, .ok off')) :
    readEntries lnk data (a + b) off acc = (es, .ok off') := by
  induction a generalizing off acc with
  | zero =>
    rw [readEntries] at h
    cases h
    rw [Nat.zero_add]; exact hb b (Nat.le_refl _)
  | succ a ih =>
    rw [Nat.add_right_comm, readEntries]
    rw [readEntries] at h
    split at h
    · cases h
    · exact h
    · exact ih _ _ h

/-- A category of which the number of entries is larger than what it has is read up to its footer. -/
theorem C103_number (lnk : Bytes → Option Nat) (unknown n : Nat) (ls : List Bytes) (rest : Bytes)
    (h : ∀ l ∈ ls, ∀ post, lnk (l ++ post) = some l.length) (hn : ls.length ≤ n) (hn' : n < 2 ^ 32) :
    (readCustom lnk [] ([leBytes 4 2, leBytes 4 1, leBytes 4 unknown].flatten ++ (leBytes 4 2 ++ leBytes 4 n) ++
      entriesBytes ls ++ (endMark ++ rest))).2 = .ok () ∧
    Entries (readCustom lnk [] ([leBytes 4 2, leBytes 4 1, leBytes 4 unknown].flatten ++ (leBytes 4 2 ++ leBytes 4 n) ++
      entriesBytes ls ++ (endMark ++ rest))).1 [.tasks ls] := by
  generalize hB : [leBytes 4 2, leBytes 4 1, leBytes 4 unknown].flatten = B
  have h0 := header_encodes 1 unknown (by omega) [] ((leBytes 4 2 ++ leBytes 4 n) ++ (entriesBytes ls ++ (endMark ++ rest)))
  rw [hB, List.nil_append] at h0
  generalize hD : B ++ (leBytes 4 2 ++ leBytes 4 n) ++ entriesBytes ls ++ (endMark ++ rest) = D
  have e0 : D = B ++ ((leBytes 4 2 ++ leBytes 4 n) ++ (entriesBytes ls ++ (endMark ++ rest))) := by
    rw [← hD]; simp
  rw [← e0] at h0
  have e1 : D = B ++ leBytes 4 2 ++ (leBytes 4 n ++ (entriesBytes ls ++ (endMark ++ rest))) := by
    rw [← hD]; simp
  have h1 := typeMap_encodes 2 (by omega) B (leBytes 4 n ++ (entriesBytes ls ++ (endMark ++ rest)))
  rw [← e1] at h1
  have e2 : D = (B ++ leBytes 4 2) ++ leBytes 4 n ++ (entriesBytes ls ++ (endMark ++ rest)) := by
    rw [← hD]; simp
  have h2 := wordMap_encodes n hn' (B ++ leBytes 4 2) (entriesBytes ls ++ (endMark ++ rest))
  rw [← e2] at h2
  have h3 : readCategoryHeader D B.length = .ok (n, 8) := by
    unfold readCategoryHeader
    rw [h1]
    dsimp only
    rw [Int.toNat_natCast, ← List.length_append, if_neg (by omega), h2]
    simp
  have h4 := readEntries_all lnk ls h (B ++ (leBytes 4 2 ++ leBytes 4 n)) (endMark ++ rest) []
  rw [hD] at h4
  have h5 : ∀ k ≤ n - ls.length, readEntries lnk D k (B ++ (leBytes 4 2 ++ leBytes 4 n) ++ entriesBytes ls).length
      ([] ++ made (endMark ++ rest) ls) = ([] ++ made (endMark ++ rest) ls,
        .ok (B ++ (leBytes 4 2 ++ leBytes 4 n) ++ entriesBytes ls).length) := by
    intro k _
    rw [← hD]
    exact readEntries_extra lnk k _ _ (List.prefix_append _ _) _
  have h6 := readEntries_add lnk D ls.length (n - ls.length) _ [] _ _ h4 h5
  rw [Nat.add_sub_cancel' hn] at h6
  have e3 : D = B ++ (leBytes 4 2 ++ leBytes 4 n) ++ entriesBytes ls ++ endMark ++ rest := by
    rw [← hD]; simp
  have h7 : structAt footerMap D ((B ++ (leBytes 4 2 ++ leBytes 4 n) ++ entriesBytes ls).length : Nat) =
      .ok ((), (endMark.length : Int)) := by
    rw [e3]
    exact encodes_refine _ _ _ _ _ (encodes_fixed 4 id endMark (by decide) rfl) (if_pos rfl) _ _
  have key : readCustom lnk [] D = (made (endMark ++ rest) ls, .ok ()) := by
    unfold readCustom
    rw [show structAt headerMap D 0 = _ from h0]
    dsimp only
    rw [Int.toNat_natCast, readCategories, h3]
    dsimp only
    have e4 : B.length + 8 = (B ++ (leBytes 4 2 ++ leBytes 4 n)).length := by simp
    rw [e4, h6]
    dsimp only
    rw [h7]
    rfl
  rw [key]
  refine ⟨rfl, ?_⟩
  have := madeAll_entries rest [.tasks ls]
  simpa [madeAll, Category.entries] using this

/-- A category with one entry of which the header says that it has five. -/
example : (readCustom (fun _ => some 1) [] ([leBytes 4 2, leBytes 4 1, leBytes 4 0].flatten ++ (leBytes 4 2 ++ leBytes 4 5) ++
    entriesBytes [[7]] ++ (endMark ++ []))).2 = .ok () :=
  (C103_number (fun _ => some 1) 0 5 [[7]] [] (by intro l hl; rw [List.mem_singleton] at hl; simp [hl]) (by decide)
    (by decide)).1

/-- What an object that has read a file before returns: the entries before and those of the file. -/
theorem C103_again (lnk : Bytes → Option Nat) (before : List Entry) (unknown : Nat) (cs : List Category)
    (trailing : Bytes) (hn : cs.length < 2 ^ 32) (h : ∀ c ∈ cs, c.Ok lnk) :
    (readCustom lnk before (customBytes unknown cs trailing)).1 =
      before ++ (readCustom lnk [] (customBytes unknown cs trailing)).1 := by
  rw [readCustom_all lnk before unknown cs trailing hn h, readCustom_all lnk [] unknown cs trailing hn h]
  rfl

/-- The entries of the file before are still there. -/
theorem C103_fresh_claim_false : ¬ C103_fresh_claim := by
  intro h
  have h1 := (h (fun _ => none) [⟨[], []⟩] 0 [] (by decide) (by simp)).1
  revert h1
  decide +kernel

/-- The identifier is the position of a new data range, which is 0 for all entries. -/
theorem C103_identifiers_claim_false : ¬ C103_identifiers_claim := by
  intro h
  have hl : ∀ l ∈ [[7], [7]], ∀ post : Bytes, (fun _ : Bytes => some 1) (l ++ post) = some l.length := by
    intro l hl post
    simp only [List.mem_cons, List.not_mem_nil, or_false, or_self] at hl
    rw [hl]
    rfl
  have h1 := h (fun _ => some 1) 0 [.tasks [[7], [7]]] (by decide)
    (by
      intro c hc
      rw [List.mem_singleton] at hc
      subst hc
      exact ⟨hl, by decide, trivial⟩)
  revert h1
  decide +kernel

/-- A known category has no entries, whatever comes after its header but its footer is refused. -/
theorem C103_footer (lnk : Bytes → Option Nat) (before : List Entry) (pre rest : Bytes) (i n : Nat) (hi : i < 2 ^ 32)
    (h : (readCategories lnk (pre ++ (Category.known i).header ++ rest) (n + 1) pre.length before).2 = .ok ()) :
    endMark <+: rest := by
  rw [readCategories, readCategoryHeader_bytes lnk (.known i) ⟨by simp [Category.entries], by simp [Category.entries], hi⟩]
    at h
  simp only [Category.entries, List.length_nil, readEntries] at h
  split at h
  · cases h
  · rename_i x hx
    obtain ⟨h1, h2, _⟩ := structAt_fixed_ok 4 _ _ (pre.length + (Category.known i).header.length) x.1 x.2 (by decide) hx
    split at h2
    · rename_i hs
      rw [← List.length_append, slice_eq_take_drop, List.drop_left' rfl] at hs
      rw [← endMark_eq, ← hs]
      exact List.take_prefix _ _
    · cases h2

example : (readCustom (fun _ => some 1) [] (customBytes 0 [.custom [65, 0] [[7]], .known 1, .tasks [[8], [9]]] [5])).2 =
    .ok () :=
  (C103_entries_partial (fun _ => some 1) 0 [.custom [65, 0] [[7]], .known 1, .tasks [[8], [9]]] [5] (by decide) (by
    intro c hc
    simp only [List.mem_cons, List.not_mem_nil, or_false] at hc
    rcases hc with rfl | rfl | rfl
    · exact ⟨by simp [Category.entries], by decide, by decide, by decide⟩
    · exact ⟨by simp [Category.entries], by decide, by decide⟩
    · exact ⟨by simp [Category.entries], by decide, trivial⟩)).1

/-! # The DestList stream (C104) -/

/-! ## Model -/

/-- `dest_list_entry_v1` and `dest_list_entry_v2` (jump_list.yaml). -/
structure DestEntry where
  hostname : Bytes
  number : Nat
  modified : Nat
  pin : Int
  /-- The path in UTF-16. -/
  path : Bytes
deriving DecidableEq, Repr

/-- The part of an entry that is the same for all versions; the host name is in ASCII. -/
def parseDest (path : Bytes) (b : Bytes) : Option DestEntry :=
  if (slice b 72 88).all (· < 128) then
    some ⟨slice b 72 88, leNat (slice b 88 92), leNat (slice b 100 108), signed 4 (leNat (slice b 108 112)), path⟩
  else none

def entryMap1 : DataTypeMap DestEntry :=
  (sizedMap 114 (fun b => 2 * leNat (slice b 112 114)) id).refine
    (fun b => parseDest (b.drop 114) b)

def entryMap2 : DataTypeMap DestEntry :=
  (sizedMap 130 (fun b => 2 * leNat (slice b 128 130) + 4) id).refine
    (fun b => parseDest (slice b 130 (b.length - 4)) b)

/-- `dest_list_header` with the check of jump_list.py 174-177: the version. -/
def destHeaderMap : DataTypeMap Nat :=
  (fixedMap 32 id).refine (fun b =>
    let v := leNat (slice b 0 4)
    if v = 1 ∨ v = 2 ∨ v = 3 ∨ v = 4 then some v else none)

def entryMap (v : Nat) : DataTypeMap DestEntry := if v = 1 then entryMap1 else entryMap2

/-- `_ReadDestList` (jump_list.py 95-119), on the contents of the stream. -/
def readDestList (data : Bytes) (fuel : Nat) : Option (Res (List DestEntry)) :=
  if data.length > 0 then
    match structAt destHeaderMap data 0 with
    | .error e => some (.error e)
    | .ok (v, size) => readUntil (entryMap v) data data.length fuel size.toNat []
  else some (.ok [])

/-! ## The specification -/

/-- An entry with what is not kept: 72 bytes before the host name, 8 after the number, 16 after the pin status and 4
at the end. -/
def DestEntry.bytes (e : DestEntry) (v : Nat) : Bytes :=
  [List.replicate 72 0, e.hostname, leBytes 4 e.number, List.replicate 8 0, leBytes 8 e.modified,
    leBytes 4 (unsigned 4 e.pin)].flatten ++
    (if v = 1 then leBytes 2 (e.path.length / 2) ++ e.path
    else List.replicate 16 0 ++ (leBytes 2 (e.path.length / 2) ++ (e.path ++ List.replicate 4 0)))

def DestEntry.Ok (e : DestEntry) : Prop :=
  e.hostname.length = 16 ∧ (∀ c ∈ e.hostname, c < 128) ∧ e.number < 2 ^ 32 ∧ e.modified < 2 ^ 64 ∧ Utmp.Fits 4 e.pin ∧
    e.path.length % 2 = 0 ∧ e.path.length < 2 ^ 17

/-- The header: the version and 28 bytes with counts. -/
def destBytes (v : Nat) (counts : Bytes) (es : List DestEntry) : Bytes :=
  leBytes 4 v ++ counts ++ es.flatMap (fun e => e.bytes v)

/-! ## Proofs -/

theorem parseDest_bytes (e : DestEntry) (h : e.Ok) (rest : Bytes) :
    parseDest e.path ([List.replicate 72 0, e.hostname, leBytes 4 e.number, List.replicate 8 0, leBytes 8 e.modified,
      leBytes 4 (unsigned 4 e.pin)].flatten ++ rest) = some e := by
  obtain ⟨h1, h2, h3, h4, h5, _, _⟩ := h
  unfold parseDest
  have hu := unsigned_lt 4 e.pin
  have eq : [List.replicate 72 0, e.hostname, leBytes 4 e.number, List.replicate 8 0, leBytes 8 e.modified,
      leBytes 4 (unsigned 4 e.pin)].flatten ++ rest = [List.replicate 72 0, e.hostname, leBytes 4 e.number,
      List.replicate 8 0, leBytes 8 e.modified, leBytes 4 (unsigned 4 e.pin), rest].flatten := by simp
  rw [eq]
  generalize hB : [List.replicate 72 0, e.hostname, leBytes 4 e.number, List.replicate 8 0, leBytes 8 e.modified,
    leBytes 4 (unsigned 4 e.pin), rest].flatten = B
  have f1 : slice B 72 88 = e.hostname := hB ▸ slice_fields [_] _ _ 72 88 (by simp) (by simp [h1])
  have f2 : leNat (slice B 88 92) = e.number := hB ▸ leField [_, _] 4 _ _ 88 92 (by simp [h1]) rfl (by omega)
  have f3 : leNat (slice B 100 108) = e.modified :=
    hB ▸ leField [_, _, _, _] 8 _ _ 100 108 (by simp [h1]) rfl (by omega)
  have f4 : leNat (slice B 108 112) = unsigned 4 e.pin :=
    hB ▸ leField [_, _, _, _, _] 4 _ _ 108 112 (by simp [h1]) rfl hu
  rw [f1, f2, f3, f4, if_pos (by rw [List.all_eq_true]; intro c hc; simpa using h2 c hc),
    signed_unsigned 4 e.pin h5.1 h5.2]

theorem entry_encodes (e : DestEntry) (h : e.Ok) (v : Nat) : Encodes (entryMap v) (e.bytes v) e := by
  have hp := parseDest_bytes e h
  obtain ⟨h1, h2, h3, h4, h5, h6, h7⟩ := h
  have hl : [List.replicate 72 0, e.hostname, leBytes 4 e.number, List.replicate 8 0, leBytes 8 e.modified,
      leBytes 4 (unsigned 4 e.pin)].flatten.length = 112 := by simp [h1]
  unfold entryMap DestEntry.bytes
  generalize [List.replicate 72 0, e.hostname, leBytes 4 e.number, List.replicate 8 0, leBytes 8 e.modified,
      leBytes 4 (unsigned 4 e.pin)].flatten = H at hl hp
  have hn : leNat (leBytes 2 (e.path.length / 2)) = e.path.length / 2 := leNat_leBytes_of_lt 2 _ (by omega)
  by_cases hv : v = 1
  · rw [if_pos hv, if_pos hv]
    have e1 : H ++ (leBytes 2 (e.path.length / 2) ++ e.path) = (H ++ leBytes 2 (e.path.length / 2)) ++ e.path := by simp
    refine encodes_refine _ _ _ _ _ (encodes_sized 114 _ id _ (by decide) (by simp [hl]; omega) ?_) ?_
    · rw [e1, List.take_left' (by simp [hl]), slice_eq_take_drop, List.drop_left' hl, List.take_of_length_le (by simp), hn]
      simp [hl]
      omega
    · dsimp only [id]
      rw [e1, List.drop_left' (by simp [hl]), ← e1]
      exact hp _
  · rw [if_neg hv, if_neg hv]
    have e1 : H ++ (List.replicate 16 0 ++ (leBytes 2 (e.path.length / 2) ++ (e.path ++ List.replicate 4 0))) =
        (H ++ List.replicate 16 0 ++ leBytes 2 (e.path.length / 2)) ++ (e.path ++ List.replicate 4 0) := by simp
    have e3 : (H ++ List.replicate 16 0 ++ leBytes 2 (e.path.length / 2)).length = 130 := by simp [hl]
    refine encodes_refine _ _ _ _ _ (encodes_sized 130 _ id _ (by decide) (by rw [e1, List.length_append, e3]; omega) ?_) ?_
    · rw [e1, List.take_left' e3, slice_eq_take_drop, List.drop_left' (by simp [hl]), List.take_of_length_le (by simp), hn,
        List.length_append, e3, List.length_append, List.length_replicate]
      omega
    · dsimp only [id]
      rw [e1, slice_eq_take_drop, List.drop_left' e3, List.length_append, e3, List.length_append, List.length_replicate,
        show 130 + (e.path.length + 4) - 4 - 130 = e.path.length by omega, List.take_left' rfl, ← e1]
      exact hp _

/-- All entries of a DestList stream are read, in order, whatever the counts in the header are. -/
theorem C104_entries (v : Nat) (hv : v = 1 ∨ v = 2 ∨ v = 3 ∨ v = 4) (counts : Bytes) (hc : counts.length = 28)
    (es : List DestEntry) (h : ∀ e ∈ es, e.Ok) (fuel : Nat) :
    readDestList (destBytes v counts es) (es.length + fuel + 1) = some (.ok es) := by
  have hl : (leBytes 4 v ++ counts).length = 32 := by simp [hc]
  have he : Encodes destHeaderMap (leBytes 4 v ++ counts) v := by
    refine encodes_refine _ _ _ _ _ (encodes_fixed 32 id _ (by decide) hl) ?_
    have f : leNat (slice (leBytes 4 v ++ counts) 0 4) = v := by
      rw [slice_eq_take_drop, List.drop_zero, List.take_left' (by simp), leNat_leBytes_of_lt 4 v (by omega)]
    dsimp only [id]
    rw [f, if_pos hv]
  have h0 := he [] (es.flatMap (fun e => e.bytes v))
  unfold readDestList destBytes
  rw [if_pos (by simp only [List.length_append] at hl ⊢; omega)]
  rw [show structAt destHeaderMap (leBytes 4 v ++ counts ++ es.flatMap (fun e => e.bytes v)) 0 = .ok (v, _) from h0]
  dsimp only
  rw [Int.toNat_natCast]
  refine readUntil_all (entryMap v) (fun e => e.bytes v) es (fun e he => entry_encodes e (h e he) v) ?_ _ fuel
  intro e _ hz
  have := congrArg List.length hz
  simp [DestEntry.bytes] at this

/-- An empty stream has no entries. -/
theorem C104_empty (fuel : Nat) : readDestList [] fuel = some (.ok []) := rfl

/-- Reading ends for all streams. -/
theorem C104_terminates (data : Bytes) : readDestList data (data.length + 1) ≠ none := by
  unfold readDestList
  split
  · split
    · simp
    · rename_i v size hx
      have hp : PositiveSizes (entryMap v) := by
        unfold entryMap
        split
        · exact positive_refine _ _ (positive_sized 114 _ id (by decide))
        · exact positive_refine _ _ (positive_sized 130 _ id (by decide))
      exact readUntil_enough (entryMap v) hp data data.length _ _ [] (by omega)
  · simp

def sampleDest : DestEntry := ⟨104 :: List.replicate 15 0, 3, 5, -1, [67, 0, 58, 0]⟩

example : readDestList (destBytes 3 (List.replicate 28 0) [sampleDest, sampleDest]) 3 =
    some (.ok [sampleDest, sampleDest]) :=
  C104_entries 3 (.inr (.inr (.inl rfl))) _ rfl _ (by
    have : sampleDest.Ok := ⟨rfl, by decide, by decide, by decide, ⟨by decide, by decide⟩, rfl, by decide⟩
    simp [this]) 0

end Dtf.JumpList
