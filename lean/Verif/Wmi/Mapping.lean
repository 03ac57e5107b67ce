import Verif.Wmi.Index

/-!
# Mapping files and the opening of the WMI repository (C38, C39, C87)
-/

namespace Dtf.Wmi
open Py DataFormat Text

/-! ## Model: mapping files -/

structure MapHeader where
  sequence : Nat
  unknown1 : Nat
  unknown2 : Nat
deriving DecidableEq, Repr

/-- `_ReadFileHeader` (wmi_repository.py 763-790; wmi_repository.yaml 812-844), of what is left of the
file.  The number of pages is not used. -/
def readMapHeader (version : Nat) (b : Bytes) : Res (MapHeader × Bytes) :=
  if version = 1 then
    match takeInts 4 3 b with
    | some ([s, q, _], b) => if s = 0xABCD then .ok (⟨q, 0, 0⟩, b) else .error .parseError
    | _ => .error .parseError
  else
    match takeInts 4 5 b with
    | some ([s, q, u, v, _], b) => if s = 0xABCD then .ok (⟨q, u, v⟩, b) else .error .parseError
    | _ => .error .parseError

/-- `_ReadMappingTable` (wmi_repository.py 792-817; wmi_repository.yaml 846-892): the page numbers, which
are the first four bytes of entries of 4 or 24 bytes. -/
def readMapTable (version : Nat) (b : Bytes) : Res (List Nat × Bytes) :=
  match takeInt 4 b with
  | none => .error .parseError
  | some (n, b) =>
    match takeInts (if version = 1 then 4 else 24) n b with
    | none => .error .parseError
    | some (entries, b) => .ok (entries.map (· % 2 ^ 32), b)

/-- `_ReadUnknownTable` (wmi_repository.py 819-841; wmi_repository.yaml 894-904). -/
def readUnknownTable (b : Bytes) : Res Bytes :=
  match takeInt 4 b with
  | none => .error .parseError
  | some (n, b) =>
    match takeInts 4 n b with
    | none => .error .parseError
    | some (_, b) => .ok b

/-- `_ReadFileFooter` (wmi_repository.py 737-761; wmi_repository.yaml 803-810). -/
def readMapFooter (b : Bytes) : Res Bytes :=
  match takeInt 4 b with
  | none => .error .parseError
  | some (s, b) => if s = 0xDCBA then .ok b else .error .parseError

structure MappingFile where
  version : Nat
  sequence : Nat
  table1 : List Nat
  table2 : Option (List Nat)
deriving DecidableEq, Repr

/-- A mapping table, the unknown table and the footer that follow a header (wmi_repository.py 877-880,
897-900). -/
def readMapTables (version : Nat) (b : Bytes) : Res (List Nat × Bytes) :=
  match readMapTable version b with
  | .error e => .error e
  | .ok (table, b) =>
    match readUnknownTable b with
    | .error e => .error e
    | .ok b =>
      match readMapFooter b with
      | .error e => .error e
      | .ok b => .ok (table, b)

/-- `_ReadDetermineFormatVersion` (wmi_repository.py 719-735). -/
def mapVersion (b : Bytes) : Res Nat :=
  match readMapHeader 2 b with
  | .error e => .error e
  | .ok (h, _) => .ok (if h.unknown1 = h.unknown2 + 1 then 2 else 1)

/-- `ReadFileObject` of the mapping file (wmi_repository.py 859-900). -/
def readMappingFile (data : Bytes) : Res MappingFile :=
  match mapVersion data with
  | .error e => .error e
  | .ok version =>
    match readMapHeader version data with
    | .error e => .error e
    | .ok (header, b) =>
      match readMapTables version b with
      | .error e => .error e
      | .ok (table1, b) =>
        if version = 2 ∨ b ≠ [] then
          match readMapHeader version b with
          | .error e =>
            if version = 2 then .error e else .ok ⟨version, header.sequence, table1, none⟩
          | .ok (_, b) =>
            match readMapTables version b with
            | .error e => .error e
            | .ok (table2, _) => .ok ⟨version, header.sequence, table1, some table2⟩
        else .ok ⟨version, header.sequence, table1, none⟩

/-- `GetIndexMappingTable` and `GetObjectsMappingTable` (wmi_repository.py 843-857). -/
def indexTable (m : MappingFile) : List Nat := m.table2.getD m.table1

def objectsTable (m : MappingFile) : List Nat := m.table1

/-! ## Model: opening -/

/-- `_FormatFilenameAsGlob` (wmi_repository.py 3438-3457), of names in ASCII. -/
def filenameGlob (name : List Char) : List Char :=
  name.flatMap (fun c => if c.isAlpha then ['[', c.toUpper, c.toLower, ']'] else [c])

/-- The assignment of a sequence to two names: `a, b = s`. -/
def unpack2 {α : Type} : List α → Res (α × α)
  | [a, b] => .ok (a, b)
  | _ => .error .valueError

/-- `fnmatch` for patterns with classes of characters that have no ranges and are not negated. -/
def fnmatch : List Char → List Char → Bool
  | [], s => s.isEmpty
  | p :: ps, s =>
    if p = '*' then
      fnmatch ps s || (match s with | [] => false | _ :: t => fnmatch (p :: ps) t)
    else
      match s with
      | [] => false
      | c :: t =>
        if p = '?' then fnmatch ps t
        else if p = '[' ∧ ']' ∈ ps.drop 1 then
          match ps with
          | [] => false
          | q :: qs =>
            decide (c ∈ q :: qs.takeWhile (· ≠ ']')) && fnmatch ((qs.dropWhile (· ≠ ']')).drop 1) t
        else decide (c = p) && fnmatch ps t
termination_by p s => (p.length, s.length)
decreasing_by
  all_goals simp_wf
  all_goals first
    | (apply Prod.Lex.left; omega)
    | (apply Prod.Lex.right; omega)
    | (apply Prod.Lex.left
       have := (List.dropWhile_suffix (l := qs) (fun x => x ≠ ']')).length_le
       simp_all; omega)

/-- The file system: the paths a pattern in a directory matches, and the readers of the files. -/
structure World where
  glob : List Char → List Char → List (List Char)
  mapping : List Char → Res MappingFile
  version : List Char → Res Nat
  index : List Char → Res Unit
  objects : List Char → Res Unit
  repository : List Char → Res Unit

/-- `_OpenIndexBinaryTreeFile`, `_OpenMappingFile`, `_OpenMappingVersionFile`, `_OpenObjectsDataFile` and
`_OpenRepositoryFile` (wmi_repository.py 3845-3972), which differ in the reader only. -/
def openOne {A : Type} (w : World) (reader : List Char → Res A) (path filename : List Char) :
    Res (Option A) :=
  match unpack2 (filenameGlob filename) with
  | .error e => .error e
  | .ok (g, _) =>
    match w.glob path [g] with
    | [] => .ok none
    | p :: _ => (reader p).map some

/-- The loop of `_GetActiveMappingFile` (wmi_repository.py 3494-3518). -/
def activeLoop (find : Nat → Res (Option MappingFile)) :
    List Nat → Option (Nat × MappingFile) → Res (Option (Nat × MappingFile))
  | [], active => .ok active
  | n :: ns, active =>
    match find n with
    | .error e => .error e
    | .ok none => activeLoop find ns active
    | .ok (some m) =>
      match active with
      | none => activeLoop find ns (some (n, m))
      | some (k, a) => activeLoop find ns (if m.sequence > a.sequence then some (n, m) else some (k, a))

/-- `_GetActiveMappingFile` (wmi_repository.py 3459-3531). -/
def getActive (w : World) (path : List Char) : Res (Option (Nat × MappingFile)) :=
  match openOne w w.version path "mapping.ver".toList with
  | .error e => .error e
  | .ok _ =>
    activeLoop (fun n => openOne w w.mapping path ("mapping".toList ++ digits 10 n ++ ".map".toList)) [1, 2, 3] none

structure Repository where
  format : Nat
  indexTable : List Nat
  objectsTable : List Nat
deriving DecidableEq, Repr

def mappingNames : List (List Char) :=
  ["index.map".toList, "mapping1.map".toList, "mapping2.map".toList, "mapping3.map".toList, "objects.map".toList]

/-- `Open` (wmi_repository.py 4263-4325), up to the reading of the class definitions: the path, its
directory and its last part in lower case. -/
def openRepository (w : World) (path dirname basename : List Char) : Res Repository :=
  if basename ∈ mappingNames then
    match openOne w w.mapping dirname basename with
    | .error e => .error e
    | .ok _ => .ok ⟨0, [], []⟩
  else
    let path := if basename = "cim.rep".toList ∨ basename = "index.btr".toList then dirname else path
    if basename = "cim.rep".toList then
      match openOne w w.repository path "cim.rep".toList with
      | .error e => .error e
      | .ok _ => .ok ⟨20, [], []⟩
    else
      match openOne w w.mapping path "index.map".toList with
      | .error e => .error e
      | .ok found =>
        let active : Res (Option MappingFile) :=
          match found with
          | some _ => .ok none
          | none => (getActive w path).map (·.map (·.2))
        match active with
        | .error e => .error e
        | .ok active =>
          match found.or active with
          | none => .error .attributeError
          | some m =>
            match openOne w w.index path "index.btr".toList with
            | .error e => .error e
            | .ok _ =>
              let format := if m.version = 1 then 21 else 22
              if basename = "index.btr".toList then .ok ⟨format, indexTable m, []⟩
              else
                match openOne w w.mapping path "objects.map".toList with
                | .error e => .error e
                | .ok found' =>
                  let active' : Res (Option MappingFile) :=
                    match found', active with
                    | some _, _ => .ok none
                    | none, some a => .ok (some a)
                    | none, none => (getActive w path).map (·.map (·.2))
                  match active' with
                  | .error e => .error e
                  | .ok active' =>
                    match found'.or active' with
                    | none => .error .attributeError
                    | some o =>
                      match openOne w w.objects path "objects.data".toList with
                      | .error e => .error e
                      | .ok _ => .ok ⟨format, indexTable m, objectsTable o⟩

/-! ## The specification -/

/-- The number of the active file: the first of those with the largest sequence number. -/
def IsNewest (files : List (Nat × MappingFile)) : Option (Nat × MappingFile) → Prop
  | none => files = []
  | some x => ∃ pre post, files = pre ++ x :: post ∧ (∀ y ∈ pre, y.2.sequence < x.2.sequence) ∧
      ∀ y ∈ post, y.2.sequence ≤ x.2.sequence

/-- The parts of a mapping file after a header: the mapping table, with the rest of its entries, the
unknown table and the footer. -/
def tablesBytes (entries : List (Nat × Bytes)) (unknown : List Nat) : Bytes :=
  leBytes 4 entries.length ++ (entries.flatMap (fun e => leBytes 4 e.1 ++ e.2) ++
    (leBytes 4 unknown.length ++ (unknown.flatMap (leBytes 4) ++ leBytes 4 0xDCBA)))

def headerV1 (sequence pages : Nat) : Bytes := [0xABCD, sequence, pages].flatMap (leBytes 4)

def headerV2 (sequence unknown1 unknown2 pages : Nat) : Bytes :=
  [0xABCD, sequence, unknown1, unknown2, pages].flatMap (leBytes 4)

/-! ## Proofs: C38 and C39 -/

theorem activeLoop_newest (find : Nat → Res (Option MappingFile)) (present : Nat → Option MappingFile)
    (hf : ∀ n, find n = .ok (present n)) :
    ∀ ns files active, IsNewest files active →
      ∃ r, activeLoop find ns active = .ok r ∧
        IsNewest (files ++ ns.filterMap (fun n => (present n).map (fun m => (n, m)))) r := by
  intro ns
  induction ns with
  | nil => intro files active h; exact ⟨active, rfl, by simpa using h⟩
  | cons n ns ih =>
    intro files active h
    rw [activeLoop, hf n]
    cases hp : present n with
    | none =>
      obtain ⟨r, e, hr⟩ := ih files active h
      exact ⟨r, e, by simpa [List.filterMap_cons, hp] using hr⟩
    | some m =>
      have key : ∀ x, IsNewest (files ++ [(n, m)]) x → ∃ r, activeLoop find ns x = .ok r ∧
          IsNewest (files ++ (n :: ns).filterMap (fun n => (present n).map (fun m => (n, m)))) r := by
        intro x hx
        obtain ⟨r, e, hr⟩ := ih _ x hx
        exact ⟨r, e, by simpa [List.filterMap_cons, hp] using hr⟩
      cases active with
      | none =>
        apply key
        simp only [IsNewest] at h
        subst h
        exact ⟨[], [], rfl, by simp, by simp⟩
      | some a =>
        apply key
        obtain ⟨pre, post, e, h1, h2⟩ := h
        by_cases hs : m.sequence > a.2.sequence
        · rw [if_pos hs]
          refine ⟨files, [], rfl, ?_, by simp⟩
          intro y hy
          rw [e] at hy
          simp only [List.mem_append, List.mem_cons] at hy
          rcases hy with hy | rfl | hy
          · have := h1 y hy; show y.2.sequence < m.sequence; omega
          · exact hs
          · have := h2 y hy; show y.2.sequence < m.sequence; omega
        · rw [if_neg hs]
          refine ⟨pre, post ++ [(n, m)], by simp [e], h1, ?_⟩
          intro y hy
          simp only [List.mem_append, List.mem_cons, List.not_mem_nil, or_false] at hy
          rcases hy with hy | rfl
          · exact h2 y hy
          · show m.sequence ≤ a.2.sequence; omega

/-- **C38** (in part: the choice among the files that are found): the active mapping file is the first of
those with the largest sequence number. -/
theorem C38_newest_partial (find : Nat → Res (Option MappingFile)) (present : Nat → Option MappingFile)
    (hf : ∀ n, find n = .ok (present n)) (ns : List Nat) :
    ∃ r, activeLoop find ns none = .ok r ∧
      IsNewest (ns.filterMap (fun n => (present n).map (fun m => (n, m)))) r := by
  obtain ⟨r, e, h⟩ := activeLoop_newest find present hf ns [] none rfl
  exact ⟨r, e, by simpa using h⟩

theorem IsNewest_unique (files : List (Nat × MappingFile)) (a b : Option (Nat × MappingFile))
    (ha : IsNewest files a) (hb : IsNewest files b) : a = b := by
  cases a with
  | none =>
    cases b with
    | none => rfl
    | some b =>
      obtain ⟨pre, post, e, _, _⟩ := hb
      simp only [IsNewest] at ha
      rw [ha] at e
      simp at e
  | some a =>
    cases b with
    | none =>
      obtain ⟨pre, post, e, _, _⟩ := ha
      simp only [IsNewest] at hb
      rw [hb] at e
      simp at e
    | some b =>
      obtain ⟨p1, q1, e1, h1, h1'⟩ := ha
      obtain ⟨p2, q2, e2, h2, h2'⟩ := hb
      rw [e1] at e2
      congr 1
      rcases List.append_eq_append_iff.mp e2 with ⟨c, e3, e4⟩ | ⟨c, e3, e4⟩
      · cases c with
        | nil => simp only [List.nil_append, List.cons.injEq] at e4; exact e4.1
        | cons x c =>
          simp only [List.cons_append, List.cons.injEq] at e4
          obtain ⟨rfl, e4⟩ := e4
          have a1 := h2 a (by simp [e3])
          have a2 := h1' b (by simp [e4])
          omega
      · cases c with
        | nil => simp only [List.nil_append, List.cons.injEq] at e4; exact e4.1.symm
        | cons x c =>
          simp only [List.cons_append, List.cons.injEq] at e4
          obtain ⟨rfl, e4⟩ := e4
          have a1 := h1 b (by simp [e3])
          have a2 := h2' a (by simp [e4])
          omega

theorem isAlpha_cases (c : Char) : c.isAlpha = true ↔
    (65 ≤ c.toNat ∧ c.toNat ≤ 90) ∨ (97 ≤ c.toNat ∧ c.toNat ≤ 122) := by
  simp only [Char.isAlpha, Char.isUpper, Char.isLower, Bool.or_eq_true, Bool.and_eq_true, decide_eq_true_eq,
    Char.toNat, UInt32.le_iff_toNat_le]
  rfl

theorem toNat_inj (a b : Char) : a = b ↔ a.toNat = b.toNat := by
  constructor
  · rintro rfl; rfl
  · intro h; exact Char.ext (UInt32.toNat_inj.mp h)

theorem toLower_toNat (c : Char) :
    c.toLower.toNat = if 65 ≤ c.toNat ∧ c.toNat ≤ 90 then c.toNat + 32 else c.toNat := by
  have hv := c.valid
  unfold Char.toLower
  split
  · rename_i h
    have h' : 65 ≤ c.toNat ∧ c.toNat ≤ 90 :=
      ⟨UInt32.le_iff_toNat_le.mp h.1, UInt32.le_iff_toNat_le.mp h.2⟩
    rw [if_pos h']
    simp only [Char.toNat] at *
    rw [UInt32.toNat_add]
    have : (('a'.val : UInt32) - 'A'.val).toNat = 32 := by decide
    simp at *
    omega
  · rename_i h
    have h' : ¬ (65 ≤ c.toNat ∧ c.toNat ≤ 90) :=
      fun h' => h ⟨UInt32.le_iff_toNat_le.mpr h'.1, UInt32.le_iff_toNat_le.mpr h'.2⟩
    rw [if_neg h']

theorem toUpper_toNat (c : Char) :
    c.toUpper.toNat = if 97 ≤ c.toNat ∧ c.toNat ≤ 122 then c.toNat - 32 else c.toNat := by
  unfold Char.toUpper
  split
  · rename_i h
    have h' : 97 ≤ c.toNat ∧ c.toNat ≤ 122 :=
      ⟨UInt32.le_iff_toNat_le.mp h.1, UInt32.le_iff_toNat_le.mp h.2⟩
    rw [if_pos h']
    simp only [Char.toNat] at *
    rw [UInt32.toNat_add]
    have : (('A'.val : UInt32) - 'a'.val).toNat = 4294967264 := by decide
    simp at *
    omega
  · rename_i h
    have h' : ¬ (97 ≤ c.toNat ∧ c.toNat ≤ 122) :=
      fun h' => h ⟨UInt32.le_iff_toNat_le.mpr h'.1, UInt32.le_iff_toNat_le.mpr h'.2⟩
    rw [if_neg h']

theorem fold_alpha (c x : Char) :
    (x = c.toUpper ∨ x = c.toLower) ↔ x.toLower = c.toLower := by
  simp only [toNat_inj, toLower_toNat, toUpper_toNat]
  split <;> split <;> split <;> omega

theorem fold_other (c x : Char) (hc : ¬ c.isAlpha = true) : x = c ↔ x.toLower = c.toLower := by
  rw [isAlpha_cases] at hc
  simp only [toNat_inj, toLower_toNat]
  split <;> split <;> omega

theorem alpha_ne (c : Char) (hc : c.isAlpha = true) (d : Char)
    (hd : ¬ ((65 ≤ d.toNat ∧ d.toNat ≤ 90) ∨ (97 ≤ d.toNat ∧ d.toNat ≤ 122))) :
    c.toUpper ≠ d ∧ c.toLower ≠ d := by
  rw [isAlpha_cases] at hc
  rw [ne_eq, ne_eq, toNat_inj, toNat_inj, toLower_toNat, toUpper_toNat]
  split <;> split <;> omega

/-- **C39**: the pattern made of a file name matches exactly the names that are equal to it up to the case
of ASCII letters. -/
theorem C39_glob (name s : List Char) (h : ∀ c ∈ name, c ≠ '*' ∧ c ≠ '?' ∧ c ≠ '[') :
    fnmatch (filenameGlob name) s = true ↔ s.map Char.toLower = name.map Char.toLower := by
  induction name generalizing s with
  | nil => cases s <;> simp [filenameGlob, fnmatch]
  | cons c name ih =>
    have ih' := fun s => ih s (fun c hc => h c (by simp [hc]))
    unfold filenameGlob
    rw [List.flatMap_cons]
    change fnmatch ((if c.isAlpha = true then ['[', c.toUpper, c.toLower, ']'] else [c]) ++ filenameGlob name) s = true ↔ _
    by_cases hc : c.isAlpha = true
    · rw [if_pos hc]
      have n1 := (alpha_ne c hc ']' (by decide)).1
      have n2 := (alpha_ne c hc ']' (by decide)).2
      simp only [List.cons_append, List.nil_append]
      cases s with
      | nil => simp [fnmatch]
      | cons x s =>
        rw [fnmatch, if_neg (by decide)]
        rw [if_neg (by decide), if_pos ⟨rfl, by simp⟩]
        rw [List.takeWhile_cons_of_pos (by simpa using n2), List.takeWhile_cons_of_neg (by simp),
          List.dropWhile_cons_of_pos (by simpa using n2), List.dropWhile_cons_of_neg (by simp)]
        simp only [List.drop_one, List.tail_cons, Bool.and_eq_true, decide_eq_true_eq, List.mem_cons,
          List.not_mem_nil, or_false, List.map_cons, List.cons.injEq]
        rw [ih', fold_alpha c x]
    · rw [if_neg hc]
      obtain ⟨h1, h2, h3⟩ := h c (by simp)
      simp only [List.cons_append, List.nil_append]
      cases s with
      | nil => simp [fnmatch, h1]
      | cons x s =>
        rw [fnmatch.eq_def]
        dsimp only
        rw [if_neg h1]
        rw [if_neg h2, if_neg (by simp [h3])]
        simp only [Bool.and_eq_true, decide_eq_true_eq, List.map_cons, List.cons.injEq]
        rw [ih', fold_other c x hc]

example : fnmatch (filenameGlob "mapping1.map".toList) "MAPPING1.Map".toList = true :=
  (C39_glob _ _ (by decide)).mpr (by decide)

example : fnmatch (filenameGlob "index.btr".toList) "indexxbtr".toList = false := by
  rw [← Bool.not_eq_true, C39_glob _ _ (by decide)]
  decide

theorem openOne_fails {A : Type} (w : World) (reader : List Char → Res A) (path filename : List Char)
    (h : 2 < (filenameGlob filename).length) : openOne w reader path filename = .error .valueError := by
  unfold openOne unpack2
  split
  · rename_i e he
    split at he
    · cases he
    · cases he; rfl
  · rename_i he
    split at he
    · rename_i h2
      rw [h2] at h
      simp at h
    · cases he

/-- **C38**: the search for the active mapping file is an exception in all directories. -/
theorem C38_fails (w : World) (path : List Char) : getActive w path = .error .valueError := by
  unfold getActive
  rw [openOne_fails _ _ _ _ (by decide)]

/-- **C39**: opening is an exception for all paths: the pattern is taken apart as if it were two values. -/
theorem C39_open_fails (w : World) (path dirname basename : List Char) :
    openRepository w path dirname basename = .error .valueError := by
  unfold openRepository
  split
  · rename_i h
    rw [openOne_fails]
    have : ∀ b ∈ mappingNames, 2 < (filenameGlob b).length := by decide
    exact this basename h
  · dsimp only
    split
    · rw [openOne_fails _ _ _ _ (by decide)]
    · rw [openOne_fails _ _ _ _ (by decide)]

/-- The claim that a repository with its files in place can be opened. -/
def C39_open_claim : Prop :=
  ∀ (w : World) (path : List Char) (p i o d : List Char) (m n : MappingFile),
    (∀ name q, (name, q) ∈ [("index.map".toList, p), ("index.btr".toList, i), ("objects.map".toList, o),
      ("objects.data".toList, d)] → w.glob path (filenameGlob name) = [q]) →
    w.mapping p = .ok m → w.mapping o = .ok n → w.index i = .ok () → w.objects d = .ok () →
    ∃ r, openRepository w path [] "repository".toList = .ok r

theorem C39_open_claim_false : ¬ C39_open_claim := by
  intro h
  have := h ⟨fun _ name => [name], fun _ => .ok ⟨1, 0, [], none⟩, fun _ => .ok 0, fun _ => .ok (), fun _ => .ok (),
    fun _ => .ok ()⟩ [] _ _ _ _ ⟨1, 0, [], none⟩ ⟨1, 0, [], none⟩ (by
      intro name q hq
      have : q = filenameGlob name := by
        simp only [List.mem_cons, Prod.mk.injEq, List.not_mem_nil, or_false] at hq
        rcases hq with ⟨rfl, rfl⟩ | ⟨rfl, rfl⟩ | ⟨rfl, rfl⟩ | ⟨rfl, rfl⟩ <;> rfl
      simp [this]) rfl rfl rfl rfl
  obtain ⟨r, e⟩ := this
  rw [C39_open_fails] at e
  cases e

/-- The claim that the newest mapping file is found. -/
def C38_found_claim : Prop :=
  ∀ (w : World) (path : List Char) (present : Nat → Option MappingFile),
    (∀ n ∈ [1, 2, 3], ∃ q, w.glob path (filenameGlob ("mapping".toList ++ digits 10 n ++ ".map".toList)) = q ∧
      (q.head?.map w.mapping) = (present n).map .ok) →
    w.glob path (filenameGlob "mapping.ver".toList) = [] →
    ∃ r, getActive w path = .ok r ∧
      IsNewest ([1, 2, 3].filterMap (fun n => (present n).map (fun m => (n, m)))) r

theorem C38_found_claim_false : ¬ C38_found_claim := by
  intro h
  obtain ⟨r, e, _⟩ := h ⟨fun _ _ => [], fun _ => .error .osError, fun _ => .ok 0, fun _ => .ok (), fun _ => .ok (),
    fun _ => .ok ()⟩ [] (fun _ => none) (fun n _ => ⟨[], rfl, rfl⟩) rfl
  rw [C38_fails] at e
  cases e

/-! ## Proofs: C87 -/

theorem takeInts_chunks (w : Nat) (chunks : List Bytes) (b : Bytes) (h : ∀ c ∈ chunks, c.length = w) :
    takeInts w chunks.length (chunks.flatMap id ++ b) = some (chunks.map leNat, b) := by
  induction chunks with
  | nil => rfl
  | cons c chunks ih =>
    have e := takeBytes_append c (chunks.flatMap id ++ b)
    rw [h c (by simp)] at e
    simp only [List.length_cons, List.flatMap_cons, id, List.append_assoc, takeInts, takeInt, e, Option.map_some]
    rw [ih (fun c hc => h c (by simp [hc]))]
    rfl

theorem readMapTables_bytes (version : Nat) (entries : List (Nat × Bytes)) (unknown : List Nat) (rest : Bytes)
    (hn : entries.length < 2 ^ 32) (hu : unknown.length < 2 ^ 32)
    (he : ∀ e ∈ entries, e.1 < 2 ^ 32 ∧ e.2.length = if version = 1 then 0 else 20)
    (hu' : ∀ u ∈ unknown, u < 2 ^ 32) :
    readMapTables version (tablesBytes entries unknown ++ rest) = .ok (entries.map (·.1), rest) := by
  unfold readMapTables readMapTable tablesBytes
  simp only [List.append_assoc]
  rw [takeInt_append 4 _ _ hn]
  dsimp only
  have hc := takeInts_chunks (if version = 1 then 4 else 24) (entries.map (fun e => leBytes 4 e.1 ++ e.2))
    (leBytes 4 unknown.length ++ (unknown.flatMap (leBytes 4) ++ (leBytes 4 0xDCBA ++ rest))) (by
      intro c hc
      rw [List.mem_map] at hc
      obtain ⟨e, hm, rfl⟩ := hc
      have := (he e hm).2
      split <;> simp_all)
  rw [List.length_map] at hc
  rw [List.flatMap_map] at hc
  simp only [id] at hc
  rw [hc]
  dsimp only
  have hm : ((entries.map (fun e => leBytes 4 e.1 ++ e.2)).map leNat).map (· % 2 ^ 32) = entries.map (·.1) := by
    simp only [List.map_map]
    apply List.map_congr_left
    intro e hem
    have h1 := (he e hem).1
    simp only [Function.comp_apply, leNat_append, leNat_leBytes, leBytes_length]
    omega
  rw [hm]
  unfold readUnknownTable
  rw [takeInt_append 4 _ _ hu]
  dsimp only
  rw [takeInts_append 4 _ _ hu']
  dsimp only
  unfold readMapFooter
  rw [takeInt_append 4 _ _ (by omega)]
  rfl

theorem readMapHeader_v1 (q n : Nat) (rest : Bytes) (hq : q < 2 ^ 32) (hn : n < 2 ^ 32) :
    readMapHeader 1 (headerV1 q n ++ rest) = .ok (⟨q, 0, 0⟩, rest) := by
  unfold readMapHeader headerV1
  have e := takeInts_append 4 [0xABCD, q, n] rest (by simp; omega)
  rw [if_pos rfl]
  rw [show (3 : Nat) = [0xABCD, q, n].length from rfl, e]
  rfl

theorem readMapHeader_v2 (version q u v n : Nat) (rest : Bytes) (hv : version ≠ 1) (hq : q < 2 ^ 32)
    (hu : u < 2 ^ 32) (hv' : v < 2 ^ 32) (hn : n < 2 ^ 32) :
    readMapHeader version (headerV2 q u v n ++ rest) = .ok (⟨q, u, v⟩, rest) := by
  unfold readMapHeader headerV2
  have e := takeInts_append 4 [0xABCD, q, u, v, n] rest (by simp; omega)
  rw [if_neg hv]
  rw [show (5 : Nat) = [0xABCD, q, u, v, n].length from rfl, e]
  rfl

/-- **C87**: of a file of version 2 the sequence number is that of the first header, and the tables are
those written, however long. -/
theorem C87_version2 (q u n q' u' v' n' : Nat) (e1 e2 : List (Nat × Bytes)) (k1 k2 : List Nat) (rest : Bytes)
    (hq : q < 2 ^ 32) (hu : u + 1 < 2 ^ 32) (hn : n < 2 ^ 32)
    (hq' : q' < 2 ^ 32) (hu' : u' < 2 ^ 32) (hv' : v' < 2 ^ 32) (hn' : n' < 2 ^ 32)
    (h1 : e1.length < 2 ^ 32) (h2 : e2.length < 2 ^ 32) (h3 : k1.length < 2 ^ 32) (h4 : k2.length < 2 ^ 32)
    (h5 : ∀ e ∈ e1, e.1 < 2 ^ 32 ∧ e.2.length = 20) (h6 : ∀ e ∈ e2, e.1 < 2 ^ 32 ∧ e.2.length = 20)
    (h7 : ∀ k ∈ k1, k < 2 ^ 32) (h8 : ∀ k ∈ k2, k < 2 ^ 32) :
    readMappingFile (headerV2 q (u + 1) u n ++ (tablesBytes e1 k1 ++ (headerV2 q' u' v' n' ++
      (tablesBytes e2 k2 ++ rest)))) = .ok ⟨2, q, e1.map (·.1), some (e2.map (·.1))⟩ := by
  unfold readMappingFile mapVersion
  rw [readMapHeader_v2 2 q (u + 1) u n _ (by omega) hq hu (by omega) hn]
  dsimp only
  rw [if_pos rfl, readMapHeader_v2 2 q (u + 1) u n _ (by omega) hq hu (by omega) hn]
  dsimp only
  rw [readMapTables_bytes 2 e1 k1 _ h1 h3 h5 h7]
  dsimp only
  rw [if_pos (.inl rfl), readMapHeader_v2 2 q' u' v' n' _ (by omega) hq' hu' hv' hn']
  dsimp only
  rw [readMapTables_bytes 2 e2 k2 _ h2 h4 h6 h8]

/-- What is read as the version 2 header of a file of version 1. -/
theorem mapVersion_v1 (q n : Nat) (e1 : List (Nat × Bytes)) (k1 : List Nat) (rest : Bytes)
    (hq : q < 2 ^ 32) (hn : n < 2 ^ 32) (h1 : e1.length < 2 ^ 32) (h3 : k1.length < 2 ^ 32)
    (h5 : ∀ e ∈ e1, e.1 < 2 ^ 32 ∧ e.2.length = 0) :
    mapVersion (headerV1 q n ++ (tablesBytes e1 k1 ++ rest)) =
      .ok (if n = e1.length + 1 then 2 else 1) := by
  have key : ∃ x r, x < 2 ^ 32 ∧ headerV1 q n ++ (tablesBytes e1 k1 ++ rest) = headerV2 q n e1.length x ++ r := by
    unfold headerV1 headerV2 tablesBytes
    cases e1 with
    | nil =>
      refine ⟨k1.length, k1.flatMap (leBytes 4) ++ leBytes 4 0xDCBA ++ rest, h3, ?_⟩
      simp
    | cons e es =>
      refine ⟨e.1, es.flatMap (fun e => leBytes 4 e.1 ++ e.2) ++
        (leBytes 4 k1.length ++ (k1.flatMap (leBytes 4) ++ leBytes 4 0xDCBA)) ++ rest, (h5 e (by simp)).1, ?_⟩
      have : e.2 = [] := List.length_eq_zero_iff.mp (h5 e (by simp)).2
      simp [this]
  obtain ⟨x, r, hx, e⟩ := key
  unfold mapVersion
  rw [e, readMapHeader_v2 2 q n e1.length x r (by omega) hq hn h1 hx]

/-- **C87** (in part: for files of version 1 whose number of pages is not the number of entries and one):
the sequence number and the tables are those written. -/
theorem C87_version1_partial (q n q' n' : Nat) (e1 e2 : List (Nat × Bytes)) (k1 k2 : List Nat) (rest : Bytes)
    (hq : q < 2 ^ 32) (hn : n < 2 ^ 32) (hq' : q' < 2 ^ 32) (hn' : n' < 2 ^ 32)
    (h1 : e1.length < 2 ^ 32) (h2 : e2.length < 2 ^ 32) (h3 : k1.length < 2 ^ 32) (h4 : k2.length < 2 ^ 32)
    (h5 : ∀ e ∈ e1, e.1 < 2 ^ 32 ∧ e.2.length = 0) (h6 : ∀ e ∈ e2, e.1 < 2 ^ 32 ∧ e.2.length = 0)
    (h7 : ∀ k ∈ k1, k < 2 ^ 32) (h8 : ∀ k ∈ k2, k < 2 ^ 32) (hne : n ≠ e1.length + 1) :
    readMappingFile (headerV1 q n ++ tablesBytes e1 k1) = .ok ⟨1, q, e1.map (·.1), none⟩ ∧
    readMappingFile (headerV1 q n ++ (tablesBytes e1 k1 ++ (headerV1 q' n' ++ (tablesBytes e2 k2 ++ rest)))) =
      .ok ⟨1, q, e1.map (·.1), some (e2.map (·.1))⟩ := by
  constructor
  · have hv := mapVersion_v1 q n e1 k1 [] hq hn h1 h3 h5
    have ht := readMapTables_bytes 1 e1 k1 [] h1 h3 h5 h7
    rw [List.append_nil] at hv ht
    unfold readMappingFile
    rw [hv, if_neg hne]
    dsimp only
    rw [readMapHeader_v1 q n _ hq hn]
    dsimp only
    rw [ht]
    rfl
  · unfold readMappingFile
    rw [mapVersion_v1 q n e1 k1 _ hq hn h1 h3 h5, if_neg hne]
    dsimp only
    rw [readMapHeader_v1 q n _ hq hn]
    dsimp only
    rw [readMapTables_bytes 1 e1 k1 _ h1 h3 h5 h7]
    dsimp only
    rw [if_pos (.inr (by simp [headerV1, leBytes])), readMapHeader_v1 q' n' _ hq' hn']
    dsimp only
    rw [readMapTables_bytes 1 e2 k2 _ h2 h4 h6 h8]

/-- **C87**: data after the first table of a file of version 1 that is not a second header is no error. -/
theorem C87_trailing (q n : Nat) (e1 : List (Nat × Bytes)) (k1 : List Nat) (rest : Bytes)
    (hq : q < 2 ^ 32) (hn : n < 2 ^ 32) (h1 : e1.length < 2 ^ 32) (h3 : k1.length < 2 ^ 32)
    (h5 : ∀ e ∈ e1, e.1 < 2 ^ 32 ∧ e.2.length = 0) (h7 : ∀ k ∈ k1, k < 2 ^ 32) (hne : n ≠ e1.length + 1)
    (hr : rest.length < 12 ∨ leNat (rest.take 4) ≠ 0xABCD) :
    readMappingFile (headerV1 q n ++ (tablesBytes e1 k1 ++ rest)) = .ok ⟨1, q, e1.map (·.1), none⟩ := by
  unfold readMappingFile
  rw [mapVersion_v1 q n e1 k1 _ hq hn h1 h3 h5, if_neg hne]
  dsimp only
  rw [readMapHeader_v1 q n _ hq hn]
  dsimp only
  rw [readMapTables_bytes 1 e1 k1 _ h1 h3 h5 h7]
  dsimp only
  split
  · have : ∃ e, readMapHeader 1 rest = .error e := by
      unfold readMapHeader
      rw [if_pos rfl]
      by_cases hl : rest.length < 12
      · refine ⟨.parseError, ?_⟩
        have : takeInts 4 3 rest = none := by
          simp only [takeInts, takeInt, takeBytes]
          by_cases a : rest.length < 4
          · simp [a]
          · by_cases b : rest.length - 4 < 4
            · simp [a, b]
            · have c : rest.length - 8 < 4 := by omega
              simp [a, b, c]
        rw [this]
      · have hs := hr.resolve_left hl
        refine ⟨.parseError, ?_⟩
        have a : ¬ rest.length < 4 := by omega
        have b : ¬ rest.length - 4 < 4 := by omega
        have c : ¬ rest.length - 4 - 4 < 4 := by omega
        simp only [takeInts, takeInt, takeBytes, a, b, c, if_false, Option.map_some, List.length_drop]
        rw [if_neg hs]
    obtain ⟨e, he⟩ := this
    rw [he]
    rfl
  · rfl

/-- **C87**: the index is mapped by the second table if there is one and the objects by the first. -/
theorem C87_tables (m : MappingFile) :
    (∀ t, m.table2 = some t → indexTable m = t) ∧ (m.table2 = none → indexTable m = m.table1) ∧
    objectsTable m = m.table1 := by
  refine ⟨fun t h => by simp [indexTable, h], fun h => by simp [indexTable, h], rfl⟩

/-- The claim that all files of version 1 are read. -/
def C87_version1_claim : Prop :=
  ∀ (q n : Nat) (e1 : List Nat), q < 2 ^ 32 → n < 2 ^ 32 → e1.length < 2 ^ 32 → (∀ e ∈ e1, e < 2 ^ 32) →
    readMappingFile (headerV1 q n ++ tablesBytes (e1.map (fun e => (e, []))) []) = .ok ⟨1, q, e1, none⟩

/-- **C87**: a file of version 1 with one page more than entries is taken for one of version 2. -/
theorem C87_version1_claim_false : ¬ C87_version1_claim := by
  intro h
  have := h 1 3 [5, 6] (by decide) (by decide) (by decide) (by decide)
  revert this
  decide +kernel

example : readMappingFile (headerV1 7 5 ++ tablesBytes [(3, []), (0xFFFFFFFF, []), (4, [])] [9]) =
    .ok ⟨1, 7, [3, 0xFFFFFFFF, 4], none⟩ := by decide +kernel

example : readMappingFile (headerV2 7 6 5 5 ++ (tablesBytes [(3, List.replicate 20 1)] [9] ++
    (headerV2 8 6 5 5 ++ tablesBytes [(4, List.replicate 20 2), (2, List.replicate 20 3)] []))) =
    .ok ⟨2, 7, [3], some [4, 2]⟩ := by decide +kernel

end Dtf.Wmi
