import Verif.Cpio.Props
import Verif.DataRange.Props

/-!
# Hashes of the members of CPIO archives (C156)

scripts/cpio.py writes the hashes of the members of the archives in a file.  The hash and the decompression are parameters.
-/

namespace Dtf.Cpio
open Py DataFormat DataRange.Spec

/-! ## Model -/

/-- The loop of `_ReadFileEntries` (cpio.py 329-342) of an archive that was not opened by its path: its `_file_size` is 0, so
that the loop ends at a trailer only.  `none` means out of fuel. -/
def unsizedLoop (fmt : Format) (data : Bytes) : Nat → Int → Entries → Option Outcome
  | 0, _, _ => none
  | fuel + 1, off, es =>
    match readFileEntry fmt data off with
    | .error e => some ⟨es, .error e⟩
    | .ok e =>
      if e.path = trailer then some ⟨es, .ok (off + e.size)⟩
      else if contains es e.path then unsizedLoop fmt data fuel (off + e.size) es
      else unsizedLoop fmt data fuel (off + e.size) (es ++ [(e.path, e)])

/-- `ReadFileObject` (cpio.py 391-419) of an archive that was not opened by its path. -/
def readUnsized (data : Bytes) (fuel : Nat) : Option Outcome :=
  match detect data with
  | none => some ⟨[], .error .parseError⟩
  | some fmt => unsizedLoop fmt data fuel 0 []

/-- The compressions (scripts/cpio.py 66-83). -/
inductive Packing
  | gzip
  | bzip
  | xz
deriving DecidableEq

/-- The hash, the decompression of the rest of a file, and whether there is a module for xz. -/
structure HashEnv where
  digest : Bytes → List Char
  unpack : Packing → Bytes → Res Bytes
  lzma : Bool

/-- What the script writes. -/
inductive Line
  | hash (digest : List Char) (path : Bytes)
  | unsupported (offset : Nat)
deriving DecidableEq

/-- What the bytes at an offset are the first of (scripts/cpio.py 64-83): an archive, or a compression. -/
def fileType (signature : Bytes) : Option (Option Packing) :=
  if signature.length > 2 then
    if signature.take 2 ∈ [[0x71, 0xC7], [0xC7, 0x71]] ∨ signature ∈ [[48, 55, 48, 55, 48, 55], [48, 55, 48, 55, 48, 49],
        [48, 55, 48, 55, 48, 50]] then some none
    else if signature.take 2 = [0x1f, 0x8b] then some (some .gzip)
    else if signature.take 2 = [66, 90] then some (some .bzip)
    else if signature = [0xfd, 55, 122, 88, 90, 0] then some (some .xz)
    else none
  else none

/-- The reads of 4096 bytes (scripts/cpio.py 121-125), with the bytes the hash was updated with. -/
def readAll : Nat → File → DataRange.Range → Bytes → Option (Res Bytes)
  | 0, _, _, _ => none
  | fuel + 1, f, r, acc =>
    match DataRange.read f r (some 4096) with
    | (.error e, _, _) => some (.error e)
    | (.ok [], _, _) => some (.ok acc)
    | (.ok b, f, r) => readAll fuel f r (acc ++ b)

/-- The loop over entries (scripts/cpio.py 116-128), with the lines that were written. -/
def hashEntries (env : HashEnv) (data : Bytes) (fuel : Nat) : List Entry → List Line × Option (Res Unit)
  | [] => ([], some (.ok ()))
  | e :: es =>
    if e.dataSize = 0 then hashEntries env data fuel es
    else
      match readAll fuel ⟨data, 0⟩ (DataRange.init e.dataOffset e.dataSize) [] with
      | none => ([], none)
      | some (.error x) => ([], some (.error x))
      | some (.ok b) => (.hash (env.digest b) e.path :: (hashEntries env data fuel es).1, (hashEntries env data fuel es).2)

/-- `sorted(entries)` (scripts/cpio.py 116): an entry has no order, so that two entries cannot be compared. -/
def sortEntries (es : List Entry) : Res (List Entry) := if es.length < 2 then .ok es else .error .typeError

/-- The reading and the hashing of an archive (scripts/cpio.py 113-128), with its size. -/
def hashArchive (env : HashEnv) (data : Bytes) (fuel : Nat) : List Line × Option (Res Int) :=
  match readUnsized data fuel with
  | none => ([], none)
  | some ⟨_, .error e⟩ => ([], some (.error e))
  | some ⟨es, .ok size⟩ =>
    match sortEntries (getEntries es []) with
    | .error e => ([], some (.error e))
    | .ok l =>
      match hashEntries env data fuel l with
      | (lines, none) => (lines, none)
      | (lines, some (.error e)) => (lines, some (.error e))
      | (lines, some (.ok ())) => (lines, some (.ok size))

/-- `Close` (data_format.py 866-879), which is called by that of an archive first: only a file that was opened by its path has
a file object. -/
def close (opened : Bool) : Res Unit := if opened then .ok () else .error .osError

/-- The data that an archive is read from (scripts/cpio.py 91-111): an archive is read from the start of the file, as
`ReadFileObject` goes there, a compressed one from the offset on.  Without a module for xz there is no file object. -/
def archiveData (env : HashEnv) (data : Bytes) (offset : Nat) : Option Packing → Res Bytes
  | none => .ok data
  | some .xz => if env.lzma then env.unpack .xz (data.drop offset) else .error .attributeError
  | some p => env.unpack p (data.drop offset)

/-- The offset behind an archive, at a multiple of 16 (scripts/cpio.py 130-134). -/
def nextOffset (offset size : Int) : Int :=
  let offset := offset + size
  if offset % 16 > 0 then offset + (16 - offset % 16) else offset

/-- The loop of `HashFileEntries` (scripts/cpio.py 50-136).  A negative offset cannot be sought. -/
def hashLoop (env : HashEnv) (data : Bytes) : Nat → Int → List Line × Option (Res Unit)
  | 0, _ => ([], none)
  | fuel + 1, offset =>
    if offset < data.length then
      if offset < 0 then ([], some (.error .osError))
      else
        match fileType (slice data offset.toNat (offset.toNat + 6)) with
        | none => ([.unsupported offset.toNat], some (.ok ()))
        | some packing =>
          match archiveData env data offset.toNat packing with
          | .error e => ([], some (.error e))
          | .ok content =>
            match hashArchive env content fuel with
            | (lines, none) => (lines, none)
            | (lines, some (.error e)) => (lines, some (.error e))
            | (lines, some (.ok size)) =>
              match close false with
              | .error e => (lines, some (.error e))
              | .ok () =>
                let next := hashLoop env data fuel (nextOffset offset size)
                (lines ++ next.1, next.2)
    else ([], some (.ok ()))

/-- `HashFileEntries`. -/
def hashFile (env : HashEnv) (data : Bytes) (fuel : Nat) : List Line × Option (Res Unit) := hashLoop env data fuel 0

/-! ## Contents -/

/-- C156.  What is hashed is the contents of the member, whatever their size. -/
theorem C156_contents (f : File) (o s : Nat) (fuel : Nat) (hf : (window f.data o s).length < fuel) :
    readAll fuel f (DataRange.init o s) [] = some (.ok (window f.data o s)) := by
  have key : ∀ fuel (f : File) (p : Nat) acc, (window f.data o s).length - p < fuel →
      readAll fuel f ⟨o, s, (p : Int)⟩ acc = some (.ok (acc ++ (window f.data o s).drop p)) := by
    intro fuel
    induction fuel with
    | zero => intro f p acc h; omega
    | succ fuel ih =>
      intro f p acc h
      rw [readAll]
      have hw := DataRange.window_length f.data o s
      by_cases hp : p < s
      · rw [DataRange.read_eq f o s p (some 4096) hp (by intro m hm; cases hm; omega)]
        have e : (f.data.drop (o + p)).take (min 4096 (s - p)) =
            ((window f.data o s).drop p).take (min 4096 (s - p)) := by
          rw [DataRange.window_drop f.data o s p _ (by omega)]
        dsimp only
        rw [show (4096 : Int).toNat = 4096 from rfl, e]
        by_cases hl : p < (window f.data o s).length
        · have hlen : (((window f.data o s).drop p).take (min 4096 (s - p))).length =
              min (min 4096 (s - p)) (f.data.length - (o + p)) := by
            simp only [List.length_take, List.length_drop, hw]
            omega
          cases hb : ((window f.data o s).drop p).take (min 4096 (s - p)) with
          | nil =>
            rw [hb] at hlen
            simp only [List.length_nil] at hlen
            omega
          | cons x xs =>
            dsimp only
            rw [ih _ _ _ (by dsimp only; omega), ← hb, ← hlen]
            congr 2
            rw [List.append_assoc]
            congr 1
            dsimp only
            rw [← List.drop_drop, List.length_take]
            generalize (window f.data o s).drop p = w
            rcases Nat.le_total (min 4096 (s - p)) w.length with hc | hc
            · rw [Nat.min_eq_left hc, List.take_append_drop]
            · rw [Nat.min_eq_right hc, List.take_of_length_le hc, List.drop_length, List.append_nil]
        · rw [List.drop_of_length_le (by omega)]
          simp
      · rw [DataRange.read_past f o s p _ (by omega)]
        dsimp only
        rw [List.drop_of_length_le (by omega)]
        simp
  have := key fuel f 0 [] (by omega)
  simpa [DataRange.init] using this

example : (window (List.replicate 10000 (1 : UInt8)) 2 5000).length < 6000 := by
  rw [DataRange.window_length]
  simp only [List.length_replicate]
  omega

/-! ## Archives -/

theorem unsizedLoop_members (fmt : Format) (ms : List Member) (pre post : Bytes) (fuel : Nat)
    (es : Entries) (hok : ∀ m ∈ ms, m.Ok fmt) (hne : ∀ m ∈ ms, m.path ≠ trailer) :
    unsizedLoop fmt (pre ++ archiveBytes fmt pre.length ms ++ post) (ms.length + fuel) pre.length es =
      unsizedLoop fmt (pre ++ archiveBytes fmt pre.length ms ++ post) fuel
        ((pre ++ archiveBytes fmt pre.length ms).length : Nat)
        (insertAll es (archiveEntries fmt pre.length ms)) := by
  induction ms generalizing pre es with
  | nil => simp [archiveBytes, archiveEntries, insertAll]
  | cons m ms ih =>
    have hmok := hok m (List.mem_cons_self ..)
    have hl : (pre ++ m.bytes fmt pre.length).length = m.endOffset fmt pre.length := by
      rw [List.length_append, bytes_length]
    have e1 : pre ++ archiveBytes fmt pre.length (m :: ms) ++ post =
        pre ++ m.bytes fmt pre.length ++ (archiveBytes fmt (m.endOffset fmt pre.length) ms ++ post) := by
      simp [archiveBytes]
    have e2 : pre ++ archiveBytes fmt pre.length (m :: ms) =
        pre ++ m.bytes fmt pre.length ++ archiveBytes fmt (m.endOffset fmt pre.length) ms := by
      simp [archiveBytes]
    have hread := readFileEntry_member fmt pre
      (archiveBytes fmt (m.endOffset fmt pre.length) ms ++ post) m hmok
    have hoff : (pre.length : Int) + (m.entry fmt pre.length).size =
        ((pre ++ m.bytes fmt pre.length).length : Nat) := by
      rw [hl]
      simp only [Member.entry]
      omega
    rw [show (m :: ms).length + fuel = ms.length + fuel + 1 by simp; omega, unsizedLoop, e1, e2, hread]
    simp only
    rw [if_neg (by exact hne m (List.mem_cons_self ..)), hoff]
    have ih' := fun es => ih (pre ++ m.bytes fmt pre.length) es
      (fun x hx => hok x (List.mem_cons_of_mem _ hx)) (fun x hx => hne x (List.mem_cons_of_mem _ hx))
    simp only [hl] at ih'
    rw [← List.append_assoc, hl]
    simp only [archiveEntries, insertAll]
    split <;> rw [ih']

/-- An archive with a trailer is read as if it was opened by its path. -/
theorem readUnsized_archive (fmt : Format) (ms : List Member) (tr : Member) (rest : Bytes) (fuel : Nat)
    (hok : ∀ m ∈ ms, m.Ok fmt) (hne : ∀ m ∈ ms, m.path ≠ trailer)
    (htr : tr.Ok fmt) (htp : tr.path = trailer) (hf : ms.length < fuel) :
    readUnsized (archiveBytes fmt 0 (ms ++ [tr]) ++ rest) fuel =
      some ⟨(firstOfPath (archiveEntries fmt 0 ms)).map fun e => (e.path, e),
        .ok ((archiveBytes fmt 0 (ms ++ [tr])).length : Nat)⟩ := by
  obtain ⟨f, rfl⟩ : ∃ f, fuel = ms.length + (f + 1) := ⟨fuel - ms.length - 1, by omega⟩
  have hsplit := archiveBytes_append fmt 0 ms [tr]
  simp only [Nat.zero_add] at hsplit
  generalize hA : archiveBytes fmt 0 ms = A at hsplit
  have htrb : archiveBytes fmt A.length [tr] = tr.bytes fmt A.length := by simp [archiveBytes]
  rw [htrb] at hsplit
  have hdet : detect (archiveBytes fmt 0 (ms ++ [tr]) ++ rest) = some fmt := by
    cases ms with
    | nil =>
      simp only [List.nil_append, archiveBytes, Member.bytes, List.append_assoc]
      exact detect_member fmt tr _ htr.1
    | cons m ms =>
      simp only [List.cons_append, archiveBytes, Member.bytes, List.append_assoc]
      exact detect_member fmt m _ (hok m (List.mem_cons_self ..)).1
  have hloop := unsizedLoop_members fmt ms [] (tr.bytes fmt A.length ++ rest) (f + 1) [] hok hne
  simp only [List.nil_append, List.length_nil, hA, Int.ofNat_zero] at hloop
  have hdata : A ++ (tr.bytes fmt A.length ++ rest) = archiveBytes fmt 0 (ms ++ [tr]) ++ rest := by
    rw [hsplit, List.append_assoc]
  rw [hdata] at hloop
  rw [readUnsized, hdet]
  simp only
  rw [hloop, unsizedLoop]
  have hread := readFileEntry_member fmt A rest tr htr
  have hdata' : A ++ tr.bytes fmt A.length ++ rest = archiveBytes fmt 0 (ms ++ [tr]) ++ rest := by
    rw [hsplit]
  rw [hdata'] at hread
  have hl := bytes_length fmt A.length tr
  have h1 := contentOffset_ge fmt A.length tr
  have h2 := endOffset_ge fmt A.length tr
  rw [hread]
  simp only
  rw [if_pos (by exact htp), insertAll_eq]
  have hsize : (A.length : Int) + (tr.entry fmt A.length).size =
      ((archiveBytes fmt 0 (ms ++ [tr])).length : Nat) := by
    rw [hsplit, List.length_append, hl]
    simp only [Member.entry]
    omega
  rw [hsize]
  simp [contains]

/-- A file whose first bytes are those of an archive, for the two readers of the signature. -/
theorem fileType_detect (data : Bytes) (fmt : Format) (h : detect data = some fmt) :
    fileType (data.take 6) = some none := by
  unfold detect at h
  unfold fileType
  dsimp only at h
  split at h
  · rename_i hlen
    rw [if_pos hlen, if_pos]
    split at h
    · rename_i h1; left; rw [h1]; simp
    · split at h
      · rename_i h1; left; rw [h1]; simp
      · right
        split at h
        · rename_i h1; rw [h1]; simp
        · split at h
          · rename_i h1; rw [h1]; simp
          · split at h
            · rename_i h1; rw [h1]; simp
            · cases h
  · cases h

theorem detect_archive (fmt : Format) (ms : List Member) (tr : Member) (rest : Bytes) (hok : ∀ m ∈ ms, m.Ok fmt)
    (htr : tr.Ok fmt) : detect (archiveBytes fmt 0 (ms ++ [tr]) ++ rest) = some fmt := by
  cases ms with
  | nil =>
    simp only [List.nil_append, archiveBytes, Member.bytes, List.append_assoc]
    exact detect_member fmt tr _ htr.1
  | cons m ms =>
    simp only [List.cons_append, archiveBytes, Member.bytes, List.append_assoc]
    exact detect_member fmt m _ (hok m (List.mem_cons_self ..)).1

/-- The first pass of the loop, which is the only one. -/
theorem hashFile_archive (env : HashEnv) (data : Bytes) (fmt : Format) (fuel : Nat) (h : detect data = some fmt) :
    hashFile env data (fuel + 1) =
      match hashArchive env data fuel with
      | (lines, none) => (lines, none)
      | (lines, some (.error e)) => (lines, some (.error e))
      | (lines, some (.ok _)) => (lines, some (.error .osError)) := by
  have hpos : (0 : Int) < data.length := by
    cases data with
    | nil => simp [detect] at h
    | cons x xs => simp only [List.length_cons]; omega
  rw [hashFile, hashLoop, if_pos hpos, if_neg (by omega)]
  have e : slice data (0 : Int).toNat ((0 : Int).toNat + 6) = data.take 6 := by simp [slice]
  rw [e, fileType_detect data fmt h]
  dsimp only [archiveData]
  rcases hashArchive env data fuel with ⟨lines, _ | _ | _⟩ <;> rfl

theorem getEntries_all (es : List Entry) : getEntries (es.map fun e => (e.path, e)) [] = es := by
  unfold getEntries
  rw [List.filter_eq_self.mpr (by intro a _; simp [List.isPrefixOf])]
  rw [List.map_map]
  exact List.map_id es

/-! ## Claims -/

/-- C156, as a user reads it: every member of an archive with contents gets a line with the hash of its contents, and the
script ends normally. -/
def C156_hashes_claim : Prop :=
  ∀ (env : HashEnv) (fmt : Format) (ms : List Member) (tr : Member), (∀ m ∈ ms, m.Ok fmt) →
    (∀ m ∈ ms, m.path ≠ trailer) → (ms.map (·.path)).Nodup → tr.Ok fmt → tr.path = trailer →
      ∃ fuel lines, hashFile env (archiveBytes fmt 0 (ms ++ [tr])) fuel = (lines, some (.ok ())) ∧
        ∀ m ∈ ms, m.content ≠ [] → Line.hash (env.digest m.content) m.path ∈ lines

/-- C156.  The script ends normally only where it hashes nothing: for an empty file, and for one whose first bytes are those
of no archive and of no compression. -/
theorem C156_never (env : HashEnv) (data : Bytes) (fuel : Nat) (h : (hashFile env data fuel).2 = some (.ok ())) :
    (data = [] ∧ (hashFile env data fuel).1 = []) ∨
      (fileType (data.take 6) = none ∧ (hashFile env data fuel).1 = [.unsupported 0]) := by
  cases fuel with
  | zero => simp [hashFile, hashLoop] at h
  | succ fuel =>
    rw [hashFile, hashLoop] at h ⊢
    have e : slice data (0 : Int).toNat ((0 : Int).toNat + 6) = data.take 6 := by simp [slice]
    by_cases hp : (0 : Int) < data.length
    · rw [if_pos hp, if_neg (by omega), e] at h ⊢
      cases hft : fileType (data.take 6) with
      | none => right; exact ⟨rfl, rfl⟩
      | some packing =>
        exfalso
        rw [hft] at h
        dsimp only at h
        cases had : archiveData env data (0 : Int).toNat packing with
        | error x => rw [had] at h; cases h
        | ok content =>
          rw [had] at h
          dsimp only at h
          rcases hha : hashArchive env content fuel with ⟨lines, _ | _ | _⟩ <;> rw [hha] at h <;> cases h
    · left
      rw [if_neg hp]
      refine ⟨List.eq_nil_of_length_eq_zero (by omega), rfl⟩

/-- C156.  With two members or more of different paths nothing is hashed: the entries cannot be sorted. -/
theorem C156_two_members (env : HashEnv) (fmt : Format) (ms : List Member) (tr : Member) (rest : Bytes) (fuel : Nat)
    (hok : ∀ m ∈ ms, m.Ok fmt) (hne : ∀ m ∈ ms, m.path ≠ trailer) (htr : tr.Ok fmt) (htp : tr.path = trailer)
    (hf : ms.length < fuel) (a b : Member) (ha : a ∈ ms) (hb : b ∈ ms) (hab : a.path ≠ b.path) :
    hashFile env (archiveBytes fmt 0 (ms ++ [tr]) ++ rest) (fuel + 1) = ([], some (.error .typeError)) := by
  rw [hashFile_archive env _ fmt fuel (detect_archive fmt ms tr rest hok htr), hashArchive,
    readUnsized_archive fmt ms tr rest fuel hok hne htr htp hf]
  dsimp only
  rw [getEntries_all]
  have hpaths : ∀ (l : List Entry) (e : Entry), e ∈ l → ∃ x ∈ firstOfPath l, x.path = e.path := by
    intro l
    induction l with
    | nil => intro e he; cases he
    | cons y l ih =>
      intro e he
      rw [firstOfPath]
      by_cases hy : y.path = e.path
      · exact ⟨y, List.mem_cons_self, hy⟩
      · rcases List.mem_cons.mp he with rfl | he
        · exact absurd rfl hy
        · obtain ⟨x, hx, hxe⟩ := ih e he
          refine ⟨x, List.mem_cons_of_mem _ (List.mem_filter.mpr ⟨hx, ?_⟩), hxe⟩
          simp only [decide_not, Bool.not_eq_eq_eq_not, Bool.not_true, decide_eq_false_iff_not]
          rw [hxe]
          exact fun hh => hy hh.symm
  have hentry : ∀ (ms : List Member) (off : Nat) (m : Member), m ∈ ms → ∃ e ∈ archiveEntries fmt off ms, e.path = m.path := by
    intro ms
    induction ms with
    | nil => intro off m hm; cases hm
    | cons y ms ih =>
      intro off m hm
      rw [archiveEntries]
      rcases List.mem_cons.mp hm with rfl | hm
      · exact ⟨_, List.mem_cons_self, rfl⟩
      · obtain ⟨e, he, hp⟩ := ih _ m hm
        exact ⟨e, List.mem_cons_of_mem _ he, hp⟩
  obtain ⟨ea, hea, hpa⟩ := hentry ms 0 a ha
  obtain ⟨eb, heb, hpb⟩ := hentry ms 0 b hb
  obtain ⟨xa, hxa, hqa⟩ := hpaths _ ea hea
  obtain ⟨xb, hxb, hqb⟩ := hpaths _ eb heb
  have hlen : ¬ (firstOfPath (archiveEntries fmt 0 ms)).length < 2 := by
    intro hlt
    generalize firstOfPath (archiveEntries fmt 0 ms) = l at hxa hxb hlt
    match l, hxa, hxb, hlt with
    | [x], hxa, hxb, _ =>
      rw [List.mem_singleton] at hxa hxb
      exact hab (by rw [← hpa, ← hpb, ← hqa, ← hqb, hxa, hxb])
    | _ :: _ :: _, _, _, h => simp only [List.length_cons] at h; omega
  rw [sortEntries, if_neg hlen]

/-- C156, the part that holds: the member of an archive with one member gets the line with the hash of its contents, or none if
it has no contents.  Missing is the normal end: the script then raises the error of a file that was not opened, whatever
follows the archive. -/
theorem C156_one_member_partial (env : HashEnv) (fmt : Format) (m tr : Member) (rest : Bytes) (fuel : Nat)
    (hok : m.Ok fmt) (hne : m.path ≠ trailer) (htr : tr.Ok fmt) (htp : tr.path = trailer)
    (hf : m.content.length + 1 < fuel) :
    hashFile env (archiveBytes fmt 0 ([m] ++ [tr]) ++ rest) (fuel + 1) =
      (if m.content = [] then [] else [.hash (env.digest m.content) m.path], some (.error .osError)) := by
  rw [hashFile_archive env _ fmt fuel (detect_archive fmt [m] tr rest (by simpa using hok) htr), hashArchive,
    readUnsized_archive fmt [m] tr rest fuel (by simpa using hok) (by simpa using hne) htr htp
      (by simp only [List.length_cons, List.length_nil]; omega)]
  dsimp only
  rw [getEntries_all]
  have hone : firstOfPath (archiveEntries fmt 0 [m]) = [m.entry fmt 0] := rfl
  rw [hone]
  have hsort : sortEntries [m.entry fmt 0] = .ok [m.entry fmt 0] := rfl
  rw [hsort]
  dsimp only
  rw [hashEntries, hashEntries]
  by_cases hc : m.content = []
  · rw [if_pos (by simp [Member.entry, hc]), if_pos hc]
  · have hcl : m.content.length ≠ 0 := fun hh => hc (List.eq_nil_of_length_eq_zero hh)
    rw [if_neg (by simp only [Member.entry]; omega), if_neg hc]
    obtain ⟨e, he, -, hcont, -, -⟩ := C21_contents fmt [m] (archiveBytes fmt (m.endOffset fmt 0) [tr] ++ rest) [] 0 m rfl
    have he' : e = m.entry fmt 0 := by
      simp only [archiveEntries, List.getElem?_cons_zero, Option.some.injEq, List.length_nil] at he
      exact he.symm
    subst he'
    have hdata : ([] : Bytes) ++ archiveBytes fmt ([] : Bytes).length [m] ++ (archiveBytes fmt (m.endOffset fmt 0) [tr] ++ rest) =
        archiveBytes fmt 0 ([m] ++ [tr]) ++ rest := by
      simp [archiveBytes]
    rw [hdata] at hcont
    have hw : window (archiveBytes fmt 0 ([m] ++ [tr]) ++ rest) (m.contentOffset fmt 0) m.content.length = m.content := by
      refine Eq.trans ?_ hcont
      unfold window slice
      simp only [Member.entry, Int.toNat_natCast]
      have : ((m.contentOffset fmt 0 : Int) + (m.content.length : Int)).toNat = m.contentOffset fmt 0 + m.content.length := by
        omega
      rw [this]
      rw [List.drop_take, Nat.add_sub_cancel_left]
    have hr := C156_contents ⟨archiveBytes fmt 0 ([m] ++ [tr]) ++ rest, 0⟩ (m.contentOffset fmt 0) m.content.length fuel
      (by dsimp only; rw [hw]; omega)
    dsimp only at hr
    rw [hw] at hr
    have : DataRange.init (m.entry fmt 0).dataOffset (m.entry fmt 0).dataSize =
        DataRange.init (m.contentOffset fmt 0 : Nat) (m.content.length : Nat) := rfl
    rw [this, hr]
    rfl

/-- C156.  The claim is false, even for one member. -/
theorem C156_hashes_claim_false : ¬ C156_hashes_claim := by
  intro h
  have hok := C21_newc_header_exists sampleMember (by decide) (by decide)
  have htr := C21_newc_header_exists sampleTrailer (by decide) (by decide)
  obtain ⟨fuel, lines, hh, hin⟩ := h ⟨fun _ => [], fun _ _ => .error .osError, true⟩ .newc [sampleMember.withNewcHeader]
    sampleTrailer.withNewcHeader (by simpa using hok) (by intro m hm; rw [List.mem_singleton.mp hm]; decide) (by simp) htr rfl
  have hl := hin _ (List.mem_singleton.mpr rfl) (by decide)
  rcases C156_never _ _ fuel (by rw [hh]) with ⟨-, h2⟩ | ⟨-, h2⟩ <;> rw [hh] at h2 <;> dsimp only at h2 <;> rw [h2] at hl
  · cases hl
  · simp at hl

/-- The hypotheses of the theorem for one member can be met. -/
example : sampleMember.withNewcHeader.Ok .newc ∧ sampleMember.withNewcHeader.content ≠ [] ∧
    sampleMember.withNewcHeader.path ≠ trailer ∧ sampleTrailer.withNewcHeader.Ok .newc :=
  ⟨C21_newc_header_exists _ (by decide) (by decide), by decide, by decide, C21_newc_header_exists _ (by decide) (by decide)⟩

/-- And those of the theorem for two. -/
example : ({ sampleMember with path := [98] } : Member).withNewcHeader.Ok .newc ∧
    ({ sampleMember with path := [98] } : Member).withNewcHeader.path ≠ sampleMember.withNewcHeader.path :=
  ⟨C21_newc_header_exists _ (by decide) (by decide), by decide⟩

/-- C156.  An archive that was not opened by its path has no size, so that one without a trailer ends with an error. -/
theorem C156_no_trailer (env : HashEnv) (fmt : Format) (ms : List Member) (fuel : Nat)
    (hok : ∀ m ∈ ms, m.Ok fmt) (hne : ∀ m ∈ ms, m.path ≠ trailer) (hnil : ms ≠ []) (hf : ms.length < fuel) :
    hashFile env (archiveBytes fmt 0 ms) (fuel + 1) = ([], some (.error .parseError)) := by
  obtain ⟨f, rfl⟩ : ∃ f, fuel = ms.length + (f + 1) := ⟨fuel - ms.length - 1, by omega⟩
  have hdet : detect (archiveBytes fmt 0 ms) = some fmt := by
    cases ms with
    | nil => exact absurd rfl hnil
    | cons m ms =>
      simp only [archiveBytes, Member.bytes, List.append_assoc]
      exact detect_member fmt m _ (hok m (List.mem_cons_self ..)).1
  have hloop := unsizedLoop_members fmt ms [] [] (f + 1) [] hok hne
  simp only [List.nil_append, List.append_nil, List.length_nil] at hloop
  have hz : ((0 : Nat) : Int) = 0 := rfl
  rw [hz] at hloop
  rw [hashFile_archive env _ fmt _ hdet, hashArchive, readUnsized, hdet]
  simp only
  rw [hloop, unsizedLoop]
  have hend : readFileEntry fmt (archiveBytes fmt 0 ms) ((archiveBytes fmt 0 ms).length : Nat) = .error .parseError := by
    have hpos : 0 < headerSize fmt := by cases fmt <;> decide
    rw [readFileEntry, structAt_fixed _ _ _ _ hpos, if_pos (by omega)]
  rw [hend]

end Dtf.Cpio
