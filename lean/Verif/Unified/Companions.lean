import Verif.Unified.Trace
import Verif.Uuid
import Verif.Spotlight.VarInt

/-!
# The files beside a trace file, and file systems in storage media images

The files with strings and time synchronisation of a unified log (`_OpenDSCFile`, `_OpenUUIDTextFile` and
`_OpenTimesyncDatabaseFile` of dtformats/unified_logging.py) by the paths of the two file system helpers, and the selection of a
file system by the helper of dfVFS (dtformats/dfvfs_helpers.py).  dfVFS itself is a parameter, but for its joining of paths.
-/

namespace Dtf.Companions
open Py Text Formats

abbrev Str := List Char

/-- A file system helper: `JoinPath` and `CheckFileExistsByPath`. -/
structure Helper where
  join : List Str → Str
  present : Str → Bool

/-- `NativeFileSystemHelper` (file_system.py 114-123 and 149-158), with the separator of POSIX. -/
def native (present : Str → Bool) : Helper := ⟨joinPath '/', present⟩

/-- `DFVFSFileSystemHelper.JoinPath` (dfvfs_helpers.py 88-97): dfVFS splits the segments and drops empty ones. -/
def dfvfs (present : Str → Bool) : Helper := ⟨fun l => joinPath '/' (l.flatMap (splitPath '/')), present⟩

/-- `uuid.hex.upper()` of an identifier (unified_logging.py 3196). -/
def name (b : Bytes) : Str := Unified.hexUpper 32 (beNat b)

/-- The path of a file that is opened: none if the directory is not known or there is no such file. -/
def openIn (h : Helper) (directory : Option Str) (below : List Str) : Option Str :=
  match directory with
  | none => none
  | some d => if d = [] then none else let path := h.join (d :: below); if h.present path then some path else none

/-- `_OpenDSCFile` (unified_logging.py 3431-3452): the path of the file that is opened. -/
def openDsc (h : Helper) (uuidtext : Option Str) (uuid : Str) : Option Str := openIn h uuidtext ["dsc".toList, uuid]

/-- `_OpenTimesyncDatabaseFile` (unified_logging.py 3454-3478). -/
def openTimesync (h : Helper) (timesync : Option Str) (filename : Str) : Option Str := openIn h timesync [filename]

/-- `_OpenUUIDTextFile` (unified_logging.py 3480-3502). -/
def openUuidText (h : Helper) (uuidtext : Option Str) (uuid : Str) : Option Str :=
  openIn h uuidtext [uuid.take 2, uuid.drop 2]

/-! ## Back-ends of dfVFS -/

/-- The formats for which there is a preferred back-end. -/
inductive Format
  | apm | ext | fat | gpt | hfs | ntfs
  deriving DecidableEq

/-- The back-ends: that of a format, and the file systems and partitions of the SleuthKit. -/
inductive BackEnd
  | own (f : Format)
  | tsk
  | tskPartition
  deriving DecidableEq

/-- An assignment of a preferred back-end. -/
def assign (f : Format) (b : BackEnd) (s : Format → BackEnd) : Format → BackEnd := fun g => if g = f then b else s g

/-- `SetDFVFSBackEnd` (dfvfs_helpers.py 158-192). -/
def setBackEnd (backEnd : Option Str) (s : Format → BackEnd) : Format → BackEnd :=
  if backEnd = some "APM".toList then assign .apm (.own .apm) s
  else if backEnd = some "EXT".toList then assign .ext (.own .ext) s
  else if backEnd = some "FAT".toList then assign .fat (.own .fat) s
  else if backEnd = some "GPT".toList then assign .gpt (.own .gpt) s
  else if backEnd = some "HFS".toList then assign .hfs (.own .hfs) s
  else if backEnd = some "NTFS".toList then assign .ntfs (.own .ntfs) s
  else if backEnd = some "TSK".toList then
    assign .ntfs .tsk (assign .hfs .tsk (assign .gpt .tskPartition (assign .fat .tsk (assign .ext .tsk (assign .apm .tsk s)))))
  else s

/-- The options of the command line. -/
structure Options where
  image : Str
  backEnd : Option Str
  partitions : Option Str
  snapshots : Option Str
  volumes : Option Str

/-- What dfVFS is asked for: partitions, snapshots and volumes. -/
structure Selection where
  partitions : List Str
  snapshots : List Str
  volumes : List Str

/-- dfVFS: what the text of volume identifiers selects, and the file systems found with the back-ends in an image. -/
structure Dfvfs (σ : Type) where
  identifiers : Option Str → Res (List Str)
  scan : (Format → BackEnd) → Str → Selection → Res (List σ)

/-- `ParseDFVFSCLIArguments` (dfvfs_helpers.py 269-309): the file system that is opened and the back-ends after the call.
Simplified: opening the file system that was found does not fail. -/
def parse {σ : Type} (v : Dfvfs σ) (o : Options) (s : Format → BackEnd) : Res (Option σ) × (Format → BackEnd) :=
  let s := setBackEnd o.backEnd s
  match v.identifiers o.partitions with
  | .error e => (.error e, s)
  | .ok partitions =>
    match (if o.snapshots = some "none".toList then .ok ["none".toList] else v.identifiers o.snapshots) with
    | .error e => (.error e, s)
    | .ok snapshots =>
      match v.identifiers o.volumes with
      | .error e => (.error e, s)
      | .ok volumes =>
        match v.scan s o.image ⟨partitions, snapshots, volumes⟩ with
        | .error e => (.error e, s)
        | .ok [x] => (.ok (some x), s)
        | .ok _ => (.ok none, s)

/-- What the scripts do with an image (scripts/unified_logging.py 133-138): the file system or the message. -/
def scriptImage {σ : Type} (v : Dfvfs σ) (o : Options) (s : Format → BackEnd) : Res (σ ⊕ Str) :=
  match (parse v o s).1 with
  | .error e => .error e
  | .ok (some x) => .ok (.inl x)
  | .ok none => .ok (.inr "No supported file system found in storage media image.\n\n".toList)

/-! ## Paths -/

theorem splitOn_append (c : Char) (p s : Str) : splitOn c (p ++ c :: s) = splitOn c p ++ splitOn c s := by
  induction p with
  | nil => simp [splitOn]
  | cons x p ih =>
    rw [List.cons_append]
    by_cases hx : x = c
    · subst hx
      simp only [splitOn, if_true, ih, List.cons_append]
    · simp only [splitOn, if_neg hx, ih]
      cases h : splitOn c p with
      | nil => exact absurd h (splitOn_ne_nil c p)
      | cons a l => simp

theorem splitPath_append (c : Char) (p s : Str) : splitPath c (p ++ c :: s) = splitPath c p ++ splitPath c s := by
  unfold splitPath
  rw [splitOn_append, List.filter_append]

/-- Splitting a joined path gives the parts of its segments. -/
theorem split_join (c : Char) (l : List Str) : splitPath c (joinPath c l) = l.flatMap (splitPath c) := by
  have h : ∀ l : List Str, splitPath c (join [c] l) = l.flatMap (splitPath c) := by
    intro l
    induction l with
    | nil => simp [join, splitPath, splitOn]
    | cons x l ih =>
      cases l with
      | nil => simp [join]
      | cons y l =>
        have : join [c] (x :: y :: l) = x ++ c :: join [c] (y :: l) := by simp [join]
        rw [this, splitPath_append, ih]
        rfl
  have e : joinPath c l = [] ++ c :: join [c] l := by simp [joinPath]
  rw [e, splitPath_append, h]
  simp [splitPath, splitOn]

theorem splitPath_single (c : Char) (s : Str) (h : s ≠ []) (hc : c ∉ s) : splitPath c s = [s] := by
  unfold splitPath
  rw [splitOn_of_notMem c s hc]
  simp [h]

theorem splitPath_ok (c : Char) (p : Str) : ∀ s ∈ splitPath c p, s ≠ [] ∧ c ∉ s := by
  intro s hs
  rw [C51_split] at hs
  exact parts_ok c [] p (by simp) s hs

/-- The helpers that name files as POSIX does: the parts of a joined path are those of its segments. -/
def Names (h : Helper) : Prop := ∀ l, splitPath '/' (h.join l) = l.flatMap (splitPath '/') ∧ (h.join l).head? = some '/'

/-- C174.  Both helpers name the same files. -/
theorem C174_helpers (present : Str → Bool) : Names (native present) ∧ Names (dfvfs present) := by
  refine ⟨fun l => ⟨split_join '/' l, rfl⟩, fun l => ⟨?_, rfl⟩⟩
  unfold dfvfs
  dsimp only
  rw [C51_split_join]
  intro s hs
  rw [List.mem_flatMap] at hs
  obtain ⟨p, _, hp⟩ := hs
  exact splitPath_ok '/' p s hp

/-- The name of an identifier: two digits for each byte, in upper case. -/
theorem C174_name (b : Bytes) (hb : b.length = 16) : name b = b.flatMap fun x => Unified.upper (hexw 2 x.toNat) := by
  unfold name
  have h := Uuid.hexw_bytes b (by intro h; rw [h] at hb; simp at hb)
  rw [hb] at h
  rw [Unified.upper_zpad, show (32 : Nat) = 2 * 16 from rfl, h]
  unfold Unified.upper
  rw [List.map_flatMap]

theorem hexUpper_char (w n : Nat) (c : Char) (h : c ∈ Unified.hexUpper w n) : ∃ d < 16, c = (digitChar d).toUpper := by
  rw [Unified.upper_zpad] at h
  unfold Unified.upper at h
  rw [List.mem_map] at h
  obtain ⟨x, hx, rfl⟩ := h
  unfold hexw at hx
  obtain ⟨d, hd, rfl⟩ := mem_zpad_digits 16 n w (by decide) x hx
  exact ⟨d, hd, rfl⟩

theorem name_separator (b : Bytes) : '/' ∉ name b := by
  intro h
  obtain ⟨d, hd, e⟩ := hexUpper_char _ _ _ h
  revert d
  decide

theorem name_length (b : Bytes) (hb : b.length = 16) : (name b).length = 32 := by
  unfold name
  rw [Unified.upper_zpad]
  unfold Unified.upper
  rw [List.length_map]
  have := Uuid.beNat_lt b
  rw [hb] at this
  exact Unified.hexw_length 32 _ (by decide) this

theorem name_injective (b b' : Bytes) (hb : b.length = 16) (hb' : b'.length = 16) (h : name b = name b') : b = b' := by
  unfold name at h
  have h := congrArg (List.map Char.toLower) h
  rw [Unified.hexUpper_lower, Unified.hexUpper_lower] at h
  have h := hexw_injective _ _ _ h
  exact Dtf.Spotlight.beNat_injective b b' (hb.trans hb'.symm) h

/-- C174.  The file with shared-cache strings of an identifier is in the directory dsc of that of the strings. -/
theorem C174_dsc (h : Helper) (hn : Names h) (d : Str) (b : Bytes) (hb : b.length = 16) (path : Str)
    (ho : openDsc h (some d) (name b) = some path) : splitPath '/' path = splitPath '/' d ++ ["dsc".toList, name b] := by
  unfold openDsc openIn at ho
  dsimp only at ho
  split at ho
  · cases ho
  split at ho
  · cases ho
    rw [(hn _).1]
    have h1 := splitPath_single '/' "dsc".toList (by decide) (by decide)
    have h2 := splitPath_single '/' (name b) (by intro h; have := name_length b hb; rw [h] at this; simp at this) (name_separator b)
    simp only [List.flatMap_cons, List.flatMap_nil, h1, h2]
    rfl
  · cases ho

/-- C174.  The file with strings of an identifier is in the directory of its first two digits. -/
theorem C174_uuidtext (h : Helper) (hn : Names h) (d : Str) (b : Bytes) (hb : b.length = 16) (path : Str)
    (ho : openUuidText h (some d) (name b) = some path) :
    splitPath '/' path = splitPath '/' d ++ [(name b).take 2, (name b).drop 2] := by
  unfold openUuidText openIn at ho
  dsimp only at ho
  split at ho
  · cases ho
  split at ho
  · cases ho
    rw [(hn _).1]
    have hl := name_length b hb
    have h1 := splitPath_single '/' ((name b).take 2) (by
        intro h; have := congrArg List.length h; rw [List.length_take, hl] at this; simp at this)
      (fun h => name_separator b (List.mem_of_mem_take h))
    have h2 := splitPath_single '/' ((name b).drop 2) (by intro h; have := congrArg List.length h; simp at this; omega)
      (fun h => name_separator b (List.mem_of_mem_drop h))
    simp only [List.flatMap_cons, List.flatMap_nil, h1, h2]
    rfl
  · cases ho

/-- C174.  A file with time synchronisation is in its directory. -/
theorem C174_timesync (h : Helper) (hn : Names h) (d f : Str) (hf : f ≠ [] ∧ '/' ∉ f) (path : Str)
    (ho : openTimesync h (some d) f = some path) : splitPath '/' path = splitPath '/' d ++ [f] := by
  unfold openTimesync openIn at ho
  dsimp only at ho
  split at ho
  · cases ho
  split at ho
  · cases ho
    rw [(hn _).1]
    simp only [List.flatMap_cons, List.flatMap_nil, splitPath_single '/' f hf.1 hf.2]
    rfl
  · cases ho

/-- C174.  Files of different identifiers are different files, as are those of the two kinds of strings. -/
theorem C174_distinct (h : Helper) (hn : Names h) (d : Str) (b b' : Bytes) (hb : b.length = 16) (hb' : b'.length = 16) (p p' : Str) :
    (openDsc h (some d) (name b) = some p → openDsc h (some d) (name b') = some p' → splitPath '/' p = splitPath '/' p' → b = b') ∧
    (openUuidText h (some d) (name b) = some p → openUuidText h (some d) (name b') = some p' → splitPath '/' p = splitPath '/' p' →
      b = b') ∧
    (openDsc h (some d) (name b) = some p → openUuidText h (some d) (name b') = some p' → splitPath '/' p ≠ splitPath '/' p') := by
  refine ⟨fun h1 h2 e => ?_, fun h1 h2 e => ?_, fun h1 h2 e => ?_⟩
  · rw [C174_dsc h hn d b hb p h1, C174_dsc h hn d b' hb' p' h2] at e
    have := List.append_cancel_left e
    exact name_injective b b' hb hb' (by simpa using this)
  · rw [C174_uuidtext h hn d b hb p h1, C174_uuidtext h hn d b' hb' p' h2] at e
    have := List.append_cancel_left e
    simp only [List.cons.injEq, and_true] at this
    refine name_injective b b' hb hb' ?_
    rw [← List.take_append_drop 2 (name b), ← List.take_append_drop 2 (name b'), this.1, this.2]
  · rw [C174_dsc h hn d b hb p h1, C174_uuidtext h hn d b' hb' p' h2] at e
    have := List.append_cancel_left e
    simp only [List.cons.injEq, and_true] at this
    have := congrArg List.length this.1
    rw [List.length_take, name_length b' hb'] at this
    simp at this

/-- C174.  There is a file if and only if the directory is known and the file is present. -/
theorem C174_present (h : Helper) (d : Str) (hd : d ≠ []) (uuid : Str) :
    (∀ u ∈ [none, some []], openDsc h u uuid = none ∧ openUuidText h u uuid = none ∧ openTimesync h u uuid = none) ∧
    (openDsc h (some d) uuid).isSome = h.present (h.join [d, "dsc".toList, uuid]) ∧
    (openUuidText h (some d) uuid).isSome = h.present (h.join [d, uuid.take 2, uuid.drop 2]) ∧
    (openTimesync h (some d) uuid).isSome = h.present (h.join [d, uuid]) := by
  refine ⟨by simp [openDsc, openUuidText, openTimesync, openIn], ?_, ?_, ?_⟩
  all_goals
    simp only [openDsc, openUuidText, openTimesync, openIn, if_neg hd]
    split <;> simp_all

/-- C174.  The strings of a trace file in a log archive are those in the archive. -/
theorem C174_archive (isArchive : Str → Bool) (present : Str → Bool) (dirs sub : List Str) (x f : Str)
    (hs : Unified.Segments (dirs ++ [x] ++ sub ++ [f])) (hx : isArchive x = true)
    (hsub : sub = [] ∨ ∃ s, sub = [s] ∧ isArchive s = false)
    (hdsc : present (joinPath '/' (dirs ++ [x, "dsc".toList])) = true)
    (hts : present (joinPath '/' (dirs ++ [x, "timesync".toList])) = true) :
    ∃ paths, Unified.findDirectories isArchive present (joinPath '/' (dirs ++ [x] ++ sub ++ [f])) = .ok paths ∧
      ∀ (h : Helper), Names h → ∀ (b : Bytes), b.length = 16 → ∀ path,
        (openDsc h paths.uuidtext (name b) = some path → splitPath '/' path = dirs ++ [x, "dsc".toList, name b]) ∧
        (openUuidText h paths.uuidtext (name b) = some path → splitPath '/' path = dirs ++ [x, (name b).take 2, (name b).drop 2]) ∧
        ∀ entry, entry ≠ [] ∧ '/' ∉ entry → openTimesync h paths.timesync entry = some path →
          splitPath '/' path = dirs ++ [x, "timesync".toList, entry] := by
  refine ⟨_, Unified.C76_archive_partial isArchive present dirs sub x f hs hx hsub hdsc hts, fun h hn b hb path => ?_⟩
  have h1 : splitPath '/' (joinPath '/' (dirs ++ [x])) = dirs ++ [x] := by
    refine C51_split_join '/' _ fun s hm => hs s ?_
    simp only [List.mem_append] at hm ⊢
    tauto
  have h2 : splitPath '/' (joinPath '/' (dirs ++ [x, "timesync".toList])) = dirs ++ [x, "timesync".toList] := by
    refine C51_split_join '/' _ fun s hm => ?_
    rw [show dirs ++ [x, "timesync".toList] = (dirs ++ [x]) ++ ["timesync".toList] by simp, List.mem_append, List.mem_singleton] at hm
    rcases hm with hm | rfl
    · exact hs s (by simp only [List.mem_append] at hm ⊢; tauto)
    · exact ⟨by decide, by decide⟩
  refine ⟨fun ho => ?_, fun ho => ?_, fun entry he ho => ?_⟩
  · rw [C174_dsc h hn _ b hb path ho, h1]; simp
  · rw [C174_uuidtext h hn _ b hb path ho, h1]; simp
  · rw [C174_timesync h hn _ entry he path ho, h2]; simp

example : openUuidText (native fun p => p = "//v/a.logarchive/01/0203040506070809101112131415AF".toList) (some "/v/a.logarchive".toList)
    (name [1, 2, 3, 4, 5, 6, 7, 8, 9, 16, 17, 18, 19, 20, 21, 0xaf]) =
    some "//v/a.logarchive/01/0203040506070809101112131415AF".toList := by decide +kernel

example : openUuidText (dfvfs fun p => p = "/v/a.logarchive/01/0203040506070809101112131415AF".toList) (some "/v/a.logarchive".toList)
    (name [1, 2, 3, 4, 5, 6, 7, 8, 9, 16, 17, 18, 19, 20, 21, 0xaf]) =
    some "/v/a.logarchive/01/0203040506070809101112131415AF".toList := by decide +kernel

/-! ## Back-ends -/

/-- The name of a format on the command line. -/
def Format.name : Format → String
  | .apm => "APM"
  | .ext => "EXT"
  | .fat => "FAT"
  | .gpt => "GPT"
  | .hfs => "HFS"
  | .ntfs => "NTFS"

/-- What TSK is for a format. -/
def sleuthkit : Format → BackEnd
  | .gpt => .tskPartition
  | _ => .tsk

/-- What a request makes the back-end of a format, if it has any effect on it. -/
def effect (f : Format) (request : Option Str) : Option BackEnd :=
  if request = some f.name.toList then some (.own f) else if request = some "TSK".toList then some (sleuthkit f) else none

theorem setBackEnd_at (r : Option Str) (s : Format → BackEnd) (f : Format) : setBackEnd r s f = (effect f r).getD (s f) := by
  by_cases h1 : r = some "APM".toList
  · subst h1; cases f <;> rfl
  by_cases h2 : r = some "EXT".toList
  · subst h2; cases f <;> rfl
  by_cases h3 : r = some "FAT".toList
  · subst h3; cases f <;> rfl
  by_cases h4 : r = some "GPT".toList
  · subst h4; cases f <;> rfl
  by_cases h5 : r = some "HFS".toList
  · subst h5; cases f <;> rfl
  by_cases h6 : r = some "NTFS".toList
  · subst h6; cases f <;> rfl
  by_cases h7 : r = some "TSK".toList
  · subst h7; cases f <;> rfl
  unfold setBackEnd effect
  rw [if_neg h1, if_neg h2, if_neg h3, if_neg h4, if_neg h5, if_neg h6, if_neg h7, if_neg h7]
  have h : r ≠ some f.name.toList := by cases f <;> assumption
  rw [if_neg h]
  rfl

/-- C174.  The back-end of a format is that of the last request for the format or for TSK, whatever the other requests. -/
theorem C174_back_ends (rs : List (Option Str)) (s : Format → BackEnd) (f : Format) :
    rs.foldl (fun s r => setBackEnd r s) s f = ((rs.reverse.findSome? (effect f))).getD (s f) := by
  induction rs generalizing s with
  | nil => rfl
  | cons r rs ih =>
    rw [List.foldl_cons, ih, List.reverse_cons, List.findSome?_append]
    cases h : rs.reverse.findSome? (effect f) with
    | some b => rfl
    | none =>
      simp only [Option.getD_none, Option.none_or, List.findSome?_cons, List.findSome?_nil]
      rw [setBackEnd_at]
      cases effect f r <;> rfl

/-- C174.  Any other name changes nothing and is not an error. -/
theorem C174_unknown (r : Option Str) (h : ∀ f : Format, r ≠ some f.name.toList) (ht : r ≠ some "TSK".toList) (s : Format → BackEnd) :
    setBackEnd r s = s := by
  funext f
  rw [setBackEnd_at, effect, if_neg (h f), if_neg ht]
  rfl

example : ∀ f : Format, some "ntfs".toList ≠ some f.name.toList := by intro f; cases f <;> decide

/-- The formats of partitions, as opposed to those of file systems. -/
def Format.partitions : Format → Bool
  | .apm => true
  | .gpt => true
  | _ => false

/-- C174 as one may expect it: with TSK partitions are read by that for partitions, file systems by that for file systems. -/
def C174_sleuthkit_claim : Prop := ∀ (f : Format) (s : Format → BackEnd),
  setBackEnd (some "TSK".toList) s f = if f.partitions then .tskPartition else .tsk

/-- C174.  With TSK an Apple Partition Map is to be read by the back-end for file systems. -/
theorem C174_sleuthkit_claim_false : ¬ C174_sleuthkit_claim := fun h => absurd (h .apm .own) (by decide)

/-- C174.  All other formats are read as expected. -/
theorem C174_sleuthkit_partial (f : Format) (s : Format → BackEnd) :
    setBackEnd (some "TSK".toList) s f = (if f.partitions then .tskPartition else .tsk) ↔ f ≠ .apm := by
  rw [setBackEnd_at]
  cases f
  · exact ⟨fun h => absurd (show BackEnd.tsk = BackEnd.tskPartition from h) (by decide), fun h => absurd rfl h⟩
  all_goals exact ⟨fun _ => by decide, fun _ => rfl⟩

/-! ## File systems of images -/

/-- C174.  There is a file system if and only if exactly one is found by what is asked for. -/
theorem C174_single {σ : Type} (v : Dfvfs σ) (o : Options) (s : Format → BackEnd) (x : σ) :
    (parse v o s).1 = .ok (some x) ↔ ∃ p q r, v.identifiers o.partitions = .ok p ∧
      (if o.snapshots = some "none".toList then q = ["none".toList] else v.identifiers o.snapshots = .ok q) ∧
      v.identifiers o.volumes = .ok r ∧ v.scan (setBackEnd o.backEnd s) o.image ⟨p, q, r⟩ = .ok [x] := by
  unfold parse
  dsimp only
  cases hp : v.identifiers o.partitions with
  | error e => simp
  | ok p =>
    dsimp only
    have hq : ∀ q, (if o.snapshots = some "none".toList then q = ["none".toList] else v.identifiers o.snapshots = .ok q) ↔
        (if o.snapshots = some "none".toList then (.ok ["none".toList] : Res (List Str)) else v.identifiers o.snapshots) = .ok q := by
      intro q
      split
      · constructor
        · rintro rfl; rfl
        · intro h; cases h; rfl
      · rfl
    simp only [hq]
    cases (if o.snapshots = some "none".toList then (.ok ["none".toList] : Res (List Str)) else v.identifiers o.snapshots) with
    | error e => simp
    | ok q =>
      dsimp only
      cases hr : v.identifiers o.volumes with
      | error e => simp
      | ok r =>
        dsimp only
        have : (∃ p' q' r', (.ok p : Res (List Str)) = .ok p' ∧ (.ok q : Res (List Str)) = .ok q' ∧ (.ok r : Res (List Str)) = .ok r' ∧
            v.scan (setBackEnd o.backEnd s) o.image ⟨p', q', r'⟩ = .ok [x]) ↔ v.scan (setBackEnd o.backEnd s) o.image ⟨p, q, r⟩ = .ok [x] := by
          constructor
          · rintro ⟨p', q', r', h1, h2, h3, h4⟩
            cases h1; cases h2; cases h3
            exact h4
          · intro h; exact ⟨p, q, r, rfl, rfl, rfl, h⟩
        rw [this]
        generalize v.scan (setBackEnd o.backEnd s) o.image ⟨p, q, r⟩ = w
        cases w with
        | error e => simp
        | ok l =>
          match l with
          | [] => simp
          | [y] => simp
          | y :: z :: l => simp

/-- C174.  The back-ends are set, whatever the outcome. -/
theorem C174_kept {σ : Type} (v : Dfvfs σ) (o : Options) (s : Format → BackEnd) : (parse v o s).2 = setBackEnd o.backEnd s := by
  unfold parse
  dsimp only
  repeat' split
  all_goals rfl

/-- C174 as one may expect it: the script tells that there is no file system only if there is none. -/
def C174_message_claim : Prop := ∀ (v : Dfvfs Nat) (o : Options) (s : Format → BackEnd) (t : Str) (p q r : List Str) (l : List Nat),
  scriptImage v o s = .ok (.inr t) → v.identifiers o.partitions = .ok p → v.identifiers o.snapshots = .ok q →
  v.identifiers o.volumes = .ok r → v.scan (setBackEnd o.backEnd s) o.image ⟨p, q, r⟩ = .ok l → l = []

/-- C174.  It tells so of an image with two file systems as well. -/
theorem C174_message_claim_false : ¬ C174_message_claim := fun h =>
  absurd (h ⟨fun _ => .ok [], fun _ _ _ => .ok [1, 2]⟩ ⟨[], none, none, none, none⟩ .own _ [] [] [] [1, 2] rfl rfl rfl rfl rfl) (by decide)

/-- C174.  It tells so if and only if the number of file systems is not one. -/
theorem C174_message_partial {σ : Type} (v : Dfvfs σ) (o : Options) (s : Format → BackEnd) (p q r : List Str) (l : List σ)
    (hn : o.snapshots ≠ some "none".toList) (hp : v.identifiers o.partitions = .ok p) (hq : v.identifiers o.snapshots = .ok q)
    (hr : v.identifiers o.volumes = .ok r) (hl : v.scan (setBackEnd o.backEnd s) o.image ⟨p, q, r⟩ = .ok l) :
    (∃ t, scriptImage v o s = .ok (.inr t)) ↔ l.length ≠ 1 := by
  unfold scriptImage parse
  dsimp only
  rw [hp]
  dsimp only
  rw [if_neg hn, hq]
  dsimp only
  rw [hr]
  dsimp only
  rw [hl]
  match l with
  | [] => simp
  | [y] => simp
  | y :: z :: l => simp

end Dtf.Companions
