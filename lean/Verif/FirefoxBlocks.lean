import Verif.FirefoxDebug
import Verif.FseventsDebug
import Verif.GzipDebug

/-!
# What is shown of Firefox cache block files in debug mode (C201)

Nothing of the entries is kept by the code: what is shown in debug mode is all that a user sees of them.
-/

namespace Dtf.FirefoxBlocks
open Py DataFormat Formats Firefox
open Job (decimal custom)
open ChangeLogDebug (Out write raise loop)
open UsnDebug (withoutNul)
open FirefoxDebug (big digits withSign Str)

/-! ## Model -/

/-- A text in ASCII. -/
def ascii (b : Bytes) : Str := b.map fun c => Char.ofNat c.toNat

/-- The debug information of an entry (firefox_cache1.debug.yaml 3-37).  There is none of the expiration time, and no callback of the
name `cache_lcation`. -/
def entryAttributes (b : Bytes) (e : Entry) : List (Option Attribute) :=
  [decimal "Major format version" e.major, decimal "Minor format version" e.minor, decimal "Location" e.location,
    some ⟨some "Fetch count".toList, decInt e.fetchCount, false⟩,
    custom "Last fetched time" (Dates.formatPosix Dates.posix e.fetched),
    custom "Last modified time" (Dates.formatPosix Dates.posix e.modified), decimal "Cached data size" e.dataSize,
    decimal "Request size" (big b 28 32), decimal "Information size" (big b 32 36), custom "Request" (withoutNul (ascii e.request)),
    custom "Information" (HexDump.dump e.information)]

/-- `_ReadCacheEntry` (firefox_cache1.py 166-194) in debug mode: what is read and the position after it. -/
def showEntry (block : Nat) (data : Bytes) (off : Nat) : Out (Option Entry × Nat) :=
  write (readingText "cache_entry".toList off) <|
  match structAt entryMap data off with
  | .error .parseError => ([], .ok (none, off + block))
  | .error e => raise e
  | .ok (e, size) =>
    write (structureText "cache_entry".toList (slice data off (off + size.toNat))) <|
    if e.major = 1 then
      match formatStructure (entryAttributes (slice data off (off + size.toNat)) e) with
      | .error e => raise e
      | .ok t => (t, .ok (some e, off + nextBlock block size.toNat))
    else ([], .ok (none, off + nextBlock block size.toNat))

/-- `CacheBlockFile.ReadFileObject` (firefox_cache1.py 196-218) in debug mode; `none` is out of fuel. -/
def showBlocks (name : Str) (data : Bytes) (fuel : Nat) : Option (Out (List Entry)) :=
  match blockSize name with
  | none => some (raise .parseError)
  | some block => (loop (showEntry block data) data.length fuel 0).map fun r => (r.1, r.2.map (·.filterMap id))

/-- `Main` (scripts/firefox_cache1.py 13-84) for a source whose name starts with `_CACHE_00` in debug mode.  Nothing is caught. -/
def script (name : Str) (data : Bytes) (fuel : Nat) : Option (Str × Option Err) :=
  (showBlocks name data fuel).map fun
    | (t, .error e) => (t, some e)
    | (t, .ok _) => (t ++ "Firefox cache version 1 information:\n\n".toList, none)

/-! ## Specification -/

open RpLog.DebugMode (announcedAt dumpOf)
open Utmp.DebugMode (shownAs)
open GzipDebug (Stamp)

/-- The text of a request: the bytes before the first zero. -/
def requestText (b : Bytes) : Str := (b.takeWhile (· ≠ 0)).map fun c => Char.ofNat c.toNat

/-- What is shown of a request: one with an end of line has no end of line after it. -/
def requestShown (b : Bytes) : Str :=
  if '\n' ∈ requestText b then "Request:\n".toList ++ requestText b else shownAs "Request" (requestText b)

/-- What is meant to be shown of an entry at an offset; `expiration` is what is shown of the expiration time. -/
def entryShown (time expiration : Nat → Str) (off : Nat) (e : Entry) : Str :=
  [announcedAt "cache_entry" off, dumpOf "Cache_entry data" e.bytes, shownAs "Major format version" "1".toList,
    shownAs "Minor format version" (digits e.minor), shownAs "Location" (digits e.location),
    shownAs "Fetch count" (withSign e.fetchCount), shownAs "Last fetched time" (time e.fetched),
    shownAs "Last modified time" (time e.modified), expiration e.expiration, shownAs "Cached data size" (digits e.dataSize),
    shownAs "Request size" (digits e.request.length), shownAs "Information size" (digits e.information.length),
    requestShown e.request, dumpOf "Information" e.information].flatten

/-- What is meant to be shown of a block that is not in use: the bytes it would have as an entry, if its request could be one. -/
def freeShown (off : Nat) (b : Bytes) : Str :=
  announcedAt "cache_entry" off ++
    if ∀ c ∈ slice b 36 (36 + beNat (slice b 28 32)), c < 128 then
      dumpOf "Cache_entry data" (b.take (36 + beNat (slice b 28 32) + beNat (slice b 32 36)))
    else []

def itemShown (time expiration : Nat → Str) (off : Nat) : Item → Str
  | .entry e _ => entryShown time expiration off e
  | .free b => freeShown off b

def itemsShown (time expiration : Nat → Str) : Nat → List Item → Str
  | _, [] => []
  | off, i :: l => itemShown time expiration off i ++ itemsShown time expiration (off + i.bytes.length) l

/-- Entries as in C105 whose requests have zeros only at their end; blocks not in use are no entries longer than a block. -/
def Fine (block : Nat) (i : Item) : Prop :=
  i.Ok block ∧ match i with
    | .entry e _ => ∀ c ∈ e.request.dropWhile (· ≠ 0), c = 0
    | .free b => 36 + beNat (slice b 28 32) + beNat (slice b 32 36) ≤ b.length

/-! ## Proofs -/

theorem posix_line (n : Nat) : '\n' ∉ Dates.formatPosix Dates.posix n :=
  GzipDebug.stamp_line _ _ (GzipDebug.stamp _ (by omega))

theorem closed_dump (l : List Str) (d : String) (b : Bytes) :
    Job.closed (l ++ [d.toList ++ ":\n".toList ++ HexDump.dump b]) = l.flatten ++ dumpOf d b := by
  unfold Job.closed
  rw [if_pos]
  · simp [dumpOf]
  · rw [List.getLastD_eq_getLast?, List.getLast?_concat]
    exact Job.dump_end b _ ⟨d.toList ++ [':'], by simp⟩

theorem entry_text (b : Bytes) (e : Entry) : formatStructure (entryAttributes b e) = .ok
    ([shownAs "Major format version" (digits e.major), shownAs "Minor format version" (digits e.minor),
    shownAs "Location" (digits e.location), shownAs "Fetch count" (withSign e.fetchCount),
    shownAs "Last fetched time" (Dates.formatPosix Dates.posix e.fetched),
    shownAs "Last modified time" (Dates.formatPosix Dates.posix e.modified), shownAs "Cached data size" (digits e.dataSize),
    shownAs "Request size" (digits (big b 28 32)), shownAs "Information size" (digits (big b 32 36)),
    Job.block "Request" (withoutNul (ascii e.request)), dumpOf "Information" e.information].flatten) := by
  have h1 := posix_line e.fetched
  have h2 := posix_line e.modified
  unfold entryAttributes
  rw [← FirefoxDebug.decInt_sign]
  generalize Dates.formatPosix Dates.posix e.fetched = t1 at *
  generalize Dates.formatPosix Dates.posix e.modified = t2 at *
  rw [Job.structure_fine]
  · simp only [List.filterMap_cons, List.filterMap_nil, UsnDebug.blockOf_decimal, Job.blockOf_custom _ _ h1, Job.blockOf_custom _ _ h2,
      UsnDebug.blockOf_line _ _ _ (FirefoxDebug.decInt_line _), Job.blockOf_string "Request",
      Job.blockOf_lines "Information" _ (Analyzer.dump_lines _)]
    have := closed_dump [Job.line "Major format version" (dec e.major), Job.line "Minor format version" (dec e.minor),
      Job.line "Location" (dec e.location), Job.line "Fetch count" (decInt e.fetchCount), Job.line "Last fetched time" t1,
      Job.line "Last modified time" t2, Job.line "Cached data size" (dec e.dataSize), Job.line "Request size" (dec (big b 28 32)),
      Job.line "Information size" (dec (big b 32 36)), Job.block "Request" (withoutNul (ascii e.request))] "Information" e.information
    simp only [List.cons_append, List.nil_append] at this
    rw [this]
    simp only [UsnDebug.line_shownAs, List.flatten_cons, List.flatten_nil, List.append_assoc, List.append_nil]
    rfl
  · simp only [List.mem_cons, List.not_mem_nil, or_false]
    rintro a (rfl | rfl | rfl | rfl | rfl | rfl | rfl | rfl | rfl | rfl | rfl)
    all_goals first
      | exact Job.fine_decimal _ _
      | exact Job.fine_custom _ _
      | exact ⟨⟨_, rfl⟩, .inr (FirefoxDebug.decInt_line _)⟩

theorem entry_same (block : Nat) (data : Bytes) (off : Nat) : (showEntry block data off).2 = readEntry block data off := by
  unfold showEntry readEntry write raise
  rcases structAt entryMap data off with e | ⟨e, size⟩
  · cases e <;> rfl
  · dsimp only
    rw [entry_text]
    by_cases h : e.major = 1
    · rw [if_pos h, if_pos h]
    · rw [if_neg h, if_neg h]

/-! ## C201 -/

/-- In debug mode the same entries are read as otherwise, and the same files are refused with the same exceptions. -/
theorem C201_same (name : Str) (data : Bytes) (fuel : Nat) : (showBlocks name data fuel).map (·.2) = readBlocks name data fuel := by
  unfold showBlocks readBlocks
  cases blockSize name with
  | none => rfl
  | some block =>
    dsimp only
    rw [FseventsDebug.loop_same (showEntry block data) (readEntry block data) data.length (entry_same block data)]
    rcases loop (showEntry block data) data.length fuel 0 with _ | ⟨t, e | xs⟩ <;> rfl

theorem withoutNul_zeros (s : Str) (h : Char.ofNat 0 ∉ s) (k : Nat) : withoutNul (s ++ List.replicate k (Char.ofNat 0)) = s := by
  unfold withoutNul
  have hd : ∀ (k : Nat) (r : Str), (List.replicate k (Char.ofNat 0) ++ r).dropWhile (· = Char.ofNat 0) =
      r.dropWhile (· = Char.ofNat 0) := by
    intro k r
    induction k with
    | zero => rfl
    | succ k ih => rw [List.replicate_succ, List.cons_append, List.dropWhile_cons_of_pos (by simp), ih]
  rw [List.reverse_append, List.reverse_replicate, hd]
  exact UsnDebug.withoutNul_eq s h

theorem request_text (b : Bytes) (ha : ∀ c ∈ b, c < 128) (h : ∀ c ∈ b.dropWhile (· ≠ 0), c = 0) :
    withoutNul (ascii b) = requestText b := by
  have e : b = b.takeWhile (· ≠ 0) ++ List.replicate (b.dropWhile (· ≠ 0)).length 0 := by
    rw [← List.eq_replicate_of_mem h, List.takeWhile_append_dropWhile]
  have hn : Char.ofNat 0 ∉ requestText b := by
    intro hm
    obtain ⟨c, hc, h0⟩ := List.mem_map.mp hm
    have h1 := List.all_eq_true.mp (List.all_takeWhile (l := b) (p := (· ≠ 0))) c hc
    have h2 : c.toNat < 128 := ha c (List.takeWhile_subset _ hc)
    have h3 : c.toNat = 0 := by
      have key : ∀ n, n < 128 → Char.ofNat n = Char.ofNat 0 → n = 0 := by decide +kernel
      exact key _ h2 h0
    have : c = 0 := UInt8.toNat_inj.mp h3
    simp [this] at h1
  unfold ascii
  conv => lhs; rw [e]
  rw [List.map_append, List.map_replicate]
  exact withoutNul_zeros _ hn _

theorem sizes (e : Entry) (h : e.Ok) : big e.bytes 28 32 = e.request.length ∧ big e.bytes 32 36 = e.information.length := by
  obtain ⟨_, _, _, _, _, _, _, _, h9, h10, _⟩ := h
  have hb : e.bytes = [beBytes 2 e.major, beBytes 2 e.minor, beBytes 4 e.location, beBytes 4 (unsigned 4 e.fetchCount),
    beBytes 4 e.fetched, beBytes 4 e.modified, beBytes 4 e.expiration, beBytes 4 e.dataSize, beBytes 4 e.request.length,
    beBytes 4 e.information.length, e.request ++ e.information].flatten := by simp [Entry.bytes]
  rw [hb]
  exact ⟨beField [_, _, _, _, _, _, _, _] 4 _ _ 28 32 (by simp) rfl (by omega),
    beField [_, _, _, _, _, _, _, _, _] 4 _ _ 32 36 (by simp) rfl (by omega)⟩

theorem showEntry_entry (block : Nat) (e : Entry) (fill : Bytes) (h : Fine block (.entry e fill)) (pre post : Bytes) :
    (showEntry block (pre ++ (Item.entry e fill).bytes ++ post) pre.length).1 =
      entryShown (fun n => Dates.formatPosix Dates.posix n) (fun _ => []) pre.length e := by
  obtain ⟨⟨h1, h2, h3, h4⟩, h5⟩ := h
  have eq : pre ++ (Item.entry e fill).bytes ++ post = pre ++ e.bytes ++ (fill ++ post) := by simp [Item.bytes]
  have hs : slice (pre ++ e.bytes ++ (fill ++ post)) pre.length (pre.length + e.bytes.length) = e.bytes := by
    rw [slice_at _ _ _ _ (Nat.le_refl _), List.take_length]
  unfold showEntry
  rw [eq, entry_encodes e h1 pre (fill ++ post)]
  dsimp only
  rw [Int.toNat_natCast, hs, if_pos h2, entry_text, (sizes e h1).1, (sizes e h1).2, request_text _ h1.2.2.2.2.2.2.2.2.2.2 h5, h2]
  have hp : Job.block "Request" (requestText e.request) = requestShown e.request := by
    unfold Job.block requestShown
    split
    · congr 1
    · rfl
  rw [hp]
  unfold write entryShown
  dsimp only
  simp only [List.flatten_cons, List.flatten_nil, List.append_nil, List.nil_append]
  rfl

theorem showEntry_free (block : Nat) (b : Bytes) (h : Fine block (.free b)) (pre post : Bytes) :
    (showEntry block (pre ++ b ++ post) pre.length).1 = freeShown pre.length b := by
  obtain ⟨⟨h1, h2⟩, hh'⟩ := h
  dsimp only at hh'
  unfold freeShown
  generalize hn : 36 + beNat (slice b 28 32) + beNat (slice b 32 36) = n at hh' ⊢
  have eq : pre ++ b ++ post = pre ++ b.take n ++ (b.drop n ++ post) := by
    rw [List.append_assoc pre (b.take n), ← List.append_assoc (b.take n), List.take_append_drop, List.append_assoc]
  have hs (i j : Nat) (hj : j ≤ n) : slice (b.take n) i j = slice b i j := slice_take b n i j hj
  have hl : (b.take n).length = n := by rw [List.length_take]; omega
  have he : Encodes (sizedMap 36 (fun b => beNat (slice b 28 32) + beNat (slice b 32 36)) id) (b.take n) (id (b.take n)) := by
    refine encodes_sized 36 _ id _ (by decide) (by omega) ?_
    rw [slice_take _ 36 28 32 (by decide), slice_take _ 36 32 36 (by decide), hs 28 32 (by omega), hs 32 36 (by omega), hl]
    omega
  have hx := he pre (b.drop n ++ post)
  have hd : slice (pre ++ b.take n ++ (b.drop n ++ post)) pre.length (pre.length + (b.take n).length) = b.take n := by
    rw [slice_at _ _ _ _ (Nat.le_refl _), List.take_length]
  have hm0 : beNat (slice (b.take n) 0 2) ≠ 1 := by rw [hs 0 2 (by omega)]; exact h2
  unfold showEntry entryMap
  rw [structAt_refine, eq, hx]
  dsimp only [id]
  unfold parseEntry
  dsimp only
  rw [hs 28 32 (by omega), hs 36 (36 + beNat (slice b 28 32)) (by omega)]
  by_cases hc : ∀ c ∈ slice b 36 (36 + beNat (slice b 28 32)), c < 128
  · rw [if_pos hc, if_pos (by simpa using hc)]
    dsimp only
    rw [Int.toNat_natCast, hd, if_neg hm0]
    unfold write
    dsimp only
    rw [List.append_nil]
    rfl
  · rw [if_neg hc, if_neg (by simpa using hc)]
    rfl

theorem items_text (name : Str) (block : Nat) (items : List Item) (hn : blockSize name = some block)
    (h : ∀ i ∈ items, Fine block i) (fuel : Nat) (hf : items.length < fuel) :
    showBlocks name (items.flatMap (·.bytes)) fuel =
      some (itemsShown (fun n => Dates.formatPosix Dates.posix n) (fun _ => []) 0 items, .ok (items.filterMap (·.entry?))) := by
  have hb := blockSize_ge name block hn
  have hstep : ∀ i ∈ items, i.bytes ≠ [] ∧ ∀ pre post, showEntry block (pre ++ i.bytes ++ post) pre.length =
      (itemShown (fun n => Dates.formatPosix Dates.posix n) (fun _ => []) pre.length i,
        .ok (i.entry?, pre.length + i.bytes.length)) := by
    intro i hi
    have hk := h i hi
    cases i with
    | entry e fill =>
      refine ⟨?_, fun pre post => Prod.ext (showEntry_entry block e fill hk pre post) ?_⟩
      · intro hz
        have := congrArg List.length hz
        simp [Item.bytes, Entry.bytes] at this
      · rw [entry_same, readEntry_entry block e fill hk.1 pre post, List.length_append]
        rfl
    | free b =>
      refine ⟨?_, fun pre post => Prod.ext (showEntry_free block b hk pre post) ?_⟩
      · intro hz
        have h1 := hk.1.1
        have := congrArg List.length hz
        simp only [Item.bytes, List.length_nil] at this
        omega
      · rw [entry_same]
        show readEntry block (pre ++ b ++ post) pre.length = _
        rw [readEntry_free block b hk.1 hb (fun hlt => absurd hk.2 (Nat.not_le_of_lt hlt)) pre post, List.length_append]
        rfl
  have hl := FseventsDebug.loop_items (showEntry block) Item.bytes
    (fun i off => itemShown (fun n => Dates.formatPosix Dates.posix n) (fun _ => []) off i) (fun i _ => i.entry?)
    (itemsShown (fun n => Dates.formatPosix Dates.posix n) (fun _ => [])) (fun _ => rfl) (fun _ _ _ => rfl) items hstep [] [] fuel hf
  simp only [List.nil_append, List.append_nil, List.length_nil, Nat.zero_add] at hl
  have hv : ∀ (l : List Item) (off : Nat), valuesFrom off (l.map fun i => (i.bytes, fun _ : Nat => i.entry?)) = l.map (·.entry?) := by
    intro l
    induction l with
    | nil => intro off; rfl
    | cons i l ih =>
      intro off
      rw [List.map_cons, List.map_cons, valuesFrom, ih]
  rw [hv] at hl
  unfold showBlocks
  rw [hn]
  dsimp only
  rw [hl, Option.map_some]
  refine congrArg some (Prod.ext rfl ?_)
  show (Except.ok ((items.map (·.entry?)).filterMap id) : Res _) = _
  rw [List.filterMap_map]
  rfl

/-- All entries are shown where they are with all their values but for the expiration time. -/
theorem C201_shown_partial (name : Str) (block : Nat) (items : List Item) (hn : blockSize name = some block)
    (h : ∀ i ∈ items, Fine block i) (fuel : Nat) (hf : items.length < fuel) :
    ∃ time : Nat → Str, (∀ n : Nat, Stamp n (time n)) ∧ showBlocks name (items.flatMap (·.bytes)) fuel =
      some (itemsShown time (fun _ => []) 0 items, .ok (items.filterMap (·.entry?))) :=
  ⟨fun n => Dates.formatPosix Dates.posix n, fun _ => GzipDebug.stamp _ (by omega), items_text name block items hn h fuel hf⟩

/-- The script writes all of this and then its title; it has nothing else to say. -/
theorem C201_script (name : Str) (block : Nat) (items : List Item) (hn : blockSize name = some block)
    (h : ∀ i ∈ items, Fine block i) (fuel : Nat) (hf : items.length < fuel) :
    ∃ time : Nat → Str, (∀ n : Nat, Stamp n (time n)) ∧ script name (items.flatMap (·.bytes)) fuel =
      some (itemsShown time (fun _ => []) 0 items ++ "Firefox cache version 1 information:\n\n".toList, none) := by
  refine ⟨fun n => Dates.formatPosix Dates.posix n, fun _ => GzipDebug.stamp _ (by omega), ?_⟩
  unfold script
  rw [items_text name block items hn h fuel hf]
  rfl

/-- All values of an entry are shown, also the time at which it expires. -/
def C201_expiration_claim : Prop := ∀ (name : Str) (block : Nat) (items : List Item), blockSize name = some block →
  (∀ i ∈ items, Fine block i) → ∀ fuel, items.length < fuel →
    ∃ time : Nat → Str, (∀ n : Nat, Stamp n (time n)) ∧ (showBlocks name (items.flatMap (·.bytes)) fuel).map (·.1) =
      some (itemsShown time (fun n => shownAs "Expiration time" (time n)) 0 items)

theorem sample_fine : Fine 256 sampleItem := ⟨sampleItem_ok, by
  intro c hc
  have : sampleEntry.request.dropWhile (· ≠ 0) = [] := by decide
  rw [this] at hc
  cases hc⟩

/-- A block of zeros is one that is not in use. -/
example : Fine 256 (.free (List.replicate 256 0)) := ⟨⟨List.length_replicate, by decide +kernel⟩, by
  show 36 + beNat (slice (List.replicate 256 0) 28 32) + beNat (slice (List.replicate 256 0) 32 36) ≤ (List.replicate 256 0).length
  decide +kernel⟩

example : ∃ time : Nat → Str, (∀ n : Nat, Stamp n (time n)) ∧ showBlocks "_CACHE_001_".toList ([sampleItem].flatMap (·.bytes)) 2 =
    some (itemsShown time (fun _ => []) 0 [sampleItem], .ok [sampleEntry]) :=
  C201_shown_partial _ 256 [sampleItem] (by decide) (by simpa using sample_fine) 2 (by decide)

theorem stamp_unique (v : Int) (t : Str) (hv : -62135596800 ≤ v) (h : Stamp v t) : t = Dates.formatPosix Dates.posix v := by
  rcases h with ⟨rfl, rfl⟩ | ⟨h0, c, hc, rfl⟩
  · rfl
  · obtain ⟨c', hc', e⟩ := (Dates.C190_posix_units v h0).1 hv
    have hp : 0 ≤ v + (Dates.posix.epoch * 86400 * Dates.posix.unit : Nat) := by
      rw [show Dates.posix.epoch * 86400 * Dates.posix.unit = 62135596800 by decide +kernel]
      omega
    have hd : Calendar.dayAfter Dates.posix.epoch = ⟨1970, 1, 1⟩ := Dates.start_posix
    have e1 := (Dates.text_iff Dates.posix _ hd v c).mpr ⟨hp, hc⟩
    have e2 := (Dates.text_iff Dates.posix _ hd v c').mpr ⟨hp, hc'⟩
    rw [e1] at e2
    rw [e, Option.some.inj e2]

theorem expiration_length (time : Nat → Str) (line : Nat → Str) (e : Entry)
    (h : entryShown time (fun _ => []) 0 e = entryShown time line 0 e) : line e.expiration = [] := by
  have h := congrArg List.length h
  simp only [entryShown, List.flatten_cons, List.flatten_nil, List.length_append, List.length_nil] at h
  exact List.eq_nil_of_length_eq_zero (by omega)

/-- The time at which an entry expires is never shown. -/
theorem C201_expiration_claim_false : ¬ C201_expiration_claim := by
  intro h
  have hk : ∀ i ∈ [sampleItem], Fine 256 i := by simpa using sample_fine
  obtain ⟨time, ht, hs⟩ := h "_CACHE_001_".toList 256 [sampleItem] (by decide) hk 2 (by decide)
  obtain ⟨time', ht', hs'⟩ := C201_shown_partial "_CACHE_001_".toList 256 [sampleItem] (by decide) hk 2 (by decide)
  have e : time = time' := funext fun n =>
    (stamp_unique n _ (by omega) (ht n)).trans (stamp_unique n _ (by omega) (ht' n)).symm
  subst e
  rw [hs', Option.map_some, Option.some.injEq] at hs
  have hs : entryShown time (fun _ => []) 0 sampleEntry ++ [] =
    entryShown time (fun n => shownAs "Expiration time" (time n)) 0 sampleEntry ++ [] := hs
  rw [List.append_nil, List.append_nil] at hs
  have := congrArg List.length (expiration_length _ _ _ hs)
  simp [shownAs] at this

end Dtf.FirefoxBlocks
