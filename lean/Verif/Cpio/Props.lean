import Verif.Cpio.Lemmas

/-!
# CPIO archives: termination, round trip, lookup (C20, C21, C22)
-/

namespace Dtf.Cpio
open Py DataFormat

/-! ## C21 -/

theorem detect_member (fmt : Format) (m : Member) (rest : Bytes) (h : m.HeaderOk fmt) :
    detect (m.header ++ rest) = some fmt := by
  have hl := header_length fmt m h
  have ht : ∀ k ≤ headerSize fmt, (m.header ++ rest).take k = m.header.take k := by
    intro k hk
    rw [List.take_append_of_le_length (by omega)]
  have h6 : 6 ≤ headerSize fmt := by cases fmt <;> simp [headerSize]
  unfold detect
  rw [ht 6 h6]
  cases fmt with
  | binBig => rw [h.1]; simp [Member.words]
  | binLittle => rw [h.1]; simp [Member.words]
  | odc =>
    obtain ⟨t, _, h2⟩ := h
    rw [h2]
    rfl
  | newc =>
    obtain ⟨t, _, h2⟩ := h
    rw [h2]
    rfl
  | crc =>
    obtain ⟨t, _, h2⟩ := h
    rw [h2]
    rfl

theorem archiveBytes_append (fmt : Format) (off : Nat) (ms ns : List Member) :
    archiveBytes fmt off (ms ++ ns) = archiveBytes fmt off ms ++
      archiveBytes fmt (off + (archiveBytes fmt off ms).length) ns := by
  induction ms generalizing off with
  | nil => rfl
  | cons m ms ih =>
    have hb := bytes_length fmt off m
    simp only [List.cons_append, archiveBytes, ih, List.append_assoc, List.length_append]
    rw [← hb, Nat.add_assoc]

/-- C21.  For every format, every list of members and every trailer, the archive written by the
format rules is read back: the dictionary holds the first member of every path in order, with its
attributes and the place of its content, and the size is that of the archive.  Whatever follows the
trailer does not matter. -/
theorem C21_round_trip (fmt : Format) (ms : List Member) (tr : Member) (rest : Bytes) (fuel : Nat)
    (hok : ∀ m ∈ ms, m.Ok fmt) (hne : ∀ m ∈ ms, m.path ≠ trailer)
    (htr : tr.Ok fmt) (htp : tr.path = trailer) (hf : ms.length < fuel) :
    readArchive (archiveBytes fmt 0 (ms ++ [tr]) ++ rest) fuel =
      some ⟨(firstOfPath (archiveEntries fmt 0 ms)).map fun e => (e.path, e),
        .ok ((archiveBytes fmt 0 (ms ++ [tr])).length : Nat)⟩ := by
  obtain ⟨f, rfl⟩ : ∃ f, fuel = ms.length + (f + 1) := ⟨fuel - ms.length - 1, by omega⟩
  have hsplit := archiveBytes_append fmt 0 ms [tr]
  simp only [Nat.zero_add] at hsplit
  generalize hA : archiveBytes fmt 0 ms = A at hsplit
  have htrb : archiveBytes fmt A.length [tr] = tr.bytes fmt A.length := by simp [archiveBytes]
  rw [htrb] at hsplit
  have hdet : detect (archiveBytes fmt 0 (ms ++ [tr]) ++ rest) = some fmt := by
    cases ms with
    | nil =>
      simp only [List.nil_append, archiveBytes, Member.bytes, List.append_assoc]
      exact detect_member fmt tr _ htr.1
    | cons m ms =>
      simp only [List.cons_append, archiveBytes, Member.bytes, List.append_assoc]
      exact detect_member fmt m _ (hok m (List.mem_cons_self ..)).1
  have hloop := entriesLoop_members fmt ms [] (tr.bytes fmt A.length ++ rest) (f + 1) [] hok hne
  simp only [List.nil_append, List.length_nil, hA, Int.ofNat_zero] at hloop
  have hdata : A ++ (tr.bytes fmt A.length ++ rest) = archiveBytes fmt 0 (ms ++ [tr]) ++ rest := by
    rw [hsplit, List.append_assoc]
  rw [hdata] at hloop
  rw [readArchive, hdet]
  simp only
  rw [hloop, entriesLoop]
  have hread := readFileEntry_member fmt A rest tr htr
  have hdata' : A ++ tr.bytes fmt A.length ++ rest = archiveBytes fmt 0 (ms ++ [tr]) ++ rest := by
    rw [hsplit]
  rw [hdata'] at hread
  have hl := bytes_length fmt A.length tr
  have h1 := contentOffset_ge fmt A.length tr
  have h2 := endOffset_ge fmt A.length tr
  rw [hread, if_pos]
  · simp only
    rw [if_pos (by exact htp), insertAll_eq]
    have hsize : (A.length : Int) + (tr.entry fmt A.length).size =
        ((archiveBytes fmt 0 (ms ++ [tr])).length : Nat) := by
      rw [hsplit, List.length_append, hl]
      simp only [Member.entry]
      omega
    rw [hsize]
    simp [contains]
  · left
    rw [hsplit, List.length_append, List.length_append]
    omega

/-- C21.  An archive that ends at the end of the file without a trailer is read back as well. -/
theorem C21_round_trip_no_trailer (fmt : Format) (ms : List Member) (fuel : Nat)
    (hok : ∀ m ∈ ms, m.Ok fmt) (hne : ∀ m ∈ ms, m.path ≠ trailer) (hnil : ms ≠ [])
    (hf : ms.length < fuel) :
    readArchive (archiveBytes fmt 0 ms) fuel =
      some ⟨(firstOfPath (archiveEntries fmt 0 ms)).map fun e => (e.path, e),
        .ok ((archiveBytes fmt 0 ms).length : Nat)⟩ := by
  obtain ⟨f, rfl⟩ : ∃ f, fuel = ms.length + (f + 1) := ⟨fuel - ms.length - 1, by omega⟩
  have hdet : detect (archiveBytes fmt 0 ms) = some fmt := by
    cases ms with
    | nil => exact absurd rfl hnil
    | cons m ms =>
      simp only [archiveBytes, Member.bytes, List.append_assoc]
      exact detect_member fmt m _ (hok m (List.mem_cons_self ..)).1
  have hpos : (archiveBytes fmt 0 ms).length ≠ 0 := by
    intro h0
    rw [List.eq_nil_of_length_eq_zero h0] at hdet
    simp [detect] at hdet
  have hloop := entriesLoop_members fmt ms [] [] (f + 1) [] hok hne
  simp only [List.nil_append, List.append_nil, List.length_nil] at hloop
  have hz : ((0 : Nat) : Int) = 0 := rfl
  rw [hz] at hloop
  rw [readArchive, hdet]
  simp only
  rw [hloop, entriesLoop, if_neg (by omega), insertAll_eq]
  simp [contains]

/-- C21.  The offset and size of every entry delimit exactly the content of its member. -/
theorem C21_contents (fmt : Format) (ms : List Member) (post : Bytes) (pre : Bytes)
    (i : Nat) (m : Member) (hi : ms[i]? = some m) :
    ∃ e, (archiveEntries fmt pre.length ms)[i]? = some e ∧ e.path = m.path ∧
      slice (pre ++ archiveBytes fmt pre.length ms ++ post) e.dataOffset.toNat
        (e.dataOffset + e.dataSize).toNat = m.content ∧ 0 ≤ e.dataOffset ∧ 0 ≤ e.dataSize := by
  induction ms generalizing pre i with
  | nil => simp at hi
  | cons x ms ih =>
    have hl := bytes_length fmt pre.length x
    cases i with
    | zero =>
      simp only [List.getElem?_cons_zero, Option.some.injEq] at hi
      subst hi
      refine ⟨x.entry fmt pre.length, rfl, rfl, ?_, by simp only [Member.entry]; omega,
        by simp only [Member.entry]; omega⟩
      have := content_at fmt pre (archiveBytes fmt (x.endOffset fmt pre.length) ms ++ post) x
      simp only [Member.entry, archiveBytes, List.append_assoc] at this ⊢
      rw [show ((x.contentOffset fmt pre.length : Int) + (x.content.length : Int)).toNat =
        x.contentOffset fmt pre.length + x.content.length by omega]
      exact this
    | succ i =>
      simp only [List.getElem?_cons_succ] at hi
      have := ih (pre ++ x.bytes fmt pre.length) i hi
      rw [List.length_append, hl] at this
      simp only [archiveEntries, archiveBytes, List.getElem?_cons_succ, List.append_assoc] at this ⊢
      exact this

/-! The usual writers produce such headers. -/

theorem fieldText_length (base w n : Nat) : (fieldText base w n).length = w := by
  induction w generalizing n with
  | zero => rfl
  | succ w ih => simp [fieldText, ih]

theorem fieldText_numText (base w n : Nat) (hb : 2 ≤ base) (hb' : base ≤ 16) (h : n < base ^ w) :
    NumText base (fieldText base w n) n := by
  induction w generalizing n with
  | zero =>
    have : n = 0 := by simpa using h
    subst this
    exact .nil
  | succ w ih =>
    have hlt : n / base < base ^ w := by
      apply Nat.div_lt_of_lt_mul
      rw [Nat.mul_comm, ← Nat.pow_succ]
      exact h
    have hm : n % base < base := Nat.mod_lt _ (by omega)
    have := NumText.snoc _ _ (UInt8.ofNat (if n % base < 10 then 48 + n % base
      else 65 + (n % base - 10))) (n % base) (ih (n / base) hlt) (by
        unfold IsDigit
        split
        · left
          rw [UInt8.toNat_ofNat']
          omega
        · right; right
          rw [UInt8.toNat_ofNat']
          omega) hm
    rw [show n / base * base + n % base = n by rw [Nat.mul_comm]; exact Nat.div_add_mod n base] at this
    exact this

/-- A member with the header the usual writers store for the portable ASCII format. -/
def Member.withOdcHeader (m : Member) : Member :=
  { m with header := [48, 55, 48, 55, 48, 55] ++
      (m.odcFields.map fun f => fieldText 8 f.1 f.2).flatten }

/-- A member with the header the usual writers store for the new ASCII format. -/
def Member.withNewcHeader (m : Member) : Member :=
  { m with header := [48, 55, 48, 55, 48, 49] ++
      (m.newcFields.map fun f => fieldText 16 f.1 f.2).flatten }

theorem fieldTexts_map (base : Nat) (hb : 2 ≤ base) (hb' : base ≤ 16) (fields : List (Nat × Nat))
    (h : ∀ f ∈ fields, f.2 < base ^ f.1) :
    FieldTexts base fields (fields.map fun f => fieldText base f.1 f.2) := by
  induction fields with
  | nil => exact .nil
  | cons f fs ih =>
    exact .cons ⟨fieldText_length _ _ _, fieldText_numText _ _ _ hb hb' (h f (List.mem_cons_self ..))⟩
      (ih fun g hg => h g (List.mem_cons_of_mem _ hg))

/-- C21.  Every member whose values fit the fields has a header in the portable ASCII format. -/
theorem C21_odc_header_exists (m : Member) (hp : ∀ b ∈ m.path, b ≠ 0 ∧ b.toNat < 128)
    (h : ∀ f ∈ m.odcFields, f.2 < 8 ^ f.1) : m.withOdcHeader.Ok .odc :=
  ⟨⟨_, fieldTexts_map 8 (by omega) (by omega) m.odcFields h, rfl⟩, hp⟩

/-- C21.  Every member whose values fit the fields has a header in the new ASCII format. -/
theorem C21_newc_header_exists (m : Member) (hp : ∀ b ∈ m.path, b ≠ 0 ∧ b.toNat < 128)
    (h : ∀ f ∈ m.newcFields, f.2 < 16 ^ f.1) : m.withNewcHeader.Ok .newc :=
  ⟨⟨_, fieldTexts_map 16 (by omega) (by omega) m.newcFields h, rfl⟩, hp⟩

/-- A member and a trailer, to show that the hypotheses can be met. -/
def sampleMember : Member :=
  ⟨[], 1, 2, 0o100644, 0, 0, 1, 0, 1700000000, 1, 2, 3, 4, 0, [97], [104, 105, 33]⟩
def sampleTrailer : Member := { sampleMember with path := trailer, content := [] }

example : sampleMember.withNewcHeader.Ok .newc ∧ sampleTrailer.withNewcHeader.Ok .newc ∧
    sampleMember.withNewcHeader.path ≠ trailer ∧ sampleTrailer.withNewcHeader.path = trailer :=
  ⟨C21_newc_header_exists _ (by decide) (by decide),
    C21_newc_header_exists _ (by decide) (by decide), by decide, rfl⟩

example : (Member.mk ([0xC7, 0x71] ++ sampleMember.words.flatMap (leBytes 2)) 1 2 0o100644 0 0 1 0
    1700000000 1 2 3 4 0 [97] [104, 105, 33]).Ok .binLittle :=
  ⟨⟨rfl, by decide⟩, by decide⟩

example : archiveBytes .newc 0 [sampleMember.withNewcHeader] =
    sampleMember.withNewcHeader.header ++ [97, 0, 104, 105, 33, 0] := by decide +kernel

/-! ## C22 -/

theorem mem_firstOfPath (l : List Entry) (e : Entry) (h : e ∈ firstOfPath l) : e ∈ l := by
  induction l with
  | nil => exact h
  | cons a l ih =>
    rw [firstOfPath] at h
    rcases List.mem_cons.mp h with h | h
    · exact h ▸ List.mem_cons_self ..
    · exact List.mem_cons_of_mem _ (ih (List.mem_filter.mp h).1)

theorem find_firstOfPath (l : List Entry) (path : Bytes) :
    (firstOfPath l).find? (fun e => e.path = path) = l.find? (fun e => e.path = path) := by
  induction l with
  | nil => rfl
  | cons a l ih =>
    rw [firstOfPath, List.find?_cons, List.find?_cons]
    by_cases h : a.path = path
    · simp [h]
    · simp only [h, decide_false]
      rw [List.find?_filter, ← ih]
      congr 1
      funext x
      by_cases hx : x.path = path
      · have h' : ¬ path = a.path := fun hh => h hh.symm
        simp [hx, h']
      · simp [hx]

/-- The state after an archive has been read: the dictionary made from the entries in order. -/
theorem entriesLoop_dict (fmt : Format) (data : Bytes) (fuel : Nat) :
    ∀ (off : Int) (es : Entries) (out : Outcome), entriesLoop fmt data fuel off es = some out →
      ∃ read : List Entry, out.entries = insertAll es read ∧ ∀ e ∈ read, e.path ≠ trailer := by
  induction fuel with
  | zero => intro off es out h; simp [entriesLoop] at h
  | succ fuel ih =>
    intro off es out h
    rw [entriesLoop] at h
    split at h
    · split at h
      · simp only [Option.some.injEq] at h
        exact ⟨[], by rw [← h]; rfl, by simp⟩
      · rename_i e he
        split at h
        · simp only [Option.some.injEq] at h
          exact ⟨[], by rw [← h]; rfl, by simp⟩
        · rename_i hne
          split at h
          · rename_i hc
            obtain ⟨read, h1, h2⟩ := ih _ _ _ h
            refine ⟨e :: read, ?_, ?_⟩
            · rw [insertAll, if_pos hc, h1]
            · intro x hx
              rcases List.mem_cons.mp hx with hx | hx
              · exact hx ▸ hne
              · exact h2 x hx
          · rename_i hc
            obtain ⟨read, h1, h2⟩ := ih _ _ _ h
            refine ⟨e :: read, ?_, ?_⟩
            · rw [insertAll, if_neg hc, h1]
            · intro x hx
              rcases List.mem_cons.mp hx with hx | hx
              · exact hx ▸ hne
              · exact h2 x hx
    · simp only [Option.some.injEq] at h
      exact ⟨[], by rw [← h]; rfl, by simp⟩

/-- The dictionary after the entries `read` have been read. -/
def dictOf (read : List Entry) : Entries := (firstOfPath read).map fun e => (e.path, e)

theorem insertAll_nil (read : List Entry) : insertAll [] read = dictOf read := by
  rw [insertAll_eq]
  simp [contains, dictOf]

/-- C22.  Lookup of a path returns the first entry read with that path, and none if there is none. -/
theorem C22_lookup (read : List Entry) (path : Bytes) :
    getByPath (dictOf read) path = read.find? (fun e => e.path = path) := by
  rw [← find_firstOfPath, getByPath, dictOf, List.find?_map, Option.map_map]
  have : ((fun p : Bytes × Entry => p.2) ∘ fun e : Entry => (e.path, e)) = id := rfl
  rw [this, Option.map_id]
  rfl

/-- C22.  A path exists exactly if an entry with that path was read. -/
theorem C22_exists (read : List Entry) (path : Bytes) :
    existsByPath (dictOf read) path = true ↔ ∃ e ∈ read, e.path = path := by
  have h1 : existsByPath (dictOf read) path = (getByPath (dictOf read) path).isSome := by
    unfold existsByPath getByPath contains
    cases dictOf read with
    | nil => rfl
    | cons p es =>
      rw [Bool.eq_iff_iff]
      simp only [List.isEmpty_cons, Bool.false_eq_true, if_false, Option.isSome_map,
        List.find?_isSome, List.any_eq_true]
  rw [h1, C22_lookup, List.find?_isSome]
  simp

/-- C22.  Listing with a prefix returns the first entry of every path with that prefix, in the order
in which the paths first occur; no path is listed twice. -/
theorem C22_listing (read : List Entry) (pathPrefix : Bytes) :
    getEntries (dictOf read) pathPrefix =
        (firstOfPath read).filter (fun e => pathPrefix.isPrefixOf e.path) ∧
      (getEntries (dictOf read) pathPrefix).Pairwise (fun a b => a.path ≠ b.path) := by
  have h1 : getEntries (dictOf read) pathPrefix =
      (firstOfPath read).filter (fun e => pathPrefix.isPrefixOf e.path) := by
    rw [getEntries, dictOf, List.filter_map, List.map_map]
    have : ((fun p : Bytes × Entry => p.2) ∘ fun e : Entry => (e.path, e)) = id := rfl
    rw [this, List.map_id]
    rfl
  refine ⟨h1, ?_⟩
  rw [h1]
  apply List.Pairwise.filter
  clear h1
  induction read with
  | nil => exact .nil
  | cons e es ih =>
    rw [firstOfPath, List.pairwise_cons]
    refine ⟨?_, List.Pairwise.filter _ ih⟩
    intro x hx
    have := (List.mem_filter.mp hx).2
    simp only [ne_eq, decide_not, Bool.not_eq_eq_eq_not, Bool.not_true, decide_eq_false_iff_not] at this
    exact fun h => this h.symm

/-- C22.  The state any read of an archive leaves behind, also one that fails part way, is the
dictionary of entries before the trailer, so the three theorems above apply to it. -/
theorem C22_state (data : Bytes) (fuel : Nat) (out : Outcome) (h : readArchive data fuel = some out) :
    ∃ read : List Entry, out.entries = dictOf read ∧ ∀ e ∈ read, e.path ≠ trailer := by
  unfold readArchive at h
  split at h
  · simp only [Option.some.injEq] at h
    exact ⟨[], by rw [← h]; rfl, by simp⟩
  · obtain ⟨read, h1, h2⟩ := entriesLoop_dict _ _ _ _ _ _ h
    exact ⟨read, by rw [h1, insertAll_nil], h2⟩

/-- Two entries with one path: the first wins. -/
example : getByPath (dictOf [⟨0, 1, 0, 5, 0, [97], 0, 0, 0⟩, ⟨0, 1, 0, 6, 0, [97], 0, 0, 0⟩]) [97] =
    some ⟨0, 1, 0, 5, 0, [97], 0, 0, 0⟩ := by decide

/-- C22.  When nothing was read the lookup returns `False` instead of no entry. -/
theorem C22_false_without_entries (read : List Entry) :
    getByPathIsFalse (dictOf read) = true ↔ read = [] := by
  cases read <;> simp [dictOf, firstOfPath, getByPathIsFalse]

/-! ## C20 -/

/-- The claim: for every file contents some number of rounds suffices. -/
def C20_terminates_claim : Prop := ∀ data, ∃ fuel, readArchive data fuel ≠ none

/-- A portable ASCII header with an empty path and a file size of -76. -/
def loopingArchive : Bytes :=
  [48, 55, 48, 55, 48, 55] ++ List.replicate 53 48 ++ List.replicate 6 48 ++
    [45, 48, 48, 48, 48, 48, 48, 48, 49, 49, 52]

theorem loopingArchive_entry :
    readFileEntry .odc loopingArchive 0 = .ok ⟨76, -76, 0, 0, 0, [], 0, 0, 0⟩ := by decide +kernel

theorem loopingArchive_loops (fuel : Nat) (es : Entries) :
    entriesLoop .odc loopingArchive fuel 0 es = none := by
  induction fuel generalizing es with
  | zero => rfl
  | succ fuel ih =>
    rw [entriesLoop, loopingArchive_entry]
    have hl : loopingArchive.length = 76 := by decide
    rw [hl, if_pos (by omega)]
    simp only
    rw [if_neg (by decide)]
    split <;> exact ih _

/-- C20.  The claim is false: a header field with a sign makes an entry of size zero, and reading
never ends. -/
theorem C20_negative_size_loops : ¬ C20_terminates_claim := by
  intro h
  obtain ⟨fuel, hf⟩ := h loopingArchive
  apply hf
  have hd : detect loopingArchive = some .odc := by decide +kernel
  rw [readArchive, hd]
  exact loopingArchive_loops fuel []

theorem padding_nonneg (fmt : Format) (off : Int) : 0 ≤ padding fmt off := by
  cases fmt <;> simp only [padding] <;> omega

theorem readFileEntry_size (fmt : Format) (data : Bytes) (off : Int) (e : Entry)
    (h : readFileEntry fmt data off = .ok e) (hoff : 0 ≤ off)
    (hnn : ∀ hd, parseHeader fmt ((data.drop off.toNat).take (headerSize fmt)) = some hd →
      0 ≤ hd.pathSize ∧ 0 ≤ hd.fileSize) : (26 : Int) ≤ e.size := by
  obtain ⟨n, rfl⟩ := Int.eq_ofNat_of_zero_le hoff
  have hpos : 0 < headerSize fmt := by cases fmt <;> simp [headerSize]
  have h26 : 26 ≤ headerSize fmt := by cases fmt <;> simp [headerSize]
  unfold readFileEntry at h
  rw [structAt_fixed _ _ _ _ hpos] at h
  split at h
  · simp at h
  · rename_i s hsize hs
    split at hs
    · simp at hs
    · simp only [Except.ok.injEq, Prod.mk.injEq, id] at hs
      obtain ⟨rfl, rfl⟩ := hs
      split at h
      · simp at h
      · rename_i hd hhd
        have hx := hnn hd (by simpa using hhd)
        dsimp only at h
        split at h
        · simp at h
        · simp only [Except.ok.injEq] at h
          subst h
          simp only
          have p1 := padding_nonneg fmt ((n : Int) + (headerSize fmt : Nat) + hd.pathSize)
          have p2 := padding_nonneg fmt ((n : Int) + (headerSize fmt : Nat) + hd.pathSize +
            padding fmt ((n : Int) + (headerSize fmt : Nat) + hd.pathSize) + hd.fileSize)
          omega

theorem entriesLoop_terminates (fmt : Format) (data : Bytes) (hdata : data.length ≠ 0)
    (hnn : ∀ (off : Nat) hd, parseHeader fmt ((data.drop off).take (headerSize fmt)) = some hd →
      0 ≤ hd.pathSize ∧ 0 ≤ hd.fileSize) (fuel : Nat) :
    ∀ (off : Nat) (es : Entries), data.length ≤ off + 26 * fuel →
      entriesLoop fmt data (fuel + 1) off es ≠ none := by
  induction fuel with
  | zero =>
    intro off es h
    rw [entriesLoop, if_neg (by omega)]
    simp
  | succ fuel ih =>
    intro off es h
    rw [entriesLoop]
    split
    · split
      · simp
      · rename_i e he
        have hs := readFileEntry_size fmt data off e he (by omega)
          (fun hd hh => hnn off hd (by simpa using hh))
        obtain ⟨k, hk⟩ := Int.eq_ofNat_of_zero_le (by omega : 0 ≤ (off : Int) + e.size)
        have hk' : (off : Int) + e.size = ((k : Nat) : Int) := hk
        rw [hk']
        split
        · simp
        · split <;> exact ih _ _ (by omega)
    · simp

/-- C20.  What holds: if no header that can be read anywhere in the file has a negative size, reading
ends after at most one round per 26 bytes.  Missing: archives with a minus sign in a size field,
where it is false. -/
theorem C20_terminates_partial (data : Bytes)
    (hnn : ∀ fmt (off : Nat) hd,
      parseHeader fmt ((data.drop off).take (headerSize fmt)) = some hd →
        0 ≤ hd.pathSize ∧ 0 ≤ hd.fileSize) :
    readArchive data (data.length / 26 + 2) ≠ none := by
  unfold readArchive
  split
  · simp
  · rename_i fmt hd
    have hne : data.length ≠ 0 := by
      intro h0
      rw [List.eq_nil_of_length_eq_zero h0] at hd
      simp [detect] at hd
    exact entriesLoop_terminates fmt data hne (hnn fmt) _ 0 [] (by omega)

/-- C20.  Binary archives always satisfy the condition: reading them ends for all file contents. -/
theorem C20_binary_terminates (data : Bytes)
    (h : detect data = some .binBig ∨ detect data = some .binLittle) :
    readArchive data (data.length / 26 + 2) ≠ none := by
  have hne : data.length ≠ 0 := by
    intro h0
    rw [List.eq_nil_of_length_eq_zero h0] at h
    simp [detect] at h
  unfold readArchive
  rcases h with h | h
  · rw [h]
    refine entriesLoop_terminates _ data hne ?_ _ 0 [] (by omega)
    intro off hd hh
    simp only [parseHeader, Option.some.injEq] at hh
    rw [← hh]
    simp only [parseBinary]
    exact ⟨by omega, by omega⟩
  · rw [h]
    refine entriesLoop_terminates _ data hne ?_ _ 0 [] (by omega)
    intro off hd hh
    simp only [parseHeader, Option.some.injEq] at hh
    rw [← hh]
    simp only [parseBinary]
    exact ⟨by omega, by omega⟩

theorem pyInt_nonneg (base : Nat) (s : Bytes) (v : Int) (h : pyInt base s = some v)
    (hm : (45 : UInt8) ∉ s) : 0 ≤ v := by
  unfold pyInt at h
  dsimp only at h
  split at h
  · rename_i c rest hs
    have hc : c ∈ s := by
      have h1 : c ∈ (((s.dropWhile isSpace).reverse).dropWhile isSpace).reverse := by
        rw [hs]; exact List.mem_cons_self ..
      have h2 := List.mem_reverse.mp h1
      have h3 := (List.dropWhile_sublist isSpace).subset h2
      have h4 := List.mem_reverse.mp h3
      exact (List.dropWhile_sublist isSpace).subset h4
    have hne : c.toNat ≠ 45 := by
      intro h45
      apply hm
      have : c = 45 := UInt8.toNat_inj.mp h45
      rw [← this]
      exact hc
    rw [if_neg hne] at h
    split at h
    · rw [Option.map_eq_some_iff] at h
      obtain ⟨n, _, rfl⟩ := h
      omega
    · rw [Option.map_eq_some_iff] at h
      obtain ⟨n, _, rfl⟩ := h
      omega
  · simp at h

theorem parseFields_nonneg (base : Nat) (ws : List Nat) (s : Bytes) (vs : List Int)
    (h : parseFields base ws s = some vs) (hm : (45 : UInt8) ∉ s) : ∀ v ∈ vs, 0 ≤ v := by
  induction ws generalizing s vs with
  | nil =>
    simp only [parseFields, Option.some.injEq] at h
    subst h
    simp
  | cons w ws ih =>
    rw [parseFields] at h
    split at h
    · simp at h
    · rename_i v hv
      split at h
      · simp at h
      · rename_i vs' hvs
        simp only [Option.some.injEq] at h
        subst h
        intro x hx
        rcases List.mem_cons.mp hx with hx | hx
        · rw [hx]
          exact pyInt_nonneg base _ v hv fun hh => hm (List.mem_of_mem_take hh)
        · exact ih _ _ hvs (fun hh => hm (List.mem_of_mem_drop hh)) x hx

/-- C20.  In terms of the file contents: reading ends for every file in which no header-sized piece
with a size below zero occurs; in particular for every file without a minus sign. -/
theorem C20_no_minus_terminates (data : Bytes) (hm : (45 : UInt8) ∉ data) :
    readArchive data (data.length / 26 + 2) ≠ none := by
  apply C20_terminates_partial
  intro fmt off hd hh
  have hm' : (45 : UInt8) ∉ (data.drop off).take (headerSize fmt) :=
    fun h => hm (List.mem_of_mem_drop (List.mem_of_mem_take h))
  generalize (data.drop off).take (headerSize fmt) = s at hh hm'
  have newc : ∀ hd, parseNewc s = some hd → 0 ≤ hd.pathSize ∧ 0 ≤ hd.fileSize := by
    intro hd hh
    unfold parseNewc at hh
    split at hh
    · rename_i h1
      have := parseFields_nonneg _ _ _ _ h1 fun h => hm' (List.mem_of_mem_drop h)
      simp only [Option.some.injEq] at hh
      subst hh
      exact ⟨this _ (by simp), this _ (by simp)⟩
    · simp at hh
  cases fmt with
  | binBig =>
    simp only [parseHeader, Option.some.injEq] at hh
    rw [← hh]
    simp only [parseBinary]
    exact ⟨by omega, by omega⟩
  | binLittle =>
    simp only [parseHeader, Option.some.injEq] at hh
    rw [← hh]
    simp only [parseBinary]
    exact ⟨by omega, by omega⟩
  | odc =>
    simp only [parseHeader, parseOdc] at hh
    split at hh
    · rename_i h1
      have := parseFields_nonneg _ _ _ _ h1 fun h => hm' (List.mem_of_mem_drop h)
      simp only [Option.some.injEq] at hh
      subst hh
      exact ⟨this _ (by simp), this _ (by simp)⟩
    · simp at hh
  | newc => exact newc hd hh
  | crc => exact newc hd hh

example : (45 : UInt8) ∉ archiveBytes .newc 0 [sampleMember.withNewcHeader] := by decide +kernel

end Dtf.Cpio
