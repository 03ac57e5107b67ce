import Mathlib.Data.List.Forall2
import Verif.LevelDB.Records

/-!
# LevelDB tables: prefix compression, key suffixes, table files (C17, C18, C57)
-/

namespace Dtf.LevelDB
open Py DataFormat

/-! ## Specification of the encoding -/

/-- The internal key of an entry: the user key followed by 64 bits, sequence number and type. -/
def internalKey (e : Entry) : Bytes := e.key ++ leBytes 8 (e.sequence * 256 + e.valueType)

/-- An entry as stored, when its key shares `shared` bytes with the key before it. -/
def entryBytes (shared : Nat) (e : Entry) : Bytes :=
  encodeVarint shared ++ (encodeVarint ((internalKey e).length - shared) ++
    (encodeVarint e.value.length ++ ((internalKey e).drop shared ++ e.value)))

/-- The choices of shared sizes are valid: each is a common prefix of the key and the key before. -/
def Sharing (prev : Bytes) : List (Nat × Entry) → Prop
  | [] => True
  | (shared, e) :: es =>
    shared ≤ (internalKey e).length ∧ (internalKey e).take shared = prev.take shared ∧
      shared ≤ prev.length ∧ e.sequence < 2 ^ 56 ∧ e.valueType < 256 ∧ Sharing (internalKey e) es

/-- A table: the entries, the restart offsets and their number. -/
def tableBytes (es : List (Nat × Entry)) (restarts : List Nat) : Bytes :=
  es.flatMap (fun p => entryBytes p.1 p.2) ++ restarts.flatMap (leBytes 4) ++
    leBytes 4 restarts.length

/-! ## Proofs -/

theorem internalKey_length (e : Entry) : (internalKey e).length = e.key.length + 8 := by
  simp [internalKey]

theorem entryBytes_pos (s : Nat) (e : Entry) : 1 ≤ (entryBytes s e).length := by
  have := encodeVarint_length_pos s
  simp only [entryBytes, List.length_append]
  omega

theorem suffix_split (seq t : Nat) (hs : seq < 2 ^ 56) (ht : t < 256) :
    leNat (leBytes 8 (seq * 256 + t)) >>> 8 = seq ∧
      leNat (leBytes 8 (seq * 256 + t)) &&& 0xFF = t := by
  rw [leNat_leBytes, Nat.mod_eq_of_lt (by omega), Nat.shiftRight_eq_div_pow,
    show (0xFF : Nat) = 2 ^ 8 - 1 from rfl, Nat.and_two_pow_sub_one_eq_mod]
  omega

theorem drop_pre (pre a rest : Bytes) : (pre ++ (a ++ rest)).drop (pre.length + a.length) = rest := by
  rw [← List.append_assoc, ← List.length_append, List.drop_left]

theorem readTableEntry_encode (pre post prev : Bytes) (s : Nat) (e : Entry)
    (h1 : s ≤ (internalKey e).length) (h2 : (internalKey e).take s = prev.take s)
    (h4 : e.sequence < 2 ^ 56) (h5 : e.valueType < 256) :
    readTableEntry (pre ++ entryBytes s e ++ post) pre.length prev =
      .ok (e, (pre ++ entryBytes s e).length, internalKey e) := by
  rw [readTableEntry]
  generalize hV1 : encodeVarint s = v1
  generalize hV2 : encodeVarint ((internalKey e).length - s) = v2
  generalize hV3 : encodeVarint e.value.length = v3
  have htab : pre ++ entryBytes s e ++ post =
      pre ++ (v1 ++ (v2 ++ (v3 ++ ((internalKey e).drop s ++ (e.value ++ post))))) := by
    simp [entryBytes, hV1, hV2, hV3]
  have d1 : (pre ++ entryBytes s e ++ post).drop pre.length =
      v1 ++ (v2 ++ (v3 ++ ((internalKey e).drop s ++ (e.value ++ post)))) := by
    rw [htab, List.drop_left]
  have d2 : (pre ++ entryBytes s e ++ post).drop (pre.length + v1.length) =
      v2 ++ (v3 ++ ((internalKey e).drop s ++ (e.value ++ post))) := by
    rw [htab, drop_pre]
  have d3 : (pre ++ entryBytes s e ++ post).drop (pre.length + v1.length + v2.length) =
      v3 ++ ((internalKey e).drop s ++ (e.value ++ post)) := by
    rw [htab, ← List.append_assoc, ← List.length_append, drop_pre]
  rw [d1, ← hV1, C14_round_trip]
  simp only [hV1]
  rw [d2, ← hV2, C14_round_trip]
  simp only [hV2]
  rw [d3, ← hV3, C14_round_trip]
  simp only [hV3]
  have klen : ((internalKey e).drop s).length = (internalKey e).length - s := by simp
  have s1 : slice (pre ++ entryBytes s e ++ post) (pre.length + v1.length + v2.length + v3.length)
      (pre.length + v1.length + v2.length + v3.length + ((internalKey e).length - s)) =
        (internalKey e).drop s := by
    have := slice_mid (pre ++ v1 ++ v2 ++ v3) ((internalKey e).drop s) (e.value ++ post)
      (pre.length + v1.length + v2.length + v3.length)
      (pre.length + v1.length + v2.length + v3.length + ((internalKey e).length - s))
      (by simp; omega) (by simp; omega)
    rw [htab]
    simpa using this
  have s2 : slice (pre ++ entryBytes s e ++ post)
      (pre.length + v1.length + v2.length + v3.length + ((internalKey e).length - s))
      (pre.length + v1.length + v2.length + v3.length + ((internalKey e).length - s) +
        e.value.length) = e.value := by
    have := slice_mid (pre ++ v1 ++ v2 ++ v3 ++ (internalKey e).drop s) e.value post
      (pre.length + v1.length + v2.length + v3.length + ((internalKey e).length - s))
      (pre.length + v1.length + v2.length + v3.length + ((internalKey e).length - s) +
        e.value.length) (by simp; omega) (by simp; omega)
    rw [htab]
    simpa using this
  have hkey : (if s > 0 then prev.take s ++ (internalKey e).drop s else (internalKey e).drop s) =
      internalKey e := by
    split
    · rw [← h2, List.take_append_drop]
    · have : s = 0 := by omega
      simp [this]
  have hsize : (if s > 0 then (internalKey e).length - s + s else (internalKey e).length - s) =
      (internalKey e).length := by
    split <;> omega
  have hend : (pre ++ entryBytes s e).length =
      pre.length + v1.length + v2.length + v3.length + ((internalKey e).length - s) +
        e.value.length := by
    simp [entryBytes, hV1, hV2, hV3]
    omega
  have hkl := internalKey_length e
  have hsuf : (internalKey e).drop ((internalKey e).length - 8) =
      leBytes 8 (e.sequence * 256 + e.valueType) := by
    rw [hkl, Nat.add_sub_cancel, internalKey, List.drop_left]
  have huser : (internalKey e).take ((internalKey e).length - 8) = e.key := by
    rw [hkl, Nat.add_sub_cancel, internalKey, List.take_left]
  rw [s1, hkey, hsize, s2, if_neg (by omega), hsuf,
    fromByteStream_fixed _ _ _ (by intro h; have := congrArg List.length h; simp at this),
    if_neg (by simp)]
  have htk : (leBytes 8 (e.sequence * 256 + e.valueType)).take 8 =
      leBytes 8 (e.sequence * 256 + e.valueType) := by
    apply List.take_of_length_le
    simp
  simp only [htk, huser, (suffix_split _ _ h4 h5).1, (suffix_split _ _ h4 h5).2, hend]

theorem tableLoop_encode (es : List (Nat × Entry)) (pre post prev : Bytes) (fuel : Nat)
    (hs : Sharing prev es) (hf : es.length < fuel) :
    tableLoop (pre ++ es.flatMap (fun p => entryBytes p.1 p.2) ++ post)
      ((pre ++ es.flatMap (fun p => entryBytes p.1 p.2)).length : Nat) fuel pre.length prev =
      some (.ok (es.map (·.2))) := by
  induction es generalizing pre prev fuel with
  | nil =>
    obtain ⟨f, rfl⟩ : ∃ f, fuel = f + 1 := ⟨fuel - 1, by omega⟩
    rw [tableLoop, if_neg (by simp)]
    rfl
  | cons p es ih =>
    obtain ⟨s, e⟩ := p
    obtain ⟨f, rfl⟩ : ∃ f, fuel = f + 1 := ⟨fuel - 1, by simp at hf; omega⟩
    obtain ⟨h1, h2, h3, h4, h5, h6⟩ := hs
    have hp := entryBytes_pos s e
    have e1 : pre ++ ((s, e) :: es).flatMap (fun p => entryBytes p.1 p.2) ++ post =
        pre ++ entryBytes s e ++ (es.flatMap (fun p => entryBytes p.1 p.2) ++ post) := by simp
    have e2 : pre ++ ((s, e) :: es).flatMap (fun p => entryBytes p.1 p.2) =
        pre ++ entryBytes s e ++ es.flatMap (fun p => entryBytes p.1 p.2) := by simp
    rw [e1, e2, tableLoop, if_pos (by simp only [List.length_append]; omega),
      readTableEntry_encode pre _ prev s e h1 h2 h4 h5]
    dsimp only
    have := ih (pre ++ entryBytes s e) (internalKey e) f h6 (by simp at hf; omega)
    rw [← List.append_assoc, this]
    rfl

theorem restarts_length (rs : List Nat) : (rs.flatMap (leBytes 4)).length = 4 * rs.length := by
  induction rs with
  | nil => rfl
  | cons r rs ih =>
    simp only [List.flatMap_cons, List.length_append, leBytes_length, ih, List.length_cons]
    omega

theorem tableLoop_mono (table : Bytes) (stop : Int) (fuel : Nat) :
    ∀ (off : Nat) (shared : Bytes) (r : Res (List Entry)),
      tableLoop table stop fuel off shared = some r →
      ∀ k, tableLoop table stop (fuel + k) off shared = some r := by
  induction fuel with
  | zero => intro off shared r h; simp [tableLoop] at h
  | succ fuel ih =>
    intro off shared r h k
    rw [show fuel + 1 + k = fuel + k + 1 by omega]
    rw [tableLoop] at h ⊢
    split
    · rename_i hlt
      rw [if_pos hlt] at h
      split
      · rename_i e he
        rw [he] at h
        exact h
      · rename_i e off' shared' he
        rw [he] at h
        dsimp only at h
        rw [Option.map_eq_some_iff] at h
        obtain ⟨r', hr', hh⟩ := h
        rw [ih _ _ _ hr' k]
        simp [hh]
    · rename_i hlt
      rw [if_neg hlt] at h
      exact h

theorem readTableEntry_progress (table : Bytes) (off off' : Nat) (shared shared' : Bytes)
    (e : Entry) (h : readTableEntry table off shared = .ok (e, off', shared')) : off < off' := by
  unfold readTableEntry at h
  split at h
  · simp at h
  · rename_i a1 n1 he1
    have := readVarint_progress _ _ _ he1
    split at h
    · simp at h
    · split at h
      · simp at h
      · dsimp only at h
        generalize (if _ > 0 then _ ++ _ else _ : Bytes) = K at h
        generalize (if _ > 0 then _ + _ else _ : Nat) = S at h
        split at h
        · simp at h
        · split at h
          · simp at h
          · simp only [Except.ok.injEq, Prod.mk.injEq] at h
            omega

theorem readTableEntry_suffix (table : Bytes) (off off' : Nat) (shared shared' : Bytes)
    (e : Entry) (h : readTableEntry table off shared = .ok (e, off', shared')) :
    e.valueType < 256 ∧ e.sequence < 2 ^ 56 ∧ shared' = internalKey e := by
  unfold readTableEntry at h
  split at h
  · simp at h
  · split at h
    · simp at h
    · split at h
      · simp at h
      · dsimp only at h
        generalize (if _ > 0 then _ ++ _ else _ : Bytes) = K at h
        generalize (if _ > 0 then _ + _ else _ : Nat) = S at h
        split at h
        · simp at h
        · split at h
          · simp at h
          · rename_i sfx hsfx
            simp only [Except.ok.injEq, Prod.mk.injEq] at h
            obtain ⟨h1, h2, h3⟩ := h
            subst h3 h1
            generalize hb : List.drop _ _ = b at hsfx
            have hbne : b ≠ [] := by
              intro hb0
              rw [hb0] at hsfx
              simp [readStructureFromByteStream] at hsfx
            rw [fromByteStream_fixed _ _ _ hbne] at hsfx
            split at hsfx
            · simp at hsfx
            · rename_i hlen
              have hs := Except.ok.inj hsfx
              have hbl : b.length = 8 := by
                have := congrArg List.length hb
                simp at this
                omega
              have hbt : b.take 8 = b := List.take_of_length_le (by omega)
              rw [hbt] at hs
              have hlt := leNat_lt b
              rw [hbl, hs] at hlt
              have hand : sfx &&& 0xFF = sfx % 256 := Nat.and_two_pow_sub_one_eq_mod sfx 8
              have hshr : sfx >>> 8 = sfx / 256 := Nat.shiftRight_eq_div_pow sfx 8
              refine ⟨by simp only [hand]; omega, by simp only [hshr]; omega, ?_⟩
              simp only [internalKey, hand, hshr]
              have : sfx / 256 * 256 + sfx % 256 = sfx := by omega
              have hle := leBytes_leNat b
              rw [hbl, hs] at hle
              rw [this, hle, ← hb, List.take_append_drop]

/-- C17.  For every list of entries, every choice of shared prefixes and every restart array,
reading the table returns exactly these entries in order. -/
theorem C17_table_round_trip (es : List (Nat × Entry)) (restarts : List Nat)
    (hs : Sharing [] es) (hr : restarts.length < 2 ^ 32) :
    readTable (tableBytes es restarts) = .ok (es.map (·.2)) := by
  generalize hE : es.flatMap (fun p => entryBytes p.1 p.2) = E
  have hlen : (tableBytes es restarts).length = E.length + 4 * restarts.length + 4 := by
    simp only [tableBytes, hE, List.length_append, restarts_length, leBytes_length]
  have hd : (tableBytes es restarts).drop ((tableBytes es restarts).length - 4) =
      leBytes 4 restarts.length := by
    have : (tableBytes es restarts).length - 4 = (E ++ restarts.flatMap (leBytes 4)).length := by
      rw [hlen, List.length_append, restarts_length]
      omega
    rw [this, tableBytes, hE, List.drop_left]
  have hcount : leNat (leBytes 4 restarts.length) = restarts.length := by
    rw [leNat_leBytes, Nat.mod_eq_of_lt (by simpa using hr)]
  rw [readTable, hd, fromByteStream_fixed _ _ _
    (by intro h; have := congrArg List.length h; simp at this), if_neg (by simp),
    List.take_of_length_le (by simp), hcount]
  have hstop : ((tableBytes es restarts).length : Int) - 4 - 4 * (restarts.length : Int) =
      (E.length : Nat) := by
    rw [hlen]
    omega
  simp only [hstop]
  have hsl : (sliceInt (tableBytes es restarts) (E.length : Nat)
      ((tableBytes es restarts).length : Nat)).length = 4 * restarts.length + 4 := by
    unfold sliceInt sliceIndex slice
    rw [if_neg (by omega), if_neg (by omega)]
    simp only [Int.toNat_natCast, List.length_drop, List.length_take]
    omega
  rw [if_neg (by omega)]
  have hloop := tableLoop_encode es [] (restarts.flatMap (leBytes 4) ++ leBytes 4 restarts.length)
    [] (es.length + 1) hs (by omega)
  simp only [List.nil_append, hE, List.length_nil] at hloop
  rw [← List.append_assoc] at hloop
  have hm := tableLoop_mono _ _ _ _ _ _ hloop ((tableBytes es restarts).length - es.length)
  have hes : es.length ≤ E.length := by
    rw [← hE]
    exact flatMap_length_ge _ es fun p _ => entryBytes_pos p.1 p.2
  have hfuel : es.length + 1 + ((tableBytes es restarts).length - es.length) =
      (tableBytes es restarts).length + 1 := by omega
  rw [hfuel] at hm
  have htb : tableBytes es restarts = E ++ restarts.flatMap (leBytes 4) ++ leBytes 4 restarts.length := by
    rw [tableBytes, hE]
  rw [← htb] at hm
  rw [hm]

/-- A table with a shared prefix meets the hypotheses. -/
example : Sharing [] [(0, ⟨[65, 66], 1, 1, [9]⟩), (2, ⟨[65, 66, 67], 2, 0, []⟩)] := by
  refine ⟨?_, ?_, ?_, ?_, ?_, ?_, ?_, ?_, ?_, ?_, trivial⟩ <;> simp [internalKey]

/-- C17.  Reading a table ends, for every block contents. -/
theorem C17_terminates (table : Bytes) (stop : Int) (h : stop ≤ table.length) :
    tableLoop table stop (table.length + 1) 0 [] ≠ none := by
  suffices key : ∀ (fuel off : Nat) (shared : Bytes), stop ≤ off + fuel →
      tableLoop table stop (fuel + 1) off shared ≠ none from key table.length 0 [] (by omega)
  intro fuel
  induction fuel with
  | zero =>
    intro off shared hs
    rw [tableLoop, if_neg (by omega)]
    simp
  | succ fuel ih =>
    intro off shared hs
    rw [tableLoop]
    split
    · split
      · simp
      · rename_i he
        have := readTableEntry_progress _ _ _ _ _ _ he
        rw [Ne, Option.map_eq_none_iff]
        apply ih
        omega
    · simp

/-- C18.  For every block contents that can be read, each entry has a value type below 256 and a
sequence number below 2^56. -/
theorem C18_suffix_exact (table : Bytes) (es : List Entry) (h : readTable table = .ok es)
    (e : Entry) (he : e ∈ es) : e.valueType < 256 ∧ e.sequence < 2 ^ 56 := by
  have key : ∀ (stop : Int) (fuel off : Nat) (shared : Bytes) (es : List Entry),
      tableLoop table stop fuel off shared = some (.ok es) → ∀ e ∈ es,
        e.valueType < 256 ∧ e.sequence < 2 ^ 56 := by
    intro stop fuel
    induction fuel with
    | zero => intro off shared es h; simp [tableLoop] at h
    | succ fuel ih =>
      intro off shared es h
      rw [tableLoop] at h
      split at h
      · split at h
        · simp at h
        · rename_i hre
          have hx := readTableEntry_suffix _ _ _ _ _ _ hre
          rw [Option.map_eq_some_iff] at h
          obtain ⟨r', hr', hh⟩ := h
          cases r' with
          | error err => simp [Except.map] at hh
          | ok es' =>
            simp only [Except.map, Except.ok.injEq] at hh
            subst hh
            intro e he
            rcases List.mem_cons.mp he with he | he
            · subst he
              exact ⟨hx.1, hx.2.1⟩
            · exact ih _ _ _ hr' e he
      · simp only [Option.some.injEq, Except.ok.injEq] at h
        subst h
        simp
  unfold readTable at h
  split at h
  · simp at h
  · dsimp only at h
    split at h
    · simp at h
    · split at h
      · simp at h
      · rename_i r hr
        subst h
        exact key _ _ _ _ _ hr e he

/-- C18.  A stored key of a user key, a sequence number and a value type is taken apart into
exactly these. -/
theorem C18_suffix_round_trip (key value : Bytes) (sequence valueType : Nat)
    (hs : sequence < 2 ^ 56) (ht : valueType < 256) :
    readTable (tableBytes [(0, ⟨key, sequence, valueType, value⟩)] [0]) =
      .ok [⟨key, sequence, valueType, value⟩] := by
  apply C17_table_round_trip
  · exact ⟨by omega, by simp, by simp, hs, ht, trivial⟩
  · simp

/-! ## Table files (C57) -/

/-- `table` is stored in the file at `off` with stored size `size`: stored bytes, compression type,
four bytes of checksum. -/
def Stored (dec : Decompress) (data : Bytes) (off size : Nat) (table : Bytes) : Prop :=
  ∃ pre stored crc post : Bytes, ∃ t : UInt8,
    data = pre ++ stored ++ (t :: crc) ++ post ∧ pre.length = off ∧ stored.length = size ∧
      crc.length = 4 ∧
      ((t = 0 ∧ table = stored) ∨ (t = 1 ∧ dec.snappy stored = .ok table) ∨
        (t = 2 ∧ dec.zstd stored = .ok table))

theorem readBlock_stored (dec : Decompress) (data : Bytes) (off size : Nat) (table : Bytes)
    (h : Stored dec data off size table) : readBlock dec data off size = .ok table := by
  obtain ⟨pre, stored, crc, post, t, hd, ho, hs, hc, ht⟩ := h
  have hlen : off + size ≤ data.length := by
    subst hd ho hs
    simp
  have e1 : (data.drop off).take size = stored := by
    subst hd ho hs
    simp
  rw [readBlock, readData_ok data 0 off size hlen, e1]
  simp only
  have e2 := structAt_fixed_append 5 (fun s => leNat (s.take 1)) (pre ++ stored) (t :: crc) post
    (by omega) (by simp [hc])
  have e3 : (off + size : Nat) = (pre ++ stored).length := by simp [ho, hs]
  rw [e3, hd, e2]
  simp only [List.take_succ_cons, List.take_zero, leNat]
  rcases ht with ⟨h1, h2⟩ | ⟨h1, h2⟩ | ⟨h1, h2⟩
  · subst h1 h2
    rfl
  · subst h1
    simp [h2]
  · subst h1
    simp [h2]

/-- A data block: where it is stored, and what it holds. -/
structure BlockSpec where
  off : Nat
  size : Nat
  entries : List (Nat × Entry)
  restarts : List Nat

/-- The block is stored in the file and well formed. -/
def BlockSpec.Valid (dec : Decompress) (data : Bytes) (b : BlockSpec) : Prop :=
  Stored dec data b.off b.size (tableBytes b.entries b.restarts) ∧ Sharing [] b.entries ∧
    b.restarts.length < 2 ^ 32

/-- A block handle. -/
def encodeHandle (off size : Nat) : Bytes := encodeVarint off ++ encodeVarint size

theorem readHandle_encode (off size : Nat) (rest : Bytes) :
    readHandle (encodeHandle off size ++ rest) = .ok (off, size, (encodeHandle off size).length) := by
  rw [readHandle, encodeHandle, List.append_assoc, C14_round_trip]
  simp only [List.drop_left, C14_round_trip, List.length_append]

theorem readDataBlock_valid (dec : Decompress) (data : Bytes) (b : BlockSpec)
    (h : b.Valid dec data) : readDataBlock dec data b.off b.size = .ok (b.entries.map (·.2)) := by
  rw [readDataBlock, readBlock_stored _ _ _ _ _ h.1]
  exact C17_table_round_trip _ _ h.2.1 h.2.2

/-- The index entry points at the block. -/
def PointsAt (e : Entry) (b : BlockSpec) : Prop := ∃ rest, e.value = encodeHandle b.off b.size ++ rest

theorem readIndexEntries_valid (dec : Decompress) (data : Bytes) (index : List Entry)
    (blocks : List BlockSpec) (hp : List.Forall₂ PointsAt index blocks)
    (hv : ∀ b ∈ blocks, b.Valid dec data) :
    readIndexEntries dec data index = (blocks.flatMap (fun b => b.entries.map (·.2)), none) := by
  induction hp with
  | nil => rfl
  | cons h t ih =>
    obtain ⟨rest, hrest⟩ := h
    rw [readIndexEntries, hrest, readHandle_encode]
    simp only
    rw [readDataBlock_valid _ _ _ (hv _ (List.mem_cons_self ..))]
    simp only
    rw [ih fun b hb => hv b (List.mem_cons_of_mem _ hb)]
    rfl

/-- C57.  For every table file that follows the format — a footer with two block handles, an index
block with one entry per data block, data blocks stored anywhere and compressed or not — the
entries read are the entries of all data blocks in index order. -/
theorem C57_table_file (dec : Decompress) (body padding : Bytes) (metaOff metaSize : Nat)
    (index : BlockSpec) (blocks : List BlockSpec) (data : Bytes)
    (hfile : data = body ++ (encodeHandle metaOff metaSize ++ (encodeHandle index.off index.size ++
      padding)) ++ [0x57, 0xfb, 0x80, 0x8b, 0x24, 0x75, 0x47, 0xdb])
    (hfooter : (encodeHandle metaOff metaSize ++ (encodeHandle index.off index.size ++
      padding)).length = 40)
    (hmeta : metaOff + metaSize ≤ data.length)
    (hindex : index.Valid dec data)
    (hpoints : List.Forall₂ PointsAt (index.entries.map (·.2)) blocks)
    (hblocks : ∀ b ∈ blocks, b.Valid dec data) :
    readTableEntries dec data = (blocks.flatMap (fun b => b.entries.map (·.2)), none) := by
  generalize hF : encodeHandle metaOff metaSize ++ (encodeHandle index.off index.size ++ padding) = F
    at hfile hfooter
  have hmagic : ([0x57, 0xfb, 0x80, 0x8b, 0x24, 0x75, 0x47, 0xdb] : Bytes).length = 8 := rfl
  generalize hM : ([0x57, 0xfb, 0x80, 0x8b, 0x24, 0x75, 0x47, 0xdb] : Bytes) = M at hfile hmagic
  have hoff : (data.length : Int) - 48 = (body.length : Nat) := by
    rw [hfile]
    simp only [List.length_append, hfooter, hmagic]
    omega
  have hst := structAt_fixed_append 48 (fun s => if s.drop 40 = M then some (s.take 40) else none)
    body (F ++ M) [] (by omega) (by simp [hfooter, hmagic])
  have hdata : body ++ (F ++ M) ++ [] = data := by rw [hfile]; simp
  rw [hdata] at hst
  have hdrop : (F ++ M).drop 40 = M := by rw [← hfooter, List.drop_left]
  have htake : (F ++ M).take 40 = F := by rw [← hfooter, List.take_left]
  rw [hdrop, if_pos rfl, htake] at hst
  have hfoot : readFooter data = .ok (index.off, index.size) := by
    unfold readFooter
    simp only [hM]
    rw [hoff, hst]
    simp only
    rw [← hF, readHandle_encode]
    simp only [List.drop_left, readHandle_encode]
    rw [readData_ok data 0 metaOff metaSize hmeta]
  rw [readTableEntries, hfoot]
  simp only
  rw [readDataBlock_valid _ _ _ hindex]
  exact readIndexEntries_valid _ _ _ _ hpoints hblocks

/-- A file with one data block, its index block and a footer, and its blocks. -/
def sampleBlock : BlockSpec := ⟨0, 25, [(0, ⟨[65], 3, 1, [9, 9, 9, 9, 9]⟩)], [0]⟩
def sampleIndex : BlockSpec := ⟨30, 21, [(0, ⟨[], 0, 0, encodeHandle 0 25⟩)], [0]⟩
def sampleBody : Bytes :=
  tableBytes sampleBlock.entries sampleBlock.restarts ++ [0, 1, 2, 3, 4] ++
    tableBytes sampleIndex.entries sampleIndex.restarts ++ [0, 1, 2, 3, 4]
def sampleFile : Bytes :=
  sampleBody ++ (encodeHandle 0 0 ++ (encodeHandle 30 21 ++ List.replicate 36 0)) ++
    [0x57, 0xfb, 0x80, 0x8b, 0x24, 0x75, 0x47, 0xdb]

example (dec : Decompress) :
    readTableEntries dec sampleFile = ([⟨[65], 3, 1, [9, 9, 9, 9, 9]⟩], none) :=
  C57_table_file dec sampleBody (List.replicate 36 0) 0 0 sampleIndex [sampleBlock] sampleFile rfl
    (by decide +kernel) (by decide +kernel)
    ⟨⟨tableBytes sampleBlock.entries sampleBlock.restarts ++ [0, 1, 2, 3, 4],
      tableBytes sampleIndex.entries sampleIndex.restarts, [1, 2, 3, 4],
      (encodeHandle 0 0 ++ (encodeHandle 30 21 ++ List.replicate 36 0)) ++
        [0x57, 0xfb, 0x80, 0x8b, 0x24, 0x75, 0x47, 0xdb], 0, by decide +kernel, by decide +kernel, by decide +kernel,
      by decide +kernel, Or.inl ⟨rfl, rfl⟩⟩,
      by refine ⟨?_, ?_, ?_, ?_, ?_, trivial⟩ <;> simp, by decide⟩
    (List.Forall₂.cons ⟨[], by decide +kernel⟩ List.Forall₂.nil)
    (by
      intro b hb
      rw [List.mem_singleton] at hb
      subst hb
      exact ⟨⟨[], tableBytes sampleBlock.entries sampleBlock.restarts, [1, 2, 3, 4],
        sampleFile.drop 30, 0, by decide +kernel, by decide +kernel, by decide +kernel, by decide +kernel, Or.inl ⟨rfl, rfl⟩⟩,
        by refine ⟨?_, ?_, ?_, ?_, ?_, trivial⟩ <;> simp, by decide⟩)

end Dtf.LevelDB
