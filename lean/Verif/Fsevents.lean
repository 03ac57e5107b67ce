import Verif.Slices

/-!
# Files of the fseventsd service (C45)

The pages are those of the data that is decompressed; the library that does that is not modelled.
-/

namespace Dtf.Fsevents
open Py DataFormat

/-! ## Model -/

/-- `dls_page_header` (fseventsd.yaml 28-43) and `_ReadDLSPageHeader` (fseventsd.py 36-61): whether it is of the
second version and the size of the page. -/
def parseHeader (b : Bytes) : Option (Bool × Nat) :=
  if slice b 0 4 = [0x31, 0x53, 0x4c, 0x44] then some (false, leNat (slice b 8 12))
  else if slice b 0 4 = [0x32, 0x53, 0x4c, 0x44] then some (true, leNat (slice b 8 12))
  else none

def headerMap : DataTypeMap (Bool × Nat) := (fixedMap 12 id).refine parseHeader

structure Record where
  path : Bytes
  identifier : Nat
  flags : Nat
  node : Option Nat
deriving DecidableEq, Repr

/-- `dls_record_v1` and `dls_record_v2` (fseventsd.yaml 45-76) and `_ReadDLSRecord` (fseventsd.py 63-94): the
record and the offset after it.  `utf8` are the strings that can be decoded.  It is assumed that no more is read
than the record has. -/
def readRecord (utf8 : Bytes → Bool) (data : Bytes) (second : Bool) (off : Nat) : Res (Record × Nat) :=
  match cstr (data.drop off) with
  | none => .error .parseError
  | some path =>
    let b := data.drop (off + path.length + 1)
    let size := if second then 20 else 12
    if b.length < size ∨ !utf8 path then .error .parseError
    else .ok (⟨path, leNat (slice b 0 8), leNat (slice b 8 12),
      if second then some (leNat (slice b 12 20)) else none⟩, off + path.length + 1 + size)

/-- One page (fseventsd.py 113-132): the records and the offset after the last of them. -/
def readPage (utf8 : Bytes → Bool) (data : Bytes) (off : Nat) : Res (List Record × Nat) :=
  match structAt headerMap data off with
  | .error e => .error e
  | .ok ((second, size), _) =>
    let stop := off + size
    match walk (fun o => (readRecord utf8 data second o).map (fun x => ((x.1, x.2), x.2))) stop (stop + 1) (off + 12)
      [] with
    | none => .error .runtimeError -- never the case, see `records_end`
    | some (.error e) => .error e
    | some (.ok records) => .ok (records.map (·.1), (records.getLast?.map (·.2)).getD (off + 12))

/-- `ReadFileObject` (fseventsd.py 96-135); `none` is out of fuel. -/
def readFile (utf8 : Bytes → Bool) (data : Bytes) (fuel : Nat) : Option (Res (List (List Record))) :=
  walk (readPage utf8 data) data.length fuel 0 []

/-! ## The specification -/

def nodeBytes : Option Nat → Bytes
  | some n => leBytes 8 n
  | none => []

def Record.bytes (r : Record) : Bytes :=
  [r.path, [0], leBytes 8 r.identifier, leBytes 4 r.flags,
    nodeBytes r.node].flatten

def Record.Ok (utf8 : Bytes → Bool) (second : Bool) (r : Record) : Prop :=
  (∀ b ∈ r.path, b ≠ 0) ∧ utf8 r.path = true ∧ r.identifier < 2 ^ 64 ∧ r.flags < 2 ^ 32 ∧
    r.node.isSome = second ∧ ∀ n, r.node = some n → n < 2 ^ 64

structure Page where
  second : Bool
  unknown : Bytes
  records : List Record

def Page.signature (p : Page) : Bytes := [if p.second then 0x32 else 0x31, 0x53, 0x4c, 0x44]

def Page.bytes (p : Page) : Bytes :=
  [p.signature, p.unknown, leBytes 4 (12 + (p.records.flatMap (·.bytes)).length), p.records.flatMap (·.bytes)].flatten

def Page.Ok (utf8 : Bytes → Bool) (p : Page) : Prop :=
  p.unknown.length = 4 ∧ 12 + (p.records.flatMap (·.bytes)).length < 2 ^ 32 ∧ ∀ r ∈ p.records, r.Ok utf8 p.second

/-! ## Proofs -/

theorem readRecord_forward (utf8 : Bytes → Bool) (data : Bytes) (second : Bool) (off : Nat) (r : Record) (next : Nat)
    (h : readRecord utf8 data second off = .ok (r, next)) : off + 13 ≤ next ∧ next ≤ data.length := by
  unfold readRecord at h
  split at h
  · cases h
  · rename_i path hp
    have hl := cstr_length _ _ hp
    rw [List.length_drop] at hl
    dsimp only at h
    generalize hz : (if second then 20 else 12) = size at h
    have hz' : 12 ≤ size := by cases second <;> simp at hz <;> omega
    by_cases hc : (data.drop (off + path.length + 1)).length < size ∨ (!utf8 path) = true
    · rw [if_pos hc] at h
      cases h
    · rw [if_neg hc] at h
      rw [List.length_drop, not_or] at hc
      simp only [Except.ok.injEq, Prod.mk.injEq] at h
      omega

theorem records_end (utf8 : Bytes → Bool) (data : Bytes) (second : Bool) (stop off : Nat) :
    walk (fun o => (readRecord utf8 data second o).map (fun x => ((x.1, x.2), x.2))) stop (stop + 1) off [] ≠ none := by
  intro hc
  have h := walk_terminates (fun o => (readRecord utf8 data second o).map (fun x => ((x.1, x.2), x.2))) stop (by
    intro o x n _ hs
    cases hr : readRecord utf8 data second o with
    | error e => rw [hr] at hs; cases hs
    | ok y =>
      rw [hr] at hs
      have := readRecord_forward utf8 data second o y.1 y.2 hr
      cases hs
      omega) off []
  cases hw : walk (fun o => (readRecord utf8 data second o).map (fun x => ((x.1, x.2), x.2))) stop (stop - off + 1) off [] with
  | none => exact h hw
  | some r =>
    have := walk_mono _ stop (stop - off + 1) (stop - (stop - off)) off [] r hw
    rw [show stop - off + 1 + (stop - (stop - off)) = stop + 1 by omega, hc] at this
    cases this

theorem Record.length (r : Record) (second : Bool) (h : r.node.isSome = second) :
    r.bytes.length = r.path.length + 1 + if second then 20 else 12 := by
  obtain ⟨p, i, f, n⟩ := r
  cases n <;> cases second <;> simp at h <;> simp [Record.bytes, nodeBytes] <;> omega

theorem readRecord_bytes (utf8 : Bytes → Bool) (second : Bool) (r : Record) (h : r.Ok utf8 second) (pre post : Bytes) :
    readRecord utf8 (pre ++ r.bytes ++ post) second pre.length = .ok (r, pre.length + r.bytes.length) := by
  have hl := r.length second h.2.2.2.2.1
  obtain ⟨path, identifier, flags, node⟩ := r
  obtain ⟨h1, h2, h3, h4, h5, h6⟩ := h
  dsimp only at h1 h2 h3 h4 h5 h6 hl
  unfold readRecord
  have e1 : (pre ++ (Record.mk path identifier flags node).bytes ++ post).drop pre.length =
      path ++ (0 : UInt8) :: ([leBytes 8 identifier, leBytes 4 flags,
        nodeBytes node, post].flatten) := by
    rw [List.append_assoc, List.drop_left]
    simp [Record.bytes]
  have e2 : (pre ++ (Record.mk path identifier flags node).bytes ++ post).drop (pre.length + path.length + 1) =
      [leBytes 8 identifier, leBytes 4 flags, nodeBytes node, post].flatten := by
    rw [Nat.add_assoc, ← List.drop_drop, e1, show path.length + 1 = (path ++ [0]).length by simp,
      show path ++ (0 : UInt8) :: ([leBytes 8 identifier, leBytes 4 flags,
        nodeBytes node, post].flatten) = (path ++ [0]) ++
        ([leBytes 8 identifier, leBytes 4 flags, nodeBytes node, post].flatten) by
        simp, List.drop_left]
  rw [e1, cstr_append path _ h1]
  dsimp only
  rw [e2, hl]
  have f0 := leField [] 8 identifier [leBytes 4 flags, nodeBytes node, post] 0 8
    rfl rfl (by omega)
  have f1 := leField [leBytes 8 identifier] 4 flags [nodeBytes node, post] 8 12
    (by simp) rfl (by omega)
  simp only [List.nil_append, List.cons_append] at f0 f1
  rw [f0, f1]
  cases node with
  | none =>
    cases second with
    | true => simp at h5
    | false =>
      rw [if_neg (by simp [h2, nodeBytes]; omega)]
      simp [Nat.add_assoc]
  | some n =>
    cases second with
    | false => simp at h5
    | true =>
      have f2 := leField [leBytes 8 identifier, leBytes 4 flags] 8 n [post] 12 20 (by simp) rfl
        (by have := h6 n rfl; omega)
      simp only [List.nil_append, List.cons_append] at f2
      rw [if_neg (by simp [h2, nodeBytes]; omega), show nodeBytes (some n) = leBytes 8 n from rfl, f2]
      simp [Nat.add_assoc]

theorem Page.length (utf8 : Bytes → Bool) (p : Page) (h : p.Ok utf8) :
    p.bytes.length = 12 + (p.records.flatMap (·.bytes)).length := by
  have := h.1
  simp only [Page.bytes, Page.signature, List.flatten_cons, List.flatten_nil, List.length_append, List.length_cons,
    List.length_nil, leBytes_length, this]
  omega

theorem valuesFrom_last {σ : Type} (l : List σ) (f : σ → Bytes) (off : Nat) :
    ((valuesFrom off (l.map (fun i => (f i, fun o => (i, o + (f i).length))))).getLast?.map (·.2)).getD off =
      off + (l.flatMap f).length ∧
    (valuesFrom off (l.map (fun i => (f i, fun o => (i, o + (f i).length))))).map (·.1) = l := by
  induction l generalizing off with
  | nil => simp [valuesFrom]
  | cons a l ih =>
    have ih := ih (off + (f a).length)
    simp only [List.map_cons, valuesFrom, List.flatMap_cons, List.length_append]
    refine ⟨?_, by rw [ih.2]⟩
    rw [List.getLast?_cons]
    cases hg : (valuesFrom (off + (f a).length) (l.map (fun i => (f i, fun o => (i, o + (f i).length))))).getLast? with
    | none =>
      rw [hg] at ih
      simp at ih ⊢
      omega
    | some x =>
      rw [hg] at ih
      simp at ih ⊢
      omega

theorem readPage_bytes (utf8 : Bytes → Bool) (p : Page) (h : p.Ok utf8) (pre post : Bytes) :
    readPage utf8 (pre ++ p.bytes ++ post) pre.length = .ok (p.records, pre.length + p.bytes.length) := by
  have hl := p.length utf8 h
  obtain ⟨second, unknown, records⟩ := p
  obtain ⟨h1, h2, h3⟩ := h
  dsimp only at h1 h2 h3 hl
  generalize hr : records.flatMap (·.bytes) = body at *
  have hx : Encodes headerMap [Page.signature ⟨second, unknown, records⟩, unknown, leBytes 4 (12 + body.length)].flatten
      (second, 12 + body.length) := by
    have f0 := slice_fields [] (Page.signature ⟨second, unknown, records⟩) [unknown, leBytes 4 (12 + body.length)] 0 4
      rfl rfl
    have f1 := leField [Page.signature ⟨second, unknown, records⟩, unknown] 4 (12 + body.length) [] 8 12
      (by simp [Page.signature, h1]) rfl (by omega)
    simp only [List.nil_append, List.cons_append] at f0 f1
    refine encodes_refine _ _ _ _ _ (encodes_fixed 12 id _ (by omega) (by simp [Page.signature, h1])) ?_
    simp only [id]
    unfold parseHeader
    rw [f0, f1]
    cases second
    · rw [if_pos (by simp [Page.signature])]
    · rw [if_neg (by simp [Page.signature]), if_pos (by simp [Page.signature])]
  have hb : Page.bytes ⟨second, unknown, records⟩ =
      [Page.signature ⟨second, unknown, records⟩, unknown, leBytes 4 (12 + body.length)].flatten ++ body := by
    simp [Page.bytes, hr]
  generalize hh : [Page.signature ⟨second, unknown, records⟩, unknown, leBytes 4 (12 + body.length)].flatten = hd at *
  have hdl : hd.length = 12 := by rw [← hh]; simp [Page.signature, h1]
  unfold readPage
  have e1 : pre ++ Page.bytes ⟨second, unknown, records⟩ ++ post = pre ++ hd ++ (body ++ post) := by rw [hb]; simp
  have e2 : pre ++ Page.bytes ⟨second, unknown, records⟩ ++ post = (pre ++ hd) ++ body ++ post := by rw [hb]; simp
  rw [e1, hx pre (body ++ post), ← e1]
  dsimp only
  have hw := walk_items (fun data o => (readRecord utf8 data second o).map (fun x => ((x.1, x.2), x.2)))
    (fun _ => True) (records.map (fun r => (r.bytes, fun o => (r, o + r.bytes.length))))
    (by
      intro i hi a b _
      simp only [List.mem_map] at hi
      obtain ⟨r, hr', rfl⟩ := hi
      dsimp only
      rw [readRecord_bytes utf8 second r (h3 r hr') a b]
      exact ⟨rfl, trivial⟩)
    (by
      intro i hi
      simp only [List.mem_map] at hi
      obtain ⟨r, hr', rfl⟩ := hi
      intro hc
      have := r.length second (h3 r hr').2.2.2.2.1
      have hc : r.bytes = [] := hc
      rw [hc, List.length_nil] at this
      omega)
    (pre ++ hd) post trivial (pre.length + (12 + body.length) + 1) (by
      have : ∀ rs : List Record, rs.length ≤ (rs.flatMap (·.bytes)).length := by
        intro rs
        induction rs with
        | nil => simp
        | cons r rs ih =>
          have := r.length _ rfl
          rw [List.flatMap_cons, List.length_append, List.length_cons]
          omega
      have := this records
      rw [hr] at this
      simp only [List.length_map]
      omega) []
  rw [List.flatMap_map] at hw
  simp only [List.nil_append] at hw
  rw [hr, ← e2, List.length_append, List.length_append, hdl, Nat.add_assoc] at hw
  rw [hw]
  dsimp only
  have hv := valuesFrom_last records (fun r => r.bytes) (pre.length + 12)
  rw [hv.1, hv.2, hl, hr, Nat.add_assoc]

theorem readPage_forward (utf8 : Bytes → Bool) (data : Bytes) (off : Nat) (rs : List Record) (next : Nat)
    (h : readPage utf8 data off = .ok (rs, next)) : off + 12 ≤ next ∧ next ≤ data.length := by
  unfold readPage at h
  split at h
  · cases h
  · rename_i second size n hs
    obtain ⟨hlen, _, _⟩ := structAt_fixed_ok _ _ _ _ _ _ (by decide) hs
    dsimp only at h
    split at h
    · cases h
    · cases h
    · rename_i records hw
      cases h
      obtain ⟨xs, off', e, hr, _⟩ := walk_ok _ _ _ _ _ _ hw
      rw [List.nil_append] at e
      subst e
      have key : ∀ o xs o', Rounds (fun o => (readRecord utf8 data second o).map (fun x => ((x.1, x.2), x.2)))
          (off + size) o xs o' → o ≤ data.length → o ≤ (xs.getLast?.map (·.2)).getD o ∧
            (xs.getLast?.map (·.2)).getD o ≤ data.length := by
        intro o xs o' hr
        induction hr with
        | nil o => intro ho; simp [ho]
        | cons o o1 o2 x xs hlt hx _ ih =>
          intro ho
          cases hrr : readRecord utf8 data second o with
          | error e => rw [hrr] at hx; cases hx
          | ok y =>
            rw [hrr] at hx
            have := readRecord_forward utf8 data second o y.1 y.2 hrr
            cases hx
            have ih := ih (by omega)
            rw [List.getLast?_cons]
            cases hg : xs.getLast? with
            | none => simp; omega
            | some z => rw [hg] at ih; simp at ih ⊢; omega
      have := key _ _ _ hr (by omega)
      exact ⟨this.1, this.2⟩

/-! ## C45 -/

/-- All records of all pages are read, in order. -/
theorem C45_pages (utf8 : Bytes → Bool) (pages : List Page) (h : ∀ p ∈ pages, p.Ok utf8) (fuel : Nat)
    (hf : pages.length < fuel) :
    readFile utf8 (pages.flatMap (·.bytes)) fuel = some (.ok (pages.map (·.records))) := by
  have hw := walk_items (readPage utf8) (fun _ => True) (pages.map (fun p => (p.bytes, fun _ => p.records)))
    (by
      intro i hi pre post _
      simp only [List.mem_map] at hi
      obtain ⟨p, hp, rfl⟩ := hi
      exact ⟨readPage_bytes utf8 p (h p hp) pre post, trivial⟩)
    (by
      intro i hi
      simp only [List.mem_map] at hi
      obtain ⟨p, hp, rfl⟩ := hi
      intro hc
      have := p.length utf8 (h p hp)
      have hc : p.bytes = [] := hc
      rw [hc, List.length_nil] at this
      omega)
    [] [] trivial fuel (by simpa using hf) []
  rw [valuesFrom_map_const, List.append_nil, List.nil_append, List.nil_append, List.flatMap_map] at hw
  exact hw

/-- Reading ends for every file. -/
theorem C45_terminates (utf8 : Bytes → Bool) (data : Bytes) : readFile utf8 data (data.length + 1) ≠ none :=
  walk_terminates (readPage utf8 data) data.length
    (fun off x next _ hs => by have := readPage_forward utf8 data off x next hs; omega) 0 []

/-- Pages follow one another: the next begins where the size of the page says. -/
def C45_tiling_claim : Prop :=
  ∀ utf8 data off records next, readPage utf8 data off = .ok (records, next) →
    next = off + leNat (slice data (off + 8) (off + 12))

/-- The last record of a page may extend into the next. -/
def overlapping : Bytes := [0x31, 0x53, 0x4c, 0x44, 0, 0, 0, 0, 13, 0, 0, 0] ++ List.replicate 13 0

theorem C45_tiling_claim_false : ¬ C45_tiling_claim := by
  intro h
  have := h (fun _ => true) overlapping 0 [⟨[], 0, 0, none⟩] 25 (by decide +kernel)
  exact absurd this (by decide +kernel)

/-- A page of the first version with two records and one of the second version. -/
example : readFile (fun _ => true) ([(⟨false, [0, 0, 0, 0], [⟨[97], 1, 2, none⟩, ⟨[], 3, 4, none⟩]⟩ : Page),
    ⟨true, [0, 0, 0, 0], [⟨[98, 99], 5, 6, some 7⟩]⟩].flatMap (·.bytes)) 3 =
    some (.ok [[⟨[97], 1, 2, none⟩, ⟨[], 3, 4, none⟩], [⟨[98, 99], 5, 6, some 7⟩]]) := by
  refine C45_pages _ _ ?_ 3 (by decide)
  intro p hp
  simp only [List.mem_cons, List.not_mem_nil, or_false] at hp
  rcases hp with rfl | rfl <;> refine ⟨rfl, by decide, ?_⟩ <;> intro r hr <;>
    simp only [List.mem_cons, List.not_mem_nil, or_false] at hr
  · rcases hr with rfl | rfl <;> refine ⟨by simp, rfl, by decide, by decide, rfl, by simp⟩
  · subst hr
    exact ⟨by simp, rfl, by decide, by decide, rfl, by simp⟩

end Dtf.Fsevents
