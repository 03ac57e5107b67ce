import Verif.Wmi.Objects
import Mathlib.Data.List.Forall2

/-!
# The index of the WMI repository (C37, C86, C89)
-/

namespace Dtf.Wmi
open Py DataFormat Text

/-! ## Model: index pages -/

/-- A number of bytes; nothing if there are fewer. -/
def takeBytes (n : Nat) (b : Bytes) : Option (Bytes × Bytes) :=
  if b.length < n then none else some (b.take n, b.drop n)

/-- A little-endian integer of `w` bytes. -/
def takeInt (w : Nat) (b : Bytes) : Option (Nat × Bytes) :=
  (takeBytes w b).map (fun r => (leNat r.1, r.2))

/-- A sequence of little-endian integers. -/
def takeInts (w : Nat) : Nat → Bytes → Option (List Nat × Bytes)
  | 0, b => some ([], b)
  | n + 1, b =>
    match takeInt w b with
    | none => none
    | some (x, b) => (takeInts w n b).map (fun r => (x :: r.1, r.2))

/-- `cim_page_body` (wmi_repository.yaml 753-788). -/
structure Body where
  subPages : List Nat
  keyOffsets : List Nat
  keyData : Bytes
  valueOffsets : List Nat
  valueData : Bytes
deriving DecidableEq, Repr

def parseBody (b : Bytes) : Option Body :=
  match takeInt 4 b with
  | none => none
  | some (n, b) =>
    match takeInts 4 n b with
    | none => none
    | some (_, b) =>
      match takeInts 4 (n + 1) b with
      | none => none
      | some (subPages, b) =>
        match takeInts 2 n b with
        | none => none
        | some (keyOffsets, b) =>
          match takeInt 2 b with
          | none => none
          | some (k, b) =>
            match takeBytes (2 * k) b with
            | none => none
            | some (keyData, b) =>
              match takeInt 2 b with
              | none => none
              | some (v, b) =>
                match takeInts 2 v b with
                | none => none
                | some (valueOffsets, b) =>
                  match takeInt 2 b with
                  | none => none
                  | some (s, b) =>
                    match takeBytes s b with
                    | none => none
                    | some (valueData, _) => some ⟨subPages, keyOffsets, keyData, valueOffsets, valueData⟩

/-- `cim_page_key` (wmi_repository.yaml 791-800): the indices of the values of a key. -/
def parseKey (b : Bytes) : Option (List Nat) :=
  match takeInt 2 b with
  | none => none
  | some (n, b) => (takeInts 2 n b).map (·.1)

/-- A string in ASCII that ends with a zero byte (wmi_repository.yaml 105-109). -/
def asciiString (b : Bytes) : Option (List Char) :=
  let s := b.takeWhile (· ≠ 0)
  if b.length ≤ s.length then none
  else if s.any (fun c => decide (128 ≤ c.toNat)) then none
  else some (s.map (fun c => Char.ofNat c.toNat))

/-- A traversal that stops at the first failure. -/
def mapOk {α β : Type} (f : α → Res β) : List α → Res (List β)
  | [] => .ok []
  | a :: as =>
    match f a with
    | .error e => .error e
    | .ok b =>
      match mapOk f as with
      | .error e => .error e
      | .ok bs => .ok (b :: bs)

abbrev Key := List Char

structure IndexPage where
  pageType : Nat
  rootPage : Nat
  keys : List Key
  subPages : List Nat
deriving DecidableEq, Repr

/-- The path of a key (wmi_repository.py 473-485). -/
def keyPath (values : List (List Char)) (segments : List Nat) : Res Key :=
  match mapOk (fun i => match values[i]? with | none => .error .indexError | some v => .ok v) segments with
  | .error e => .error e
  | .ok vs => .ok ('\\' :: join ['\\'] vs)

def orParseError {α : Type} : Option α → Res α
  | none => .error .parseError
  | some a => .ok a

/-- `_ReadPage`, `_ReadPageKeyData` and `_ReadPageValueData` (wmi_repository.py 401-601), of the 8192
bytes of a page. -/
def readIndexPage (page : Bytes) : Res IndexPage :=
  let pageType := leNat (slice page 0 4)
  let rootPage := leNat (slice page 12 16)
  if pageType = 0xACCC then
    match parseBody (page.drop 16) with
    | none => .error .parseError
    | some body =>
      match mapOk (fun o => orParseError (parseKey (body.keyData.drop (o * 2)))) body.keyOffsets with
      | .error e => .error e
      | .ok segments =>
        match mapOk (fun o => orParseError (asciiString (body.valueData.drop o))) body.valueOffsets with
        | .error e => .error e
        | .ok values =>
          match mapOk (keyPath values) segments with
          | .error e => .error e
          | .ok keys =>
            .ok ⟨pageType, rootPage, keys, body.subPages.filter (fun n => n ≠ 0 ∧ n ≠ 0xFFFFFFFF)⟩
  else .ok ⟨pageType, rootPage, [], []⟩

/-- `_GetIndexPageByMappedPageNumber` and `GetPage` (wmi_repository.py 606-620, 3633-3650). -/
def getIndexPage (data : Bytes) (table : List Nat) (mapped : Nat) : Res (Option IndexPage) :=
  match table[mapped]? with
  | none => .error .indexError
  | some n =>
    if data.length ≤ n * 8192 then .ok none
    else
      match dataAt data (n * 8192) 8192 with
      | .error e => .error e
      | .ok page => (readIndexPage page).map some

mutual
/-- `_GetKeysFromIndexPage` (wmi_repository.py 3705-3718), all keys it yields.  Python limits the depth
of the recursion. -/
def keysOf (page : Nat → Res (Option IndexPage)) : Nat → Option IndexPage → Res (List Key)
  | _, none => .ok []
  | limit, some p =>
    match subKeys page limit p.subPages with
    | .error e => .error e
    | .ok ks => .ok (p.keys ++ ks)
termination_by limit p => (limit, 2, 0)

/-- The loop over the sub pages. -/
def subKeys (page : Nat → Res (Option IndexPage)) : Nat → List Nat → Res (List Key)
  | _, [] => .ok []
  | 0, n :: _ =>
    match page n with
    | .error e => .error e
    | .ok _ => .error .recursionError
  | limit + 1, n :: ns =>
    match page n with
    | .error e => .error e
    | .ok p =>
      match keysOf page limit p with
      | .error e => .error e
      | .ok ks =>
        match subKeys page (limit + 1) ns with
        | .error e => .error e
        | .ok ks' => .ok (ks ++ ks')
termination_by limit ns => (limit, 1, ns.length)
end

/-- `_GetIndexFirstMappedPage` and `_GetIndexRootPage` (wmi_repository.py 3652-3703), without the cache
of the page. -/
def rootPage (data : Bytes) (table : List Nat) (format21 : Bool) : Res (Option IndexPage) :=
  if format21 then
    match getIndexPage data table 0 with
    | .error e => .error e
    | .ok none => .error .runtimeError
    | .ok (some p) => if p.pageType ≠ 0xADDD then .error .runtimeError else getIndexPage data table p.rootPage
  else getIndexPage data table 1

/-- `int(s, 10)` for the values of a key: a parameter that agrees with the decimal digits. -/
structure KeyValues where
  dataType : List Char
  nameHash : List Char
  page : Int
  identifier : Int
  dataSize : Int
deriving DecidableEq, Repr

/-- `str.partition`, with the separator left out. -/
def partition (c : Char) (s : List Char) : List Char × List Char :=
  (s.takeWhile (· ≠ c), (s.dropWhile (· ≠ c)).drop 1)

/-- `_GetObjectRecordValuesFromKey` (wmi_repository.py 3801-3843). -/
def keyValues (pyInt : List Char → Option Int) (lower : List Char → List Char) (s : List Char) :
    Option KeyValues :=
  if '.' ∉ s then none
  else
    match splitOn '.' s with
    | [a, b, c, d] =>
      match pyInt b, pyInt c, pyInt d with
      | some page, some identifier, some size =>
        some ⟨(partition '_' a).1, lower (partition '_' a).2, page, identifier, size⟩
      | _, _, _ => none
    | _ => none

/-! ## The specification -/

/-- The bytes of an index page: for every key the offset of its segments, and for every value the offset
of its characters. -/
def pageBytes (mapped unknown1 root : Nat) (unknown2 subPages keyOffsets : List Nat) (keyData : Bytes)
    (valueOffsets : List Nat) (valueData rest : Bytes) : Bytes :=
  leBytes 4 0xACCC ++ (leBytes 4 mapped ++ (leBytes 4 unknown1 ++ (leBytes 4 root ++
    (leBytes 4 keyOffsets.length ++ (unknown2.flatMap (leBytes 4) ++ (subPages.flatMap (leBytes 4) ++
      (keyOffsets.flatMap (leBytes 2) ++ (leBytes 2 (keyData.length / 2) ++ (keyData ++
        (leBytes 2 valueOffsets.length ++ (valueOffsets.flatMap (leBytes 2) ++
          (leBytes 2 valueData.length ++ (valueData ++ rest)))))))))))))

/-- A key is stored at an offset, in units of two bytes. -/
def KeyAt (keyData : Bytes) (offset : Nat) (segments : List Nat) : Prop :=
  segments.length < 65536 ∧ (∀ i ∈ segments, i < 65536) ∧
  ∃ a b, keyData = a ++ (leBytes 2 segments.length ++ segments.flatMap (leBytes 2)) ++ b ∧ a.length = 2 * offset

/-- A value is stored at an offset. -/
def ValueAt (valueData : Bytes) (offset : Nat) (value : List Char) : Prop :=
  (∀ c ∈ value, 0 < c.toNat ∧ c.toNat < 128) ∧
  ∃ a b, valueData = a ++ value.map (fun c => UInt8.ofNat c.toNat) ++ 0 :: b ∧ a.length = offset

/-- A page can be reached from a page through sub pages that exist. -/
inductive Reachable (page : Nat → Res (Option IndexPage)) (p : IndexPage) : IndexPage → Prop
  | refl : Reachable page p p
  | step (q r : IndexPage) (n : Nat) : Reachable page p q → n ∈ q.subPages → page n = .ok (some r) →
      Reachable page p r

/-- An index whose pages form a tree, with its depth and its keys in pre-order. -/
inductive Tree (page : Nat → Res (Option IndexPage)) : List Nat → Nat → List Key → Prop
  | nil : Tree page [] 0 []
  | missing (n : Nat) (ns : List Nat) (d : Nat) (ks : List Key) : page n = .ok none → Tree page ns d ks →
      Tree page (n :: ns) (max 1 d) ks
  | page (n : Nat) (ns : List Nat) (p : IndexPage) (d d' : Nat) (ks ks' : List Key) :
      page n = .ok (some p) → Tree page p.subPages d ks → Tree page ns d' ks' →
      Tree page (n :: ns) (max (d + 1) d') (p.keys ++ ks ++ ks')

/-! ## Proofs -/

theorem takeBytes_append (a b : Bytes) : takeBytes a.length (a ++ b) = some (a, b) := by
  simp [takeBytes]

theorem takeInt_append (w v : Nat) (b : Bytes) (h : v < 256 ^ w) :
    takeInt w (leBytes w v ++ b) = some (v, b) := by
  have e := takeBytes_append (leBytes w v) b
  rw [leBytes_length] at e
  simp [takeInt, e, leNat_leBytes, Nat.mod_eq_of_lt h]

theorem takeInts_append (w : Nat) (vs : List Nat) (b : Bytes) (h : ∀ v ∈ vs, v < 256 ^ w) :
    takeInts w vs.length (vs.flatMap (leBytes w) ++ b) = some (vs, b) := by
  induction vs with
  | nil => rfl
  | cons v vs ih =>
    simp only [List.length_cons, List.flatMap_cons, List.append_assoc, takeInts]
    rw [takeInt_append w v _ (h v (by simp))]
    simp only
    rw [ih (fun v hv => h v (by simp [hv]))]
    rfl

theorem mapOk_forall₂ {α β : Type} (f : α → Res β) (as : List α) (bs : List β)
    (h : List.Forall₂ (fun a b => f a = .ok b) as bs) : mapOk f as = .ok bs := by
  induction h with
  | nil => rfl
  | cons h _ ih => simp [mapOk, h, ih]

theorem parseKey_at (keyData : Bytes) (o : Nat) (segments : List Nat) (h : KeyAt keyData o segments) :
    parseKey (keyData.drop (o * 2)) = some segments := by
  obtain ⟨h1, h2, a, b, e, ha⟩ := h
  rw [e, List.append_assoc, List.drop_left' (by omega)]
  unfold parseKey
  rw [List.append_assoc, takeInt_append 2 _ _ (by simpa using h1)]
  simp only
  rw [takeInts_append 2 _ _ (by simpa using h2)]
  rfl

theorem asciiString_at (valueData : Bytes) (o : Nat) (value : List Char) (h : ValueAt valueData o value) :
    asciiString (valueData.drop o) = some value := by
  obtain ⟨h1, a, b, e, ha⟩ := h
  rw [e, List.append_assoc, List.drop_left' ha]
  have hc : ∀ c ∈ value, (UInt8.ofNat c.toNat).toNat = c.toNat := by
    intro c hc
    have := h1 c hc
    rw [UInt8.toNat_ofNat']
    omega
  have ht : (value.map (fun c => UInt8.ofNat c.toNat) ++ 0 :: b).takeWhile (· ≠ 0) =
      value.map (fun c => UInt8.ofNat c.toNat) := by
    have : ∀ l : List Char, (∀ c ∈ l, c ∈ value) →
        (l.map (fun c => UInt8.ofNat c.toNat) ++ 0 :: b).takeWhile (· ≠ 0) =
          l.map (fun c => UInt8.ofNat c.toNat) := by
      intro l hl
      induction l with
      | nil => simp
      | cons c l ih =>
        have hn : UInt8.ofNat c.toNat ≠ 0 := by
          intro h0
          have := hc c (hl c (by simp))
          rw [h0] at this
          have := (h1 c (hl c (by simp))).1
          simp at *
          omega
        simp only [List.map_cons, List.cons_append]
        rw [List.takeWhile_cons_of_pos (by simpa using hn), ih (fun c h => hl c (by simp [h]))]
    exact this value (fun _ h => h)
  unfold asciiString
  simp only [ht]
  rw [if_neg (by simp), if_neg]
  · rw [List.map_map]
    congr 1
    conv => rhs; rw [← List.map_id value]
    apply List.map_congr_left
    intro c hcv
    simp only [Function.comp_apply, hc c hcv, id]
    exact Char.ofNat_toNat c
  · simp only [List.any_map, List.any_eq_true, not_exists, not_and, Function.comp_apply, decide_eq_true_eq]
    intro c hcv
    rw [hc c hcv]
    have := (h1 c hcv).2
    omega

theorem join_flatMap (v : List Char) (vs : List (List Char)) :
    '\\' :: join ['\\'] (v :: vs) = (v :: vs).flatMap (fun v => '\\' :: v) := by
  induction vs generalizing v with
  | nil => simp [join]
  | cons w vs ih =>
    have e := ih w
    simp only [join, List.flatMap_cons, List.cons_append, List.nil_append] at *
    rw [List.append_assoc, List.cons_append, List.nil_append, e]

theorem keyPath_ok (values vs : List (List Char)) (segments : List Nat) (hne : segments ≠ [])
    (h : List.Forall₂ (fun i v => values[i]? = some v) segments vs) :
    keyPath values segments = .ok (vs.flatMap (fun v => '\\' :: v)) := by
  unfold keyPath
  rw [mapOk_forall₂ _ segments vs (h.imp (fun i v h => by simp [h]))]
  cases h with
  | nil => exact absurd rfl hne
  | cons h1 h2 => simp only; rw [join_flatMap]

theorem parseBody_bytes (unknown2 subPages keyOffsets : List Nat) (keyData : Bytes) (valueOffsets : List Nat)
    (valueData rest : Bytes) (hn : keyOffsets.length < 2 ^ 32) (hu : unknown2.length = keyOffsets.length)
    (hs : subPages.length = keyOffsets.length + 1) (hu' : ∀ v ∈ unknown2, v < 2 ^ 32)
    (hs' : ∀ v ∈ subPages, v < 2 ^ 32) (hk' : ∀ v ∈ keyOffsets, v < 2 ^ 16)
    (hv' : ∀ v ∈ valueOffsets, v < 2 ^ 16) (hkd : keyData.length < 2 ^ 17) (hke : keyData.length % 2 = 0)
    (hvo : valueOffsets.length < 2 ^ 16) (hvd : valueData.length < 2 ^ 16) :
    parseBody (leBytes 4 keyOffsets.length ++ (unknown2.flatMap (leBytes 4) ++ (subPages.flatMap (leBytes 4) ++
      (keyOffsets.flatMap (leBytes 2) ++ (leBytes 2 (keyData.length / 2) ++ (keyData ++
        (leBytes 2 valueOffsets.length ++ (valueOffsets.flatMap (leBytes 2) ++
          (leBytes 2 valueData.length ++ (valueData ++ rest)))))))))) =
      some ⟨subPages, keyOffsets, keyData, valueOffsets, valueData⟩ := by
  unfold parseBody
  rw [takeInt_append 4 _ _ hn]
  simp only
  rw [← hu, takeInts_append 4 _ _ hu']
  simp only
  rw [hu, ← hs, takeInts_append 4 _ _ hs']
  simp only
  rw [takeInts_append 2 _ _ hk']
  simp only
  rw [takeInt_append 2 _ _ (by omega)]
  simp only
  rw [show 2 * (keyData.length / 2) = keyData.length by omega, takeBytes_append]
  simp only
  rw [takeInt_append 2 _ _ hvo]
  simp only
  rw [takeInts_append 2 _ _ hv']
  simp only
  rw [takeInt_append 2 _ _ hvd]
  simp only
  rw [takeBytes_append]

/-- **C86**: the keys of an index page are the paths made of the values of their segments, wherever the
segments and the values are stored, and the sub pages are those that are set. -/
theorem C86_keys (mapped unknown1 root : Nat) (unknown2 subPages keyOffsets : List Nat) (keyData : Bytes)
    (valueOffsets : List Nat) (valueData rest : Bytes) (keys : List (List Nat)) (values : List (List Char))
    (paths : List (List (List Char)))
    (hroot : root < 2 ^ 32)
    (hn : keyOffsets.length < 2 ^ 32) (hu : unknown2.length = keyOffsets.length)
    (hs : subPages.length = keyOffsets.length + 1) (hu' : ∀ v ∈ unknown2, v < 2 ^ 32)
    (hs' : ∀ v ∈ subPages, v < 2 ^ 32) (hk' : ∀ v ∈ keyOffsets, v < 2 ^ 16)
    (hv' : ∀ v ∈ valueOffsets, v < 2 ^ 16) (hkd : keyData.length < 2 ^ 17) (hke : keyData.length % 2 = 0)
    (hvo : valueOffsets.length < 2 ^ 16) (hvd : valueData.length < 2 ^ 16)
    (hkeys : List.Forall₂ (KeyAt keyData) keyOffsets keys)
    (hvalues : List.Forall₂ (ValueAt valueData) valueOffsets values)
    (hne : ∀ k ∈ keys, k ≠ [])
    (hpaths : List.Forall₂ (List.Forall₂ (fun i v => values[i]? = some v)) keys paths) :
    readIndexPage (pageBytes mapped unknown1 root unknown2 subPages keyOffsets keyData valueOffsets valueData
      rest) = .ok ⟨0xACCC, root, paths.map (fun p => p.flatMap (fun v => '\\' :: v)),
        subPages.filter (fun n => n ≠ 0 ∧ n ≠ 0xFFFFFFFF)⟩ := by
  unfold readIndexPage pageBytes
  have e0 : ∀ r : Bytes, leNat (slice (leBytes 4 0xACCC ++ r) 0 4) = 0xACCC := by
    intro r
    have e := leField [] 4 0xACCC [r] 0 4 (by simp) rfl (by omega)
    simpa using e
  have e1 : ∀ r : Bytes, leNat (slice (leBytes 4 0xACCC ++ (leBytes 4 mapped ++ (leBytes 4 unknown1 ++
      (leBytes 4 root ++ r)))) 12 16) = root := by
    intro r
    have e := leField [leBytes 4 0xACCC, leBytes 4 mapped, leBytes 4 unknown1] 4 root [r] 12 16
      (by simp) rfl (by omega)
    simpa using e
  have e2 : ∀ r : Bytes, (leBytes 4 0xACCC ++ (leBytes 4 mapped ++ (leBytes 4 unknown1 ++
      (leBytes 4 root ++ r)))).drop 16 = r := by
    intro r
    have : leBytes 4 0xACCC ++ (leBytes 4 mapped ++ (leBytes 4 unknown1 ++ (leBytes 4 root ++ r))) =
      (leBytes 4 0xACCC ++ (leBytes 4 mapped ++ (leBytes 4 unknown1 ++ leBytes 4 root))) ++ r := by simp
    rw [this, List.drop_left' (by simp)]
  rw [e0, e1, e2]
  dsimp only
  rw [if_pos rfl, parseBody_bytes _ _ _ _ _ _ _ hn hu hs hu' hs' hk' hv' hkd hke hvo hvd]
  dsimp only
  rw [mapOk_forall₂ _ _ keys (hkeys.imp (fun o k h => by simp [parseKey_at _ _ _ h, orParseError]))]
  dsimp only
  rw [mapOk_forall₂ _ _ values (hvalues.imp (fun o v h => by simp [asciiString_at _ _ _ h, orParseError]))]
  dsimp only
  rw [mapOk_forall₂ (keyPath values) keys (paths.map (fun p => p.flatMap (fun v => '\\' :: v)))]
  rw [List.forall₂_map_right_iff]
  clear hkeys hkd
  induction hpaths with
  | nil => exact .nil
  | cons h _ ih =>
    exact .cons (keyPath_ok values _ _ (hne _ (by simp)) h) (ih (fun k hk => hne k (by simp [hk])))

/-- **C86**: the segments of a key can be had back from it if none of the values has a separator. -/
theorem C86_split (vs : List (List Char)) (hne : vs ≠ []) (h : ∀ v ∈ vs, '\\' ∉ v) :
    splitOn '\\' (vs.flatMap (fun v => '\\' :: v)) = [] :: vs := by
  cases vs with
  | nil => exact absurd rfl hne
  | cons v vs =>
    rw [← join_flatMap]
    have e := splitOn_append_sep '\\' [] (join ['\\'] (v :: vs)) (by simp)
    simp only [List.nil_append] at e
    rw [e, splitOn_join _ _ hne h]

/-- **C86**: a segment that is not the index of a value is an exception that is not a parse error. -/
theorem C86_segment_out_of_range (values : List (List Char)) (a b : List Nat) (i : Nat)
    (ha : ∀ j ∈ a, j < values.length) (hi : values.length ≤ i) :
    keyPath values (a ++ i :: b) = .error .indexError := by
  unfold keyPath
  suffices h : mapOk (fun i => match values[i]? with | none => Except.error Err.indexError | some v => .ok v)
      (a ++ i :: b) = .error .indexError by rw [h]
  induction a with
  | nil => simp [mapOk, List.getElem?_eq_none hi]
  | cons j a ih =>
    have hj := ha j (by simp)
    simp only [List.cons_append, mapOk, List.getElem?_eq_getElem hj]
    rw [ih (fun j h => ha j (by simp [h]))]

/-! ### C37 -/

theorem subKeys_tree (page : Nat → Res (Option IndexPage)) (ns : List Nat) (d : Nat) (ks : List Key)
    (h : Tree page ns d ks) : ∀ limit, d ≤ limit → subKeys page limit ns = .ok ks := by
  induction h with
  | nil => intro limit _; rw [subKeys]
  | missing n ns d ks hp _ ih =>
    intro limit hl
    cases limit with
    | zero => omega
    | succ limit =>
      rw [subKeys]
      simp only [hp]
      rw [keysOf]
      dsimp only
      rw [ih (limit + 1) (by omega)]
      rfl
  | page n ns p d d' ks ks' hp _ _ ih1 ih2 =>
    intro limit hl
    cases limit with
    | zero => omega
    | succ limit =>
      rw [subKeys]
      simp only [hp]
      rw [keysOf]
      rw [ih1 limit (by omega)]
      simp only
      rw [ih2 (limit + 1) (by omega)]

/-- **C37**: an index whose pages form a tree yields its keys in pre-order: those of a page, then those
of its sub pages in turn, if the tree is no deeper than the recursion may be. -/
theorem C37_preorder (page : Nat → Res (Option IndexPage)) (p : IndexPage) (d : Nat) (ks : List Key)
    (limit : Nat) (h : Tree page p.subPages d ks) (hl : d ≤ limit) :
    keysOf page limit (some p) = .ok (p.keys ++ ks) := by
  rw [keysOf, subKeys_tree page _ d ks h limit hl]

theorem reachable_trans {page : Nat → Res (Option IndexPage)} {p q r : IndexPage}
    (h1 : Reachable page p q) (h2 : Reachable page q r) : Reachable page p r := by
  induction h2 with
  | refl => exact h1
  | step q' r n _ hn hp ih => exact .step q' r n ih hn hp

theorem subKeys_mem (page : Nat → Res (Option IndexPage)) (limit : Nat) :
    ∀ ns ks, subKeys page limit ns = .ok ks →
      ∀ k, k ∈ ks ↔ ∃ n ∈ ns, ∃ p q, page n = .ok (some p) ∧ Reachable page p q ∧ k ∈ q.keys := by
  induction limit with
  | zero =>
    intro ns ks h k
    cases ns with
    | nil => rw [subKeys] at h; cases h; simp
    | cons n ns => rw [subKeys] at h; split at h <;> cases h
  | succ limit ihl =>
    intro ns
    induction ns with
    | nil => intro ks h k; rw [subKeys] at h; cases h; simp
    | cons n ns ih =>
      intro ks h k
      rw [subKeys] at h
      split at h
      · cases h
      · rename_i p hp
        split at h
        · cases h
        · rename_i ks1 h1
          split at h
          · cases h
          · rename_i ks2 h2
            cases h
            rw [List.mem_append, ih ks2 h2 k]
            cases p with
            | none =>
              rw [keysOf] at h1
              cases h1
              constructor
              · rintro (h | ⟨m, hm, r⟩)
                · simp at h
                · exact ⟨m, by simp [hm], r⟩
              · rintro ⟨m, hm, p, q, h1, h2, h3⟩
                rw [List.mem_cons] at hm
                rcases hm with rfl | hm
                · rw [hp] at h1; cases h1
                · exact .inr ⟨m, hm, p, q, h1, h2, h3⟩
            | some p =>
              rw [keysOf] at h1
              split at h1
              · cases h1
              · rename_i ks3 h3
                cases h1
                rw [List.mem_append, ihl p.subPages ks3 h3 k]
                constructor
                · rintro ((h | ⟨m, hm, p', q, e, hr, hk⟩) | ⟨m, hm, r⟩)
                  · exact ⟨n, by simp, p, p, hp, .refl, h⟩
                  · exact ⟨n, by simp, p, q, hp,
                      reachable_trans (.step p p' m .refl hm e) hr, hk⟩
                  · exact ⟨m, by simp [hm], r⟩
                · rintro ⟨m, hm, p', q, e, hr, hk⟩
                  rw [List.mem_cons] at hm
                  rcases hm with rfl | hm
                  · rw [hp] at e
                    cases e
                    left
                    have : ∀ q, Reachable page p q → q = p ∨ ∃ m ∈ p.subPages, ∃ p', page m = .ok (some p') ∧
                        Reachable page p' q := by
                      intro q hr
                      induction hr with
                      | refl => exact .inl rfl
                      | step q r n' _ hn' hp' ih' =>
                        right
                        rcases ih' with rfl | ⟨m, hm, p', e, hr⟩
                        · exact ⟨n', hn', r, hp', .refl⟩
                        · exact ⟨m, hm, p', e, .step q r n' hr hn' hp'⟩
                    rcases this q hr with rfl | ⟨m, hm, p', e, hr⟩
                    · exact .inl hk
                    · exact .inr ⟨m, hm, p', q, e, hr, hk⟩
                  · exact .inr ⟨m, hm, p', q, e, hr, hk⟩

/-- **C37**: if the keys of an index are returned they are exactly those of the pages that can be reached
from its root, whatever its shape. -/
theorem C37_reachable (page : Nat → Res (Option IndexPage)) (limit : Nat) (p : IndexPage) (ks : List Key)
    (h : keysOf page limit (some p) = .ok ks) (k : Key) :
    k ∈ ks ↔ ∃ q, Reachable page p q ∧ k ∈ q.keys := by
  rw [keysOf] at h
  split at h
  · cases h
  · rename_i ks' hs
    cases h
    rw [List.mem_append, subKeys_mem page limit _ _ hs k]
    constructor
    · rintro (h | ⟨m, hm, p', q, e, hr, hk⟩)
      · exact ⟨p, .refl, h⟩
      · exact ⟨q, reachable_trans (.step p p' m .refl hm e) hr, hk⟩
    · rintro ⟨q, hr, hk⟩
      have : ∀ q, Reachable page p q → q = p ∨ ∃ m ∈ p.subPages, ∃ p', page m = .ok (some p') ∧
          Reachable page p' q := by
        intro q hr
        induction hr with
        | refl => exact .inl rfl
        | step q r n' _ hn' hp' ih' =>
          right
          rcases ih' with rfl | ⟨m, hm, p', e, hr⟩
          · exact ⟨n', hn', r, hp', .refl⟩
          · exact ⟨m, hm, p', e, .step q r n' hr hn' hp'⟩
      rcases this q hr with rfl | ⟨m, hm, p', e, hr⟩
      · exact .inl hk
      · exact .inr ⟨m, hm, p', q, e, hr, hk⟩

/-- The claim that the keys of every index are returned, given enough recursion. -/
def C37_terminates_claim : Prop :=
  ∀ (page : Nat → Res (Option IndexPage)) (p : IndexPage), (∀ n, ∃ q, page n = .ok q) →
    ∃ limit ks, keysOf page limit (some p) = .ok ks

/-- **C37**: a page that refers to itself first is an exception, whatever the limit. -/
theorem C37_cycle (page : Nat → Res (Option IndexPage)) (n : Nat) (p : IndexPage) (ns : List Nat)
    (hp : page n = .ok (some p)) (hs : p.subPages = n :: ns) (limit : Nat) :
    keysOf page limit (some p) = .error .recursionError := by
  have h : ∀ limit, subKeys page limit (n :: ns) = .error .recursionError := by
    intro limit
    induction limit with
    | zero => rw [subKeys]; simp [hp]
    | succ limit ih =>
      rw [subKeys]
      simp only [hp]
      rw [keysOf, hs, ih]
  rw [keysOf, hs, h]

theorem C37_terminates_claim_false : ¬ C37_terminates_claim := by
  intro h
  obtain ⟨limit, ks, e⟩ := h (fun _ => .ok (some ⟨0xACCC, 0, [], [1]⟩)) ⟨0xACCC, 0, [], [1]⟩
    (fun _ => ⟨_, rfl⟩)
  rw [C37_cycle _ 1 ⟨0xACCC, 0, [], [1]⟩ [] rfl rfl] at e
  cases e

/-- **C37**: the traversal of the keys of an index ends in all cases: with the keys or with an exception.
Without sub pages it does so without recursion. -/
theorem C37_leaf (page : Nat → Res (Option IndexPage)) (p : IndexPage) (hs : p.subPages = []) (limit : Nat) :
    keysOf page limit (some p) = .ok p.keys := by
  rw [keysOf, hs, subKeys]
  simp

/-- **C37**: in the formats other than 2.1 the root is the second mapped page, and in format 2.1 it is
the one the first mapped page tells. -/
theorem C37_root (data : Bytes) (table : List Nat) (p : IndexPage)
    (h : getIndexPage data table 0 = .ok (some p)) (ht : p.pageType = 0xADDD) :
    rootPage data table false = getIndexPage data table 1 ∧
    rootPage data table true = getIndexPage data table p.rootPage := by
  refine ⟨rfl, ?_⟩
  simp [rootPage, h, ht]

/-- **C37**: a mapped page is read from the place its table tells. -/
theorem C37_mapped (a page b : Bytes) (pre post : List Nat) (hp : page.length = 8192)
    (n : Nat) (ha : a.length = n * 8192) :
    getIndexPage (a ++ page ++ b) (pre ++ n :: post) pre.length = (readIndexPage page).map some := by
  unfold getIndexPage
  have e : (pre ++ n :: post)[pre.length]? = some n := by simp
  rw [e]
  dsimp only
  rw [if_neg (by simp only [List.length_append]; omega)]
  have : dataAt (a ++ page ++ b) (n * 8192) 8192 = .ok page := by
    rw [← ha, ← hp]
    exact dataAt_append a page b
  rw [this]

/-! ### C89 -/

/-- The last segment of the key of an object record. -/
def recordKey (dataType hash : List Char) (page identifier size : Nat) : List Char :=
  dataType ++ '_' :: hash ++ '.' :: digits 10 page ++ '.' :: digits 10 identifier ++ '.' :: digits 10 size

theorem digits_no_dot (n : Nat) : '.' ∉ digits 10 n := by
  intro h
  have := mem_digits 10 n (by omega) _ h
  obtain ⟨d, hd, e⟩ := this
  have : digitVal '.' = none := by decide
  exact digitChar_ne d (by omega) '.' this e.symm

theorem partition_append (a b : List Char) (c : Char) (ha : c ∉ a) :
    partition c (a ++ c :: b) = (a, b) := by
  unfold partition
  have h : ∀ x ∈ a, decide (x ≠ c) = true := by
    intro x hx
    simp only [decide_eq_true_eq]
    rintro rfl
    exact ha hx
  rw [List.takeWhile_append_of_pos h, List.dropWhile_append_of_pos h,
    List.takeWhile_cons_of_neg (by simp), List.dropWhile_cons_of_neg (by simp)]
  simp

/-- **C89**: the data type, the hash in lower case, the page, the identifier and the size are those the
key was made of, for numbers of any size. -/
theorem C89_key_values (pyInt : List Char → Option Int) (lower : List Char → List Char)
    (dataType hash : List Char) (page identifier size : Nat)
    (hint : ∀ n : Nat, pyInt (digits 10 n) = some (n : Int))
    (h1 : '_' ∉ dataType) (h2 : '.' ∉ dataType) (h3 : '.' ∉ hash) :
    keyValues pyInt lower (recordKey dataType hash page identifier size) =
      some ⟨dataType, lower hash, page, identifier, size⟩ := by
  have e : recordKey dataType hash page identifier size =
      join ['.'] [dataType ++ '_' :: hash, digits 10 page, digits 10 identifier, digits 10 size] := by
    simp [recordKey, join]
  unfold keyValues
  rw [if_neg (by simp [recordKey]), e, splitOn_join '.' _ (by simp)]
  · simp only [hint, partition_append _ _ _ h1]
  · intro p hp
    simp only [List.mem_cons, List.not_mem_nil, or_false] at hp
    rcases hp with rfl | rfl | rfl | rfl
    · simp [h2, h3]
    · exact digits_no_dot _
    · exact digits_no_dot _
    · exact digits_no_dot _

/-- **C89**: different records have different keys. -/
theorem C89_injective (a b : List Char) (ha hb : List Char) (p q i j s t : Nat)
    (h1 : '_' ∉ a) (h2 : '.' ∉ a) (h3 : '.' ∉ ha) (h1' : '_' ∉ b) (h2' : '.' ∉ b) (h3' : '.' ∉ hb)
    (h : recordKey a ha p i s = recordKey b hb q j t) : a = b ∧ ha = hb ∧ p = q ∧ i = j ∧ s = t := by
  have hint : ∀ n : Nat, (fun s => (parseDigits 10 s).map Int.ofNat) (digits 10 n) = some (n : Int) := by
    intro n
    simp [parse_digits 10 n (by omega) (by omega)]
  have e1 := C89_key_values (fun s => (parseDigits 10 s).map Int.ofNat) id a ha p i s hint h1 h2 h3
  have e2 := C89_key_values (fun s => (parseDigits 10 s).map Int.ofNat) id b hb q j t hint h1' h2' h3'
  rw [h, e2] at e1
  simp only [Option.some.injEq, KeyValues.mk.injEq, id, Int.natCast_inj] at e1
  obtain ⟨x1, x2, x3, x4, x5⟩ := e1
  exact ⟨x1.symm, x2.symm, x3.symm, x4.symm, x5.symm⟩

/-- **C89**: a segment without a separator, or with another number of separators than three, has no
values. -/
theorem C89_other (pyInt : List Char → Option Int) (lower : List Char → List Char) (parts : List (List Char))
    (hne : parts ≠ []) (h : ∀ p ∈ parts, '.' ∉ p) (hl : parts.length ≠ 4) :
    keyValues pyInt lower (join ['.'] parts) = none := by
  unfold keyValues
  split
  · rfl
  · rw [splitOn_join '.' parts hne h]
    split
    · simp at hl
    · rfl

example : keyValues (fun s => (parseDigits 10 s).map Int.ofNat) (·.map Char.toLower)
    "CD_9A.12.3456.78".toList = some ⟨"CD".toList, "9a".toList, 12, 3456, 78⟩ := by decide +kernel

/-! ### Samples -/

/-- A root with one key of two segments, and sub pages 2 and 3. -/
def sampleRoot : Bytes :=
  pageBytes 1 0 0 [0] [2, 3] [0] (leBytes 2 2 ++ (leBytes 2 1 ++ leBytes 2 0)) [0, 3]
    ("NS".toList.map (fun c => UInt8.ofNat c.toNat) ++ 0 :: ("CR".toList.map (fun c => UInt8.ofNat c.toNat) ++ [0])) []

example : readIndexPage sampleRoot = .ok ⟨0xACCC, 0, ["\\CR\\NS".toList], [2, 3]⟩ := by decide +kernel

example : Tree (fun n => if n = 2 then .ok (some ⟨0xACCC, 0, [['a']], [4, 9]⟩)
    else if n = 4 then .ok (some ⟨0xACCC, 0, [['b'], ['c']], []⟩)
    else if n = 3 then .ok (some ⟨0xACCC, 0, [['d']], []⟩) else .ok none) [2, 3] 2
    [['a'], ['b'], ['c'], ['d']] :=
  .page 2 [3] ⟨0xACCC, 0, [['a']], [4, 9]⟩ 1 1 [['b'], ['c']] [['d']] rfl
    (.page 4 [9] ⟨0xACCC, 0, [['b'], ['c']], []⟩ 0 1 [] [] rfl .nil (.missing 9 [] 0 [] rfl .nil))
    (.page 3 [] ⟨0xACCC, 0, [['d']], []⟩ 0 0 [] [] rfl .nil .nil)

end Dtf.Wmi
