import Verif.Unified.Strings

/-!
# Caches of the unified log reader (C29, C30, C77, C78)

The strings files and the image values are kept in ordered dictionaries, with the entry used last in
front.  The model has the operations of `collections.OrderedDict` that the code uses, and follows
which strings file was opened and closed.
-/

namespace Dtf.Unified
open Py DataFormat

variable {K : Type} [DecidableEq K] {V : Type}

/-! ## Model -/

/-- `OrderedDict.get`. -/
def odGet (k : K) : List (K × V) → Option V
  | [] => none
  | e :: l => if e.1 = k then some e.2 else odGet k l

/-- `d[k] = v`: the value of a present key is replaced in its place, a new key is put last. -/
def odSet (k : K) (v : V) (l : List (K × V)) : List (K × V) :=
  if (odGet k l).isSome then l.map (fun e => if e.1 = k then (e.1, v) else e) else l ++ [(k, v)]

/-- `d.move_to_end(k, last=False)` of a present key. -/
def odMoveFront (k : K) (l : List (K × V)) : List (K × V) :=
  match odGet k l with
  | some v => (k, v) :: l.filter (fun e => e.1 ≠ k)
  | none => l

/-- `d.popitem(last=True)`, if the cache is full (`len(d) >= maximum`): what is left and the value
that was removed. -/
def odEvict (maximum : Nat) (l : List (K × V)) : List (K × V) × Option V :=
  if maximum ≤ l.length then (l.dropLast, l.getLast?.map (·.2)) else (l, none)

/-- What opening a strings file comes to: there is a file, there is none (`None` is cached), or
reading it raises. -/
inductive Opening where
  | present
  | missing
  | fails
deriving DecidableEq, Repr

/-- The cache of strings files.  A handle is the number of the file among the opened ones; `opened`
has the identifiers of these, `closed` the handles that were closed. -/
structure FileCache (K : Type) where
  entries : List (K × Option Nat)
  opened : List K
  closed : List Nat
deriving DecidableEq, Repr

def newFileCache : FileCache K := ⟨[], [], []⟩

/-- `_GetDSCFile` (unified_logging.py 3101-3122) and `_GetUUIDTextFile` (3408-3429).  A file whose
reading raises is not followed (see C05). -/
def lookupFile (maximum : Nat) (c : FileCache K) (k : K) (o : Opening) :
    Res (Option Nat) × FileCache K :=
  match odGet k c.entries with
  | some (some h) => (.ok (some h), { c with entries := odMoveFront k c.entries })
  | _ =>
    match o with
    | .fails => (.error .parseError, c)
    | .missing =>
      let r := odEvict maximum c.entries
      (.ok none, ⟨odMoveFront k (odSet k none r.1), c.opened, c.closed ++ r.2.join.toList⟩)
    | .present =>
      let h := c.opened.length
      let r := odEvict maximum c.entries
      (.ok (some h),
        ⟨odMoveFront k (odSet k (some h) r.1), c.opened ++ [k], c.closed ++ r.2.join.toList⟩)

/-- A history of lookups. -/
def runFiles (maximum : Nat) (c : FileCache K) :
    List (K × Opening) → List (Res (Option Nat)) × FileCache K
  | [] => ([], c)
  | (k, o) :: ops =>
    let (r, c) := lookupFile maximum c k o
    let (rs, c) := runFiles maximum c ops
    (r :: rs, c)

/-- `TraceV3File.Close` (unified_logging.py 4903-4917): the cached files are closed and remain in
the cache. -/
def closeFiles (c : FileCache K) : FileCache K :=
  { c with closed := c.closed ++ c.entries.filterMap (·.2) }

/-- The part of `_GetImageValues` that uses the cache (unified_logging.py 3201-3202, 3252-3257);
`compute` is the part between. -/
def lookupValues {X : Type} (maximum : Nat) (compute : K → X → Res V) (c : List (K × V)) (k : K)
    (x : X) : Res V × List (K × V) :=
  match odGet k c with
  | some v => (.ok v, odMoveFront k c)
  | none =>
    match compute k x with
    | .error e => (.error e, c)
    | .ok v => (.ok v, odMoveFront k (odSet k v (odEvict maximum c).1))

def runValues {X : Type} (maximum : Nat) (compute : K → X → Res V) (c : List (K × V)) :
    List (K × X) → List (Res V) × List (K × V)
  | [] => ([], c)
  | (k, x) :: ops =>
    let (r, c) := lookupValues maximum compute c k x
    let (rs, c) := runValues maximum compute c ops
    (r :: rs, c)

/-- A lookup of image values, without its key: what else `_GetImageValues` uses. -/
structure Rest where
  isDynamic : Bool
  isUuidtext : Bool
  imageTextOffset : Nat
  largeOffsetData : Nat
  largeSharedCacheData : Nat
deriving DecidableEq, Repr

/-- The computation of image values (unified_logging.py 3203-3250).  The key is the identifier of
the strings file with the string reference.  `uuidtext` gives the image path and the strings of a
uuidtext file, `dsc` the image values of a shared-cache strings file, if there is such a file. -/
def computeValues {S : Type} (percentS empty : S) (uuidtext : Bytes → Option (S × (Nat → Res (Option S))))
    (dsc : Bytes → Option (Nat → Bool → Res (Option (ImageValues S)))) (key : Bytes × Nat) (x : Rest) :
    Res (ImageValues S) :=
  if x.isUuidtext then
    match uuidtext key.1 with
    | none => .ok ⟨key.1, none, none, x.imageTextOffset⟩
    | some (path, strings) =>
      if x.isDynamic then .ok ⟨key.1, some path, some percentS, x.imageTextOffset⟩
      else
        match strings key.2 with
        | .error e => .error e
        | .ok (some s) => .ok ⟨key.1, some path, some s, x.imageTextOffset⟩
        | .ok none => .ok ⟨key.1, some path, none, x.largeOffsetData <<< 31⟩
  else
    let found : Res (Option (ImageValues S)) :=
      match dsc key.1 with
      | none => .ok none
      | some values => values key.2 x.isDynamic
    match found with
    | .error e => .error e
    | .ok v =>
      let v := v.getD ⟨key.1, none, none, x.imageTextOffset⟩
      if x.largeOffsetData ≠ 0 ∧ x.largeSharedCacheData ≠ 0 ∧
          x.largeOffsetData ≠ x.largeSharedCacheData >>> 1 then
        .ok { v with ident := key.1, textOffset := 0, path := some empty }
      else .ok v

/-- An image of a process, in the process information of the catalog. -/
structure UuidEntry where
  loadUpper : Nat
  loadLower : Nat
  size : Nat
  uuidIndex : Nat
deriving DecidableEq, Repr

/-- The image of an absolute address (unified_logging.py 3164-3186): the identifier of the strings
file and the load address.  The catalog has been read. -/
def absoluteImage (uuids : List Bytes) (upper lower : Nat) :
    List UuidEntry → Res (Option (Bytes × Nat))
  | [] => .ok none
  | e :: es =>
    if upper ≠ e.loadUpper ∨ lower < e.loadLower then absoluteImage uuids upper lower es
    else if lower ≤ e.loadLower + e.size then
      match uuids[e.uuidIndex]? with
      | none => .error .indexError
      | some u => .ok (some (u, e.loadLower ||| (e.loadUpper <<< 32)))
    else absoluteImage uuids upper lower es

/-- The strings file and the text offset of a trace point (unified_logging.py 3148-3196): `none` if
there are no image values.  The identifiers of a process are attributes that are only set if the catalog
has them (2653-2661); using one that is not set, or one of no process, is an `AttributeError`. -/
def stringsFile (flags : Nat) (mainUuid dscUuid inlineUuid : Option Bytes)
    (absolute : Res (Option (Bytes × Nat))) : Res (Option (Bytes × Nat)) :=
  let kind := flags &&& 0x000E
  let given : Option Bytes → Res (Option (Bytes × Nat))
    | none => .error .attributeError
    | some u => .ok (some (u, 0))
  if kind = 0x0002 then given mainUuid
  else if kind = 0x0004 ∨ kind = 0x000C then given dscUuid
  else if kind = 0x0008 then absolute
  else if kind = 0x000A then given inlineUuid
  else .error .parseError

/-! ## Ordered dictionaries -/

def keys (l : List (K × V)) : List K := l.map (·.1)

theorem odGet_none (k : K) (l : List (K × V)) : odGet k l = none ↔ k ∉ keys l := by
  induction l with
  | nil => simp [odGet, keys]
  | cons e l ih =>
    have hk : keys (e :: l) = e.1 :: keys l := rfl
    unfold odGet
    by_cases h : e.1 = k
    · simp [h, hk]
    · simp only [h, if_false, ih, hk, List.mem_cons, not_or]
      exact ⟨fun hh => ⟨fun hk => h hk.symm, hh⟩, fun hh => hh.2⟩

theorem odGet_some (k : K) (v : V) (l : List (K × V)) (hn : (keys l).Nodup) :
    odGet k l = some v ↔ (k, v) ∈ l := by
  induction l with
  | nil => simp [odGet]
  | cons e l ih =>
    simp only [keys, List.map_cons, List.nodup_cons] at hn
    unfold odGet
    obtain ⟨a, b⟩ := e
    by_cases h : a = k
    · subst h
      simp only [if_true, Option.some.injEq, List.mem_cons, Prod.mk.injEq, true_and]
      constructor
      · intro h; exact .inl h.symm
      · rintro (h | h)
        · exact h.symm
        · exact absurd (List.mem_map_of_mem (f := (·.1)) h) hn.1
    · simp only [h, if_false, List.mem_cons, Prod.mk.injEq]
      rw [ih hn.2]
      constructor
      · exact .inr
      · rintro (⟨h1, _⟩ | h1)
        · exact absurd h1.symm h
        · exact h1

theorem filter_map_set (k : K) (v : V) (l : List (K × V)) :
    (l.map (fun e => if e.1 = k then (e.1, v) else e)).filter (fun e => e.1 ≠ k) =
      l.filter (fun e => e.1 ≠ k) := by
  induction l with
  | nil => rfl
  | cons e l ih =>
    rw [List.map_cons]
    by_cases h : e.1 = k
    · rw [if_pos h, List.filter_cons_of_neg (by simp [h]), List.filter_cons_of_neg (by simp [h]), ih]
    · rw [if_neg h, List.filter_cons_of_pos (by simp [h]), List.filter_cons_of_pos (by simp [h]), ih]

theorem odGet_map_set (k : K) (v : V) (l : List (K × V)) (h : (odGet k l).isSome) :
    odGet k (l.map (fun e => if e.1 = k then (e.1, v) else e)) = some v := by
  induction l with
  | nil => simp [odGet] at h
  | cons e l ih =>
    unfold odGet at h ⊢
    rw [List.map_cons]
    dsimp only
    by_cases he : e.1 = k
    · simp [he]
    · simp only [he, if_false] at h ⊢
      exact ih h

theorem odGet_append_new (k : K) (v : V) (l : List (K × V)) (h : odGet k l = none) :
    odGet k (l ++ [(k, v)]) = some v := by
  induction l with
  | nil => simp [odGet]
  | cons e l ih =>
    rw [List.cons_append]
    unfold odGet at h ⊢
    by_cases he : e.1 = k
    · simp [he] at h
    · simp only [he, if_false] at h ⊢
      exact ih h

theorem filter_absent (k : K) (l : List (K × V)) (h : k ∉ keys l) :
    l.filter (fun e => e.1 ≠ k) = l := by
  rw [List.filter_eq_self]
  intro e he
  have : e.1 ≠ k := fun h' => h (by rw [← h']; exact List.mem_map_of_mem (f := (·.1)) he)
  simpa using this

/-- Setting a key and moving it to the front. -/
theorem odMoveFront_odSet (k : K) (v : V) (l : List (K × V)) :
    odMoveFront k (odSet k v l) = (k, v) :: l.filter (fun e => e.1 ≠ k) := by
  unfold odMoveFront odSet
  by_cases h : (odGet k l).isSome
  · rw [if_pos h, odGet_map_set k v l h, filter_map_set]
  · rw [if_neg h]
    have hn : odGet k l = none := by simpa using h
    rw [odGet_append_new k v l hn]
    dsimp only
    rw [List.filter_append]
    simp

theorem odMoveFront_present (k : K) (v : V) (l : List (K × V)) (h : odGet k l = some v) :
    odMoveFront k l = (k, v) :: l.filter (fun e => e.1 ≠ k) := by
  unfold odMoveFront
  rw [h]

theorem keys_filter (k : K) (l : List (K × V)) :
    keys (l.filter (fun e => e.1 ≠ k)) = (keys l).filter (fun x => x ≠ k) := by
  unfold keys
  rw [List.filter_map]
  rfl

/-- What is left after an eviction. -/
theorem odEvict_prefix (maximum : Nat) (l : List (K × V)) : (odEvict maximum l).1 <+: l := by
  unfold odEvict
  split
  · exact List.dropLast_prefix l
  · exact List.prefix_refl l

theorem odEvict_length (maximum : Nat) (l : List (K × V)) (hm : 0 < maximum)
    (h : l.length ≤ maximum) : (odEvict maximum l).1.length < maximum := by
  unfold odEvict
  split
  · simp; omega
  · simp; omega

theorem odEvict_split (maximum : Nat) (l : List (K × V)) (hm : 0 < maximum) :
    (odEvict maximum l = (l, none)) ∨
      ∃ e, l = (odEvict maximum l).1 ++ [e] ∧ (odEvict maximum l).2 = some e.2 := by
  unfold odEvict
  split
  · rename_i h
    right
    have hl : l ≠ [] := by intro h'; subst h'; simp at h; omega
    exact ⟨l.getLast hl, (List.dropLast_concat_getLast hl).symm, by
      rw [List.getLast?_eq_some_getLast hl]; rfl⟩
  · exact .inl rfl

/-! ## C29: the caches of strings files -/

/-- The identifiers in the order of their last use, the last one first.  Specification. -/
def recency : List K → List K := List.foldl (fun r k => k :: r.filter (fun x => x ≠ k)) []

theorem recency_concat (l : List K) (k : K) :
    recency (l ++ [k]) = k :: (recency l).filter (fun x => x ≠ k) := by
  simp [recency]

theorem recency_nodup (l : List K) : (recency l).Nodup := by
  have key : ∀ (l r : List K), r.Nodup →
      (l.foldl (fun r k => k :: r.filter (fun x => x ≠ k)) r).Nodup := by
    intro l
    induction l with
    | nil => intro r hr; exact hr
    | cons k l ih => intro r hr; exact ih _ (List.nodup_cons.mpr ⟨by simp, hr.filter _⟩)
  exact key l [] List.nodup_nil

/-- The identifiers of the lookups that did not raise. -/
def used : List (K × Opening) → List (Res (Option Nat)) → List K
  | (k, _) :: ops, .ok _ :: rs => k :: used ops rs
  | _ :: ops, .error _ :: rs => used ops rs
  | _, _ => []

/-- What holds of a cache at all times. -/
structure CacheInv (maximum : Nat) (c : FileCache K) (history : List K) : Prop where
  size : c.entries.length ≤ maximum
  nodup : (keys c.entries).Nodup
  owner : ∀ k h, (k, some h) ∈ c.entries → c.opened[h]? = some k
  live : ∀ k h, (k, some h) ∈ c.entries → h ∉ c.closed
  once : c.closed.Nodup
  closedOpened : ∀ h ∈ c.closed, h < c.opened.length
  noLeak : ∀ h, h < c.opened.length → h ∈ c.closed ∨ ∃ k, (k, some h) ∈ c.entries
  recent : keys c.entries <+: recency history

theorem cacheInv_new (maximum : Nat) : CacheInv maximum (newFileCache (K := K)) [] where
  size := by simp [newFileCache]
  nodup := by simp [newFileCache, keys]
  owner := by simp [newFileCache]
  live := by simp [newFileCache]
  once := by simp [newFileCache]
  closedOpened := by simp [newFileCache]
  noLeak := by simp [newFileCache]
  recent := by simp [newFileCache, keys]

theorem prefix_filter_cons (a b : List K) (k : K) (h : a <+: b) :
    k :: a.filter (fun x => x ≠ k) <+: k :: b.filter (fun x => x ≠ k) := by
  obtain ⟨t, rfl⟩ := h
  rw [List.filter_append]
  exact ⟨t.filter (fun x => x ≠ k), by simp⟩

/-- Inserting a value for a key without an open file. -/
theorem cacheInv_insert (maximum : Nat) (hm : 0 < maximum) (c : FileCache K) (history : List K)
    (inv : CacheInv maximum c history) (k : K) (v : Option Nat) (opened : List K)
    (hk : ∀ h, odGet k c.entries ≠ some (some h))
    (hv : (v = none ∧ opened = c.opened) ∨ (v = some c.opened.length ∧ opened = c.opened ++ [k])) :
    CacheInv maximum
      ⟨odMoveFront k (odSet k v (odEvict maximum c.entries).1), opened,
        c.closed ++ (odEvict maximum c.entries).2.join.toList⟩ (history ++ [k]) := by
  have hpre := odEvict_prefix maximum c.entries
  have hlen := odEvict_length maximum c.entries hm inv.size
  have hsplit := odEvict_split maximum c.entries hm
  generalize hleft : (odEvict maximum c.entries).1 = left at hpre hlen hsplit
  generalize hout : (odEvict maximum c.entries).2 = out at hsplit
  have hsub : ∀ e, e ∈ left → e ∈ c.entries := fun e he => hpre.subset he
  have hkeys : keys left <+: keys c.entries := hpre.map _
  -- The handle that is evicted.
  have hout' : ∀ h, h ∈ out.join.toList → ∃ x, (x, some h) ∈ c.entries ∧ (x, some h) ∉ left := by
    intro h hh
    rcases hsplit with hs | ⟨e, he1, he2⟩
    · rw [hs] at hout
      simp only at hout
      subst hout
      simp at hh
    · subst he2
      obtain ⟨x, w⟩ := e
      simp only [Option.join_some, Option.mem_toList] at hh
      cases w with
      | none => simp at hh
      | some g =>
        simp only [Option.mem_def, Option.some.injEq] at hh
        subst hh
        refine ⟨x, by rw [he1]; simp, ?_⟩
        intro hin
        have hn := inv.nodup
        rw [he1] at hn
        simp only [keys, List.map_append, List.map_cons, List.map_nil] at hn
        rw [List.nodup_append] at hn
        exact hn.2.2 x (List.mem_map_of_mem (f := (·.1)) hin) x (by simp) rfl
  have hcover : ∀ x h, (x, some h) ∈ c.entries → (x, some h) ∈ left ∨ h ∈ out.join.toList := by
    intro x h hx
    rcases hsplit with hs | ⟨e, he1, he2⟩
    · rw [hs] at hleft
      simp only at hleft
      subst hleft
      exact .inl hx
    · rw [he1] at hx
      rcases List.mem_append.mp hx with hx | hx
      · exact .inl hx
      · right
        simp only [List.mem_cons, List.not_mem_nil, or_false] at hx
        subst hx
        subst he2
        simp
  have howner : ∀ x h, (x, some h) ∈ c.entries → h < c.opened.length := by
    intro x h hx
    exact (List.getElem?_eq_some_iff.mp (inv.owner x h hx)).1
  have hinj : ∀ x y h, (x, some h) ∈ c.entries → (y, some h) ∈ c.entries → x = y := by
    intro x y h hx hy
    have h1 := inv.owner x h hx
    have h2 := inv.owner y h hy
    rw [h1] at h2
    simpa using h2
  have hge : c.opened.length ≤ opened.length := by
    rcases hv with ⟨_, rfl⟩ | ⟨_, rfl⟩ <;> simp
  have hmono : ∀ (h : Nat) (x : K), c.opened[h]? = some x → opened[h]? = some x := by
    intro h x hx
    rcases hv with ⟨_, rfl⟩ | ⟨_, rfl⟩
    · exact hx
    · have := (List.getElem?_eq_some_iff.mp hx).1
      rw [List.getElem?_append_left this]
      exact hx
  have hkeep : ∀ (x : K) (h : Nat), (x, some h) ∈ c.entries → x ≠ k := by
    intro x h hx hxk
    subst hxk
    exact hk h ((odGet_some x (some h) c.entries inv.nodup).mpr hx)
  have hnew : ∀ (x : K) (h : Nat), (x, some h) ∈ (k, v) :: left.filter (fun e => e.1 ≠ k) ↔
      (x, some h) ∈ left ∨ (x = k ∧ v = some h) := by
    intro x h
    simp only [List.mem_cons, Prod.mk.injEq, List.mem_filter, decide_eq_true_eq]
    constructor
    · rintro (⟨h1, h2⟩ | ⟨h1, _⟩)
      · exact .inr ⟨h1, h2.symm⟩
      · exact .inl h1
    · rintro (h1 | ⟨h1, h2⟩)
      · exact .inr ⟨h1, hkeep x h (hsub _ h1)⟩
      · exact .inl ⟨h1, h2.symm⟩
  rw [odMoveFront_odSet]
  refine ⟨?_, ?_, ?_, ?_, ?_, ?_, ?_, ?_⟩
  · have := List.length_filter_le (fun e : K × Option Nat => decide (e.1 ≠ k)) left
    simp only [List.length_cons]
    omega
  · simp only [keys, List.map_cons]
    have hf := keys_filter k left
    unfold keys at hf
    rw [hf, List.nodup_cons]
    refine ⟨by simp, ?_⟩
    exact (inv.nodup.sublist hkeys.sublist).filter _
  · intro x h hx
    rcases (hnew x h).mp hx with hx | ⟨rfl, rfl⟩
    · exact hmono h x (inv.owner x h (hsub _ hx))
    · rcases hv with ⟨hv, _⟩ | ⟨hv, rfl⟩
      · simp at hv
      · simp only [Option.some.injEq] at hv
        subst hv
        simp
  · intro x h hx
    simp only [List.mem_append, not_or]
    rcases (hnew x h).mp hx with hx | ⟨rfl, rfl⟩
    · refine ⟨inv.live x h (hsub _ hx), ?_⟩
      intro hh
      obtain ⟨y, hy, hy'⟩ := hout' h hh
      rw [hinj y x h hy (hsub _ hx)] at hy'
      exact hy' hx
    · rcases hv with ⟨hv, _⟩ | ⟨hv, _⟩
      · simp at hv
      · simp only [Option.some.injEq] at hv
        subst hv
        refine ⟨fun hh => ?_, fun hh => ?_⟩
        · have := inv.closedOpened _ hh
          omega
        · obtain ⟨y, hy, _⟩ := hout' _ hh
          have := howner y _ hy
          omega
  · rw [List.nodup_append]
    refine ⟨inv.once, ?_, ?_⟩
    · cases out.join <;> simp
    · intro a ha b hb hab
      subst hab
      obtain ⟨y, hy, _⟩ := hout' a hb
      exact inv.live y a hy ha
  · intro h hh
    rcases List.mem_append.mp hh with hh | hh
    · have := inv.closedOpened h hh
      simp only
      omega
    · obtain ⟨y, hy, _⟩ := hout' h hh
      have := howner y h hy
      simp only
      omega
  · intro h hh
    simp only at hh ⊢
    by_cases hlt : h < c.opened.length
    · rcases inv.noLeak h hlt with hc | ⟨x, hx⟩
      · exact .inl (List.mem_append_left _ hc)
      · rcases hcover x h hx with h1 | h1
        · exact .inr ⟨x, (hnew x h).mpr (.inl h1)⟩
        · exact .inl (List.mem_append_right _ h1)
    · rcases hv with ⟨_, rfl⟩ | ⟨rfl, rfl⟩
      · omega
      · simp only [List.length_append, List.length_cons, List.length_nil] at hh
        have : h = c.opened.length := by omega
        subst this
        exact .inr ⟨k, (hnew k _).mpr (.inr ⟨rfl, rfl⟩)⟩
  · rw [recency_concat]
    simp only [keys, List.map_cons]
    have hf := keys_filter k left
    unfold keys at hf
    rw [hf]
    exact prefix_filter_cons _ _ k (hkeys.trans inv.recent)

/-- The invariant is kept by every lookup, and a lookup that does not raise returns a file of the
identifier that is open, and makes the identifier the most recently used. -/
theorem lookupFile_inv (maximum : Nat) (hm : 0 < maximum) (c : FileCache K) (history : List K)
    (inv : CacheInv maximum c history) (k : K) (o : Opening) :
    (∀ e, (lookupFile maximum c k o).1 = .error e → (lookupFile maximum c k o).2 = c) ∧
    (∀ v, (lookupFile maximum c k o).1 = .ok v →
      CacheInv maximum (lookupFile maximum c k o).2 (history ++ [k]) ∧
      odGet k (lookupFile maximum c k o).2.entries = some v) := by
  unfold lookupFile
  cases hg : odGet k c.entries with
  | none =>
    have hk : ∀ h, odGet k c.entries ≠ some (some h) := by simp [hg]
    cases o with
    | fails => exact ⟨fun _ _ => rfl, fun v hv => by simp at hv⟩
    | missing =>
      refine ⟨fun e he => by simp at he, fun v hv => ⟨?_, ?_⟩⟩
      · exact cacheInv_insert maximum hm c history inv k none c.opened hk (.inl ⟨rfl, rfl⟩)
      · simp only [Except.ok.injEq] at hv
        subst hv
        simp only [odMoveFront_odSet, odGet, if_true]
    | present =>
      refine ⟨fun e he => by simp at he, fun v hv => ⟨?_, ?_⟩⟩
      · exact cacheInv_insert maximum hm c history inv k _ _ hk (.inr ⟨rfl, rfl⟩)
      · simp only [Except.ok.injEq] at hv
        subst hv
        simp only [odMoveFront_odSet, odGet, if_true]
  | some w =>
    cases w with
    | none =>
      have hk : ∀ h, odGet k c.entries ≠ some (some h) := by simp [hg]
      cases o with
      | fails => exact ⟨fun _ _ => rfl, fun v hv => by simp at hv⟩
      | missing =>
        refine ⟨fun e he => by simp at he, fun v hv => ⟨?_, ?_⟩⟩
        · exact cacheInv_insert maximum hm c history inv k none c.opened hk (.inl ⟨rfl, rfl⟩)
        · simp only [Except.ok.injEq] at hv
          subst hv
          simp only [odMoveFront_odSet, odGet, if_true]
      | present =>
        refine ⟨fun e he => by simp at he, fun v hv => ⟨?_, ?_⟩⟩
        · exact cacheInv_insert maximum hm c history inv k _ _ hk (.inr ⟨rfl, rfl⟩)
        · simp only [Except.ok.injEq] at hv
          subst hv
          simp only [odMoveFront_odSet, odGet, if_true]
    | some h =>
      have hmem := (odGet_some k (some h) c.entries inv.nodup).mp hg
      have hfront := odMoveFront_present k (some h) c.entries hg
      have hiff : ∀ e, e ∈ odMoveFront k c.entries ↔ e ∈ c.entries := by
        intro e
        rw [hfront]
        simp only [List.mem_cons, List.mem_filter, decide_eq_true_eq]
        constructor
        · rintro (rfl | ⟨h1, _⟩)
          · exact hmem
          · exact h1
        · intro he
          by_cases hek : e.1 = k
          · left
            obtain ⟨a, b⟩ := e
            simp only at hek
            subst hek
            have := (odGet_some a b c.entries inv.nodup).mpr he
            rw [hg] at this
            simp only [Option.some.injEq] at this
            rw [this]
          · exact .inr ⟨he, hek⟩
      refine ⟨fun e he => by simp at he, fun v hv => ⟨?_, ?_⟩⟩
      · have hkeys : keys (odMoveFront k c.entries) = k :: (keys c.entries).filter (fun x => x ≠ k) := by
          rw [hfront]
          simp only [keys, List.map_cons]
          congr 1
          exact keys_filter k c.entries
        refine ⟨?_, ?_, ?_, ?_, inv.once, inv.closedOpened, ?_, ?_⟩
        · show (odMoveFront k c.entries).length ≤ maximum
          rw [hfront, List.length_cons]
          have hlt : (c.entries.filter (fun e => decide (e.1 ≠ k))).length < c.entries.length := by
            rw [List.length_filter_lt_length_iff_exists]
            exact ⟨(k, some h), hmem, by simp⟩
          have := inv.size
          omega
        · show (keys (odMoveFront k c.entries)).Nodup
          rw [hkeys, List.nodup_cons]
          exact ⟨by simp, inv.nodup.filter _⟩
        · intro x g hx
          exact inv.owner x g ((hiff _).mp hx)
        · intro x g hx
          exact inv.live x g ((hiff _).mp hx)
        · intro g hg'
          rcases inv.noLeak g hg' with h1 | ⟨x, hx⟩
          · exact .inl h1
          · exact .inr ⟨x, (hiff _).mpr hx⟩
        · show keys (odMoveFront k c.entries) <+: recency (history ++ [k])
          rw [hkeys, recency_concat]
          exact prefix_filter_cons _ _ k inv.recent
      · simp only [Except.ok.injEq] at hv
        subst hv
        simp only [hfront, odGet, if_true]

theorem runFiles_inv (maximum : Nat) (hm : 0 < maximum) (ops : List (K × Opening))
    (c : FileCache K) (history : List K) (inv : CacheInv maximum c history) :
    CacheInv maximum (runFiles maximum c ops).2
      (history ++ used ops (runFiles maximum c ops).1) := by
  induction ops generalizing c history with
  | nil => simpa [runFiles, used] using inv
  | cons op ops ih =>
    obtain ⟨k, o⟩ := op
    rw [runFiles]
    have hl := lookupFile_inv maximum hm c history inv k o
    generalize hr : lookupFile maximum c k o = r at hl
    obtain ⟨r, c'⟩ := r
    dsimp only at hl ⊢
    cases r with
    | error e =>
      have := hl.1 e rfl
      subst this
      simpa [used] using ih _ history inv
    | ok v =>
      have := ih _ _ (hl.2 v rfl).1
      simpa [used, List.append_assoc] using this

/-- **C29**: after every history of lookups, the cache has at most the maximum number of files, for
different identifiers; each of these is the file of its identifier and is open; every file that was
opened and is no longer cached is closed, and was closed once. -/
theorem C29_cache_sound (maximum : Nat) (hm : 0 < maximum) (ops : List (K × Opening)) :
    let c := (runFiles maximum newFileCache ops).2
    c.entries.length ≤ maximum ∧ (c.entries.map (·.1)).Nodup ∧
      (∀ k h, (k, some h) ∈ c.entries → c.opened[h]? = some k ∧ h ∉ c.closed) ∧
      (∀ h, h < c.opened.length → (h ∈ c.closed ↔ ¬ ∃ k, (k, some h) ∈ c.entries)) ∧
      c.closed.Nodup := by
  have inv := runFiles_inv maximum hm ops newFileCache [] (cacheInv_new maximum)
  refine ⟨inv.size, inv.nodup, fun k h hk => ⟨inv.owner k h hk, inv.live k h hk⟩, ?_, inv.once⟩
  intro h hh
  constructor
  · rintro hc ⟨k, hk⟩
    exact inv.live k h hk hc
  · intro hn
    rcases inv.noLeak h hh with h1 | h1
    · exact h1
    · exact absurd h1 hn

/-- **C29**: every lookup, after any history, returns a file of the requested identifier that is
open (and none if there is none). -/
theorem C29_right_file (maximum : Nat) (hm : 0 < maximum) (ops : List (K × Opening)) (k : K)
    (o : Opening) (h : Nat)
    (hr : (lookupFile maximum (runFiles maximum newFileCache ops).2 k o).1 = .ok (some h)) :
    let c := (lookupFile maximum (runFiles maximum newFileCache ops).2 k o).2
    c.opened[h]? = some k ∧ h ∉ c.closed := by
  have inv := runFiles_inv maximum hm ops newFileCache [] (cacheInv_new maximum)
  obtain ⟨h1, h2⟩ := (lookupFile_inv maximum hm _ _ inv k o).2 (some h) hr
  have hmem := (odGet_some k (some h) _ h1.nodup).mp h2
  exact ⟨h1.owner k h hmem, h1.live k h hmem⟩

/-- **C29**: a lookup that finds no file for an identifier is one for which there is no file and
none in the cache. -/
theorem C29_none_only_if_missing (maximum : Nat) (c : FileCache K) (k : K) (o : Opening)
    (hr : (lookupFile maximum c k o).1 = .ok none) :
    o = .missing ∧ ∀ h, odGet k c.entries ≠ some (some h) := by
  unfold lookupFile at hr
  cases hg : odGet k c.entries with
  | none => rw [hg] at hr; cases o <;> simp at hr ⊢
  | some w =>
    rw [hg] at hr
    cases w with
    | none => cases o <;> simp at hr ⊢
    | some g => simp at hr

/-- **C29**: what is cached is always the identifiers used last: if an identifier is cached, all
identifiers used after it are cached too, so the one evicted is the least recently used. -/
theorem C29_least_recently_used (maximum : Nat) (hm : 0 < maximum) (ops : List (K × Opening)) :
    (runFiles maximum newFileCache ops).2.entries.map (·.1) <+:
      recency (used ops (runFiles maximum newFileCache ops).1) := by
  have inv := runFiles_inv maximum hm ops newFileCache [] (cacheInv_new maximum)
  simpa [keys] using inv.recent

/-- Three lookups in a cache of two files: the least recently used one is evicted and closed. -/
example : runFiles 2 newFileCache [(1, .present), (2, .present), (1, .present), (3, .present)] =
    ([.ok (some 0), .ok (some 1), .ok (some 0), .ok (some 2)],
      ⟨[(3, some 2), (1, some 0)], [1, 2, 3], [1]⟩) := by decide

/-! ## C77: closing the reader -/

/-- The claim of C77: after closing, every file is closed once; a lookup after that returns an open
file. -/
def C77_close_claim : Prop :=
  ∀ (ops : List (Nat × Opening)) (k h : Nat) (o : Opening),
    (lookupFile 64 (closeFiles (runFiles 64 newFileCache ops).2) k o).1 = .ok (some h) →
    h ∉ (lookupFile 64 (closeFiles (runFiles 64 newFileCache ops).2) k o).2.closed

/-- **C77** is false: the cache gives closed files after the reader was closed. -/
theorem C77_closed_file_returned : ¬ C77_close_claim := by
  intro h
  have := h [(1, .present)] 1 0 .present (by decide)
  revert this
  decide

/-- **C77** (partial): closing the reader closes every file that was opened, each of them once. -/
theorem C77_all_closed_partial (maximum : Nat) (hm : 0 < maximum) (ops : List (K × Opening)) :
    let c := closeFiles (runFiles maximum newFileCache ops).2
    c.closed.Nodup ∧ ∀ h, h ∈ c.closed ↔ h < c.opened.length := by
  have inv := runFiles_inv maximum hm ops newFileCache [] (cacheInv_new maximum)
  generalize hc : (runFiles maximum newFileCache ops).2 = c at inv
  have hmem : ∀ h, h ∈ c.entries.filterMap (·.2) ↔ ∃ k, (k, some h) ∈ c.entries := by
    intro h
    simp only [List.mem_filterMap]
    constructor
    · rintro ⟨⟨k, v⟩, h1, h2⟩
      simp only at h2
      subst h2
      exact ⟨k, h1⟩
    · rintro ⟨k, h1⟩
      exact ⟨(k, some h), h1, rfl⟩
  refine ⟨?_, ?_⟩
  · simp only [closeFiles]
    rw [List.nodup_append]
    refine ⟨inv.once, ?_, ?_⟩
    · -- Different entries have different files.
      have key : ∀ l : List (K × Option Nat), (keys l).Nodup →
          (∀ k h, (k, some h) ∈ l → c.opened[h]? = some k) → (l.filterMap (·.2)).Nodup := by
        intro l
        induction l with
        | nil => intro _ _; simp
        | cons e l ih =>
          intro hn ho
          simp only [keys, List.map_cons, List.nodup_cons] at hn
          have ih := ih hn.2 (fun k h hk => ho k h (List.mem_cons_of_mem _ hk))
          obtain ⟨k, v⟩ := e
          cases v with
          | none => simpa using ih
          | some h =>
            have e0 : ((k, some h) :: l).filterMap (·.2) = h :: l.filterMap (·.2) := rfl
            rw [e0, List.nodup_cons]
            refine ⟨?_, ih⟩
            intro hin
            obtain ⟨⟨x, w⟩, h1, h2⟩ := List.mem_filterMap.mp hin
            simp only at h2
            subst h2
            have e1 := ho k h (by simp)
            have e2 := ho x h (List.mem_cons_of_mem _ h1)
            rw [e1] at e2
            simp only [Option.some.injEq] at e2
            subst e2
            exact hn.1 (List.mem_map_of_mem (f := (·.1)) h1)
      exact key c.entries inv.nodup inv.owner
    · intro a ha b hb hab
      subst hab
      obtain ⟨k, hk⟩ := (hmem a).mp hb
      exact inv.live k a hk ha
  · intro h
    simp only [closeFiles, List.mem_append, hmem]
    constructor
    · rintro (h1 | ⟨k, hk⟩)
      · exact inv.closedOpened h h1
      · exact (List.getElem?_eq_some_iff.mp (inv.owner k h hk)).1
    · exact inv.noLeak h

/-! ## C78: strings files stay open while they are among the most recently used -/

/-- The claim of C78. -/
def C78_kept_claim : Prop :=
  ∀ (maximum : Nat) (ops : List (Nat × Opening)), 0 < maximum →
    (runFiles maximum newFileCache ops).2.entries.map (·.1) =
      (recency (used ops (runFiles maximum newFileCache ops).1)).take maximum

/-- **C78** is false: looking up a missing file again evicts another file. -/
theorem C78_missing_file_evicts : ¬ C78_kept_claim := by
  intro h
  have := h 2 [(1, .present), (2, .missing), (2, .missing)] (by decide)
  revert this
  decide

/-- **C78** (partial): if no lookup is for a missing file, the cached files are those of the
identifiers used last, as many as fit. -/
theorem C78_kept_partial (maximum : Nat) (hm : 0 < maximum) (ops : List (K × Opening))
    (hops : ∀ op ∈ ops, op.2 ≠ .missing) :
    (runFiles maximum newFileCache ops).2.entries.map (·.1) =
      (recency (used ops (runFiles maximum newFileCache ops).1)).take maximum := by
  have key : ∀ (ops : List (K × Opening)) (c : FileCache K) (history : List K),
      CacheInv maximum c history → (∀ e ∈ c.entries, e.2 ≠ none) →
      keys c.entries = (recency history).take maximum → (∀ op ∈ ops, op.2 ≠ .missing) →
      keys (runFiles maximum c ops).2.entries =
        (recency (history ++ used ops (runFiles maximum c ops).1)).take maximum := by
    intro ops
    induction ops with
    | nil => intro c history _ _ h _; simpa [runFiles, used] using h
    | cons op ops ih =>
      intro c history inv hno hkeys hops
      obtain ⟨k, o⟩ := op
      have hops' : ∀ op ∈ ops, op.2 ≠ .missing := fun op h => hops op (List.mem_cons_of_mem _ h)
      have ho : o ≠ .missing := hops (k, o) (by simp)
      have hl := lookupFile_inv maximum hm c history inv k o
      have hstep : ∀ v, (lookupFile maximum c k o).1 = .ok v →
          (∀ e ∈ (lookupFile maximum c k o).2.entries, e.2 ≠ none) ∧
          keys (lookupFile maximum c k o).2.entries = (recency (history ++ [k])).take maximum := by
        intro v hv
        have hrn : (recency history).Nodup := by
          exact recency_nodup history
        unfold lookupFile at hv ⊢
        cases hg : odGet k c.entries with
        | none =>
          rw [hg] at hv
          cases o with
          | missing => exact absurd rfl ho
          | fails => simp at hv
          | present =>
            dsimp only
            rw [odMoveFront_odSet]
            have habs := (odGet_none k c.entries).mp hg
            have hpre := odEvict_prefix maximum c.entries
            have habs' : k ∉ keys (odEvict maximum c.entries).1 :=
              fun h => habs ((hpre.map (·.1)).subset h)
            rw [filter_absent k _ habs']
            refine ⟨?_, ?_⟩
            · intro e he
              rcases List.mem_cons.mp he with rfl | he
              · simp
              · exact hno e (hpre.subset he)
            · rw [recency_concat]
              have hkk : keys ((k, some c.opened.length) :: (odEvict maximum c.entries).1) =
                  k :: keys (odEvict maximum c.entries).1 := rfl
              rw [hkk]
              have hmax : maximum = maximum - 1 + 1 := by omega
              rw [hmax, List.take_succ_cons]
              congr 1
              -- The evicted one is the last of a full cache.
              have hev : keys (odEvict maximum c.entries).1 = (recency history).take (maximum - 1) := by
                unfold odEvict
                split
                · rename_i hfull
                  show keys (c.entries.dropLast) = _
                  unfold keys at hkeys ⊢
                  have hlen : (List.map (·.1) c.entries).length = c.entries.length := by simp
                  rw [hkeys, List.length_take] at hlen
                  rw [List.map_dropLast, hkeys, List.dropLast_eq_take, List.take_take,
                    List.length_take]
                  congr 1
                  omega
                · rename_i hfull
                  show keys c.entries = _
                  rw [hkeys]
                  have hlen : (keys c.entries).length = c.entries.length := by simp [keys]
                  rw [hkeys, List.length_take] at hlen
                  rw [List.take_of_length_le (by omega), List.take_of_length_le (by omega)]
              rw [← hmax, hev]
              -- The identifier is not among those.
              by_cases hin : k ∈ recency history
              · -- It is beyond the ones that are cached.
                have hsplit : recency history = (recency history).take maximum ++
                    (recency history).drop maximum := (List.take_append_drop _ _).symm
                have hnk : k ∉ (recency history).take maximum := by rw [← hkeys]; exact habs
                conv => rhs; rw [hsplit, List.filter_append]
                have hf : ((recency history).take maximum).filter (fun x => decide (x ≠ k)) =
                    (recency history).take maximum := by
                  rw [List.filter_eq_self]
                  intro x hx
                  have : x ≠ k := fun h => hnk (h ▸ hx)
                  simpa using this
                rw [hf, List.take_append_of_le_length, List.take_take]
                · congr 1; omega
                · have hlong : maximum < (recency history).length := by
                    by_contra hle
                    rw [List.take_of_length_le (by omega)] at hnk
                    exact hnk hin
                  simp only [List.length_take]
                  omega
              · have hf : (recency history).filter (fun x => decide (x ≠ k)) = recency history := by
                  rw [List.filter_eq_self]
                  intro x hx
                  have : x ≠ k := fun h => hin (h ▸ hx)
                  simpa using this
                rw [hf]
        | some w =>
          have hmem := (odGet_some k w c.entries inv.nodup).mp hg
          cases w with
          | none => exact absurd rfl (hno _ hmem)
          | some h =>
            dsimp only
            rw [odMoveFront_present k (some h) c.entries hg]
            refine ⟨?_, ?_⟩
            · intro e he
              rcases List.mem_cons.mp he with rfl | he
              · simp
              · exact hno e (List.mem_filter.mp he).1
            · have hkk : keys ((k, some h) :: c.entries.filter (fun e => decide (e.1 ≠ k))) =
                  k :: (keys c.entries).filter (fun x => decide (x ≠ k)) := by
                simp only [keys, List.map_cons]
                congr 1
                exact keys_filter k c.entries
              rw [hkk, recency_concat, hkeys]
              have hin : k ∈ (recency history).take maximum := by
                rw [← hkeys]; exact List.mem_map_of_mem (f := (·.1)) hmem
              have hmax : maximum = maximum - 1 + 1 := by omega
              conv => rhs; rw [hmax, List.take_succ_cons]
              congr 1
              have hsplit : recency history = (recency history).take maximum ++
                  (recency history).drop maximum := (List.take_append_drop _ _).symm
              have hlen : (((recency history).take maximum).filter (fun x => decide (x ≠ k))).length =
                  ((recency history).take maximum).length - 1 := by
                have hnd := hrn.sublist (List.take_sublist maximum (recency history))
                have he : ((recency history).take maximum).filter (fun x => decide (x ≠ k)) =
                    ((recency history).take maximum).erase k := by
                  rw [hnd.erase_eq_filter]
                  congr 1
                  funext x
                  by_cases hxk : x = k <;> simp [hxk, bne]
                rw [he, List.length_erase_of_mem hin]
              by_cases hlong : maximum ≤ (recency history).length
              · conv => rhs; rw [hsplit, List.filter_append]
                rw [List.take_left']
                rw [hlen, List.length_take]
                omega
              · rw [List.take_of_length_le (l := recency history) (by omega),
                  List.take_of_length_le]
                have := List.length_filter_le (fun x => decide (x ≠ k)) (recency history)
                rw [List.take_of_length_le (by omega)] at hlen
                omega
      rw [runFiles]
      generalize hr : lookupFile maximum c k o = r at hl hstep
      obtain ⟨r, c'⟩ := r
      dsimp only at hl hstep ⊢
      cases r with
      | error e =>
        have := hl.1 e rfl
        subst this
        simpa [used] using ih _ history inv hno hkeys hops'
      | ok v =>
        have := ih _ _ (hl.2 v rfl).1 (hstep v rfl).1 (hstep v rfl).2 hops'
        simpa [used, List.append_assoc] using this
  have := key ops newFileCache [] (cacheInv_new maximum) (by simp [newFileCache])
    (by simp [newFileCache, keys, recency]) hops
  simpa [keys] using this

/-! ## C30: the cache of image values -/

/-- The claim of C30: every lookup returns what is computed without a cache. -/
def C30_transparent_claim : Prop :=
  ∀ (S : Type) (percentS empty : S) (uuidtext : Bytes → Option (S × (Nat → Res (Option S))))
    (dsc : Bytes → Option (Nat → Bool → Res (Option (ImageValues S))))
    (ops : List ((Bytes × Nat) × Rest)),
    (runValues 8192 (computeValues percentS empty uuidtext dsc) [] ops).1 =
      ops.map (fun op => computeValues percentS empty uuidtext dsc op.1 op.2)

/-- **C30** is false: a dynamic reference is answered with the string of a static reference of the
same value. -/
theorem C30_key_too_small : ¬ C30_transparent_claim := by
  intro h
  have := h Nat 0 1 (fun _ => none)
    (fun _ => some (fun reference isDynamic => dscImageValues 0 (fun o => .ok o) isDynamic reference
      [⟨0, 10, 100, 0, 10, [1], 7⟩]))
    [(([1], 5), ⟨false, false, 0, 0, 0⟩), (([1], 5), ⟨true, false, 0, 0, 0⟩)]
  revert this
  decide +kernel

/-- **C30** is false: the load address of another process is used. -/
theorem C30_wrong_load_address : ¬ C30_transparent_claim := by
  intro h
  have := h Nat 0 1 (fun _ => some (7, fun o => .ok (some o))) (fun _ => none)
    [(([1], 5), ⟨false, true, 0x1000, 0, 0⟩), (([1], 5), ⟨false, true, 0x2000, 0, 0⟩)]
  revert this
  decide +kernel

theorem odGet_filter_ne (k k' : K) (l : List (K × V)) (h : k' ≠ k) :
    odGet k' (l.filter (fun e => e.1 ≠ k)) = odGet k' l := by
  induction l with
  | nil => rfl
  | cons e l ih =>
    by_cases he : e.1 = k
    · rw [List.filter_cons_of_neg (by simp [he]), ih]
      conv => rhs; unfold odGet
      rw [if_neg (by rw [he]; exact fun h' => h h'.symm)]
    · rw [List.filter_cons_of_pos (by simp [he])]
      unfold odGet
      rw [ih]

theorem odGet_prefix (k : K) (v : V) (a b : List (K × V)) (h : a <+: b) (hg : odGet k a = some v) :
    odGet k b = some v := by
  obtain ⟨t, rfl⟩ := h
  induction a with
  | nil => simp [odGet] at hg
  | cons e a ih =>
    rw [List.cons_append]
    unfold odGet at hg ⊢
    split
    · rename_i he; rw [if_pos he] at hg; exact hg
    · rename_i he; rw [if_neg he] at hg; exact ih hg

/-- **C30** (partial): for every history in which lookups with the same key are the same, every
lookup returns what is computed without a cache, whatever the computation and the size. -/
theorem C30_transparent_partial {X : Type} (maximum : Nat) (compute : K → X → Res V)
    (ops : List (K × X))
    (hsame : ∀ a ∈ ops, ∀ b ∈ ops, a.1 = b.1 → compute a.1 a.2 = compute b.1 b.2) :
    (runValues maximum compute [] ops).1 = ops.map (fun op => compute op.1 op.2) := by
  have key : ∀ (ops : List (K × X)) (c : List (K × V)),
      (∀ k v, odGet k c = some v → ∀ b ∈ ops, b.1 = k → compute b.1 b.2 = .ok v) →
      (∀ a ∈ ops, ∀ b ∈ ops, a.1 = b.1 → compute a.1 a.2 = compute b.1 b.2) →
      (runValues maximum compute c ops).1 = ops.map (fun op => compute op.1 op.2) := by
    intro ops
    induction ops with
    | nil => intro c _ _; rfl
    | cons op ops ih =>
      intro c hc hs
      obtain ⟨k, x⟩ := op
      have hs' : ∀ a ∈ ops, ∀ b ∈ ops, a.1 = b.1 → compute a.1 a.2 = compute b.1 b.2 :=
        fun a ha b hb => hs a (List.mem_cons_of_mem _ ha) b (List.mem_cons_of_mem _ hb)
      have hc' : ∀ k v, odGet k c = some v → ∀ b ∈ ops, b.1 = k → compute b.1 b.2 = .ok v :=
        fun k v h b hb => hc k v h b (List.mem_cons_of_mem _ hb)
      rw [runValues, List.map_cons]
      unfold lookupValues
      cases hg : odGet k c with
      | some v =>
        dsimp only
        rw [hc k v hg (k, x) (by simp) rfl]
        congr 1
        apply ih _ _ hs'
        intro k' v' hk'
        rw [odMoveFront_present k v c hg] at hk'
        by_cases h : k' = k
        · subst h
          simp only [odGet, if_true, Option.some.injEq] at hk'
          subst hk'
          exact hc' k' v hg
        · unfold odGet at hk'
          rw [if_neg (fun h' => h h'.symm), odGet_filter_ne k k' c h] at hk'
          exact hc' k' v' hk'
      | none =>
        dsimp only
        cases hcomp : compute k x with
        | error e => dsimp only; congr 1; exact ih c hc' hs'
        | ok v =>
          dsimp only
          congr 1
          apply ih _ _ hs'
          intro k' v' hk'
          rw [odMoveFront_odSet] at hk'
          by_cases h : k' = k
          · subst h
            simp only [odGet, if_true, Option.some.injEq] at hk'
            subst hk'
            intro b hb hbk
            rw [← hcomp]
            exact hs b (List.mem_cons_of_mem _ hb) (k', x) (by simp) hbk
          · unfold odGet at hk'
            rw [if_neg (fun h' => h h'.symm), odGet_filter_ne k k' _ h] at hk'
            exact hc' k' v' (odGet_prefix k' v' _ _ (odEvict_prefix maximum c) hk')
  exact key ops [] (by simp [odGet]) hsame

/-- The condition is needed: two lookups of one key, in a cache of one. -/
example : (runValues 1 (fun (k : Nat) (x : Nat) => (.ok (k + x) : Res Nat)) []
    [(1, 5), (2, 5), (1, 5), (1, 6)]).1 = [.ok 6, .ok 7, .ok 6, .ok 6] := by decide

/-! ## C79: the image of an absolute address -/

/-- The address is within the image.  Specification. -/
def UuidEntry.Contains (e : UuidEntry) (upper lower : Nat) : Prop :=
  e.loadUpper = upper ∧ e.loadLower ≤ lower ∧ lower < e.loadLower + e.size

/-- Images that do not overlap. -/
def Disjoint (es : List UuidEntry) : Prop :=
  es.Pairwise fun a b => ∀ upper lower, ¬ (a.Contains upper lower ∧ b.Contains upper lower)

/-- The claim of C79: among images that do not overlap, an address within an image is attributed to
that image. -/
def C79_image_claim : Prop :=
  ∀ (uuids : List Bytes) (es : List UuidEntry) (upper lower : Nat) (e : UuidEntry) (u : Bytes),
    Disjoint es → e ∈ es → e.Contains upper lower → uuids[e.uuidIndex]? = some u →
    (∀ e ∈ es, e.uuidIndex < uuids.length) →
    absoluteImage uuids upper lower es = .ok (some (u, e.loadLower ||| (e.loadUpper <<< 32)))

/-- **C79** is false: the first address of an image that follows another one directly is attributed
to the other one. -/
theorem C79_next_image_lost : ¬ C79_image_claim := by
  intro h
  have := h [[1], [2]] [⟨0, 0, 16, 0⟩, ⟨0, 16, 16, 1⟩] 0 16 ⟨0, 16, 16, 1⟩ [2]
    (by
      unfold Disjoint
      simp only [List.pairwise_cons, List.mem_cons, List.not_mem_nil, or_false, forall_eq,
        List.Pairwise.nil, and_true, false_implies, implies_true, UuidEntry.Contains]
      omega)
    (by simp) (by simp [UuidEntry.Contains]) rfl (by simp)
  revert this
  decide

/-- **C79** (partial): the claim holds of addresses that are not the end of another image. -/
theorem C79_image_partial (uuids : List Bytes) (es : List UuidEntry) (upper lower : Nat)
    (e : UuidEntry) (u : Bytes) (hd : Disjoint es) (he : e ∈ es) (hc : e.Contains upper lower)
    (hu : uuids[e.uuidIndex]? = some u)
    (hend : ∀ x ∈ es, x.loadUpper = upper → x.loadLower + x.size ≠ lower) :
    absoluteImage uuids upper lower es = .ok (some (u, e.loadLower ||| (e.loadUpper <<< 32))) := by
  induction es with
  | nil => simp at he
  | cons x es ih =>
    rw [Disjoint, List.pairwise_cons] at hd
    unfold absoluteImage
    by_cases hx : x.Contains upper lower
    · have hxe : e = x := by
        rcases List.mem_cons.mp he with h | h
        · exact h
        · exact absurd ⟨hx, hc⟩ (hd.1 e h upper lower)
      subst hxe
      obtain ⟨h1, h2, h3⟩ := hx
      rw [if_neg (by omega), if_pos (by omega), hu]
    · have hxe : e ∈ es := by
        rcases List.mem_cons.mp he with h | h
        · exact absurd (h ▸ hc) hx
        · exact h
      have ih := ih hd.2 hxe (fun x hx => hend x (List.mem_cons_of_mem _ hx))
      have hne := hend x (by simp)
      by_cases h1 : upper ≠ x.loadUpper ∨ lower < x.loadLower
      · rw [if_pos h1]; exact ih
      · rw [if_neg h1, if_neg ?_]
        · exact ih
        · intro h2
          have hup : x.loadUpper = upper := by omega
          have := hne hup
          exact hx ⟨hup, by omega, by omega⟩

/-- **C79** (partial): an image is only found for an address within it or at its end, and no image is
found only if there is none that contains the address. -/
theorem C79_sound_partial (uuids : List Bytes) (es : List UuidEntry) (upper lower : Nat) :
    (∀ r, absoluteImage uuids upper lower es = .ok (some r) →
      ∃ e ∈ es, e.loadUpper = upper ∧ e.loadLower ≤ lower ∧ lower ≤ e.loadLower + e.size ∧
        uuids[e.uuidIndex]? = some r.1 ∧ r.2 = e.loadLower ||| (upper <<< 32)) ∧
    (absoluteImage uuids upper lower es = .ok none → ∀ e ∈ es, ¬ e.Contains upper lower) := by
  induction es with
  | nil => simp [absoluteImage]
  | cons x es ih =>
    unfold absoluteImage
    by_cases h1 : upper ≠ x.loadUpper ∨ lower < x.loadLower
    · rw [if_pos h1]
      refine ⟨fun r hr => ?_, fun hr e he => ?_⟩
      · obtain ⟨e, he, h⟩ := ih.1 r hr
        exact ⟨e, List.mem_cons_of_mem _ he, h⟩
      · rcases List.mem_cons.mp he with rfl | he
        · rintro ⟨a, b, c⟩; omega
        · exact ih.2 hr e he
    · rw [if_neg h1]
      have hup : upper = x.loadUpper := by omega
      by_cases h2 : lower ≤ x.loadLower + x.size
      · rw [if_pos h2]
        cases hu : uuids[x.uuidIndex]? with
        | none => simp
        | some u =>
          simp only [Except.ok.injEq, Option.some.injEq, reduceCtorEq, false_implies, and_true]
          rintro r rfl
          refine ⟨x, by simp, hup.symm, by omega, h2, hu, ?_⟩
          rw [hup]
      · rw [if_neg h2]
        refine ⟨fun r hr => ?_, fun hr e he => ?_⟩
        · obtain ⟨e, he, h⟩ := ih.1 r hr
          exact ⟨e, List.mem_cons_of_mem _ he, h⟩
        · rcases List.mem_cons.mp he with rfl | he
          · rintro ⟨a, b, c⟩; omega
          · exact ih.2 hr e he

/-- Two images that do not touch. -/
example : absoluteImage [[1], [2]] 1 33 [⟨1, 0, 16, 0⟩, ⟨1, 32, 16, 1⟩] =
    .ok (some ([2], 32 + 2 ^ 32)) := by decide

/-- **C79**: the kind of strings file in the flags decides where the identifier comes from; other
flags do not matter. -/
theorem C79_kind (flags : Nat) (main dsc inline : Bytes) (absolute : Res (Option (Bytes × Nat))) :
    stringsFile flags (some main) (some dsc) (some inline) absolute =
      match flags / 2 % 8 with
      | 1 => .ok (some (main, 0))
      | 2 => .ok (some (dsc, 0))
      | 6 => .ok (some (dsc, 0))
      | 4 => absolute
      | 5 => .ok (some (inline, 0))
      | _ => .error .parseError := by
  have h : flags &&& 0x000E = flags / 2 % 8 * 2 := by
    apply Nat.eq_of_testBit_eq
    intro i
    have e1 : flags / 2 % 8 = (flags >>> 1) % 2 ^ 3 := by rw [Nat.shiftRight_eq_div_pow]; rfl
    have e2 : ∀ n : Nat, n * 2 = n <<< 1 := fun n => by rw [Nat.shiftLeft_eq]
    rw [e2, e1, Nat.testBit_and, Nat.testBit_shiftLeft, Nat.testBit_mod_two_pow,
      Nat.testBit_shiftRight]
    rcases i with _ | _ | _ | _ | i
    · simp
    · simp [Nat.testBit]
    · simp [Nat.testBit]
    · simp [Nat.testBit]
    · have : Nat.testBit 14 (i + 4) = false := by
        rw [Nat.testBit_lt_two_pow]
        have : 2 ^ 4 ≤ 2 ^ (i + 4) := Nat.pow_le_pow_right (by omega) (by omega)
        omega
      rw [this]
      simp
  unfold stringsFile
  simp only
  rw [h]
  have hlt : flags / 2 % 8 < 8 := Nat.mod_lt _ (by omega)
  generalize flags / 2 % 8 = n at hlt
  match n, hlt with
  | 0, _ => rfl
  | 1, _ => rfl
  | 2, _ => rfl
  | 3, _ => rfl
  | 4, _ => rfl
  | 5, _ => rfl
  | 6, _ => rfl
  | 7, _ => rfl

end Dtf.Unified
