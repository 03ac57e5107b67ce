import Verif.Py

/-!
# Data type maps of objects and how often they are made

`_GetDataTypeMap` (data_format.py 565-588), the dictionary of `__init__` (data_format.py 66) and what
`_ReadStructureFromByteStream` (data_format.py 652-656) and `_ReadStructureObjectFromFileObject`
(data_format.py 765-778) do with the map.

A data type map is an object: it has a definition and an identity.  The identity is the number of maps
that were made before it, in all objects of the program.  `CreateDataTypeMap` of dtFabric gives a map for
a name that is in the definition file and `None` for one that is not.  A map is never false in Python, as
the class has neither `__bool__` nor `__len__`; a fabric is not false either.
-/

namespace Dtf.TypeMaps

open Py

/-- The names of data types. -/
abbrev Name := List Char

/-- A data type map: its definition and its identity. -/
structure TypeMap (δ : Type) where
  definition : δ
  identity : Nat

/-- The definitions of a definition file (data_format.py 824-844): the fabric of a class. -/
abbrev Fabric (δ : Type) := Name → Option δ

/-- The dictionary of an object, in order of assignment, the last first. -/
abbrev Cache (δ : Type) := List (Name × Option (TypeMap δ))

/-- `self._data_type_maps.get(name)`: `none` also for a name for which `None` was kept. -/
def Cache.get {δ : Type} (c : Cache δ) (name : Name) : Option (TypeMap δ) :=
  match c.find? (fun e => e.1 == name) with
  | some e => e.2
  | none => none

/-- All objects of the program: the dictionaries, and the number of maps made so far. -/
structure World (δ : Type) where
  caches : Nat → Cache δ
  made : Nat

/-- Objects as they are after `__init__` (data_format.py 66). -/
def World.init (δ : Type) : World δ := ⟨fun _ => [], 0⟩

/-- `CreateDataTypeMap` of dtFabric. -/
def create {δ : Type} (f : Fabric δ) (name : Name) (made : Nat) : Option (TypeMap δ) × Nat :=
  match f name with
  | some d => (some ⟨d, made⟩, made + 1)
  | none => (none, made)

/-- The dictionaries with that of an object changed. -/
def setCache {δ : Type} (caches : Nat → Cache δ) (o : Nat) (c : Cache δ) : Nat → Cache δ :=
  fun i => if i = o then c else caches i

/-- `_GetDataTypeMap` (data_format.py 565-588) of object `o`; `fabrics` are those of the classes of the
objects, `none` if the class has none. -/
def getMap {δ : Type} (fabrics : Nat → Option (Fabric δ)) (w : World δ) (o : Nat) (name : Name) :
    Res (Option (TypeMap δ)) × World δ :=
  match fabrics o with
  | none => (.error .runtimeError, w)
  | some f =>
    match (w.caches o).get name with
    | some m => (.ok (some m), w)
    | none =>
      let r := create f name w.made
      (.ok r.1, ⟨setCache w.caches o ((name, r.1) :: w.caches o), r.2⟩)

/-- A sequence of requests, each of an object and a name. -/
def run {δ : Type} (fabrics : Nat → Option (Fabric δ)) :
    World δ → List (Nat × Name) → List (Res (Option (TypeMap δ))) × World δ
  | w, [] => ([], w)
  | w, q :: qs =>
    let r := getMap fabrics w q.1 q.2
    let rest := run fabrics r.2 qs
    (r.1 :: rest.1, rest.2)

/-- What follows a request in `_ReadStructureFromByteStream` (data_format.py 652-656): a missing byte
stream or a missing map is a ValueError; `map` is `MapByteStream` with its errors changed. -/
def readStream {δ σ : Type} (map : δ → Bytes → Res σ) (m : Option (TypeMap δ)) (data : Bytes) : Res σ :=
  if data = [] then .error .valueError
  else match m with
    | none => .error .valueError
    | some m => map m.definition data

/-- `_ReadStructureObjectFromFileObject` (data_format.py 765-778).  `None` has no `GetSizeHint`
(data_format.py 703), which is an AttributeError.  `read` is the rest of `_ReadStructureFromFileObject`
and `shown` is `_DebugPrintStructureObject` with the debug information of the call or of the class. -/
def readObject {δ σ : Type} (read : δ → Res σ) (shown : σ → Res Unit) (debug : Bool)
    (m : Res (Option (TypeMap δ))) : Res σ := do
  match ← m with
  | none => .error .attributeError
  | some m =>
    let s ← read m.definition
    if debug then
      shown s
    pure s

/-! ## Specification -/

/-- What a request gives by the definition files alone: nothing is remembered. -/
def Told {δ : Type} (fabrics : Nat → Option (Fabric δ)) (q : Nat × Name) :
    Res (Option (TypeMap δ)) → Prop
  | .error e => fabrics q.1 = none ∧ e = .runtimeError
  | .ok none => ∃ f, fabrics q.1 = some f ∧ f q.2 = none
  | .ok (some m) => ∃ f, fabrics q.1 = some f ∧ f q.2 = some m.definition

/-- A request for which a map is given. -/
def Defined {δ : Type} (fabrics : Nat → Option (Fabric δ)) (q : Nat × Name) : Prop :=
  ∃ f d, fabrics q.1 = some f ∧ f q.2 = some d

/-! ## Lemmas -/

theorem get_cons {δ : Type} (n : Name) (v : Option (TypeMap δ)) (c : Cache δ) (name : Name) :
    Cache.get ((n, v) :: c) name = if n = name then v else c.get name := by
  unfold Cache.get
  by_cases h : n = name
  · simp [h]
  · simp [h]

/-- The dictionaries agree with the definition files, and the identities of the maps in them are those of
maps that were made, one for each object and name. -/
structure Good {δ : Type} (fabrics : Nat → Option (Fabric δ)) (w : World δ) : Prop where
  told : ∀ o name m, (w.caches o).get name = some m →
    ∃ f, fabrics o = some f ∧ f name = some m.definition
  below : ∀ o name m, (w.caches o).get name = some m → m.identity < w.made
  apart : ∀ o name m o' name' m', (w.caches o).get name = some m → (w.caches o').get name' = some m' →
    m.identity = m'.identity → o = o' ∧ name = name'

theorem good_init {δ : Type} (fabrics : Nat → Option (Fabric δ)) : Good fabrics (World.init δ) := by
  constructor <;> intros <;> simp_all [World.init, Cache.get]

/-- What is in the dictionaries after a map was put into one of them. -/
theorem get_setCache {δ : Type} (caches : Nat → Cache δ) (o : Nat) (name : Name) (v : Option (TypeMap δ))
    (o' : Nat) (name' : Name) :
    (setCache caches o ((name, v) :: caches o) o').get name' =
      if o' = o ∧ name = name' then v else (caches o').get name' := by
  unfold setCache
  by_cases ho : o' = o
  · subst ho
    simp [get_cons]
  · simp [ho]

theorem getMap_good {δ : Type} (fabrics : Nat → Option (Fabric δ)) (w : World δ) (h : Good fabrics w)
    (q : Nat × Name) :
    Good fabrics (getMap fabrics w q.1 q.2).2 ∧ Told fabrics q (getMap fabrics w q.1 q.2).1 ∧
      (∀ m, (getMap fabrics w q.1 q.2).1 = .ok (some m) →
        ((getMap fabrics w q.1 q.2).2.caches q.1).get q.2 = some m) ∧
      (∀ o name m, (w.caches o).get name = some m →
        ((getMap fabrics w q.1 q.2).2.caches o).get name = some m) := by
  obtain ⟨o, name⟩ := q
  unfold getMap
  cases hf : fabrics o with
  | none => exact ⟨h, ⟨hf, rfl⟩, fun m hm => by simp at hm, fun _ _ _ hm => hm⟩
  | some f =>
    cases hc : (w.caches o).get name with
    | some m =>
      simp only
      refine ⟨h, h.told o name m hc, fun m' hm => ?_, fun _ _ _ hm => hm⟩
      cases hm
      exact hc
    | none =>
      simp only
      unfold create
      cases hd : f name with
      | none =>
        simp only
        have hget : ∀ o' name', (setCache w.caches o ((name, none) :: w.caches o) o').get name' =
            (w.caches o').get name' := by
          intro o' name'
          rw [get_setCache]
          split
          · rename_i hh
            obtain ⟨rfl, rfl⟩ := hh
            exact hc.symm
          · rfl
        refine ⟨⟨?_, ?_, ?_⟩, ⟨f, hf, hd⟩, fun m hm => by simp at hm, ?_⟩
        · intro o' name' m hm
          rw [hget] at hm
          exact h.told _ _ _ hm
        · intro o' name' m hm
          rw [hget] at hm
          exact h.below _ _ _ hm
        · intro o1 n1 m1 o2 n2 m2 h1 h2
          rw [hget] at h1 h2
          exact h.apart _ _ _ _ _ _ h1 h2
        · intro o' name' m hm
          rw [hget]
          exact hm
      | some d =>
        simp only
        refine ⟨⟨?_, ?_, ?_⟩, ⟨f, hf, hd⟩, ?_, ?_⟩
        · intro o' name' m hm
          rw [get_setCache] at hm
          split at hm
          · rename_i hh
            obtain ⟨rfl, rfl⟩ := hh
            cases hm
            exact ⟨f, hf, hd⟩
          · exact h.told _ _ _ hm
        · intro o' name' m hm
          rw [get_setCache] at hm
          split at hm
          · cases hm
            exact Nat.lt_succ_self _
          · exact Nat.lt_succ_of_lt (h.below _ _ _ hm)
        · intro o1 n1 m1 o2 n2 m2 h1 h2 he
          rw [get_setCache] at h1 h2
          split at h1 <;> split at h2
          · rename_i a b
            exact ⟨a.1.trans b.1.symm, a.2.symm.trans b.2⟩
          · cases h1
            have := h.below _ _ _ h2
            simp only at he
            omega
          · cases h2
            have := h.below _ _ _ h1
            simp only at he
            omega
          · exact h.apart _ _ _ _ _ _ h1 h2 he
        · intro m hm
          cases hm
          rw [get_setCache]
          simp
        · intro o' name' m hm
          rw [get_setCache]
          split
          · rename_i hh
            obtain ⟨rfl, rfl⟩ := hh
            rw [hc] at hm
            cases hm
          · exact hm

theorem run_good {δ : Type} (fabrics : Nat → Option (Fabric δ)) (qs : List (Nat × Name)) :
    ∀ w, Good fabrics w →
      Good fabrics (run fabrics w qs).2 ∧
      (run fabrics w qs).1.length = qs.length ∧
      (∀ (i : Nat) q r, qs[i]? = some q → (run fabrics w qs).1[i]? = some r →
        Told fabrics q r ∧
        ∀ m, r = .ok (some m) → ((run fabrics w qs).2.caches q.1).get q.2 = some m) ∧
      (∀ o name m, (w.caches o).get name = some m →
        ((run fabrics w qs).2.caches o).get name = some m) := by
  induction qs with
  | nil => intro w h; exact ⟨h, rfl, fun i q r hq => by simp at hq, fun _ _ _ hm => hm⟩
  | cons q qs ih =>
    intro w h
    obtain ⟨hg, ht, hk, hm⟩ := getMap_good fabrics w h q
    obtain ⟨ig, il, it, im⟩ := ih _ hg
    refine ⟨ig, by simp [run, il], ?_, fun o n m hh => im _ _ _ (hm _ _ _ hh)⟩
    intro i q' r hq hr
    cases i with
    | zero =>
      simp only [List.getElem?_cons_zero, Option.some.injEq] at hq
      subst hq
      simp only [run, List.getElem?_cons_zero, Option.some.injEq] at hr
      subst hr
      exact ⟨ht, fun m he => im _ _ _ (hk m he)⟩
    | succ i =>
      simp only [List.getElem?_cons_succ] at hq
      simp only [run, List.getElem?_cons_succ] at hr
      exact it i q' r hq hr

theorem getMap_made {δ : Type} (fabrics : Nat → Option (Fabric δ)) (w : World δ)
    (q : Nat × Name) (keys : List (Nat × Name)) (hn : keys.Nodup)
    (hk : ∀ q, q ∈ keys ↔ ∃ m, (w.caches q.1).get q.2 = some m) (hm : w.made = keys.length) :
    ∃ keys' : List (Nat × Name), keys'.Nodup ∧
      (∀ q', q' ∈ keys' ↔ ∃ m, ((getMap fabrics w q.1 q.2).2.caches q'.1).get q'.2 = some m) ∧
      (getMap fabrics w q.1 q.2).2.made = keys'.length ∧
      (∀ q', q' ∈ keys' ↔ q' ∈ keys ∨ (q' = q ∧ Defined fabrics q')) := by
  obtain ⟨o, name⟩ := q
  unfold getMap
  cases hf : fabrics o with
  | none =>
    refine ⟨keys, hn, hk, hm, fun q' => ⟨Or.inl, ?_⟩⟩
    rintro (h' | ⟨rfl, f, d, hf', _⟩)
    · exact h'
    · rw [hf] at hf'
      cases hf'
  | some f =>
    cases hc : (w.caches o).get name with
    | some m =>
      simp only
      refine ⟨keys, hn, hk, hm, fun q' => ⟨Or.inl, ?_⟩⟩
      rintro (h' | ⟨rfl, _⟩)
      · exact h'
      · exact (hk _).2 ⟨m, hc⟩
    | none =>
      simp only
      unfold create
      cases hd : f name with
      | none =>
        simp only
        refine ⟨keys, hn, ?_, hm, fun q' => ⟨Or.inl, ?_⟩⟩
        · intro q'
          rw [hk, get_setCache]
          split
          · rename_i hh
            rw [hh.1, ← hh.2, hc]
          · rfl
        · rintro (h' | ⟨rfl, f', d, hf', hd'⟩)
          · exact h'
          · rw [hf] at hf'
            cases hf'
            rw [hd] at hd'
            cases hd'
      | some d =>
        simp only
        refine ⟨(o, name) :: keys, ?_, ?_, by simp [hm], ?_⟩
        · refine List.nodup_cons.2 ⟨fun hmem => ?_, hn⟩
          obtain ⟨m, hm'⟩ := (hk _).1 hmem
          simp only [hc] at hm'
          cases hm'
        · intro q'
          rw [get_setCache, List.mem_cons, hk]
          split
          · rename_i hh
            exact ⟨fun _ => ⟨_, rfl⟩, fun _ => Or.inl (Prod.ext hh.1 hh.2.symm)⟩
          · rename_i hh
            refine ⟨?_, Or.inr⟩
            rintro (rfl | h')
            · exact absurd ⟨rfl, rfl⟩ hh
            · exact h'
        · intro q'
          rw [List.mem_cons]
          constructor
          · rintro (rfl | h')
            · exact Or.inr ⟨rfl, f, d, hf, hd⟩
            · exact Or.inl h'
          · rintro (h' | ⟨rfl, _⟩)
            · exact Or.inr h'
            · exact Or.inl rfl

theorem run_made {δ : Type} (fabrics : Nat → Option (Fabric δ)) (qs : List (Nat × Name)) :
    ∀ (w : World δ) (keys : List (Nat × Name)), Good fabrics w → keys.Nodup →
      (∀ q, q ∈ keys ↔ ∃ m, (w.caches q.1).get q.2 = some m) → w.made = keys.length →
      ∃ keys' : List (Nat × Name), keys'.Nodup ∧ (run fabrics w qs).2.made = keys'.length ∧
        (∀ q, q ∈ keys' ↔ q ∈ keys ∨ (q ∈ qs ∧ Defined fabrics q)) := by
  induction qs with
  | nil => intro w keys _ hn _ hm; exact ⟨keys, hn, hm, by simp⟩
  | cons q qs ih =>
    intro w keys h hn hk hm
    obtain ⟨k1, n1, h1, m1, e1⟩ := getMap_made fabrics w q keys hn hk hm
    obtain ⟨k2, n2, m2, e2⟩ := ih _ k1 (getMap_good fabrics w h q).1 n1 h1 m1
    refine ⟨k2, n2, m2, fun q' => ?_⟩
    rw [e2, e1, List.mem_cons]
    constructor
    · rintro ((h' | ⟨a, b⟩) | ⟨a, b⟩)
      · exact Or.inl h'
      · exact Or.inr ⟨Or.inl a, b⟩
      · exact Or.inr ⟨Or.inr a, b⟩
    · rintro (h' | ⟨a | a, b⟩)
      · exact Or.inl (Or.inl h')
      · exact Or.inl (Or.inr ⟨a, b⟩)
      · exact Or.inr ⟨a, b⟩

/-! ## C186 -/

/-- Whatever was requested before, of whichever objects, a request gives the definition of the name in
the definition file of the class of the object; `None` exactly if the file does not define it; a
RuntimeError exactly if the class has no definition file. -/
theorem C186_definition {δ : Type} (fabrics : Nat → Option (Fabric δ)) (qs : List (Nat × Name)) :
    (run fabrics (World.init δ) qs).1.length = qs.length ∧
    ∀ (i : Nat) q r, qs[i]? = some q → (run fabrics (World.init δ) qs).1[i]? = some r →
      Told fabrics q r := by
  obtain ⟨_, hl, ht, _⟩ := run_good fabrics qs _ (good_init fabrics)
  exact ⟨hl, fun i q r hq hr => (ht i q r hq hr).1⟩

/-- Two requests are given the same map exactly if they are for the same name of the same object. -/
theorem C186_identity {δ : Type} (fabrics : Nat → Option (Fabric δ)) (qs : List (Nat × Name))
    (i j : Nat) (q q' : Nat × Name) (m m' : TypeMap δ) (hi : qs[i]? = some q) (hj : qs[j]? = some q')
    (hm : (run fabrics (World.init δ) qs).1[i]? = some (.ok (some m)))
    (hm' : (run fabrics (World.init δ) qs).1[j]? = some (.ok (some m'))) :
    m.identity = m'.identity ↔ q = q' := by
  obtain ⟨hg, _, ht, _⟩ := run_good fabrics qs _ (good_init fabrics)
  have h1 := (ht i q _ hi hm).2 m rfl
  have h2 := (ht j q' _ hj hm').2 m' rfl
  constructor
  · intro he
    obtain ⟨a, b⟩ := hg.apart _ _ _ _ _ _ h1 h2 he
    exact Prod.ext a b
  · rintro rfl
    rw [h1] at h2
    cases h2
    rfl

/-- For a name that is defined a map is given each time. -/
theorem C186_given {δ : Type} (fabrics : Nat → Option (Fabric δ)) (qs : List (Nat × Name)) (i : Nat)
    (q : Nat × Name) (hi : qs[i]? = some q) (hd : Defined fabrics q) :
    ∃ m, (run fabrics (World.init δ) qs).1[i]? = some (.ok (some m)) := by
  obtain ⟨hl, ht⟩ := C186_definition fabrics qs
  have hlt : i < (run fabrics (World.init δ) qs).1.length := by
    rw [hl]
    exact (List.getElem?_eq_some_iff.1 hi).1
  have hr := List.getElem?_eq_getElem hlt
  obtain ⟨f, d, hf, hfd⟩ := hd
  have := ht i q _ hi hr
  revert this hr
  generalize (run fabrics (World.init δ) qs).1[i] = r
  intro hr this
  match r, this with
  | .error e, this => exact absurd (hf.symm.trans this.1) (by simp)
  | .ok none, this =>
    obtain ⟨f', hf', hn⟩ := this
    rw [hf] at hf'
    cases hf'
    rw [hfd] at hn
    cases hn
  | .ok (some m), _ => exact ⟨m, hr⟩

/-- A name that is not defined is refused when a structure is read by it: with a ValueError for data and
an AttributeError for a file, never with a ParseError, with and without debug mode. -/
theorem C186_undefined {δ σ : Type} (fabrics : Nat → Option (Fabric δ)) (qs : List (Nat × Name)) (i : Nat)
    (q : Nat × Name) (f : Fabric δ) (hi : qs[i]? = some q) (hf : fabrics q.1 = some f)
    (hu : f q.2 = none) (map : δ → Bytes → Res σ) (read : δ → Res σ) (shown : σ → Res Unit)
    (debug : Bool) (data : Bytes) :
    (run fabrics (World.init δ) qs).1[i]? = some (.ok none) ∧
    readStream map none data = .error .valueError ∧
    readObject read shown debug (.ok none) = .error .attributeError := by
  obtain ⟨hl, ht⟩ := C186_definition fabrics qs
  have hlt : i < (run fabrics (World.init δ) qs).1.length := by
    rw [hl]
    exact (List.getElem?_eq_some_iff.1 hi).1
  have hr := List.getElem?_eq_getElem hlt
  refine ⟨?_, ?_, rfl⟩
  · have := ht i q _ hi hr
    revert this hr
    generalize (run fabrics (World.init δ) qs).1[i] = r
    intro hr this
    match r, this with
    | .error e, this => exact absurd (hf.symm.trans this.1) (by simp)
    | .ok none, this => exact hr
    | .ok (some m), this =>
      obtain ⟨f', hf', hn⟩ := this
      rw [hf] at hf'
      cases hf'
      rw [hu] at hn
      cases hn
  · unfold readStream
    split <;> rfl

/-- What is read by a name that is defined is what its definition gives, whatever was requested before.
Debug mode changes it only if the structure cannot be shown, and then to the error of that. -/
theorem C186_read {δ σ : Type} (fabrics : Nat → Option (Fabric δ)) (qs : List (Nat × Name)) (i : Nat)
    (q : Nat × Name) (f : Fabric δ) (d : δ) (r : Res (Option (TypeMap δ))) (hi : qs[i]? = some q)
    (hf : fabrics q.1 = some f) (hd : f q.2 = some d)
    (hr : (run fabrics (World.init δ) qs).1[i]? = some r) (read : δ → Res σ) (shown : σ → Res Unit) :
    readObject read shown false r = read d ∧
    (∀ s, read d = .ok s → shown s = .ok () → readObject read shown true r = .ok s) ∧
    (∀ s e, read d = .ok s → shown s = .error e → readObject read shown true r = .error e) ∧
    (∀ e, read d = .error e → readObject read shown true r = .error e) := by
  obtain ⟨m, hm⟩ := C186_given fabrics qs i q hi ⟨f, d, hf, hd⟩
  rw [hr] at hm
  cases hm
  obtain ⟨f', hf', hfd⟩ := (C186_definition fabrics qs).2 i q _ hi hr
  rw [hf] at hf'
  cases hf'
  rw [hd] at hfd
  cases hfd
  refine ⟨?_, ?_, ?_, ?_⟩
  · unfold readObject
    cases h : read m.definition <;> simp [h, bind, Except.bind, pure, Except.pure]
  · intro s h1 h2
    simp [readObject, h1, h2, bind, Except.bind, pure, Except.pure]
  · intro s e h1 h2
    simp [readObject, h1, h2, bind, Except.bind]
  · intro e h1
    simp [readObject, h1, bind, Except.bind]

/-- The number of maps that are made is that of the different requests for which there is a definition. -/
theorem C186_made {δ : Type} (fabrics : Nat → Option (Fabric δ)) (qs : List (Nat × Name))
    (keys : List (Nat × Name)) (hn : keys.Nodup) (hk : ∀ q, q ∈ keys ↔ q ∈ qs ∧ Defined fabrics q) :
    (run fabrics (World.init δ) qs).2.made = keys.length := by
  obtain ⟨k, n, m, e⟩ := run_made fabrics qs (World.init δ) [] (good_init fabrics) List.nodup_nil
    (by intro q; simp [World.init, Cache.get]) rfl
  rw [m]
  refine ((List.perm_ext_iff_of_nodup n hn).2 fun q => ?_).length_eq
  rw [e, hk]
  simp

/-- A definition file with the structures `header` and `record`, used by objects 0 and 1; object 2 has a
class without definition file. -/
def sample : Nat → Option (Fabric Nat) := fun o =>
  if o = 2 then none
  else some fun n => if n = "header".toList then some 10 else if n = "record".toList then some 20 else none

/-- Eight requests: three maps are made, one is given three times. -/
def sampleRequests : List (Nat × Name) :=
  [(0, "header".toList), (0, "record".toList), (1, "header".toList), (0, "header".toList),
    (2, "header".toList), (0, "footer".toList), (0, "header".toList), (0, "footer".toList)]

example : ((run sample (World.init Nat) sampleRequests).1.map fun r =>
      match r with
      | .ok (some m) => (m.definition, m.identity)
      | .ok none => (0, 0)
      | .error _ => (1, 1)) =
    [(10, 0), (20, 1), (10, 2), (10, 0), (1, 1), (0, 0), (10, 0), (0, 0)] := by decide +kernel

example : (run sample (World.init Nat) sampleRequests).2.made = 3 := by
  have hd : ∀ q, q ∈ [(0, "header".toList), (0, "record".toList), (1, "header".toList)] ↔
      q ∈ sampleRequests ∧ Defined sample q := by
    have key : ∀ q ∈ sampleRequests, (q ∈ [(0, "header".toList), (0, "record".toList), (1, "header".toList)] ↔
        ((sample q.1).bind fun f => f q.2).isSome = true) := by decide +kernel
    have hdef : ∀ q, Defined sample q ↔ ((sample q.1).bind fun f => f q.2).isSome = true := by
      intro q
      unfold Defined
      cases sample q.1 with
      | none => simp
      | some f => simp [Option.isSome_iff_exists]
    intro q
    constructor
    · intro h
      have hs : q ∈ sampleRequests := by
        revert h
        simp only [sampleRequests, List.mem_cons, List.not_mem_nil, or_false]
        rintro (h | h | h) <;> simp [h]
      exact ⟨hs, (hdef q).2 ((key q hs).1 h)⟩
    · rintro ⟨hs, h⟩
      exact (key q hs).2 ((hdef q).1 h)
  exact C186_made sample sampleRequests _ (by decide +kernel) hd

example : Defined sample (0, "record".toList) := ⟨_, 20, rfl, by decide +kernel⟩

end Dtf.TypeMaps
