import Verif.Wmi.Mapping

/-!
# Classes, namespaces and cells of the WMI repository (C40, C88, C90, C91, C92)
-/

namespace Dtf.Wmi
open Py DataFormat Text

abbrev Str := List Char

/-! ## Model: class value data maps -/

/-- A property of a class definition; the type qualifier is missing if it is empty. -/
structure PropertyDef where
  name : Str
  dataType : Nat
  offset : Nat
  qualifier : Option Str
deriving DecidableEq, Repr

structure ClassDef where
  name : Str
  super : Option Str
  properties : List PropertyDef
deriving DecidableEq, Repr

structure PropertyMap where
  name : Str
  dataType : Nat
  offset : Nat
  size : Nat
  qualifier : Str
deriving DecidableEq, Repr

/-- `_PROPERTY_TYPE_VALUE_DATA_SIZE` (wmi_repository.py 51-63) and its default (114-116). -/
def valueSize : Nat → Nat
  | 0x02 => 2 | 0x03 => 4 | 0x04 => 4 | 0x05 => 8 | 0x0B => 2 | 0x10 => 1 | 0x11 => 1 | 0x12 => 2
  | 0x13 => 4 | 0x14 => 8 | 0x15 => 8 | _ => 4

/-- The property map of a property with a type qualifier (wmi_repository.py 114-127). -/
def propertyMap (p : PropertyDef) (qualifier : Str) : PropertyMap :=
  ⟨p.name, p.dataType, p.offset, valueSize p.dataType,
    (qualifier.map Char.toLower).takeWhile (· ≠ ':')⟩

structure BuildState where
  properties : List (Str × PropertyMap)
  largest : Option PropertyMap
deriving DecidableEq, Repr

/-- The body of the loop of `Build` (wmi_repository.py 101-137).  The dictionary is a list with the last
set first.  Names are lowered as in ASCII. -/
def buildStep (st : BuildState) (p : PropertyDef) : Res BuildState :=
  match p.qualifier with
  | some (c :: cs) =>
    let m := propertyMap p (c :: cs)
    .ok ⟨(p.name.map Char.toLower, m) :: st.properties,
      match st.largest with
      | none => some m
      | some l => if l.offset < p.offset then some m else some l⟩
  | _ =>
    if (st.properties.lookup (p.name.map Char.toLower)).isSome then .ok st else .error .parseError

def buildLoop : List PropertyDef → BuildState → Res BuildState
  | [], st => .ok st
  | p :: ps, st =>
    match buildStep st p with
    | .error e => .error e
    | .ok st => buildLoop ps st

structure ClassMap where
  className : Str
  derivation : List Str
  super : Option Str
  dynasty : Option Str
  properties : List (Str × PropertyMap)
  propertiesSize : Nat
deriving DecidableEq, Repr

/-- `ClassValueDataMap.Build` (wmi_repository.py 75-142). -/
def buildMap (classes : List ClassDef) : Res ClassMap :=
  match classes.getLast? with
  | none => .error .indexError
  | some c =>
    let derivation := (classes.dropLast.map (·.name)).reverse
    match buildLoop (classes.flatMap (·.properties)) ⟨[], none⟩ with
    | .error e => .error e
    | .ok st =>
      .ok ⟨c.name, derivation, derivation[0]?, derivation[1]?, st.properties,
        match st.largest with | none => 0 | some m => m.offset + m.size⟩

/-- The loop over the super classes of `_GetClassValueMapByHash` (wmi_repository.py 3586-3603): the class
definitions from the base class on.  A super class that is missing is an attribute error, from the making
of the message.  `none` is out of fuel. -/
def chainLoop (find : Str → Option ClassDef) : Nat → ClassDef → List ClassDef → Option (Res (List ClassDef))
  | 0, _, _ => none
  | fuel + 1, c, acc =>
    match c.super with
    | none | some [] => some (.ok (c :: acc))
    | some (s :: ss) =>
      match find (s :: ss) with
      | none => some (.error .attributeError)
      | some d => chainLoop find fuel d (c :: acc)

/-! ## Model: namespaces -/

structure NamespaceState (H : Type) where
  known : List (H × Str)
  found : List Str
deriving DecidableEq, Repr

/-- The name of a namespace in another (wmi_repository.py 4171). -/
def nested (parent name : Str) : Str := parent ++ '\\' :: name

/-- The body of the inner loop (wmi_repository.py 4158-4177), with the hashes that are not known. -/
def visit {H : Type} [DecidableEq H] (hash : Str → H) (children : H → List Str)
    (st : NamespaceState H × List H) (h : H) : NamespaceState H × List H :=
  match st.1.known.lookup h with
  | none => (st.1, st.2 ++ [h])
  | some parent =>
    (⟨((children h).map (fun n => (hash (nested parent n), nested parent n))).reverse ++ st.1.known,
      st.1.found ++ (children h).map (nested parent)⟩, st.2)

/-- A number of rounds.  A set is iterated over in any order, which is given for each of them. -/
def rounds {H : Type} [DecidableEq H] (hash : Str → H) (children : H → List Str) (order : Nat → List H → List H) :
    Nat → NamespaceState H × List H → NamespaceState H × List H
  | 0, st => st
  | n + 1, st => rounds hash children order n ((order n st.2).foldl (visit hash children) (st.1, []))

/-- `_ReadNamespacesFromObjectRecords` (wmi_repository.py 4151-4179), from the hashes of the namespaces in
the keys and the names of the instances in each of them on. -/
def namespaces {H : Type} [DecidableEq H] (hash : Str → H) (children : H → List Str)
    (order : Nat → List H → List H) (common : List Str) (parents : List H) : List Str :=
  (rounds hash children order 5 (⟨(common.map (fun n => (hash n, n))).reverse, []⟩, parents)).1.found

/-! ## Model: cells -/

/-- What is known of the two nodes. -/
structure Nodes where
  root : Option Nat
  system : Option Nat
deriving DecidableEq, Repr

/-- The size of a cell at an offset (wmi_repository.py 1679-1713; wmi_repository.yaml 940-952): the data must
be there, and sizes 1 to 3 are refused. -/
def cellSize (data : Bytes) (offset : Nat) : Res Nat :=
  match dataAt data offset 4 with
  | .error e => .error e
  | .ok b =>
    let size := leNat b
    let masked := size % 2 ^ 27
    if masked = 0 then .ok size
    else if masked < 4 then .error .parseError
    else
      match dataAt data offset masked with
      | .error e => .error e
      | .ok _ => .ok size

/-- The loop of `ReadFileObject` of the repository file (wmi_repository.py 2111-2137); `none` is out of
fuel. -/
def cellLoop (data : Bytes) (rootCell systemCell : Nat) : Nat → Nat → Nat → Nat → Nodes → Option (Res Nodes)
  | 0, _, _, _, _ => none
  | fuel + 1, offset, nextBin, number, nodes =>
    if offset < data.length then
      let bin : Res (Nat × Nat) :=
        if offset = nextBin then
          match dataAt data offset 4 with
          | .error e => .error e
          | .ok b => .ok (offset + 4, nextBin + leNat b)
        else .ok (offset, nextBin)
      match bin with
      | .error e => some (.error e)
      | .ok (offset, nextBin) =>
        match cellSize data offset with
        | .error e => some (.error e)
        | .ok size =>
          if size = 0 then some (.ok nodes)
          else
            let nodes : Nodes :=
              if rootCell = number then { nodes with root := some (offset + 4) }
              else if systemCell = number then { nodes with system := some (offset + 4) }
              else nodes
            if nodes.root.isSome ∧ nodes.system.isSome then some (.ok nodes)
            else cellLoop data rootCell systemCell fuel (offset + size % 2 ^ 27) nextBin (number + 1) nodes
    else some (.ok nodes)

/-- `ReadFileObject` of the repository file (wmi_repository.py 2087-2137), without debug output. -/
def readCells (data : Bytes) (fuel : Nat) : Option (Res Nodes) :=
  match dataAt data 0 40 with
  | .error e => some (.error e)
  | .ok h => cellLoop data (leNat (slice h 4 8)) (leNat (slice h 0 4)) fuel 40 (leNat (slice h 36 40)) 0 ⟨none, none⟩

/-! ## The specification -/

/-- A property has a type qualifier. -/
def Typed (p : PropertyDef) : Prop := ∃ c cs, p.qualifier = some (c :: cs)

/-- A property defines a name, whatever its case. -/
def Defines (p : PropertyDef) (k : Str) : Prop := Typed p ∧ p.name.map Char.toLower = k

/-- What is kept of a property. -/
def IsMapOf (m : PropertyMap) (p : PropertyDef) : Prop :=
  m.name = p.name ∧ m.dataType = p.dataType ∧ m.offset = p.offset ∧ m.size = valueSize p.dataType

/-- A namespace some levels below the common ones. -/
inductive Below {H : Type} (hash : Str → H) (children : H → List Str) (common : List Str) : Nat → Str → Prop
  | common (n : Str) : n ∈ common → Below hash children common 0 n
  | child (d : Nat) (p n : Str) : Below hash children common d p → n ∈ children (hash p) →
      Below hash children common (d + 1) (nested p n)

/-! ## Proofs: C40, C88 and C92 -/

theorem step_typed (st : BuildState) (p : PropertyDef) (h : Typed p) :
    ∃ q l, buildStep st p = .ok ⟨(p.name.map Char.toLower, propertyMap p q) :: st.properties, l⟩ ∧
      ((∃ m, st.largest = some m ∧ p.offset ≤ m.offset ∧ l = some m) ∨
        (l = some (propertyMap p q) ∧ ∀ m, st.largest = some m → m.offset < p.offset)) := by
  obtain ⟨c, cs, hq⟩ := h
  unfold buildStep
  rw [hq]
  refine ⟨c :: cs, _, rfl, ?_⟩
  cases hl : st.largest with
  | none => exact .inr ⟨rfl, by simp⟩
  | some m =>
    dsimp only
    by_cases h : m.offset < p.offset
    · exact .inr ⟨by rw [if_pos h], by rintro _ ⟨⟩; exact h⟩
    · exact .inl ⟨m, rfl, by omega, by rw [if_neg h]⟩

theorem step_untyped (st : BuildState) (p : PropertyDef) (h : ¬ Typed p) :
    buildStep st p =
      if (st.properties.lookup (p.name.map Char.toLower)).isSome then .ok st else .error .parseError := by
  unfold buildStep
  split
  · rename_i c cs hq
    exact absurd ⟨c, cs, hq⟩ h
  · rfl

theorem loop_append (as bs : List PropertyDef) (st : BuildState) :
    buildLoop (as ++ bs) st =
      match buildLoop as st with
      | .error e => .error e
      | .ok st => buildLoop bs st := by
  induction as generalizing st with
  | nil => rfl
  | cons a as ih =>
    rw [List.cons_append, buildLoop, buildLoop]
    cases buildStep st a with
    | error e => rfl
    | ok st => exact ih st

theorem lookup_cons_eq (k : Str) (m : PropertyMap) (l : List (Str × PropertyMap)) :
    List.lookup k ((k, m) :: l) = some m := by simp

theorem lookup_cons_ne (k k' : Str) (m : PropertyMap) (l : List (Str × PropertyMap)) (h : k ≠ k') :
    List.lookup k ((k', m) :: l) = List.lookup k l := by
  have : (k == k') = false := by simpa using h
  simp [List.lookup_cons, this]

theorem loop_undefined (ps : List PropertyDef) (k : Str) (h : ∀ p ∈ ps, ¬ Defines p k) :
    ∀ st st', buildLoop ps st = .ok st' → st'.properties.lookup k = st.properties.lookup k := by
  induction ps with
  | nil => intro st st' e; cases e; rfl
  | cons p ps ih =>
    intro st st' e
    have ih' := ih (fun p hp => h p (by simp [hp]))
    rw [buildLoop] at e
    by_cases ht : Typed p
    · obtain ⟨q, l, hs, _⟩ := step_typed st p ht
      rw [hs] at e
      rw [ih' _ _ e]
      refine lookup_cons_ne _ _ _ _ ?_
      intro hk
      exact h p (by simp) ⟨ht, hk.symm⟩
    · rw [step_untyped st p ht] at e
      split at e
      · cases e
      · rename_i hx
        split at hx
        · cases hx; exact ih' _ _ e
        · cases hx

/-- **C40**: the value map of a class has for a name the definition of the most derived class that gives it
a type, in chains of any length. -/
theorem C40_override (pre post : List ClassDef) (c : ClassDef) (a b : List PropertyDef) (p : PropertyDef)
    (m : ClassMap) (k : Str) (hc : c.properties = a ++ p :: b) (hp : Defines p k)
    (hb : ∀ q ∈ b, ¬ Defines q k) (hpost : ∀ d ∈ post, ∀ q ∈ d.properties, ¬ Defines q k)
    (h : buildMap (pre ++ c :: post) = .ok m) :
    ∃ r, m.properties.lookup k = some r ∧ IsMapOf r p := by
  unfold buildMap at h
  split at h
  · cases h
  · dsimp only at h
    split at h
    · cases h
    · rename_i st hl
      cases h
      dsimp only
      have e : (pre ++ c :: post).flatMap (·.properties) =
          (pre.flatMap (·.properties) ++ a) ++ (p :: (b ++ post.flatMap (·.properties))) := by
        simp [hc]
      rw [e, loop_append] at hl
      split at hl
      · cases hl
      · rename_i st1 h1
        rw [buildLoop] at hl
        obtain ⟨q, l, hs, _⟩ := step_typed st1 p hp.1
        rw [hs] at hl
        dsimp only at hl
        rw [loop_undefined _ k (by
          intro x hx
          rw [List.mem_append, List.mem_flatMap] at hx
          rcases hx with hx | ⟨d, hd, hx⟩
          · exact hb x hx
          · exact hpost d hd x hx) _ _ hl, hp.2]
        exact ⟨_, lookup_cons_eq _ _ _, rfl, rfl, rfl, rfl⟩

/-- **C40**: a name no class gives a type is not in the map. -/
theorem C40_undefined (classes : List ClassDef) (m : ClassMap) (k : Str)
    (hk : ∀ c ∈ classes, ∀ q ∈ c.properties, ¬ Defines q k) (h : buildMap classes = .ok m) :
    m.properties.lookup k = none := by
  unfold buildMap at h
  split at h
  · cases h
  · dsimp only at h
    split at h
    · cases h
    · rename_i st hl
      cases h
      dsimp only
      rw [loop_undefined _ k (by
        intro x hx
        rw [List.mem_flatMap] at hx
        obtain ⟨d, hd, hx⟩ := hx
        exact hk d hd x hx) _ _ hl]
      rfl

theorem loop_ok (ps : List PropertyDef) : ∀ st,
    (∃ st', buildLoop ps st = .ok st') ↔
      ∀ a p b, ps = a ++ p :: b → ¬ Typed p →
        (∃ q ∈ a, Defines q (p.name.map Char.toLower)) ∨
          (st.properties.lookup (p.name.map Char.toLower)).isSome := by
  induction ps with
  | nil => intro st; simp [buildLoop]
  | cons x ps ih =>
    intro st
    rw [buildLoop]
    by_cases ht : Typed x
    · obtain ⟨q, l, hs, _⟩ := step_typed st x ht
      rw [hs]
      dsimp only
      rw [ih]
      constructor
      · intro h a p b e hp
        cases a with
        | nil =>
          simp only [List.nil_append, List.cons.injEq] at e
          obtain ⟨rfl, _⟩ := e
          exact absurd ht hp
        | cons y a =>
          simp only [List.cons_append, List.cons.injEq] at e
          obtain ⟨rfl, e⟩ := e
          rcases h a p b e hp with ⟨r, hr, hd⟩ | h
          · exact .inl ⟨r, by simp [hr], hd⟩
          · by_cases hk : p.name.map Char.toLower = x.name.map Char.toLower
            · exact .inl ⟨x, by simp, ht, hk.symm⟩
            · rw [lookup_cons_ne _ _ _ _ hk] at h
              exact .inr h
      · intro h a p b e hp
        rcases h (x :: a) p b (by simp [e]) hp with ⟨r, hr, hd⟩ | h
        · rw [List.mem_cons] at hr
          rcases hr with rfl | hr
          · right
            rw [hd.2, lookup_cons_eq]
            rfl
          · exact .inl ⟨r, hr, hd⟩
        · right
          by_cases hk : p.name.map Char.toLower = x.name.map Char.toLower
          · rw [hk, lookup_cons_eq]
            rfl
          · rw [lookup_cons_ne _ _ _ _ hk]
            exact h
    · rw [step_untyped st x ht]
      by_cases hs : (st.properties.lookup (x.name.map Char.toLower)).isSome = true
      · rw [if_pos hs]
        dsimp only
        rw [ih]
        constructor
        · intro h a p b e hp
          cases a with
          | nil =>
            simp only [List.nil_append, List.cons.injEq] at e
            obtain ⟨rfl, _⟩ := e
            exact .inr hs
          | cons y a =>
            simp only [List.cons_append, List.cons.injEq] at e
            obtain ⟨rfl, e⟩ := e
            rcases h a p b e hp with ⟨r, hr, hd⟩ | h
            · exact .inl ⟨r, by simp [hr], hd⟩
            · exact .inr h
        · intro h a p b e hp
          rcases h (x :: a) p b (by simp [e]) hp with ⟨r, hr, hd⟩ | h
          · rw [List.mem_cons] at hr
            rcases hr with rfl | hr
            · exact absurd hd.1 ht
            · exact .inl ⟨r, hr, hd⟩
          · exact .inr h
      · rw [if_neg hs]
        constructor
        · rintro ⟨_, h⟩; cases h
        · intro h
          rcases h [] x ps rfl ht with ⟨r, hr, _⟩ | h
          · simp at hr
          · exact absurd h hs

/-- **C40**: the map can be made exactly if every property without a type has one by the same name before
it, in its own class or in one it derives from. -/
theorem C40_complete (classes : List ClassDef) (hne : classes ≠ []) :
    (∃ m, buildMap classes = .ok m) ↔
      ∀ a p b, classes.flatMap (·.properties) = a ++ p :: b → ¬ Typed p →
        ∃ q ∈ a, Defines q (p.name.map Char.toLower) := by
  have h := loop_ok (classes.flatMap (·.properties)) ⟨[], none⟩
  simp only [List.lookup_nil, Option.isSome_none, Bool.false_eq_true, or_false] at h
  rw [← h]
  unfold buildMap
  cases hc : classes.getLast? with
  | none => exact absurd (List.getLast?_eq_none_iff.mp hc) hne
  | some c =>
    dsimp only
    cases buildLoop (classes.flatMap (·.properties)) ⟨[], none⟩ with
    | error e => constructor <;> rintro ⟨_, h⟩ <;> cases h
    | ok st => exact ⟨fun _ => ⟨_, rfl⟩, fun _ => ⟨_, rfl⟩⟩

/-- **C40**: the derivation goes from the super class to the base class. -/
theorem C40_derivation (base : List ClassDef) (s c : ClassDef) (m : ClassMap)
    (h : buildMap (base ++ [s, c]) = .ok m) :
    m.className = c.name ∧ m.super = some s.name ∧ m.derivation = s.name :: (base.map (·.name)).reverse ∧
    m.dynasty = (base.map (·.name)).getLast? := by
  unfold buildMap at h
  have e : (base ++ [s, c]).dropLast = base ++ [s] := by
    rw [show base ++ [s, c] = (base ++ [s]) ++ [c] by simp, List.dropLast_concat]
  have e' : (base ++ [s, c]).getLast? = some c := by
    rw [show base ++ [s, c] = (base ++ [s]) ++ [c] by simp, List.getLast?_concat]
  rw [e', e] at h
  dsimp only at h
  split at h
  · cases h
  · cases h
    refine ⟨rfl, ?_, ?_, ?_⟩
    · simp
    · simp
    · simp only [List.map_append, List.map_cons, List.map_nil, List.reverse_append, List.reverse_cons,
        List.reverse_nil, List.nil_append, List.cons_append, List.getElem?_cons_succ]
      rw [← List.head?_eq_getElem?, List.head?_reverse]

/-- **C40**: a property without a type keeps the definition it inherits, offset and all. -/
theorem C40_untyped : ∃ (classes : List ClassDef) (m : ClassMap) (r : PropertyMap),
    buildMap classes = .ok m ∧ m.properties.lookup ['a'] = some r ∧ r.offset = 0 ∧
    classes.getLast?.map (·.properties.map (·.offset)) = some [8] :=
  ⟨[⟨['B'], none, [⟨['A'], 3, 0, some "sint32".toList⟩]⟩, ⟨['D'], some ['B'], [⟨['A'], 3, 8, none⟩]⟩],
    _, _, rfl, rfl, rfl, rfl⟩

/-- Three classes, of which the last overrides a property of the first in another case. -/
def sampleClasses : List ClassDef :=
  [⟨"Base".toList, none, [⟨"Name".toList, 8, 0, some "string".toList⟩, ⟨"Size".toList, 0x13, 4, some "uint32".toList⟩]⟩,
   ⟨"Middle".toList, some "Base".toList, [⟨"Flags".toList, 0x11, 8, some "uint8".toList⟩]⟩,
   ⟨"Derived".toList, some "Middle".toList, [⟨"size".toList, 0x15, 9, some "Uint64:x".toList⟩,
     ⟨"NAME".toList, 8, 0, none⟩]⟩]

example : (buildMap sampleClasses).map (fun m => (m.derivation, m.propertiesSize, m.properties.lookup "size".toList)) =
    .ok (["Middle".toList, "Base".toList], 17, some ⟨"size".toList, 0x15, 9, 8, "uint64".toList⟩) := by
  decide +kernel

example : ∃ m r, buildMap sampleClasses = .ok m ∧ m.properties.lookup "size".toList = some r ∧
    IsMapOf r ⟨"size".toList, 0x15, 9, some "Uint64:x".toList⟩ := by
  obtain ⟨m, hm⟩ : ∃ m, buildMap sampleClasses = .ok m := ⟨_, rfl⟩
  obtain ⟨r, h1, h2⟩ := C40_override (sampleClasses.take 2) [] ⟨"Derived".toList, some "Middle".toList,
    [⟨"size".toList, 0x15, 9, some "Uint64:x".toList⟩, ⟨"NAME".toList, 8, 0, none⟩]⟩ []
    [⟨"NAME".toList, 8, 0, none⟩] ⟨"size".toList, 0x15, 9, some "Uint64:x".toList⟩ m "size".toList rfl
    ⟨⟨_, _, rfl⟩, by decide⟩ (by
      intro q hq
      simp only [List.mem_singleton] at hq
      subst hq
      rintro ⟨⟨c, cs, h⟩, _⟩
      cases h) (by simp) hm
  exact ⟨m, r, hm, h1, h2⟩

theorem loop_covers (ps : List PropertyDef) : ∀ st st', buildLoop ps st = .ok st' →
    (∀ l, st.largest = some l → ∃ q, (q = l ∧ st'.largest = some q) ∨ (st'.largest = some q ∧ l.offset < q.offset)) ∧
    (∀ k r, (k, r) ∈ st'.properties → (k, r) ∈ st.properties ∨
      ∃ p ∈ ps, Typed p ∧ r.offset = p.offset ∧ r.size = valueSize p.dataType ∧
        ∃ q, st'.largest = some q ∧ r.offset ≤ q.offset) ∧
    (∀ q, st'.largest = some q → st.largest = some q ∨
      ∃ p ∈ ps, Typed p ∧ q.offset = p.offset ∧ q.size = valueSize p.dataType) := by
  induction ps with
  | nil =>
    intro st st' e
    cases e
    exact ⟨fun l h => ⟨l, .inl ⟨rfl, h⟩⟩, fun k r h => .inl h, fun q h => .inl h⟩
  | cons x ps ih =>
    intro st st' e
    rw [buildLoop] at e
    by_cases ht : Typed x
    · obtain ⟨q, l, hs, hl⟩ := step_typed st x ht
      rw [hs] at e
      obtain ⟨i1, i2, i3⟩ := ih _ _ e
      dsimp only at i1 i2 i3
      have hlx : ∃ q, st'.largest = some q ∧ x.offset ≤ q.offset := by
        rcases hl with ⟨m, h1, h2, h3⟩ | ⟨h1, h2⟩
        · obtain ⟨q, ⟨rfl, h⟩ | ⟨h, h'⟩⟩ := i1 m h3
          · exact ⟨q, h, h2⟩
          · exact ⟨q, h, by omega⟩
        · obtain ⟨q, ⟨rfl, h⟩ | ⟨h, h'⟩⟩ := i1 _ h1
          · exact ⟨_, h, Nat.le_refl _⟩
          · exact ⟨q, h, by simp only [propertyMap] at h'; omega⟩
      refine ⟨?_, ?_, ?_⟩
      · intro m hm
        rcases hl with ⟨m', h1, h2, h3⟩ | ⟨h1, h2⟩
        · rw [hm] at h1
          cases h1
          exact i1 m h3
        · obtain ⟨q, ⟨rfl, h⟩ | ⟨h, h'⟩⟩ := i1 _ h1
          · exact ⟨_, .inr ⟨h, h2 m hm⟩⟩
          · have := h2 m hm
            simp only [propertyMap] at h'
            exact ⟨q, .inr ⟨h, by omega⟩⟩
      · intro k r hr
        rcases i2 k r hr with h | ⟨p, hp, h⟩
        · rw [List.mem_cons] at h
          rcases h with h | h
          · cases h
            exact .inr ⟨x, by simp, ht, rfl, rfl, hlx⟩
          · exact .inl h
        · exact .inr ⟨p, by simp [hp], h⟩
      · intro q' hq'
        rcases i3 q' hq' with h | ⟨p, hp, h⟩
        · rcases hl with ⟨m, h1, h2, h3⟩ | ⟨h1, h2⟩
          · rw [h3] at h
            cases h
            exact .inl h1
          · rw [h1] at h
            cases h
            exact .inr ⟨x, by simp, ht, rfl, rfl⟩
        · exact .inr ⟨p, by simp [hp], h⟩
    · rw [step_untyped st x ht] at e
      split at e
      · cases e
      · rename_i hx
        split at hx
        · cases hx
          obtain ⟨i1, i2, i3⟩ := ih _ _ e
          refine ⟨i1, ?_, ?_⟩
          · intro k r hr
            rcases i2 k r hr with h | ⟨p, hp, h⟩
            · exact .inl h
            · exact .inr ⟨p, by simp [hp], h⟩
          · intro q hq
            rcases i3 q hq with h | ⟨p, hp, h⟩
            · exact .inl h
            · exact .inr ⟨p, by simp [hp], h⟩
        · cases hx

/-- The claim that the size of the properties covers them all. -/
def C88_covers_claim : Prop :=
  ∀ (classes : List ClassDef) (m : ClassMap), buildMap classes = .ok m →
    ∀ k r, (k, r) ∈ m.properties → r.offset + r.size ≤ m.propertiesSize

/-- **C88** (in part: for properties that do not overlap): the size of the properties covers them all. -/
theorem C88_covers_partial (classes : List ClassDef) (m : ClassMap)
    (ho : ∀ c ∈ classes, ∀ p ∈ c.properties, ∀ d ∈ classes, ∀ q ∈ d.properties, Typed p → Typed q →
      p.offset ≤ q.offset → p.offset + valueSize p.dataType ≤ q.offset + valueSize q.dataType)
    (h : buildMap classes = .ok m) :
    ∀ k r, (k, r) ∈ m.properties → r.offset + r.size ≤ m.propertiesSize := by
  intro k r hr
  unfold buildMap at h
  split at h
  · cases h
  · dsimp only at h
    split at h
    · cases h
    · rename_i st hl
      cases h
      dsimp only at *
      obtain ⟨_, i2, i3⟩ := loop_covers _ _ _ hl
      rcases i2 k r hr with h | ⟨p, hp, htp, e1, e2, q, hq, hle⟩
      · simp at h
      · rw [hq]
        dsimp only
        rcases i3 q hq with h | ⟨p', hp', htp', e1', e2'⟩
        · cases h
        · rw [List.mem_flatMap] at hp hp'
          obtain ⟨c, hc, hp⟩ := hp
          obtain ⟨d, hd, hp'⟩ := hp'
          have := ho c hc p hp d hd p' hp' htp htp' (by omega)
          omega

/-- **C88**: properties that overlap, or are at the same offset, need not be covered. -/
theorem C88_covers_claim_false : ¬ C88_covers_claim := by
  intro h
  have := h [⟨['C'], none, [⟨['a'], 3, 0, some ['x']⟩, ⟨['b'], 0x15, 0, some ['x']⟩]⟩] _ rfl ['b']
    (propertyMap ⟨['b'], 0x15, 0, some ['x']⟩ ['x']) (by decide)
  revert this
  decide

/-- **C92**: the classes of a chain of super classes are found, from the base class on, however long it
is. -/
theorem C92_chain (find : Str → Option ClassDef) (acc : List ClassDef) :
    ∀ (chain : List ClassDef) (c : ClassDef) (fuel : Nat),
      (∀ x y a b, c :: chain = a ++ x :: y :: b → ∃ s ss, x.super = some (s :: ss) ∧ find (s :: ss) = some y) →
      (∀ x a, c :: chain = a ++ [x] → x.super = none ∨ x.super = some []) →
      chain.length < fuel →
      chainLoop find fuel c acc = some (.ok ((c :: chain).reverse ++ acc)) := by
  intro chain
  induction chain generalizing acc with
  | nil =>
    intro c fuel _ hlast hf
    cases fuel with
    | zero => omega
    | succ fuel =>
      rw [chainLoop]
      rcases hlast c [] rfl with h | h <;> simp [h]
  | cons d chain ih =>
    intro c fuel hlink hlast hf
    cases fuel with
    | zero => omega
    | succ fuel =>
      obtain ⟨s, ss, h1, h2⟩ := hlink c d [] chain rfl
      rw [chainLoop, h1]
      dsimp only
      rw [h2]
      dsimp only
      rw [ih (c :: acc) d fuel (fun x y a b e => hlink x y (c :: a) b (by simp [e]))
        (fun x a e => hlast x (c :: a) (by simp [e])) (by simp at hf; omega)]
      simp

/-- The claim that the chain of super classes ends. -/
def C92_terminates_claim : Prop :=
  ∀ (find : Str → Option ClassDef) (c : ClassDef), ∃ fuel, chainLoop find fuel c [] ≠ none

/-- **C92**: a class that is its own super class is never done with. -/
theorem C92_terminates_claim_false : ¬ C92_terminates_claim := by
  intro h
  obtain ⟨fuel, hf⟩ := h (fun _ => some ⟨['C'], some ['C'], []⟩) ⟨['C'], some ['C'], []⟩
  apply hf
  have : ∀ fuel acc, chainLoop (fun _ => some ⟨['C'], some ['C'], []⟩) fuel ⟨['C'], some ['C'], []⟩ acc = none := by
    intro fuel
    induction fuel with
    | zero => intro acc; rfl
    | succ fuel ih => intro acc; rw [chainLoop]; exact ih _
  exact this fuel []

/-- **C92**: a super class that is missing is an exception of the wrong kind. -/
theorem C92_missing (find : Str → Option ClassDef) (c : ClassDef) (s : Char) (ss : Str) (acc : List ClassDef)
    (fuel : Nat) (hs : c.super = some (s :: ss)) (hf : find (s :: ss) = none) :
    chainLoop find (fuel + 1) c acc = some (.error .attributeError) := by
  rw [chainLoop, hs]
  dsimp only
  rw [hf]

/-! ## Proofs: C90 -/

section Namespaces
variable {H : Type} [DecidableEq H] (hash : Str → H) (children : H → List Str) (common : List Str)

/-- The namespaces in the one of a hash are found. -/
def Processed (child : H → Str → H) (st : NamespaceState H) (h : H) : Prop :=
  ∀ n ∈ children h, ∃ ns ∈ st.found, hash ns = child h n ∧ (hash ns, ns) ∈ st.known

/-- What is known and found is so for a reason. -/
def Sound (st : NamespaceState H) : Prop :=
  (∀ h m, (h, m) ∈ st.known → hash m = h ∧ ∃ d, Below hash children common d m) ∧
  ∀ ns ∈ st.found, ∃ d, Below hash children common (d + 1) ns

/-- A state has what another has. -/
def Extends (st st' : NamespaceState H) : Prop :=
  (∀ x ∈ st.known, x ∈ st'.known) ∧ ∀ x ∈ st.found, x ∈ st'.found

theorem lookup_some (l : List (H × Str)) (h : H) (m : Str) (hm : (h, m) ∈ l) :
    ∃ m', l.lookup h = some m' := by
  induction l with
  | nil => simp at hm
  | cons x l ih =>
    obtain ⟨k, v⟩ := x
    by_cases hk : h = k
    · exact ⟨v, by simp [List.lookup_cons, hk]⟩
    · rw [List.mem_cons] at hm
      rcases hm with hm | hm
      · cases hm; exact absurd rfl hk
      · obtain ⟨m', e⟩ := ih hm
        have : (h == k) = false := by simpa using hk
        exact ⟨m', by simp [List.lookup_cons, this, e]⟩

theorem mem_of_lookup (l : List (H × Str)) (h : H) (m : Str) (hm : l.lookup h = some m) : (h, m) ∈ l := by
  induction l with
  | nil => simp at hm
  | cons x l ih =>
    obtain ⟨k, v⟩ := x
    by_cases hk : h = k
    · subst hk
      simp only [List.lookup_cons, beq_self_eq_true, Option.some.injEq] at hm
      simp [hm]
    · have : (h == k) = false := by simpa using hk
      simp only [List.lookup_cons, this] at hm
      exact List.mem_cons_of_mem _ (ih hm)

theorem processed_mono (child : H → Str → H) (st st' : NamespaceState H) (h : H) (he : Extends st st')
    (hp : Processed hash children child st h) : Processed hash children child st' h := by
  intro n hn
  obtain ⟨ns, h1, h2, h3⟩ := hp n hn
  exact ⟨ns, he.2 _ h1, h2, he.1 _ h3⟩

theorem visit_spec (child : H → Str → H) (hc : ∀ p n, hash (nested p n) = child (hash p) n)
    (st : NamespaceState H) (u : List H) (h : H) (hs : Sound hash children common st) :
    Extends st (visit hash children (st, u) h).1 ∧
    Sound hash children common (visit hash children (st, u) h).1 ∧
    (∀ x ∈ u, x ∈ (visit hash children (st, u) h).2) ∧
    (Processed hash children child (visit hash children (st, u) h).1 h ∨
      ((∀ m, (h, m) ∉ st.known) ∧ h ∈ (visit hash children (st, u) h).2)) := by
  unfold visit
  cases hl : st.known.lookup h with
  | none =>
    dsimp only
    refine ⟨⟨fun _ h => h, fun _ h => h⟩, hs, fun x hx => by simp [hx], .inr ⟨?_, by simp⟩⟩
    intro m hm
    obtain ⟨m', e⟩ := lookup_some _ _ _ hm
    rw [hl] at e
    cases e
  | some p =>
    dsimp only
    have hm := mem_of_lookup _ _ _ hl
    obtain ⟨hp, d, hd⟩ := hs.1 _ _ hm
    refine ⟨⟨fun x hx => by simp [hx], fun x hx => by simp [hx]⟩, ⟨?_, ?_⟩, fun x hx => hx, .inl ?_⟩
    · intro k m hkm
      rw [List.mem_append, List.mem_reverse, List.mem_map] at hkm
      rcases hkm with ⟨n, hn, e⟩ | hkm
      · cases e
        exact ⟨rfl, d + 1, .child d p n hd (by rw [hp]; exact hn)⟩
      · exact hs.1 k m hkm
    · intro ns hns
      rw [List.mem_append, List.mem_map] at hns
      rcases hns with hns | ⟨n, hn, rfl⟩
      · exact hs.2 ns hns
      · exact ⟨d, .child d p n hd (by rw [hp]; exact hn)⟩
    · intro n hn
      refine ⟨nested p n, ?_, by rw [hc, hp], ?_⟩
      · simp only [List.mem_append, List.mem_map]
        exact .inr ⟨n, hn, rfl⟩
      · simp only [List.mem_append, List.mem_reverse, List.mem_map]
        exact .inl ⟨n, hn, rfl⟩

theorem fold_spec (child : H → Str → H) (hc : ∀ p n, hash (nested p n) = child (hash p) n) (l : List H) :
    ∀ (st : NamespaceState H) (u : List H), Sound hash children common st →
      Extends st (l.foldl (visit hash children) (st, u)).1 ∧
      Sound hash children common (l.foldl (visit hash children) (st, u)).1 ∧
      (∀ x ∈ u, x ∈ (l.foldl (visit hash children) (st, u)).2) ∧
      ∀ h ∈ l, Processed hash children child (l.foldl (visit hash children) (st, u)).1 h ∨
        ((∀ m, (h, m) ∉ st.known) ∧ h ∈ (l.foldl (visit hash children) (st, u)).2) := by
  induction l with
  | nil => intro st u hs; exact ⟨⟨fun _ h => h, fun _ h => h⟩, hs, fun _ h => h, by simp⟩
  | cons x l ih =>
    intro st u hs
    rw [List.foldl_cons]
    obtain ⟨a1, a2, a3, a4⟩ := visit_spec hash children common child hc st u x hs
    obtain ⟨b1, b2, b3, b4⟩ := ih (visit hash children (st, u) x).1 (visit hash children (st, u) x).2 a2
    refine ⟨⟨fun y hy => b1.1 _ (a1.1 _ hy), fun y hy => b1.2 _ (a1.2 _ hy)⟩, b2, fun y hy => b3 _ (a3 y hy), ?_⟩
    intro h hh
    rw [List.mem_cons] at hh
    rcases hh with rfl | hh
    · rcases a4 with h1 | ⟨h1, h2⟩
      · exact .inl (processed_mono _ _ _ _ _ _ b1 h1)
      · exact .inr ⟨h1, b3 _ h2⟩
    · rcases b4 h hh with h1 | ⟨h1, h2⟩
      · exact .inl h1
      · exact .inr ⟨fun m hm => h1 m (a1.1 _ hm), h2⟩

/-- What holds after a number of rounds. -/
def Good (child : H → Str → H) (parents : List H) (n : Nat) (st : NamespaceState H × List H) : Prop :=
  Sound hash children common st.1 ∧ (∀ c ∈ common, ∃ m, (hash c, m) ∈ st.1.known) ∧
  (∀ h ∈ parents, Processed hash children child st.1 h ∨ h ∈ st.2) ∧
  ∀ d < n, ∀ p, Below hash children common d p → Processed hash children child st.1 (hash p)

theorem good_known (child : H → Str → H) (hc : ∀ p n, hash (nested p n) = child (hash p) n) (parents : List H)
    (n : Nat) (st : NamespaceState H × List H) (hg : Good hash children common child parents n st) (p : Str)
    (d : Nat) (hd : d ≤ n) (hp : Below hash children common d p) : ∃ m, (hash p, m) ∈ st.1.known := by
  cases hp with
  | common _ h => exact hg.2.1 p h
  | child d q m hq hm =>
    obtain ⟨ns, _, h2, h3⟩ := hg.2.2.2 d (by omega) q hq m hm
    rw [hc, ← h2]
    exact ⟨ns, h3⟩

theorem rounds_good (child : H → Str → H) (hc : ∀ p n, hash (nested p n) = child (hash p) n)
    (order : Nat → List H → List H) (ho : ∀ i l x, x ∈ order i l ↔ x ∈ l) (parents : List H)
    (hpar : ∀ h, children h ≠ [] → h ∈ parents) (k : Nat) :
    ∀ (n : Nat) (st : NamespaceState H × List H), Good hash children common child parents n st →
      Good hash children common child parents (n + k) (rounds hash children order k st) := by
  induction k with
  | zero => intro n st h; exact h
  | succ k ih =>
    intro n st hg
    rw [rounds, show n + (k + 1) = (n + 1) + k by omega]
    apply ih
    obtain ⟨b1, b2, b3, b4⟩ := fold_spec hash children common child hc (order k st.2) st.1 [] hg.1
    refine ⟨b2, ?_, ?_, ?_⟩
    · intro c hcm
      obtain ⟨m, hm⟩ := hg.2.1 c hcm
      exact ⟨m, b1.1 _ hm⟩
    · intro h hh
      rcases hg.2.2.1 h hh with h1 | h1
      · exact .inl (processed_mono _ _ _ _ _ _ b1 h1)
      · rcases b4 h ((ho k st.2 h).mpr h1) with h2 | ⟨_, h2⟩
        · exact .inl h2
        · exact .inr h2
    · intro d hd p hp
      by_cases hch : children (hash p) = []
      · intro m hm
        rw [hch] at hm
        simp at hm
      · rcases hg.2.2.1 _ (hpar _ hch) with h1 | h1
        · exact processed_mono _ _ _ _ _ _ b1 h1
        · rcases b4 _ ((ho k st.2 _).mpr h1) with h2 | ⟨h2, _⟩
          · exact h2
          · obtain ⟨m, hm⟩ := good_known hash children common child hc parents n st hg p d (by omega) hp
            exact absurd hm (h2 m)

theorem start_good (child : H → Str → H) (parents : List H) :
    Good hash children common child parents 0
      (⟨(common.map (fun n => (hash n, n))).reverse, []⟩, parents) := by
  refine ⟨⟨?_, by simp⟩, ?_, fun h hh => .inr hh, by simp⟩
  · intro h m hm
    rw [List.mem_reverse, List.mem_map] at hm
    obtain ⟨c, hcm, e⟩ := hm
    cases e
    exact ⟨rfl, 0, .common _ hcm⟩
  · intro c hcm
    refine ⟨c, ?_⟩
    rw [List.mem_reverse, List.mem_map]
    exact ⟨c, hcm, rfl⟩

/-- **C90** (in part: at most five levels below the common namespaces): a namespace is found, up to what
its hash tells, in whatever order the sets are iterated over. -/
theorem C90_found_partial (child : H → Str → H) (hc : ∀ p n, hash (nested p n) = child (hash p) n)
    (order : Nat → List H → List H) (ho : ∀ i l x, x ∈ order i l ↔ x ∈ l) (parents : List H)
    (hpar : ∀ h, children h ≠ [] → h ∈ parents) (d : Nat) (hd : d < 5) (ns : Str)
    (hns : Below hash children common (d + 1) ns) :
    ∃ ns' ∈ namespaces hash children order common parents, hash ns' = hash ns := by
  have hg := rounds_good hash children common child hc order ho parents hpar 5 0 _
    (start_good hash children common child parents)
  cases hns with
  | child _ p n hp hn =>
    obtain ⟨ns', h1, h2, _⟩ := hg.2.2.2 d (by omega) p hp n hn
    exact ⟨ns', h1, by rw [h2, hc]⟩

/-- **C90**: only namespaces that are below the common ones are found. -/
theorem C90_sound (child : H → Str → H) (hc : ∀ p n, hash (nested p n) = child (hash p) n)
    (order : Nat → List H → List H) (ho : ∀ i l x, x ∈ order i l ↔ x ∈ l) (parents : List H)
    (hpar : ∀ h, children h ≠ [] → h ∈ parents) (ns : Str)
    (h : ns ∈ namespaces hash children order common parents) :
    ∃ d, Below hash children common (d + 1) ns := by
  have hg := rounds_good hash children common child hc order ho parents hpar 5 0 _
    (start_good hash children common child parents)
  exact hg.1.2 ns h

end Namespaces

/-- The claim that all namespaces are found. -/
def C90_found_claim : Prop :=
  ∀ (children : Str → List Str) (order : Nat → List Str → List Str) (common parents : List Str),
    (∀ i l x, x ∈ order i l ↔ x ∈ l) → (∀ h, children h ≠ [] → h ∈ parents) →
    ∀ d ns, Below id children common (d + 1) ns → ns ∈ namespaces id children order common parents

/-- Seven namespaces, each in the one before. -/
def deepNames : List Str :=
  (List.range 7).map (fun i => 'R' :: (List.replicate i ['\\', 'a']).flatten)

def deepChildren (h : Str) : List Str := if h ∈ deepNames.dropLast then [['a']] else []

/-- **C90**: a namespace six levels below is missed if the sets are iterated over from the deepest on, and
found if they are iterated over the other way around. -/
theorem C90_order : namespaces id deepChildren (fun _ l => l) [['R']] deepNames.dropLast.reverse =
      (deepNames.drop 1).take 5 ∧
    namespaces id deepChildren (fun _ l => l) [['R']] deepNames.dropLast = deepNames.drop 1 := by
  decide +kernel

theorem C90_found_claim_false : ¬ C90_found_claim := by
  intro h
  have step : ∀ i < 6, Below id deepChildren [['R']] i ('R' :: (List.replicate i ['\\', 'a']).flatten) →
      Below id deepChildren [['R']] (i + 1) ('R' :: (List.replicate (i + 1) ['\\', 'a']).flatten) := by
    intro i hi hb
    have e : 'R' :: (List.replicate (i + 1) ['\\', 'a']).flatten =
        nested ('R' :: (List.replicate i ['\\', 'a']).flatten) ['a'] := by
      simp [nested, List.replicate_succ', List.flatten_append]
    rw [e]
    refine .child i _ ['a'] hb ?_
    have : ∀ i < 6, ['a'] ∈ deepChildren ('R' :: (List.replicate i ['\\', 'a']).flatten) := by decide +kernel
    exact this i hi
  have b0 : Below id deepChildren [['R']] 0 ('R' :: (List.replicate 0 ['\\', 'a']).flatten) :=
    .common _ (by simp)
  have b6 := step 5 (by omega) (step 4 (by omega) (step 3 (by omega) (step 2 (by omega) (step 1 (by omega)
    (step 0 (by omega) b0)))))
  have := h deepChildren (fun _ l => l) [['R']] deepNames.dropLast.reverse (fun _ _ _ => Iff.rfl) (by
    intro k hk
    unfold deepChildren at hk
    split at hk
    · rename_i hm
      rw [List.mem_reverse]
      exact hm
    · exact absurd rfl hk) 5 _ b6
  rw [C90_order.1] at this
  revert this
  decide +kernel

/-! ## Proofs: C91 -/

/-- The cells from an offset on, with their offsets and sizes; a bin starts with its size. -/
def Cells (data : Bytes) : Nat → Nat → List (Nat × Nat) → Prop
  | _, _, [] => True
  | offset, nextBin, (start, size) :: cells =>
    offset < data.length ∧ cellSize data start = .ok size ∧ size ≠ 0 ∧
    ((offset = nextBin ∧ start = offset + 4 ∧ ∃ b, dataAt data offset 4 = .ok b ∧
        Cells data (start + size % 2 ^ 27) (nextBin + leNat b) cells) ∨
      (offset ≠ nextBin ∧ start = offset ∧ Cells data (start + size % 2 ^ 27) nextBin cells))

/-- What is known after a number of cells. -/
def nodesAfter (cells : List (Nat × Nat)) (rootCell systemCell n : Nat) : Nodes :=
  ⟨if rootCell < n then cells[rootCell]?.map (fun c => c.1 + 4) else none,
   if systemCell < n then cells[systemCell]?.map (fun c => c.1 + 4) else none⟩

theorem cellLoop_step (data : Bytes) (rootCell systemCell fuel offset nextBin number : Nat) (nodes : Nodes)
    (start size : Nat) (cells : List (Nat × Nat)) (h : Cells data offset nextBin ((start, size) :: cells)) :
    ∃ nextBin', Cells data (start + size % 2 ^ 27) nextBin' cells ∧
      cellLoop data rootCell systemCell (fuel + 1) offset nextBin number nodes =
        let nodes : Nodes :=
          if rootCell = number then { nodes with root := some (start + 4) }
          else if systemCell = number then { nodes with system := some (start + 4) }
          else nodes
        if nodes.root.isSome ∧ nodes.system.isSome then some (.ok nodes)
        else cellLoop data rootCell systemCell fuel (start + size % 2 ^ 27) nextBin' (number + 1) nodes := by
  obtain ⟨h1, h2, h3, ⟨e, hs, b, hb, hc⟩ | ⟨e, hs, hc⟩⟩ := h
  · refine ⟨_, hc, ?_⟩
    rw [cellLoop, if_pos h1, if_pos e, hb]
    subst hs
    dsimp only
    rw [h2]
    dsimp only
    rw [if_neg h3]
  · refine ⟨_, hc, ?_⟩
    rw [cellLoop, if_pos h1, if_neg e]
    subst hs
    dsimp only
    rw [h2]
    dsimp only
    rw [if_neg h3]

theorem cellLoop_cells (data : Bytes) (rootCell systemCell : Nat) (hne : rootCell ≠ systemCell)
    (post : List (Nat × Nat)) :
    ∀ (pre : List (Nat × Nat)) (offset nextBin fuel : Nat), Cells data offset nextBin post →
      rootCell < pre.length + post.length → systemCell < pre.length + post.length →
      (pre.length ≤ rootCell ∨ pre.length ≤ systemCell) → post.length ≤ fuel →
      cellLoop data rootCell systemCell fuel offset nextBin pre.length
          (nodesAfter (pre ++ post) rootCell systemCell pre.length) =
        some (.ok (nodesAfter (pre ++ post) rootCell systemCell (pre.length + post.length))) := by
  induction post with
  | nil => intro pre offset nextBin fuel _ h1 h2 h3 _; simp at h1 h2; omega
  | cons c post ih =>
    intro pre offset nextBin fuel hc h1 h2 h3 hf
    obtain ⟨start, size⟩ := c
    cases fuel with
    | zero => simp at hf
    | succ fuel =>
      obtain ⟨nextBin', hc', e⟩ := cellLoop_step data rootCell systemCell fuel offset nextBin pre.length
        (nodesAfter (pre ++ (start, size) :: post) rootCell systemCell pre.length) start size post hc
      rw [e]
      have hget : (pre ++ (start, size) :: post)[pre.length]? = some (start, size) := by simp
      have hn : (if rootCell = pre.length then
            { nodesAfter (pre ++ (start, size) :: post) rootCell systemCell pre.length with
              root := some (start + 4) }
          else if systemCell = pre.length then
            { nodesAfter (pre ++ (start, size) :: post) rootCell systemCell pre.length with
              system := some (start + 4) }
          else nodesAfter (pre ++ (start, size) :: post) rootCell systemCell pre.length) =
          nodesAfter (pre ++ (start, size) :: post) rootCell systemCell (pre.length + 1) := by
        unfold nodesAfter
        by_cases a : rootCell = pre.length
        · have b : ¬ systemCell = pre.length := by omega
          have b' : systemCell < pre.length + 1 ↔ systemCell < pre.length := by omega
          rw [if_pos a]
          simp [a, hget, b']
        · have a' : rootCell < pre.length + 1 ↔ rootCell < pre.length := by omega
          rw [if_neg a]
          by_cases b : systemCell = pre.length
          · rw [if_pos b]
            simp [b, hget, a']
          · have b' : systemCell < pre.length + 1 ↔ systemCell < pre.length := by omega
            rw [if_neg b]
            simp [a', b']
      dsimp only
      rw [hn]
      have some_iff : ∀ k n, k < (pre ++ (start, size) :: post).length →
          ((if k < n then (pre ++ (start, size) :: post)[k]?.map (fun c => c.1 + 4) else none).isSome = true ↔ k < n) := by
        intro k n hk
        split
        · rw [List.getElem?_eq_getElem hk]
          simp_all
        · simp_all
      have l1 : rootCell < (pre ++ (start, size) :: post).length := by simpa using h1
      have l2 : systemCell < (pre ++ (start, size) :: post).length := by simpa using h2
      by_cases hd : rootCell < pre.length + 1 ∧ systemCell < pre.length + 1
      · have : nodesAfter (pre ++ (start, size) :: post) rootCell systemCell (pre.length + 1) =
            nodesAfter (pre ++ (start, size) :: post) rootCell systemCell
              (pre.length + ((start, size) :: post).length) := by
          unfold nodesAfter
          rw [if_pos hd.1, if_pos hd.2, if_pos h1, if_pos h2]
        rw [if_pos]
        · rw [this]
        · simp only [nodesAfter]
          exact ⟨(some_iff _ _ l1).mpr hd.1, (some_iff _ _ l2).mpr hd.2⟩
      · rw [if_neg]
        · have e2 := ih (pre ++ [(start, size)]) (start + size % 2 ^ 27) nextBin' fuel hc'
            (by simp at h1 ⊢; omega) (by simp at h2 ⊢; omega) (by simp; omega) (by simp at hf; omega)
          simp only [List.length_append, List.length_cons, List.length_nil, Nat.zero_add, List.append_assoc,
            List.cons_append, List.nil_append] at e2
          rw [e2]
          congr 3
          simp only [List.length_cons]
          omega
        · simp only [nodesAfter]
          intro hh
          exact hd ⟨(some_iff _ _ l1).mp hh.1, (some_iff _ _ l2).mp hh.2⟩

/-- **C91**: the nodes of the root namespace and of the system classes are those of the cells with their
numbers, in files with any number of cells and bins. -/
theorem C91_cells (data : Bytes) (rootCell systemCell offset nextBin fuel : Nat) (hne : rootCell ≠ systemCell)
    (cells : List (Nat × Nat)) (h : Cells data offset nextBin cells) (root system : Nat × Nat)
    (hr : cells[rootCell]? = some root) (hs : cells[systemCell]? = some system) (hf : cells.length ≤ fuel) :
    cellLoop data rootCell systemCell fuel offset nextBin 0 ⟨none, none⟩ =
      some (.ok ⟨some (root.1 + 4), some (system.1 + 4)⟩) := by
  obtain ⟨l1, g1⟩ := List.getElem?_eq_some_iff.mp hr
  obtain ⟨l2, g2⟩ := List.getElem?_eq_some_iff.mp hs
  have e := cellLoop_cells data rootCell systemCell hne cells [] offset nextBin fuel h (by simpa using l1)
    (by simpa using l2) (.inl (by simp)) hf
  simp only [List.nil_append, List.length_nil, Nat.zero_add] at e
  have e0 : nodesAfter cells rootCell systemCell 0 = ⟨none, none⟩ := rfl
  rw [e0] at e
  rw [e]
  simp [nodesAfter, l1, l2, g1, g2]

/-- **C91** (in part: if no cell has a size without any of the bits that count): the cells are done with. -/
theorem C91_terminates_partial (data : Bytes) (rootCell systemCell : Nat)
    (h : ∀ offset size, cellSize data offset = .ok size → size = 0 ∨ size % 2 ^ 27 ≠ 0) :
    ∀ (fuel offset nextBin number : Nat) (nodes : Nodes), data.length ≤ offset + fuel →
      cellLoop data rootCell systemCell (fuel + 1) offset nextBin number nodes ≠ none := by
  intro fuel
  induction fuel with
  | zero =>
    intro offset nextBin number nodes hf
    rw [cellLoop, if_neg (by omega)]
    simp
  | succ fuel ih =>
    intro offset nextBin number nodes hf
    rw [cellLoop]
    split
    · dsimp only
      split
      · simp
      · rename_i o b hb
        have ho : offset ≤ o := by
          split at hb
          · split at hb
            · cases hb
            · cases hb; omega
          · cases hb; omega
        split
        · simp
        · rename_i size hs
          split
          · simp
          · rename_i h0
            have hm := (h _ _ hs).resolve_left h0
            generalize (if rootCell = number then ({ nodes with root := some (o + 4) } : Nodes)
              else if systemCell = number then { nodes with system := some (o + 4) } else nodes) = nodes'
            split
            · simp
            · exact ih _ _ _ _ (by omega)
    · simp

/-- The claim that the cells of every file are done with. -/
def C91_terminates_claim : Prop := ∀ data : Bytes, ∃ fuel, readCells data fuel ≠ none

/-- A file with a cell whose size has the highest bit only. -/
def stuckFile : Bytes := List.replicate 40 0 ++ leBytes 4 0x80000000

/-- **C91**: a cell with a size that is zero but for its flags is read again and again. -/
theorem C91_terminates_claim_false : ¬ C91_terminates_claim := by
  intro h
  obtain ⟨fuel, hf⟩ := h stuckFile
  apply hf
  have e : ∀ fuel number nodes, nodes.system = none →
      cellLoop stuckFile 0 0 fuel 40 0 number nodes = none := by
    intro fuel
    induction fuel with
    | zero => intro number nodes _; rfl
    | succ fuel ih =>
      intro number nodes hn
      rw [cellLoop, if_pos (by decide), if_neg (by decide)]
      dsimp only
      have hs : cellSize stuckFile 40 = .ok 0x80000000 := by decide +kernel
      rw [hs]
      dsimp only
      rw [if_neg (by decide)]
      have h' : (if 0 = number then ({ nodes with root := some (40 + 4) } : Nodes)
          else if 0 = number then { nodes with system := some (40 + 4) } else nodes).system = none := by
        split
        · exact hn
        · exact hn
      rw [if_neg (by rw [h']; simp)]
      exact ih _ _ h'
  have h0 : dataAt stuckFile 0 40 = .ok (List.replicate 40 0) := by decide +kernel
  unfold readCells
  rw [h0]
  dsimp only
  exact e fuel 0 ⟨none, none⟩ rfl

/-- A file with a bin of two cells, and another of one. -/
def sampleCells : Bytes :=
  leBytes 4 2 ++ (leBytes 4 0 ++ (List.replicate 28 0 ++ (leBytes 4 52 ++ (leBytes 4 0x80000006 ++ (leBytes 2 7 ++
    (leBytes 4 6 ++ (leBytes 2 8 ++ (leBytes 4 99 ++ (leBytes 4 5 ++ [1])))))))))

example : Cells sampleCells 40 52 [(40, 0x80000006), (46, 6), (56, 5)] := by
  refine ⟨by decide, by decide +kernel, by decide, .inr ⟨by decide, rfl, ?_⟩⟩
  refine ⟨by decide, by decide +kernel, by decide, .inr ⟨by decide, rfl, ?_⟩⟩
  exact ⟨by decide, by decide +kernel, by decide, .inl ⟨rfl, rfl, _, rfl, trivial⟩⟩

example : readCells sampleCells 10 = some (.ok ⟨some 44, some 60⟩) := by decide +kernel

end Dtf.Wmi
