import Verif.Wmi.Tree

/-!
# Class definitions, instances and namespaces by the keys of the index of the WMI repository (C136, C137)
-/

namespace Dtf.Wmi
open Py DataFormat Text Unified

/-! ## Model -/

/-- An open repository: the keys of its index in the order of C37, the data of object records as of C36, that its format
version is 2.1, the decoding of texts, `int(s, 10)`, `str.lower` and the hexadecimal hash of a name in upper case. -/
structure Repo where
  keys : List Key
  record : KeyValues → Res Bytes
  old : Bool
  cp : Bytes → Option Str
  utf16 : Bytes → Option Str
  pyInt : List Char → Option Int
  lower : Str → Str
  hash : Str → Str

/-- `key_segments[-1]` (wmi_repository.py 3982-3985). -/
def lastSegment (k : Key) : Str := (splitOn '\\' k).getLastD []

def Repo.values (r : Repo) (k : Key) : Option KeyValues := keyValues r.pyInt r.lower (lastSegment k)

/-- The values of the keys of object records of some data types (wmi_repository.py 3981-3988, 4093-4100). -/
def Repo.ofTypes (r : Repo) (types : List Str) (keys : List Key) : List KeyValues :=
  (keys.filterMap r.values).filter (fun v => decide (v.dataType ∈ types))

/-- The body of the loop of `_ReadClassDefinitionsFromObjectRecords` (wmi_repository.py 3990-4010). -/
def Repo.readDefinition (r : Repo) (v : KeyValues) : Res (Str × ClassInfo) :=
  match r.record v with
  | .error e => .error e
  | .ok d =>
    match readClassReference r.utf16 d with
    | .error e => .error e
    | .ok ref => (readClass r.cp ref.data).map (v.nameHash, ·)

/-- `_ReadClassDefinitionsFromObjectRecords` (wmi_repository.py 3974-4010): the items set in the dictionary, in order. -/
def Repo.definitions (r : Repo) : Res (List (Str × ClassInfo)) := 
  mapOk r.readDefinition (r.ofTypes ["CD".toList] r.keys)

/-- The loop over the super classes of `_GetClassValueMapByHash` (wmi_repository.py 3586-3603), as `chainLoop`. -/
def superChain (find : Str → Option ClassInfo) : Nat → ClassInfo → List ClassInfo → Option (Res (List ClassInfo))
  | 0, _, _ => none
  | fuel + 1, c, acc =>
    match c.super with
    | none | some [] => some (.ok (c :: acc))
    | some (s :: ss) =>
      match find (s :: ss) with
      | none => some (.error .attributeError)
      | some d => superChain find fuel d (c :: acc)

/-- The classes up to the first property whose type qualifier cannot be used, with the error of that. -/
def classDefs : List ClassInfo → List ClassDef × Option Err
  | [] => ([], none)
  | c :: cs =>
    let r := propertyDefs ((dictOf (c.properties.map (fun p => (p.name, p)))).map (·.2))
    match r.2 with
    | some e => ([⟨c.name, c.super, r.1⟩], some e)
    | none =>
      let rest := classDefs cs
      (⟨c.name, c.super, r.1⟩ :: rest.1, rest.2)

/-- `Build` with the class definitions from the base class on (wmi_repository.py 75-142). -/
def buildAll (cs : List ClassInfo) : Res ClassMap :=
  match buildMap (classDefs cs).1 with
  | .error e => .error e
  | .ok m =>
    match (classDefs cs).2 with
    | some e => .error e
    | none => .ok m

/-- `_GetClassValueMapByHash` (wmi_repository.py 3577-3610) of a hash in lower case that is not in the cache. -/
def Repo.mapOf (r : Repo) (defs : List (Str × ClassInfo)) (fuel : Nat) (k : Str) : Option (Res ClassMap) :=
  match lastOf defs k with
  | none => some (.error .runtimeError)
  | some c =>
    match superChain (fun s => lastOf defs (r.lower (r.hash s))) fuel c [] with
    | none => none
    | some (.error e) => some (.error e)
    | some (.ok cs) => some (buildAll cs)

abbrev Cache := List (Str × ClassMap)

/-- `_GetClassValueMapByHash` (wmi_repository.py 3561-3614), with the cache thereafter. -/
def Repo.cachedMap (r : Repo) (defs : List (Str × ClassInfo)) (fuel : Nat) (cache : Cache) (h : Str) :
    Option (Res (ClassMap × Cache)) :=
  match cache.lookup (r.lower h) with
  | some m => some (.ok (m, cache))
  | none => (r.mapOf defs fuel (r.lower h)).map (·.map (fun m => (m, (r.lower h, m) :: cache)))

/-- `_GetClassDefinitionByName` (wmi_repository.py 3533-3559), once the class definitions are read. -/
def Repo.classByName (r : Repo) (name : Str) : Res (Option ClassInfo) :=
  r.definitions.map (fun defs => lastOf defs (r.lower (r.hash name)))

/-- The reading of the block of an instance with the map of its class (wmi_repository.py 4032-4048). -/
def readMapped (cp : Bytes → Option Str) (m : ClassMap) (block : Bytes) : Res Inst :=
  (readInstance cp ((dictOf m.properties.reverse).map (·.2)) m.propertiesSize block).map
    (fun r => ⟨m.className, m.derivation, m.super, m.dynasty, r.2⟩)

/-- `_ReadInstance` of the reference in an object record (wmi_repository.py 4017-4048, 4102-4105, 4209-4217), which
`_ReadInstanceFromObjectRecord` (4051-4084) repeats.  The hash is a text of 32 or 64 characters, so that it is not
empty. -/
def Repo.readRecord (r : Repo) (defs : List (Str × ClassInfo)) (fuel : Nat) (cache : Cache) (v : KeyValues) :
    Option (Res (Inst × Cache)) :=
  match r.record v with
  | .error e => some (.error e)
  | .ok d =>
    match readInstanceReference r.utf16 r.old d with
    | .error e => some (.error e)
    | .ok ref =>
      match r.cachedMap defs fuel cache ref.text with
      | none => none
      | some (.error e) => some (.error e)
      | some (.ok (m, cache)) => some ((readMapped r.cp m ref.data).map (·, cache))

def Repo.instancesFrom (r : Repo) (defs : List (Str × ClassInfo)) (fuel : Nat) :
    Cache → List KeyValues → Option (Res (List Inst × Cache))
  | cache, [] => some (.ok ([], cache))
  | cache, v :: vs =>
    match r.readRecord defs fuel cache v with
    | none => none
    | some (.error e) => some (.error e)
    | some (.ok (i, cache)) => (r.instancesFrom defs fuel cache vs).map (·.map (fun x => (i :: x.1, x.2)))

/-- `GetInstances` (wmi_repository.py 4199-4217) of a repository with an index: `none` is out of fuel. -/
def Repo.getInstances (r : Repo) (defs : List (Str × ClassInfo)) (fuel : Nat) (cache : Cache) :
    Option (Res (List Inst × Cache)) :=
  r.instancesFrom defs fuel cache (r.ofTypes ["I".toList, "IL".toList] r.keys)

/-! ## Model: namespaces -/

structure Collecting where
  parents : List Str
  seen : List (Int × Int)
  children : List (Str × Inst)
  cache : Cache
deriving DecidableEq, Repr

/-- The body of the first loop of `_ReadNamespacesFromObjectRecords` (wmi_repository.py 4117-4149). -/
def Repo.collectOne (r : Repo) (defs : List (Str × ClassInfo)) (fuel : Nat) (st : Collecting) (k : Key) :
    Option (Res Collecting) :=
  match (splitOn '\\' k)[1]? with
  | none => some (.error .indexError)
  | some segment =>
    if "NS_".toList.isPrefixOf segment = false then some (.ok st)
    else
      let parent := r.lower (segment.drop 3)
      let st := { st with parents := if parent ∈ st.parents then st.parents else st.parents ++ [parent] }
      match (splitOn '\\' k)[2]? with
      | none => some (.error .indexError)
      | some segment =>
        if r.lower (partition '_' segment).2 ≠ r.hash "__NAMESPACE".toList then some (.ok st)
        else
          match r.values k with
          | none => some (.ok st)
          | some v =>
            if v.dataType ≠ "I".toList ∧ v.dataType ≠ "IL".toList then some (.ok st)
            else if (v.page, v.identifier) ∈ st.seen then some (.ok st)
            else
              match r.readRecord defs fuel st.cache v with
              | none => none
              | some (.error e) => some (.error e)
              | some (.ok (i, cache)) =>
                some (.ok ⟨st.parents, (v.page, v.identifier) :: st.seen, st.children ++ [(parent, i)], cache⟩)

def Repo.collect (r : Repo) (defs : List (Str × ClassInfo)) (fuel : Nat) : Collecting → List Key → Option (Res Collecting)
  | st, [] => some (.ok st)
  | st, k :: ks =>
    match r.collectOne defs fuel st k with
    | none => none
    | some (.error e) => some (.error e)
    | some (.ok st) => r.collect defs fuel st ks

/-- The names of instances; `none` is that of any of them is not a text. -/
def namedChildren : List (Str × Inst) → Option (List (Str × Str))
  | [] => some []
  | (p, i) :: l =>
    match nameOf i with
    | none => none
    | some n => (namedChildren l).map ((p, n) :: ·)

/-- The names of the children of the namespace with a hash. -/
def childrenOf (l : List (Str × Str)) (h : Str) : List Str := (l.filter (fun x => decide (x.1 = h))).map (·.2)

/-- `_ReadNamespacesFromObjectRecords` (wmi_repository.py 4107-4179), whose rounds are those of C90: the names of the
namespaces.  An instance without name is a type error here; in the code only if its parent namespace is known. -/
def Repo.getNamespaces (r : Repo) (defs : List (Str × ClassInfo)) (fuel : Nat) (cache : Cache) (common : List Str)
    (order : Nat → List Str → List Str) : Option (Res (List Str)) :=
  match r.collect defs fuel ⟨[], [], [], cache⟩ r.keys with
  | none => none
  | some (.error e) => some (.error e)
  | some (.ok st) =>
    match namedChildren st.children with
    | none => some (.error .typeError)
    | some l => some (.ok (namespaces r.hash (childrenOf l) order common st.parents))

/-! ## Specification -/

/-- The key of an object record below other segments. -/
def objectKey (above : List Str) (type hash : Str) (page identifier size : Nat) : Key :=
  (above ++ [recordKey type hash page identifier size]).flatMap (fun s => '\\' :: s)

/-- The segments of a key above that of the record. -/
def Segments (above : List Str) (hash : Str) : Prop := (∀ s ∈ above, '\\' ∉ s) ∧ '\\' ∉ hash ∧ '.' ∉ hash

/-- A class is stored in the record with the values of a key. -/
structure Repo.ClassIn (r : Repo) (v : KeyValues) (c : StoredClass) : Prop where
  ok : c.Ok r.cp
  qualifiers : ∀ q ∈ c.qualifiers, q.type ≠ 0x13 ∧ q.type ≠ 0x66
  propertyQualifiers : ∀ p ∈ c.properties, ∀ q ∈ p.qualifiers, q.type ≠ 0x13 ∧ q.type ≠ 0x66
  values : c.values.length < 2 ^ 27
  stored : ∃ (super : Bytes) (s : Str) (n time : Nat) (extra rest : Bytes), super.length = 2 * n ∧
    r.utf16 super = some s ∧ n < 2 ^ 32 ∧ time < 2 ^ 64 ∧ (c.bytes ++ extra).length + 4 < 2 ^ 32 ∧
    r.record v = .ok (classRecord super n time (c.bytes ++ extra) ++ rest)

/-- An instance of the class with a hash in lower case is stored in the record with the values of a key. -/
def Repo.InstanceIn (r : Repo) (v : KeyValues) (h : Str) (i : StoredInstance) : Prop :=
  ∃ (hash : Bytes) (s : Str) (time1 time2 : Nat) (rest : Bytes), hash.length = (if r.old then 64 else 128) ∧
    r.utf16 hash = some s ∧ r.lower s = h ∧ time1 < 2 ^ 64 ∧ time2 < 2 ^ 64 ∧ i.bytes.length + 4 < 2 ^ 32 ∧
    r.record v = .ok (instanceRecord hash time1 time2 i.bytes ++ rest)

/-- The keys of an index with the classes, by their hash, and the instances, by that of their class, in their order. -/
inductive Repo.Holding (r : Repo) : List Key → List (Str × StoredClass) → List (Str × StoredInstance) → Prop
  | none : Holding r [] [] []
  | unrelated (k : Key) (ks : List Key) (cs : List (Str × StoredClass)) (is : List (Str × StoredInstance)) :
      '.' ∉ k → Holding r ks cs is → Holding r (k :: ks) cs is
  | other (above : List Str) (type hash : Str) (page identifier size : Nat) (ks : List Key) (cs : List (Str × StoredClass))
      (is : List (Str × StoredInstance)) : Segments above hash → '_' ∉ type → '.' ∉ type → '\\' ∉ type →
      type ≠ "CD".toList → type ≠ "I".toList → type ≠ "IL".toList → Holding r ks cs is →
      Holding r (objectKey above type hash page identifier size :: ks) cs is
  | cls (above : List Str) (hash : Str) (page identifier size : Nat) (c : StoredClass) (ks : List Key)
      (cs : List (Str × StoredClass)) (is : List (Str × StoredInstance)) : Segments above hash →
      r.ClassIn ⟨"CD".toList, r.lower hash, page, identifier, size⟩ c → Holding r ks cs is →
      Holding r (objectKey above "CD".toList hash page identifier size :: ks) ((r.lower hash, c) :: cs) is
  | inst (above : List Str) (type hash : Str) (page identifier size : Nat) (h : Str) (i : StoredInstance) (ks : List Key)
      (cs : List (Str × StoredClass)) (is : List (Str × StoredInstance)) : Segments above hash →
      type = "I".toList ∨ type = "IL".toList →
      r.InstanceIn ⟨type, r.lower hash, page, identifier, size⟩ h i → Holding r ks cs is →
      Holding r (objectKey above type hash page identifier size :: ks) cs ((h, i) :: is)

/-- The last of the classes with a hash. -/
def LastClass (cs : List (Str × StoredClass)) (h : Str) (c : StoredClass) : Prop :=
  ∃ a b, cs = a ++ (h, c) :: b ∧ ∀ x ∈ b, x.1 ≠ h

/-- The super classes of a class, the nearest one first. -/
inductive Repo.Supers (r : Repo) (cs : List (Str × StoredClass)) : StoredClass → List StoredClass → Prop
  | base (c : StoredClass) : c.super.map (·.2.2) = none ∨ c.super.map (·.2.2) = some [] → Supers r cs c []
  | derived (c d : StoredClass) (ds : List StoredClass) (flags : UInt8) (text : Bytes) (s : Str) :
      c.super = some (flags, text, s) → s ≠ [] → LastClass cs (r.lower (r.hash s)) d → Supers r cs d ds →
      Supers r cs c (d :: ds)

/-- Properties with their maps, by their name in lower case: a property of a name of an earlier one takes its place. -/
inductive Merged : List (StoredProperty × PropertyMap) → List (Str × PropertyMap) → Prop
  | none : Merged [] []
  | new (l : List (StoredProperty × PropertyMap)) (p : StoredProperty) (m : PropertyMap) (ms : List (Str × PropertyMap)) :
      Merged l ms → (∀ x ∈ ms, x.1 ≠ p.name.map Char.toLower) →
      Merged (l ++ [(p, m)]) (ms ++ [(p.name.map Char.toLower, m)])
  | override (l : List (StoredProperty × PropertyMap)) (p : StoredProperty) (m m' : PropertyMap)
      (a b : List (Str × PropertyMap)) : Merged l (a ++ (p.name.map Char.toLower, m') :: b) →
      Merged (l ++ [(p, m)]) (a ++ (p.name.map Char.toLower, m) :: b)

/-- The size of the values of properties: the end of the first of those with the largest offset. -/
inductive ValuesEnd : List StoredProperty → Nat → Prop
  | none : ValuesEnd [] 0
  | first (a b : List StoredProperty) (p : StoredProperty) : (∀ q ∈ a, q.offset < p.offset) →
      (∀ q ∈ b, q.offset ≤ p.offset) → ValuesEnd (a ++ p :: b) (p.offset + valueSize p.type)

/-- What a stored instance is, with the classes of a repository. -/
structure Repo.Describes (r : Repo) (cs : List (Str × StoredClass)) (limit : Nat) (h : Str) (i : StoredInstance) (inst : Inst) :
    Prop where
  cls : ∃ (c : StoredClass) (supers : List StoredClass) (typed : List (StoredProperty × PropertyMap))
    (merged : List (Str × PropertyMap)) (values : List (PropertyMap × Value)) (size : Nat),
    LastClass cs h c ∧ r.Supers cs c supers ∧ supers.length < limit ∧
    (∀ d ∈ c :: supers, (d.properties.map (·.name)).Nodup) ∧
    typed.map (·.1) = (c :: supers).reverse.flatMap (·.properties) ∧ (∀ x ∈ typed, MapOf x.1 x.2) ∧
    Merged typed merged ∧ merged.map (·.2) = values.map (·.1) ∧
    ValuesEnd ((c :: supers).reverse.flatMap (·.properties)) size ∧ i.Ok r.cp values.length size ∧
    (∀ x ∈ values, HasValue r.cp i x.1 x.2 ∧ ¬ Unreadable x.1.dataType) ∧
    inst = instanceOf c (supers.map (·.name)) values

/-- The claim of C136 about classes: the definition of a class is that of any key of it, in whatever namespace. -/
def C136_lookup_claim : Prop := ∀ (r : Repo) (cs : List (Str × StoredClass)) (is : List (Str × StoredInstance)),
  (∀ n : Nat, r.pyInt (digits 10 n) = some (n : Int)) → r.Holding r.keys cs is →
  ∀ (name : Str) (c : StoredClass), (r.lower (r.hash name), c) ∈ cs → r.classByName name = .ok (some c.shown)

/-- The claim of C136 about records: no more instances are listed than there are records of instances. -/
def C136_once_claim : Prop := ∀ (r : Repo) (defs : List (Str × ClassInfo)) (fuel : Nat) (insts : List Inst) (cache : Cache)
  (records : List (Int × Int)),
  (∀ k ∈ r.keys, ∀ v, r.values k = some v → v.dataType = "I".toList ∨ v.dataType = "IL".toList →
    (v.page, v.identifier) ∈ records) →
  r.getInstances defs fuel [] = some (.ok (insts, cache)) → insts.length ≤ records.length

/-- The claim of C137 about errors. -/
def C137_errors_claim : Prop := ∀ (r : Repo) (defs : List (Str × ClassInfo)) (fuel : Nat) (common : List Str)
  (order : Nat → List Str → List Str) (e : Err), (∀ v e, r.record v = .error e → e = .parseError) →
  (∀ v, r.record v ≠ .ok []) → r.getNamespaces defs fuel [] common order = some (.error e) → e = .parseError

/-! ## Proofs: keys -/

theorem objectKey_last (above : List Str) (type hash : Str) (page identifier size : Nat) (h : Segments above hash)
    (ht : '\\' ∉ type) : lastSegment (objectKey above type hash page identifier size) =
      recordKey type hash page identifier size := by
  unfold lastSegment objectKey
  rw [C86_split _ (by simp)]
  · rw [List.getLastD_eq_getLast?, ← List.cons_append, List.getLast?_append]
    simp
  · intro v hv
    rcases List.mem_append.1 hv with hv | hv
    · exact h.1 v hv
    · simp only [List.mem_singleton] at hv
      subst hv
      have hd : ∀ n : Nat, '\\' ∉ digits 10 n := by
        intro n hn
        obtain ⟨d, hd, e⟩ := mem_digits 10 n (by omega) _ hn
        exact digitChar_ne d (by omega) '\\' (by decide) e.symm
      simp [recordKey, ht, h.2.1, hd]

theorem values_of (r : Repo) (hint : ∀ n : Nat, r.pyInt (digits 10 n) = some (n : Int)) (above : List Str)
    (type hash : Str) (page identifier size : Nat) (h : Segments above hash)
    (h1 : '_' ∉ type) (h2 : '.' ∉ type) (h3 : '\\' ∉ type) :
    r.values (objectKey above type hash page identifier size) = some ⟨type, r.lower hash, page, identifier, size⟩ := by
  unfold Repo.values
  rw [objectKey_last _ _ _ _ _ _ h h3, C89_key_values _ _ _ _ _ _ _ hint h1 h2 h.2.2]

theorem mem_splitOn (c : Char) (s p : List Char) (h : p ∈ splitOn c s) : ∀ x ∈ p, x ∈ s := by
  induction s generalizing p with
  | nil =>
    simp only [splitOn, List.mem_singleton] at h
    subst h
    simp
  | cons y s ih =>
    intro x hx
    rw [splitOn] at h
    split at h
    · rcases List.mem_cons.1 h with rfl | h
      · cases hx
      · exact List.mem_cons_of_mem _ (ih p h x hx)
    · split at h
      · simp only [List.mem_singleton] at h
        subst h
        simp only [List.mem_singleton] at hx
        simp [hx]
      · rename_i q qs hq
        rcases List.mem_cons.1 h with rfl | h
        · rcases List.mem_cons.1 hx with rfl | hx
          · simp
          · exact List.mem_cons_of_mem _ (ih q (by rw [hq]; simp) x hx)
        · exact List.mem_cons_of_mem _ (ih p (by rw [hq]; simp [h]) x hx)

theorem values_unrelated (r : Repo) (k : Key) (h : '.' ∉ k) : r.values k = none := by
  unfold Repo.values keyValues
  rw [if_pos]
  intro hm
  apply h
  unfold lastSegment at hm
  rw [List.getLastD_eq_getLast?] at hm
  cases hg : (splitOn '\\' k).getLast? with
  | none => rw [hg] at hm; cases hm
  | some s =>
    rw [hg] at hm
    exact mem_splitOn '\\' k s (List.mem_of_getLast? hg) _ hm

theorem ofTypes_skip (r : Repo) (types : List Str) (k : Key) (ks : List Key)
    (h : ∀ v, r.values k = some v → v.dataType ∉ types) : r.ofTypes types (k :: ks) = r.ofTypes types ks := by
  unfold Repo.ofTypes
  cases hv : r.values k with
  | none => rw [List.filterMap_cons_none hv]
  | some v => rw [List.filterMap_cons_some hv, List.filter_cons_of_neg (by simpa using h v hv)]

theorem ofTypes_take (r : Repo) (types : List Str) (k : Key) (ks : List Key) (v : KeyValues) (hv : r.values k = some v)
    (ht : v.dataType ∈ types) : r.ofTypes types (k :: ks) = v :: r.ofTypes types ks := by
  unfold Repo.ofTypes
  rw [List.filterMap_cons_some hv, List.filter_cons_of_pos (by simpa using ht)]

/-! ## Proofs: C136, class definitions -/

theorem readDefinition_of (r : Repo) (v : KeyValues) (c : StoredClass) (h : r.ClassIn v c) :
    r.readDefinition v = .ok (v.nameHash, c.shown) := by
  obtain ⟨super, s, n, time, extra, rest, h1, h2, h3, h4, h5, h6⟩ := h.stored
  unfold Repo.readDefinition
  rw [h6]
  simp only
  rw [C132_class r.utf16 super s n time _ rest h1 h2 h3 h4 h5]
  simp only
  rw [C129_class_partial r.cp c extra h.ok h.qualifiers h.propertyQualifiers h.values]
  rfl

/-- C136: the class definitions are those of the keys of class definitions, in order of the keys. -/
theorem C136_definitions (r : Repo) (hint : ∀ n : Nat, r.pyInt (digits 10 n) = some (n : Int))
    (cs : List (Str × StoredClass)) (is : List (Str × StoredInstance)) (h : r.Holding r.keys cs is) :
    r.definitions = .ok (cs.map (fun x => (x.1, x.2.shown))) := by
  unfold Repo.definitions
  generalize r.keys = keys at h
  induction h with
  | none => rfl
  | unrelated k ks cs is hk _ ih =>
    rw [ofTypes_skip _ _ _ _ (by rw [values_unrelated r k hk]; simp)]
    exact ih
  | other above type hash page identifier size ks cs is hs h1 h2 h3 h4 _ _ _ ih =>
    rw [ofTypes_skip _ _ _ _ (by
      rw [values_of r hint _ _ _ _ _ _ hs h1 h2 h3]
      rintro v ⟨⟩
      simpa using h4)]
    exact ih
  | cls above hash page identifier size c ks cs is hs hc _ ih =>
    rw [ofTypes_take _ _ _ _ _ (values_of r hint _ _ _ _ _ _ hs (by decide) (by decide) (by decide)) (by simp), mapOk,
      readDefinition_of r _ c hc, ih]
    rfl
  | inst above type hash page identifier size h i ks cs is hs ht _ _ ih =>
    rw [ofTypes_skip _ _ _ _ (by
      rcases ht with rfl | rfl <;>
      · rw [values_of r hint _ _ _ _ _ _ hs (by decide) (by decide) (by decide)]
        rintro v ⟨⟩
        simp)]
    exact ih

/-! ## Proofs: C136, the cache -/

/-- The caches that lookups lead to. -/
inductive Repo.Reached (r : Repo) (defs : List (Str × ClassInfo)) (fuel : Nat) : Cache → Prop
  | empty : Reached r defs fuel []
  | looked (cache cache' : Cache) (h : Str) (m : ClassMap) : Reached r defs fuel cache →
      r.cachedMap defs fuel cache h = some (.ok (m, cache')) → Reached r defs fuel cache'

/-- What is in the cache is what would be made again. -/
theorem reached_agrees (r : Repo) (defs : List (Str × ClassInfo)) (fuel : Nat) (cache : Cache)
    (h : r.Reached defs fuel cache) : ∀ k m, cache.lookup k = some m → r.mapOf defs fuel k = some (.ok m) := by
  induction h with
  | empty => intro k m hk; cases hk
  | looked cache cache' h m _ hl ih =>
    intro k m' hk
    unfold Repo.cachedMap at hl
    cases hc : cache.lookup (r.lower h) with
    | some m'' =>
      rw [hc] at hl
      cases hl
      exact ih k m' hk
    | none =>
      rw [hc] at hl
      cases hm : r.mapOf defs fuel (r.lower h) with
      | none => simp [hm] at hl
      | some x =>
        cases x with
        | error e => simp [hm, Except.map] at hl
        | ok x =>
          simp only [hm, Option.map_some, Except.map, Option.some.injEq, Except.ok.injEq, Prod.mk.injEq] at hl
          obtain ⟨rfl, rfl⟩ := hl
          rw [List.lookup_cons] at hk
          split at hk
          · rename_i he
            cases hk
            rw [beq_iff_eq] at he
            rw [he, hm]
          · exact ih k m' hk

theorem cachedMap_plain (r : Repo) (defs : List (Str × ClassInfo)) (fuel : Nat) (cache : Cache)
    (h : r.Reached defs fuel cache) (t : Str) :
    ∃ cache', r.Reached defs fuel cache' ∧
      r.cachedMap defs fuel cache t = (r.mapOf defs fuel (r.lower t)).map (·.map (·, cache')) := by
  cases hm : r.cachedMap defs fuel cache t with
  | none =>
    refine ⟨cache, h, ?_⟩
    unfold Repo.cachedMap at hm
    split at hm
    · cases hm
    · rw [Option.map_eq_none_iff] at hm
      rw [hm]
      rfl
  | some x =>
    cases x with
    | error e =>
      refine ⟨cache, h, ?_⟩
      unfold Repo.cachedMap at hm
      split at hm
      · cases hm
      · rw [Option.map_eq_some_iff] at hm
        obtain ⟨y, hy, he⟩ := hm
        rw [hy]
        cases y with
        | ok m => cases he
        | error e' => cases he; rfl
    | ok x =>
      obtain ⟨m, cache'⟩ := x
      refine ⟨cache', .looked cache cache' t m h hm, ?_⟩
      unfold Repo.cachedMap at hm
      split at hm
      · rename_i m' hl
        cases hm
        rw [reached_agrees r defs fuel cache h _ _ hl]
        rfl
      · rw [Option.map_eq_some_iff] at hm
        obtain ⟨y, hy, he⟩ := hm
        rw [hy]
        cases y with
        | error e => cases he
        | ok m' => cases he; rfl

/-- An instance read with a map that was made for it. -/
def Repo.readPlain (r : Repo) (defs : List (Str × ClassInfo)) (fuel : Nat) (v : KeyValues) : Option (Res Inst) :=
  match r.record v with
  | .error e => some (.error e)
  | .ok d =>
    match readInstanceReference r.utf16 r.old d with
    | .error e => some (.error e)
    | .ok ref =>
      match r.mapOf defs fuel (r.lower ref.text) with
      | none => none
      | some (.error e) => some (.error e)
      | some (.ok m) => some (readMapped r.cp m ref.data)

theorem readRecord_plain (r : Repo) (defs : List (Str × ClassInfo)) (fuel : Nat) (cache : Cache)
    (h : r.Reached defs fuel cache) (v : KeyValues) :
    ∃ cache', r.Reached defs fuel cache' ∧
      r.readRecord defs fuel cache v = (r.readPlain defs fuel v).map (·.map (·, cache')) := by
  unfold Repo.readRecord Repo.readPlain
  cases r.record v with
  | error e => exact ⟨cache, h, rfl⟩
  | ok d =>
    simp only
    cases readInstanceReference r.utf16 r.old d with
    | error e => exact ⟨cache, h, rfl⟩
    | ok ref =>
      simp only
      obtain ⟨cache', h', he⟩ := cachedMap_plain r defs fuel cache h ref.text
      refine ⟨cache', h', ?_⟩
      rw [he]
      cases r.mapOf defs fuel (r.lower ref.text) with
      | none => rfl
      | some x => cases x <;> rfl

/-- Reading one after the other, up to the first error. -/
def oneByOne {α β : Type} (read : α → Option (Res β)) : List α → Option (Res (List β))
  | [] => some (.ok [])
  | a :: as =>
    match read a with
    | none => none
    | some (.error e) => some (.error e)
    | some (.ok b) => (oneByOne read as).map (·.map (b :: ·))

/-- An instance read from a record with nothing in the cache. -/
def Repo.readAlone (r : Repo) (defs : List (Str × ClassInfo)) (fuel : Nat) (v : KeyValues) : Option (Res Inst) :=
  (r.readRecord defs fuel [] v).map (·.map (·.1))

theorem map_fst {α β : Type} (x : Option (Res α)) (c : β) : (x.map (·.map (·, c))).map (·.map (·.1)) = x := by
  rcases x with _ | _ | _ <;> rfl

theorem readAlone_plain (r : Repo) (defs : List (Str × ClassInfo)) (fuel : Nat) (v : KeyValues) :
    r.readAlone defs fuel v = r.readPlain defs fuel v := by
  obtain ⟨c, _, he⟩ := readRecord_plain r defs fuel [] .empty v
  unfold Repo.readAlone
  rw [he, map_fst]

theorem instancesFrom_plain (r : Repo) (defs : List (Str × ClassInfo)) (fuel : Nat) (vs : List KeyValues) (cache : Cache)
    (h : r.Reached defs fuel cache) :
    ∃ cache', r.Reached defs fuel cache' ∧
      r.instancesFrom defs fuel cache vs = (oneByOne (r.readPlain defs fuel) vs).map (·.map (·, cache')) := by
  induction vs generalizing cache with
  | nil => exact ⟨cache, h, rfl⟩
  | cons v vs ih =>
    obtain ⟨c1, h1, e1⟩ := readRecord_plain r defs fuel cache h v
    rw [Repo.instancesFrom, oneByOne, e1]
    cases r.readPlain defs fuel v with
    | none => exact ⟨cache, h, rfl⟩
    | some x =>
      cases x with
      | error e => exact ⟨cache, h, rfl⟩
      | ok i =>
        obtain ⟨c2, h2, e2⟩ := ih c1 h1
        refine ⟨c2, h2, ?_⟩
        simp only [Option.map_some, Except.map]
        rw [e2]
        rcases oneByOne (r.readPlain defs fuel) vs with _ | _ | _ <;> rfl

/-- C136: whatever was looked up before, every instance is read as in a repository in which nothing was. -/
theorem C136_cache (r : Repo) (defs : List (Str × ClassInfo)) (fuel : Nat) (cache : Cache)
    (h : r.Reached defs fuel cache) :
    (r.getInstances defs fuel cache).map (·.map (·.1)) =
      oneByOne (r.readAlone defs fuel) (r.ofTypes ["I".toList, "IL".toList] r.keys) := by
  obtain ⟨c, _, he⟩ := instancesFrom_plain r defs fuel (r.ofTypes ["I".toList, "IL".toList] r.keys) cache h
  unfold Repo.getInstances
  rw [he, map_fst, funext (readAlone_plain r defs fuel)]

/-! ## Proofs: C136, maps of derived classes -/

theorem find_last (cs : List (Str × StoredClass)) (h : Str) (c : StoredClass) (hc : LastClass cs h c) :
    lastOf (cs.map (fun x => (x.1, x.2.shown))) h = some c.shown := by
  obtain ⟨a, b, rfl, hb⟩ := hc
  rw [List.map_append, List.map_cons]
  refine lastOf_spec _ _ _ _ ?_
  intro x hx
  obtain ⟨y, hy, rfl⟩ := List.mem_map.1 hx
  exact hb y hy

theorem superChain_of (r : Repo) (cs : List (Str × StoredClass)) (c : StoredClass) (ds : List StoredClass)
    (h : r.Supers cs c ds) (fuel : Nat) (hf : ds.length < fuel) (acc : List ClassInfo) :
    superChain (fun s => lastOf (cs.map (fun x => (x.1, x.2.shown))) (r.lower (r.hash s))) fuel c.shown acc =
      some (.ok ((c :: ds).reverse.map (·.shown) ++ acc)) := by
  induction h generalizing fuel acc with
  | base c hs =>
    cases fuel with
    | zero => omega
    | succ fuel =>
      have hs' : c.shown.super = none ∨ c.shown.super = some [] := hs
      rw [superChain]
      rcases hs' with e | e <;> rw [e] <;> rfl
  | derived c d ds flags text s hs hne hl _ ih =>
    cases fuel with
    | zero => omega
    | succ fuel =>
      have hs' : c.shown.super = some s := by
        show c.super.map (·.2.2) = _
        rw [hs]; rfl
      rw [superChain, hs']
      cases s with
      | nil => exact absurd rfl hne
      | cons x s =>
        simp only
        rw [find_last cs _ d hl]
        simp only
        rw [ih fuel (by simp at hf; omega)]
        simp

theorem properties_dict (c : StoredClass) (h : (c.properties.map (·.name)).Nodup) :
    (dictOf (c.shown.properties.map (fun p => (p.name, p)))).map (·.2) = c.properties.map (·.shown) := by
  rw [dict_nodup]
  · rw [List.map_map]
    show List.map _ (List.map _ _) = _
    rw [List.map_map]
    rfl
  · rw [List.map_map]
    show (List.map _ (List.map _ _)).Nodup
    rw [List.map_map]
    exact h

theorem classDefs_of (cs : List StoredClass) (typed : List (StoredProperty × PropertyMap))
    (hn : ∀ c ∈ cs, (c.properties.map (·.name)).Nodup) (ht : typed.map (·.1) = cs.flatMap (·.properties))
    (hm : ∀ x ∈ typed, MapOf x.1 x.2) :
    ∃ (defs : List ClassDef) (l : List (PropertyDef × PropertyMap)), classDefs (cs.map (·.shown)) = (defs, none) ∧
      defs.map (·.name) = cs.map (·.name) ∧ defs.flatMap (·.properties) = l.map (·.1) ∧
      l.map (fun x => (x.1.name, x.2)) = typed.map (fun x => (x.1.name, x.2)) ∧
      ∀ x ∈ l, ∃ c cs, x.1.qualifier = some (c :: cs) ∧ x.2 = propertyMap x.1 (c :: cs) := by
  induction cs generalizing typed with
  | nil =>
    obtain rfl : typed = [] := by simpa using ht
    exact ⟨[], [], rfl, rfl, rfl, rfl, by simp⟩
  | cons c cs ih =>
    rw [List.flatMap_cons] at ht
    obtain ⟨t1, t2, rfl, ht1, ht2⟩ := List.map_eq_append_iff.1 ht
    obtain ⟨defs, l, e1, e2, e3, e4, e5⟩ := ih t2 (fun d hd => hn d (by simp [hd])) ht2 (fun x hx => hm x (by simp [hx]))
    have hz : c.properties.zip (t1.map (·.2)) = t1 := by
      rw [← ht1, List.zip_map']
      simp
    obtain ⟨l1, f1, f2, f3, f4⟩ := propertyDefs_of c.properties (t1.map (·.2)) (by rw [← ht1]; simp) (by
      rw [hz]
      exact fun x hx => hm x (by simp [hx]))
    refine ⟨⟨c.shown.name, c.shown.super, l1.map (·.1)⟩ :: defs, l1 ++ l, ?_, ?_, ?_, ?_, ?_⟩
    · rw [List.map_cons, classDefs]
      simp only
      rw [properties_dict c (hn c (by simp)), f1]
      simp only
      rw [e1]
    · rw [List.map_cons, e2]; rfl
    · rw [List.flatMap_cons, e3, List.map_append]
    · rw [List.map_append, List.map_append, e4]
      congr 1
      rw [← ht1, List.map_map] at f3
      have : ∀ (a : List (PropertyDef × PropertyMap)) (b : List (StoredProperty × PropertyMap)),
          a.map (·.2) = b.map (·.2) → a.map (·.1.name) = b.map (·.1.name) →
          a.map (fun x => (x.1.name, x.2)) = b.map (fun x => (x.1.name, x.2)) := by
        intro a
        induction a with
        | nil => intro b h _; simp only [List.map_nil] at h ⊢; rw [eq_comm, List.map_eq_nil_iff] at h; rw [h]; rfl
        | cons x a ih =>
          intro b h1 h2
          cases b with
          | nil => cases h1
          | cons y b =>
            simp only [List.map_cons, List.cons.injEq] at h1 h2 ⊢
            exact ⟨by rw [h1.1, h2.1], ih b h1.2 h2.2⟩
      exact this _ _ f2 f3
    · intro x hx
      rcases List.mem_append.1 hx with hx | hx
      · exact f4 x hx
      · exact e5 x hx

theorem merged_dict (typed : List (StoredProperty × PropertyMap)) (ms : List (Str × PropertyMap)) (h : Merged typed ms) :
    (ms.map (·.1)).Nodup ∧ dictOf (typed.map (fun x => (x.1.name.map Char.toLower, x.2))) = ms := by
  induction h with
  | none => exact ⟨List.nodup_nil, rfl⟩
  | new l p m ms _ hn ih =>
    refine ⟨?_, ?_⟩
    · rw [List.map_append, List.nodup_append]
      refine ⟨ih.1, by simp, ?_⟩
      intro a ha b hb
      simp only [List.map_cons, List.map_nil, List.mem_singleton] at hb
      subst hb
      obtain ⟨x, hx, rfl⟩ := List.mem_map.1 ha
      exact hn x hx
    · unfold dictOf at ih ⊢
      rw [List.map_append, List.foldl_append, ih.2]
      show setItem ms _ = _
      unfold setItem
      rw [if_neg]
      intro hm
      obtain ⟨x, hx, he⟩ := List.mem_map.1 hm
      exact hn x hx he
  | override l p m m' a b _ ih =>
    refine ⟨by simpa using ih.1, ?_⟩
    have hnd := ih.1
    unfold dictOf at ih ⊢
    rw [List.map_append, List.foldl_append, ih.2]
    show setItem _ _ = _
    unfold setItem
    rw [if_pos (by simp)]
    simp only [List.map_append, List.map_cons, if_pos]
    rw [List.map_append, List.map_cons, List.nodup_append, List.nodup_cons] at hnd
    have keep : ∀ (q : List (Str × PropertyMap)), (∀ x ∈ q, x.1 ≠ p.name.map Char.toLower) →
        q.map (fun y => if y.1 = p.name.map Char.toLower then (p.name.map Char.toLower, m) else y) = q := by
      intro q hq
      conv_rhs => rw [← List.map_id q]
      refine List.map_congr_left ?_
      intro x hx
      rw [if_neg (hq x hx)]
      rfl
    rw [keep a (fun x hx => hnd.2.2 x.1 (List.mem_map_of_mem hx) _ (by simp)),
      keep b (fun x hx he => hnd.2.1.1 (List.mem_map.2 ⟨x, hx, he⟩))]

theorem larger_keep' (ms : List PropertyMap) (m : PropertyMap) (h : ∀ x ∈ ms, x.offset ≤ m.offset) :
    ms.foldl larger (some m) = some m := by
  induction ms with
  | nil => rfl
  | cons x ms ih =>
    have := h x (by simp)
    rw [List.foldl_cons, larger, if_neg (by omega), ih (fun y hy => h y (by simp [hy]))]

theorem end_of (typed : List (StoredProperty × PropertyMap)) (size : Nat) (hm : ∀ x ∈ typed, MapOf x.1 x.2)
    (hs : ValuesEnd (typed.map (·.1)) size) :
    (match (typed.map (·.2)).foldl larger none with | none => 0 | some m => m.offset + m.size) = size := by
  generalize hp : typed.map (·.1) = ps at hs
  cases hs with
  | none =>
    obtain rfl : typed = [] := by simpa using hp
    rfl
  | first a b p ha hb =>
    obtain ⟨t1, t2, rfl, e1, e2⟩ := List.map_eq_append_iff.1 hp
    obtain ⟨⟨p', m⟩, t2, rfl, rfl, e3⟩ := List.map_eq_cons_iff.1 e2
    have hm' := mapOf_offset p' m (hm (p', m) (by simp))
    rw [List.map_append, List.map_cons, List.foldl_append, List.foldl_cons]
    have h1 : larger ((t1.map (·.2)).foldl larger none) m = some m := by
      have := larger_below (t1.map (·.2)) m.offset none (by simp) (by
        intro x hx
        obtain ⟨y, hy, rfl⟩ := List.mem_map.1 hx
        rw [(mapOf_offset y.1 y.2 (hm y (by simp [hy]))).2.1, hm'.2.1]
        exact ha y.1 (by rw [← e1]; exact List.mem_map_of_mem hy))
      cases hl : (t1.map (·.2)).foldl larger none with
      | none => rfl
      | some x => rw [larger, if_pos (this x hl)]
    rw [h1, larger_keep' _ m (by
      intro x hx
      obtain ⟨y, hy, rfl⟩ := List.mem_map.1 hx
      rw [(mapOf_offset y.1 y.2 (hm y (by simp [hy]))).2.1, hm'.2.1]
      exact hb y.1 (by rw [← e3]; exact List.mem_map_of_mem hy))]
    simp only
    rw [hm'.2.1, hm'.2.2]

theorem buildAll_of (c : StoredClass) (supers : List StoredClass) (typed : List (StoredProperty × PropertyMap))
    (merged : List (Str × PropertyMap)) (size : Nat) (hn : ∀ d ∈ c :: supers, (d.properties.map (·.name)).Nodup)
    (ht : typed.map (·.1) = (c :: supers).reverse.flatMap (·.properties)) (hm : ∀ x ∈ typed, MapOf x.1 x.2)
    (hg : Merged typed merged) (hs : ValuesEnd ((c :: supers).reverse.flatMap (·.properties)) size) :
    ∃ m, buildAll ((c :: supers).reverse.map (·.shown)) = .ok m ∧ m.className = c.name ∧
      m.derivation = supers.map (·.name) ∧ m.super = (supers.map (·.name))[0]? ∧ m.dynasty = (supers.map (·.name))[1]? ∧
      (dictOf m.properties.reverse).map (·.2) = merged.map (·.2) ∧ m.propertiesSize = size := by
  obtain ⟨defs, l, e1, e2, e3, e4, e5⟩ := classDefs_of (c :: supers).reverse typed
    (fun d hd => hn d (List.mem_reverse.1 hd)) ht hm
  have hb := loop_typed l ⟨[], none⟩ e5
  have e4' : l.map (·.2) = typed.map (·.2) := by
    have := congrArg (List.map (·.2)) e4
    simpa [List.map_map, Function.comp_def] using this
  have e4'' : l.map (fun x => (x.1.name.map Char.toLower, x.2)) = typed.map (fun x => (x.1.name.map Char.toLower, x.2)) := by
    have := congrArg (List.map (fun x : Str × PropertyMap => (x.1.map Char.toLower, x.2))) e4
    simpa [List.map_map, Function.comp_def] using this
  obtain ⟨front, last, rfl⟩ : ∃ front last, defs = front ++ [last] := by
    rcases List.eq_nil_or_concat defs with rfl | ⟨front, last, rfl⟩
    · simp at e2
    · exact ⟨front, last, by simp⟩
  rw [List.map_append, List.reverse_cons, List.map_append] at e2
  obtain ⟨e6, e7⟩ := List.append_inj' e2 rfl
  simp only [List.map_cons, List.map_nil, List.cons.injEq, and_true] at e7
  unfold buildAll
  rw [e1]
  unfold buildMap
  simp only [List.getLast?_append, List.getLast?_singleton, Option.some_or, List.dropLast_concat]
  rw [e3, hb]
  simp only
  have hd : (front.map (·.name)).reverse = supers.map (·.name) := by
    rw [e6, ← List.map_reverse, List.reverse_reverse]
  rw [hd]
  refine ⟨_, rfl, e7, rfl, rfl, rfl, ?_, ?_⟩
  · simp only [List.append_nil, List.reverse_reverse]
    rw [e4'', (merged_dict typed merged hg).2]
  · simp only
    rw [e4']
    rw [← ht] at hs
    exact end_of typed size hm hs

theorem readPlain_of (r : Repo) (cs : List (Str × StoredClass)) (fuel : Nat) (v : KeyValues) (h : Str)
    (i : StoredInstance) (inst : Inst) (hi : r.InstanceIn v h i) (hd : r.Describes cs fuel h i inst) :
    r.readPlain (cs.map (fun x => (x.1, x.2.shown))) fuel v = some (.ok inst) := by
  obtain ⟨hash, s, time1, time2, rest, h1, h2, h3, h4, h5, h6, h7⟩ := hi
  obtain ⟨c, supers, typed, merged, values, size, g1, g2, g3, g4, g5, g6, g7, g8, g9, g10, g11, rfl⟩ := hd.cls
  unfold Repo.readPlain
  rw [h7]
  simp only
  rw [C132_instance r.utf16 r.old hash s time1 time2 _ rest h1 h2 h4 h5 h6]
  simp only
  rw [h3]
  unfold Repo.mapOf
  rw [find_last cs h c g1]
  simp only
  rw [superChain_of r cs c supers g2 fuel g3]
  simp only [List.append_nil]
  obtain ⟨m, hm, e1, e2, e3, e4, e5, e6⟩ := buildAll_of c supers typed merged size g4 g5 g6 g7 g9
  rw [hm]
  simp only
  unfold readMapped
  rw [e5, g8, e6, C131_instance_partial r.cp i values size g10 (fun x hx => (g11 x hx).1) (fun x hx => (g11 x hx).2),
    e1, e2, e3, e4]
  rfl

/-- Instances that are stored, and what they are. -/
inductive Repo.Listed (r : Repo) (cs : List (Str × StoredClass)) (limit : Nat) : List (Str × StoredInstance) → List Inst → Prop
  | none : Listed r cs limit [] []
  | one (h : Str) (i : StoredInstance) (inst : Inst) (is : List (Str × StoredInstance)) (insts : List Inst) :
      r.Describes cs limit h i inst → Listed r cs limit is insts → Listed r cs limit ((h, i) :: is) (inst :: insts)

theorem instances_of (r : Repo) (hint : ∀ n : Nat, r.pyInt (digits 10 n) = some (n : Int))
    (cs all : List (Str × StoredClass)) (is : List (Str × StoredInstance)) (insts : List Inst) (fuel : Nat) (keys : List Key)
    (h : r.Holding keys cs is) (hl : r.Listed all fuel is insts) :
    oneByOne (r.readPlain (all.map (fun x => (x.1, x.2.shown))) fuel) (r.ofTypes ["I".toList, "IL".toList] keys) =
      some (.ok insts) := by
  induction h generalizing insts with
  | none => cases hl; rfl
  | unrelated k ks cs is hk _ ih =>
    rw [ofTypes_skip _ _ _ _ (by rw [values_unrelated r k hk]; simp)]
    exact ih insts hl
  | other above type hash page identifier size ks cs is hs h1 h2 h3 h4 h5 h6 _ ih =>
    rw [ofTypes_skip _ _ _ _ (by
      rw [values_of r hint _ _ _ _ _ _ hs h1 h2 h3]
      rintro v ⟨⟩
      simpa using ⟨h5, h6⟩)]
    exact ih insts hl
  | cls above hash page identifier size c ks cs is hs hc _ ih =>
    rw [ofTypes_skip _ _ _ _ (by
      rw [values_of r hint _ _ _ _ _ _ hs (by decide) (by decide) (by decide)]
      rintro v ⟨⟩
      show "CD".toList ∉ ["I".toList, "IL".toList]
      decide)]
    exact ih insts hl
  | inst above type hash page identifier size h i ks cs is hs ht hi _ ih =>
    cases hl with
    | one _ _ inst _ insts hd hl =>
      have hv : r.values (objectKey above type hash page identifier size) =
          some ⟨type, r.lower hash, page, identifier, size⟩ := by
        rcases ht with rfl | rfl <;>
          exact values_of r hint _ _ _ _ _ _ hs (by decide) (by decide) (by decide)
      rw [ofTypes_take _ _ _ _ _ hv (by simpa using ht), oneByOne, readPlain_of r all fuel _ h i inst hi hd]
      simp only
      rw [ih insts hl]
      rfl

/-- C136 (in part: for the last of the keys of a class): the definition of a class is the one of its key. -/
theorem C136_lookup_partial (r : Repo) (cs : List (Str × StoredClass)) (is : List (Str × StoredInstance))
    (hint : ∀ n : Nat, r.pyInt (digits 10 n) = some (n : Int)) (h : r.Holding r.keys cs is) (name : Str) (c : StoredClass)
    (hc : LastClass cs (r.lower (r.hash name)) c) : r.classByName name = .ok (some c.shown) := by
  unfold Repo.classByName
  rw [C136_definitions r hint cs is h]
  show Except.ok (lastOf (cs.map (fun x => (x.1, x.2.shown))) _) = _
  rw [find_last cs _ c hc]

/-- **C136**: the instances are those of the keys of instances, in the order of the keys, with the values of the
properties of their class and its super classes, whatever was looked up before. -/
theorem C136_instances (r : Repo) (hint : ∀ n : Nat, r.pyInt (digits 10 n) = some (n : Int))
    (cs : List (Str × StoredClass)) (is : List (Str × StoredInstance)) (insts : List Inst) (fuel : Nat)
    (h : r.Holding r.keys cs is) (hl : r.Listed cs fuel is insts) (cache : Cache)
    (hc : r.Reached (cs.map (fun x => (x.1, x.2.shown))) fuel cache) :
    ∃ defs cache', r.definitions = .ok defs ∧ r.getInstances defs fuel cache = some (.ok (insts, cache')) := by
  obtain ⟨cache', _, he⟩ := instancesFrom_plain r (cs.map (fun x => (x.1, x.2.shown))) fuel
    (r.ofTypes ["I".toList, "IL".toList] r.keys) cache hc
  refine ⟨_, cache', C136_definitions r hint cs is h, ?_⟩
  unfold Repo.getInstances
  rw [he, instances_of r hint cs cs is insts fuel r.keys h hl]
  rfl

/-! ## Specification: namespaces -/

/-- The keys with the hashes of the namespaces in them, and the instances of namespaces by the hash of the one that they
are in: those of the records that no earlier key is of. -/
inductive Repo.Collected (r : Repo) (cs : List (Str × StoredClass)) (limit : Nat) :
    List (Nat × Nat) → List Key → List Str → List (Str × Inst) → Prop
  | none (seen : List (Nat × Nat)) : Collected r cs limit seen [] [] []
  | outside (seen : List (Nat × Nat)) (first : Str) (below : List Str) (ks : List Key) (ps : List Str)
      (l : List (Str × Inst)) : (∀ s ∈ first :: below, '\\' ∉ s) → ¬ "NS_".toList <+: first →
      Collected r cs limit seen ks ps l →
      Collected r cs limit seen ((first :: below).flatMap (fun s => '\\' :: s) :: ks) ps l
  | elsewhere (seen : List (Nat × Nat)) (p x h : Str) (below : List Str) (ks : List Key) (ps : List Str)
      (l : List (Str × Inst)) : (∀ s ∈ p :: x :: h :: below, '\\' ∉ s) → '_' ∉ x →
      r.lower h ≠ r.hash "__NAMESPACE".toList → Collected r cs limit seen ks ps l →
      Collected r cs limit seen
        ((("NS_".toList ++ p) :: (x ++ '_' :: h) :: below).flatMap (fun s => '\\' :: s) :: ks) (r.lower p :: ps) l
  | other (seen : List (Nat × Nat)) (p x h : Str) (between : List Str) (type hash : Str) (page identifier size : Nat)
      (ks : List Key) (ps : List Str) (l : List (Str × Inst)) :
      Segments (("NS_".toList ++ p) :: (x ++ '_' :: h) :: between) hash → '_' ∉ x → '_' ∉ type → '.' ∉ type →
      '\\' ∉ type → type ≠ "I".toList → type ≠ "IL".toList → Collected r cs limit seen ks ps l →
      Collected r cs limit seen
        (objectKey (("NS_".toList ++ p) :: (x ++ '_' :: h) :: between) type hash page identifier size :: ks)
        (r.lower p :: ps) l
  | again (seen : List (Nat × Nat)) (p x h : Str) (between : List Str) (type hash : Str) (page identifier size : Nat)
      (ks : List Key) (ps : List Str) (l : List (Str × Inst)) :
      Segments (("NS_".toList ++ p) :: (x ++ '_' :: h) :: between) hash → '_' ∉ x →
      type = "I".toList ∨ type = "IL".toList → (page, identifier) ∈ seen → Collected r cs limit seen ks ps l →
      Collected r cs limit seen
        (objectKey (("NS_".toList ++ p) :: (x ++ '_' :: h) :: between) type hash page identifier size :: ks)
        (r.lower p :: ps) l
  | first (seen : List (Nat × Nat)) (p x h : Str) (between : List Str) (type hash : Str) (page identifier size : Nat)
      (c : Str) (i : StoredInstance) (inst : Inst) (ks : List Key) (ps : List Str) (l : List (Str × Inst)) :
      Segments (("NS_".toList ++ p) :: (x ++ '_' :: h) :: between) hash → '_' ∉ x →
      r.lower h = r.hash "__NAMESPACE".toList → type = "I".toList ∨ type = "IL".toList → (page, identifier) ∉ seen →
      r.InstanceIn ⟨type, r.lower hash, page, identifier, size⟩ c i → r.Describes cs limit c i inst →
      Collected r cs limit ((page, identifier) :: seen) ks ps l →
      Collected r cs limit seen
        (objectKey (("NS_".toList ++ p) :: (x ++ '_' :: h) :: between) type hash page identifier size :: ks)
        (r.lower p :: ps) ((r.lower p, inst) :: l)

/-! ## Proofs: C137 -/

theorem seen_cast (seen : List (Nat × Nat)) (a b : Nat) :
    ((a : Int), (b : Int)) ∈ seen.map (fun x => ((x.1 : Int), (x.2 : Int))) ↔ (a, b) ∈ seen := by
  rw [List.mem_map]
  constructor
  · rintro ⟨x, hx, he⟩
    simp only [Prod.mk.injEq, Int.natCast_inj] at he
    obtain ⟨rfl, rfl⟩ := he
    exact hx
  · intro h
    exact ⟨(a, b), h, rfl⟩

theorem starts_ns (p : Str) : "NS_".toList.isPrefixOf ("NS_".toList ++ p) = true := by
  rw [List.isPrefixOf_iff_prefix]
  exact List.prefix_append _ _

/-- The state after a key in a namespace, before its instance. -/
def withParent (st : Collecting) (p : Str) : Collecting :=
  { st with parents := if p ∈ st.parents then st.parents else st.parents ++ [p] }

theorem collectOne_below (r : Repo) (defs : List (Str × ClassInfo)) (fuel : Nat) (st : Collecting) (p x h : Str)
    (below : List Str) (hs : ∀ s ∈ ("NS_".toList ++ p) :: (x ++ '_' :: h) :: below, '\\' ∉ s) (hx : '_' ∉ x) :
    r.collectOne defs fuel st ((("NS_".toList ++ p) :: (x ++ '_' :: h) :: below).flatMap (fun s => '\\' :: s)) =
      if r.lower h ≠ r.hash "__NAMESPACE".toList then some (.ok (withParent st (r.lower p)))
      else
        match r.values ((("NS_".toList ++ p) :: (x ++ '_' :: h) :: below).flatMap (fun s => '\\' :: s)) with
        | none => some (.ok (withParent st (r.lower p)))
        | some v =>
          if v.dataType ≠ "I".toList ∧ v.dataType ≠ "IL".toList then some (.ok (withParent st (r.lower p)))
          else if (v.page, v.identifier) ∈ st.seen then some (.ok (withParent st (r.lower p)))
          else
            match r.readRecord defs fuel st.cache v with
            | none => none
            | some (.error e) => some (.error e)
            | some (.ok (i, cache)) =>
              some (.ok ⟨(withParent st (r.lower p)).parents, (v.page, v.identifier) :: st.seen,
                st.children ++ [(r.lower p, i)], cache⟩) := by
  unfold Repo.collectOne
  rw [C86_split _ (by simp) hs]
  simp only [List.getElem?_cons_succ, List.getElem?_cons_zero]
  rw [if_neg (by rw [starts_ns]; decide), partition_append x h '_' hx]
  have : ("NS_".toList ++ p).drop 3 = p := rfl
  rw [this]
  rfl

theorem mem_withParent (st : Collecting) (p q : Str) : q ∈ (withParent st p).parents ↔ q ∈ st.parents ∨ q = p := by
  unfold withParent
  simp only
  split
  · rename_i h
    exact ⟨.inl, fun hq => hq.elim id (fun e => e ▸ h)⟩
  · simp

theorem objectKey_segments (above : List Str) (type hash : Str) (page identifier size : Nat) (h : Segments above hash)
    (ht : '\\' ∉ type) : ∀ s ∈ above ++ [recordKey type hash page identifier size], '\\' ∉ s := by
  intro s hs
  rcases List.mem_append.1 hs with hs | hs
  · exact h.1 s hs
  · simp only [List.mem_singleton] at hs
    subst hs
    have hd : ∀ n : Nat, '\\' ∉ digits 10 n := by
      intro n hn
      obtain ⟨d, hd, e⟩ := mem_digits 10 n (by omega) _ hn
      exact digitChar_ne d (by omega) '\\' (by decide) e.symm
    simp [recordKey, ht, h.2.1, hd]

theorem collect_of (r : Repo) (hint : ∀ n : Nat, r.pyInt (digits 10 n) = some (n : Int))
    (cs : List (Str × StoredClass)) (fuel : Nat) (seen : List (Nat × Nat)) (ks : List Key) (ps : List Str)
    (l : List (Str × Inst)) (h : r.Collected cs fuel seen ks ps l) (st : Collecting)
    (hs : st.seen = seen.map (fun x => ((x.1 : Int), (x.2 : Int))))
    (hc : r.Reached (cs.map (fun x => (x.1, x.2.shown))) fuel st.cache) :
    ∃ st', r.collect (cs.map (fun x => (x.1, x.2.shown))) fuel st ks = some (.ok st') ∧ st'.children = st.children ++ l ∧
      ∀ p, p ∈ st'.parents ↔ p ∈ st.parents ∨ p ∈ ps := by
  have step : ∀ (st : Collecting) (k : Key) (ks : List Key) (p : Str) (ps : List Str) (l : List (Str × Inst)),
      r.collectOne (cs.map (fun x => (x.1, x.2.shown))) fuel st k = some (.ok (withParent st (r.lower p))) →
      (∃ st', r.collect (cs.map (fun x => (x.1, x.2.shown))) fuel (withParent st (r.lower p)) ks = some (.ok st') ∧
        st'.children = (withParent st (r.lower p)).children ++ l ∧
        ∀ q, q ∈ st'.parents ↔ q ∈ (withParent st (r.lower p)).parents ∨ q ∈ ps) →
      ∃ st', r.collect (cs.map (fun x => (x.1, x.2.shown))) fuel st (k :: ks) = some (.ok st') ∧
        st'.children = st.children ++ l ∧ ∀ q, q ∈ st'.parents ↔ q ∈ st.parents ∨ q ∈ r.lower p :: ps := by
    intro st k ks p ps l h1 ⟨st', h2, h3, h4⟩
    refine ⟨st', ?_, h3, ?_⟩
    · rw [Repo.collect, h1]
      exact h2
    · intro q
      rw [h4, mem_withParent, List.mem_cons, or_assoc]
  induction h generalizing st with
  | none seen => exact ⟨st, rfl, by simp, by simp⟩
  | outside seen first below ks ps l h1 h2 _ ih =>
    obtain ⟨st', e1, e2, e3⟩ := ih st hs hc
    refine ⟨st', ?_, e2, e3⟩
    have : r.collectOne (cs.map (fun x => (x.1, x.2.shown))) fuel st ((first :: below).flatMap (fun s => '\\' :: s)) =
        some (.ok st) := by
      unfold Repo.collectOne
      rw [C86_split _ (by simp) h1]
      simp only [List.getElem?_cons_succ, List.getElem?_cons_zero]
      rw [if_pos]
      rw [← Bool.not_eq_true, List.isPrefixOf_iff_prefix]
      exact h2
    rw [Repo.collect, this]
    exact e1
  | elsewhere seen p x h below ks ps l h1 h2 h3 _ ih =>
    refine step st _ ks p ps l ?_ (ih (withParent st (r.lower p)) hs hc)
    rw [collectOne_below r _ fuel st p x h below (by
      intro s hm
      rcases List.mem_cons.1 hm with rfl | hm
      · have := h1 p (by simp)
        simp [this]
      · rcases List.mem_cons.1 hm with rfl | hm
        · have a := h1 x (by simp)
          have b := h1 h (by simp)
          simp [a, b]
        · exact h1 s (by simp [hm])) h2, if_pos h3]
  | other seen p x h between type hash page identifier size ks ps l h1 h2 h3 h4 h5 h6 h7 _ ih =>
    refine step st _ ks p ps l ?_ (ih (withParent st (r.lower p)) hs hc)
    have hv := values_of r hint _ type hash page identifier size h1 h3 h4 h5
    have hk := collectOne_below r (cs.map (fun x => (x.1, x.2.shown))) fuel st p x h
      (between ++ [recordKey type hash page identifier size]) (objectKey_segments _ type hash page identifier size h1 h5) h2
    unfold objectKey at hv ⊢
    simp only [List.cons_append] at hv ⊢
    rw [hk, hv]
    simp only
    split
    · rfl
    · rw [if_pos ⟨h6, h7⟩]
  | again seen p x h between type hash page identifier size ks ps l h1 h2 h3 h4 _ ih =>
    refine step st _ ks p ps l ?_ (ih (withParent st (r.lower p)) hs hc)
    have ht : '_' ∉ type ∧ '.' ∉ type ∧ '\\' ∉ type := by rcases h3 with rfl | rfl <;> decide
    have hv := values_of r hint _ type hash page identifier size h1 ht.1 ht.2.1 ht.2.2
    have hk := collectOne_below r (cs.map (fun x => (x.1, x.2.shown))) fuel st p x h
      (between ++ [recordKey type hash page identifier size]) (objectKey_segments _ type hash page identifier size h1 ht.2.2) h2
    unfold objectKey at hv ⊢
    simp only [List.cons_append] at hv ⊢
    rw [hk, hv]
    simp only
    split
    · rfl
    · split
      · rfl
      · rw [if_pos (by rw [hs, seen_cast]; exact h4)]
  | first seen p x h between type hash page identifier size c i inst ks ps l h1 h2 h3 h4 h5 h6 h7 _ ih =>
    have ht : '_' ∉ type ∧ '.' ∉ type ∧ '\\' ∉ type := by rcases h4 with rfl | rfl <;> decide
    have hv := values_of r hint _ type hash page identifier size h1 ht.1 ht.2.1 ht.2.2
    have hk := collectOne_below r (cs.map (fun x => (x.1, x.2.shown))) fuel st p x h
      (between ++ [recordKey type hash page identifier size]) (objectKey_segments _ type hash page identifier size h1 ht.2.2) h2
    obtain ⟨cache', hc', he⟩ := readRecord_plain r (cs.map (fun x => (x.1, x.2.shown))) fuel st.cache hc
      ⟨type, r.lower hash, page, identifier, size⟩
    rw [readPlain_of r cs fuel _ c i inst h6 h7] at he
    unfold objectKey at hv ⊢
    simp only [List.cons_append] at hv ⊢
    rw [hv, if_neg (by simpa using h3)] at hk
    simp only at hk
    rw [if_neg (by rcases h4 with rfl | rfl <;> decide), if_neg (by rw [hs, seen_cast]; exact h5), he] at hk
    simp only [Option.map_some, Except.map] at hk
    obtain ⟨st', e1, e2, e3⟩ := ih ⟨(withParent st (r.lower p)).parents, (↑page, ↑identifier) :: st.seen,
      st.children ++ [(r.lower p, inst)], cache'⟩ (by simp [hs]) hc'
    refine ⟨st', ?_, ?_, ?_⟩
    · rw [Repo.collect, hk]
      exact e1
    · rw [e2]
      simp
    · intro q
      rw [e3, mem_withParent, List.mem_cons, or_assoc]

theorem namedChildren_of (name : Inst → Str) (l : List (Str × Inst)) (h : ∀ x ∈ l, Named name x.2) :
    namedChildren l = some (l.map (fun x => (x.1, name x.2))) := by
  induction l with
  | nil => rfl
  | cons x l ih =>
    rw [namedChildren, nameOf_named name x.2 (h x (by simp))]
    simp only
    rw [ih (fun y hy => h y (by simp [hy]))]
    rfl

theorem collected_parents (r : Repo) (cs : List (Str × StoredClass)) (fuel : Nat) (seen : List (Nat × Nat)) (ks : List Key)
    (ps : List Str) (l : List (Str × Inst)) (h : r.Collected cs fuel seen ks ps l) : ∀ x ∈ l, x.1 ∈ ps := by
  induction h with
  | none => simp
  | outside _ _ _ _ _ _ _ _ _ ih => exact ih
  | elsewhere _ _ _ _ _ _ _ _ _ _ _ _ ih => exact fun x hx => List.mem_cons_of_mem _ (ih x hx)
  | other _ _ _ _ _ _ _ _ _ _ _ _ _ _ _ _ _ _ _ _ _ ih => exact fun x hx => List.mem_cons_of_mem _ (ih x hx)
  | again _ _ _ _ _ _ _ _ _ _ _ _ _ _ _ _ _ _ ih => exact fun x hx => List.mem_cons_of_mem _ (ih x hx)
  | first _ _ _ _ _ _ _ _ _ _ _ _ _ _ _ _ _ _ _ _ _ _ _ _ ih =>
    intro x hx
    rcases List.mem_cons.1 hx with rfl | hx
    · simp
    · exact List.mem_cons_of_mem _ (ih x hx)

/-- **C137** (in part: up to five levels below the namespaces whose names are known): the namespaces are those of the
instances of namespaces, each below the namespace of its key. -/
theorem C137_namespaces_partial (r : Repo) (hint : ∀ n : Nat, r.pyInt (digits 10 n) = some (n : Int))
    (cs : List (Str × StoredClass)) (is : List (Str × StoredInstance)) (fuel : Nat) (ps : List Str) (l : List (Str × Inst))
    (hh : r.Holding r.keys cs is) (h : r.Collected cs fuel [] r.keys ps l) (cache : Cache)
    (hc : r.Reached (cs.map (fun x => (x.1, x.2.shown))) fuel cache) (name : Inst → Str) (hn : ∀ x ∈ l, Named name x.2)
    (child : Str → Str → Str) (hch : ∀ p n, r.hash (nested p n) = child (r.hash p) n) (common : List Str)
    (order : Nat → List Str → List Str) (ho : ∀ i l x, x ∈ order i l ↔ x ∈ l) :
    ∃ defs names, r.definitions = .ok defs ∧ r.getNamespaces defs fuel cache common order = some (.ok names) ∧
      (∀ ns ∈ names, ∃ d, Below r.hash (fun h => (l.filter (fun x => decide (x.1 = h))).map (fun x => name x.2)) common
        (d + 1) ns) ∧
      ∀ d < 5, ∀ ns, Below r.hash (fun h => (l.filter (fun x => decide (x.1 = h))).map (fun x => name x.2)) common
        (d + 1) ns → ∃ ns' ∈ names, r.hash ns' = r.hash ns := by
  obtain ⟨st, e1, e2, e3⟩ := collect_of r hint cs fuel [] r.keys ps l h ⟨[], [], [], cache⟩ rfl hc
  have e4 := namedChildren_of name l hn
  have e5 : childrenOf (l.map (fun x => (x.1, name x.2))) =
      fun h => (l.filter (fun x => decide (x.1 = h))).map (fun x => name x.2) := by
    funext h
    unfold childrenOf
    rw [List.filter_map, List.map_map]
    rfl
  have hpar : ∀ h, (fun h => (l.filter (fun x => decide (x.1 = h))).map (fun x => name x.2)) h ≠ [] → h ∈ st.parents := by
    intro k hne
    obtain ⟨y, hy⟩ := List.exists_mem_of_ne_nil _ hne
    obtain ⟨x, hx, _⟩ := List.mem_map.1 hy
    rw [List.mem_filter, decide_eq_true_eq] at hx
    rw [e3]
    right
    rw [← hx.2]
    exact collected_parents r cs fuel [] r.keys ps l h x hx.1
  refine ⟨_, namespaces r.hash (childrenOf (l.map (fun x => (x.1, name x.2)))) order common st.parents,
    C136_definitions r hint cs is hh, ?_, ?_, ?_⟩
  · unfold Repo.getNamespaces
    rw [e1]
    simp only
    rw [e2]
    simp only [List.nil_append]
    rw [e4]
  · intro ns hns
    rw [e5] at hns
    exact C90_sound r.hash _ common child hch order ho st.parents hpar ns hns
  · intro d hd ns hns
    rw [e5]
    exact C90_found_partial r.hash _ common child hch order ho st.parents hpar d hd ns hns

/-! ## Samples -/

/-- A repository with a class and one that is derived from it, and keys of records of instances. -/
def sampleRepo (keys : List Key) : Repo where
  keys := keys
  record := fun v =>
    if v.page = 0 then .ok (classRecord [] 0 0 ((namespaceClass none).bytes ++ []) ++ [])
    else if v.page = 1 then .ok (classRecord [] 0 0 ((namespaceClass derivedFrom).bytes ++ []) ++ [])
    else .ok (instanceRecord (List.replicate 128 0x41) 0 0
      (namespaceInstance (if v.identifier = 5 then [0x62] else [0x63])).bytes ++ [])
  old := false
  cp := asciiText
  utf16 := fun _ => some "__NAMESPACE".toList
  pyInt := fun s => (parseDigits 10 s).map Int.ofNat
  lower := List.map Char.toLower
  hash := List.map Char.toLower

def baseKey : Key := objectKey ["NS_ROOT".toList] "CD".toList "B".toList 0 1 9
def derivedKey : Key := objectKey ["NS_ROOT".toList] "CD".toList "__NAMESPACE".toList 1 1 9
def listKey : Key := objectKey ["NS_ROOT".toList, "CI___NAMESPACE".toList] "IL".toList "A".toList 2 5 9
def instanceKey : Key := objectKey ["NS_ROOT".toList, "KI___NAMESPACE".toList] "I".toList "A".toList 2 5 9
def deeperKey : Key := objectKey ["NS_ROOT\\B".toList, "CI___NAMESPACE".toList] "IL".toList "A".toList 2 6 9

theorem sample_int (keys : List Key) (n : Nat) : (sampleRepo keys).pyInt (digits 10 n) = some (n : Int) := by
  show (parseDigits 10 (digits 10 n)).map Int.ofNat = _
  simp [parse_digits 10 n (by omega) (by omega)]

theorem sample_class (keys : List Key) (super : Option (UInt8 × Bytes × Str)) (h : super = none ∨ super = derivedFrom)
    (v : KeyValues) (hv : v.page = if super.isSome then 1 else 0) : (sampleRepo keys).ClassIn v (namespaceClass super) where
  ok := namespaceClass_ok super h
  qualifiers := (namespaceClass_at super h).qualifiers
  propertyQualifiers := (namespaceClass_at super h).propertyQualifiers
  values := (namespaceClass_at super h).values
  stored := by
    refine ⟨[], "__NAMESPACE".toList, 0, 0, [], [], rfl, rfl, by decide, by decide, ?_, ?_⟩
    · rcases h with rfl | rfl <;> decide +kernel
    · rcases h with rfl | rfl
      · show (if v.page = 0 then _ else _) = _
        rw [if_pos (by simpa using hv)]
      · have : v.page = 1 := hv
        show (if v.page = 0 then _ else if v.page = 1 then _ else _) = _
        rw [if_neg (by omega), if_pos this]

/-- The name in the record with an identifier. -/
def sampleName (identifier : Nat) : Bytes := if identifier = 5 then [0x62] else [0x63]

theorem sample_instance (keys : List Key) (type hash : Str) (identifier : Nat) (hi : identifier = 5 ∨ identifier = 6)
    (size : Int) : (sampleRepo keys).InstanceIn ⟨type, hash, 2, identifier, size⟩ "__namespace".toList
      (namespaceInstance (sampleName identifier)) := by
  refine ⟨List.replicate 128 0x41, "__NAMESPACE".toList, 0, 0, [], by simp [sampleRepo], rfl, rfl, by decide,
    by decide, ?_, ?_⟩
  · rcases hi with rfl | rfl <;> decide +kernel
  · rcases hi with rfl | rfl <;> rfl

def sampleClasses' : List (Str × StoredClass) :=
  [("b".toList, namespaceClass none), ("__namespace".toList, namespaceClass derivedFrom)]

/-- The instance of a derived class, whose class takes the place of a property of its super class. -/
def derivedInst (name : Str) : Inst := ⟨"_N".toList, ["_N".toList], some "_N".toList, none, [("Name".toList, .text name)]⟩

theorem sample_describes (keys : List Key) (identifier : Nat) (hi : identifier = 5 ∨ identifier = 6) :
    (sampleRepo keys).Describes sampleClasses' 2 "__namespace".toList (namespaceInstance (sampleName identifier))
      (derivedInst ((sampleName identifier).map (fun c => Char.ofNat c.toNat))) where
  cls := by
    refine ⟨namespaceClass derivedFrom, [namespaceClass none],
      [((namespaceClass none).properties.head (by decide), namespaceMap),
        ((namespaceClass none).properties.head (by decide), namespaceMap)],
      [("name".toList, namespaceMap)],
      [(namespaceMap, .text ((sampleName identifier).map (fun c => Char.ofNat c.toNat)))], 4, ?_, ?_, by decide, ?_, rfl, ?_,
      ?_, rfl, ?_, namespaceInstance_ok _, ?_, rfl⟩
    · exact ⟨[("b".toList, namespaceClass none)], [], rfl, by simp⟩
    · refine .derived _ (namespaceClass none) [] 0 [0x42] ['B'] rfl (by decide)
        ⟨[], [("__namespace".toList, namespaceClass derivedFrom)], rfl, ?_⟩ (.base _ (.inl rfl))
      intro x hx
      simp only [List.mem_singleton] at hx
      subst hx
      show "__namespace".toList ≠ ['B'].map Char.toLower
      decide
    · intro d hd
      simp only [List.mem_cons, List.not_mem_nil, or_false] at hd
      rcases hd with rfl | rfl <;> simp [namespaceClass]
    · intro x hx
      simp only [List.mem_cons, List.not_mem_nil, or_false, or_self] at hx
      subst hx
      exact ⟨[], _, [], "String".toList, rfl, by decide, rfl, by decide, by simp, by decide⟩
    · exact .override [_] _ _ _ [] [] (.new [] _ _ [] .none (by simp))
    · exact .first [] [(namespaceClass none).properties.head (by decide)] ((namespaceClass none).properties.head (by decide))
        (by simp) (by simp)
    · intro x hx
      simp only [List.mem_singleton] at hx
      subst hx
      refine ⟨namespaceInstance_value _ ?_, by show ¬ Unreadable 8; decide⟩
      rcases hi with rfl | rfl <;> decide

def sampleKeys : List Key := ["\\CR".toList, baseKey, derivedKey, listKey, instanceKey]

theorem sample_holding : (sampleRepo sampleKeys).Holding sampleKeys sampleClasses'
    [("__namespace".toList, namespaceInstance (sampleName 5)), ("__namespace".toList, namespaceInstance (sampleName 5))] := by
  refine .unrelated _ _ _ _ (by decide) ?_
  refine .cls ["NS_ROOT".toList] "B".toList 0 1 9 _ _ _ _ (by unfold Segments; decide) (sample_class _ none (.inl rfl) _ rfl) ?_
  refine .cls ["NS_ROOT".toList] "__NAMESPACE".toList 1 1 9 _ _ _ _ (by unfold Segments; decide)
    (sample_class _ derivedFrom (.inr rfl) _ rfl) ?_
  refine .inst ["NS_ROOT".toList, "CI___NAMESPACE".toList] "IL".toList "A".toList 2 5 9 _ _ _ _ _
    (by unfold Segments; decide) (.inr rfl) (sample_instance _ _ _ 5 (.inl rfl) 9) ?_
  exact .inst ["NS_ROOT".toList, "KI___NAMESPACE".toList] "I".toList "A".toList 2 5 9 _ _ _ _ _
    (by unfold Segments; decide) (.inl rfl) (sample_instance _ _ _ 5 (.inl rfl) 9) .none

theorem sample_listed : (sampleRepo sampleKeys).Listed sampleClasses' 2
    [("__namespace".toList, namespaceInstance (sampleName 5)), ("__namespace".toList, namespaceInstance (sampleName 5))]
    [derivedInst ['b'], derivedInst ['b']] :=
  .one _ _ _ _ _ (sample_describes _ 5 (.inl rfl)) (.one _ _ _ _ _ (sample_describes _ 5 (.inl rfl)) .none)

/-- C136: an instance that has two keys is listed twice. -/
theorem C136_once_claim_false : ¬ C136_once_claim := by
  intro h
  obtain ⟨defs, cache, _, he⟩ := C136_instances (sampleRepo sampleKeys) (sample_int _) sampleClasses' _ _ 2 sample_holding
    sample_listed [] .empty
  have := h (sampleRepo sampleKeys) defs 2 _ cache [(2, 5)] ?_ he
  · revert this
    decide
  · intro k hk v hv ht
    have hd : ∀ k ∈ sampleKeys, ∀ v, (sampleRepo []).values k = some v → v.dataType = "I".toList ∨ v.dataType = "IL".toList →
        (v.page, v.identifier) ∈ [((2 : Int), (5 : Int))] := by
      have hd' : ∀ k ∈ sampleKeys, ((sampleRepo []).values k).all (fun v =>
          decide (v.dataType = "I".toList ∨ v.dataType = "IL".toList → (v.page, v.identifier) ∈ [((2 : Int), (5 : Int))])) = true := by
        decide +kernel
      intro k hk v hv
      have := hd' k hk
      rw [hv, Option.all_some, decide_eq_true_eq] at this
      exact this
    exact hd k hk v hv ht

/-- C136: a class definition of the same name in another namespace takes the place of one. -/
theorem C136_lookup_claim_false : ¬ C136_lookup_claim := by
  intro h
  let ks : List Key := [objectKey ["NS_A".toList] "CD".toList "B".toList 0 1 9,
    objectKey ["NS_B".toList] "CD".toList "B".toList 1 1 9]
  have hh : (sampleRepo ks).Holding ks [("b".toList, namespaceClass none), ("b".toList, namespaceClass derivedFrom)] [] := by
    refine .cls ["NS_A".toList] "B".toList 0 1 9 _ _ _ _ (by unfold Segments; decide) (sample_class _ none (.inl rfl) _ rfl) ?_
    exact .cls ["NS_B".toList] "B".toList 1 1 9 _ _ _ _ (by unfold Segments; decide)
      (sample_class _ derivedFrom (.inr rfl) _ rfl) .none
  have h1 := h (sampleRepo ks) _ _ (sample_int _) hh "B".toList (namespaceClass none) (by
    show ("b".toList, namespaceClass none) ∈ _
    simp)
  have h2 := C136_lookup_partial (sampleRepo ks) _ _ (sample_int _) hh "B".toList (namespaceClass derivedFrom)
    ⟨[("b".toList, namespaceClass none)], [], rfl, by simp⟩
  rw [h1] at h2
  have h3 : (namespaceClass none).shown.super = (namespaceClass derivedFrom).shown.super := by
    injection h2 with h2
    injection h2 with h2
    rw [h2]
  revert h3
  decide

theorem sample_collected : (sampleRepo [derivedKey, listKey, instanceKey]).Collected sampleClasses' 2 []
    [derivedKey, listKey, instanceKey] ["root".toList, "root".toList, "root".toList] [("root".toList, derivedInst ['b'])] := by
  refine .elsewhere [] "ROOT".toList "CD".toList "__NAMESPACE.1.1.9".toList [] _ _ _ (by decide) (by decide) (by decide) ?_
  refine .first [] "ROOT".toList "CI".toList "__NAMESPACE".toList [] "IL".toList "A".toList 2 5 9 _ _ _ _ _ _
    (by unfold Segments; decide) (by decide) rfl (.inr rfl) (by simp) (sample_instance _ _ _ 5 (.inl rfl) 9)
    (sample_describes _ 5 (.inl rfl)) ?_
  exact .again _ "ROOT".toList "KI".toList "__NAMESPACE".toList [] "I".toList "A".toList 2 5 9 _ _ _
    (by unfold Segments; decide) (by decide) (.inl rfl) (by simp) (.none _)

example : Named (fun _ => ['b']) (derivedInst ['b']) := ⟨[], [], rfl, by simp⟩

example : (sampleRepo [baseKey, derivedKey, listKey, instanceKey]).getNamespaces
    (sampleClasses'.map (fun x => (x.1, x.2.shown))) 2 [] ["ROOT".toList] (fun _ l => l) = some (.ok ["ROOT\\b".toList]) := by
  decide +kernel

/-- C137: a key with nothing below its namespace is an exception that is not a parse error. -/
theorem C137_errors_claim_false : ¬ C137_errors_claim := by
  intro h
  have := h { sampleRepo ["\\NS_A".toList] with record := fun _ => .error .parseError } [] 1 [] (fun _ l => l) .indexError
    (by rintro v e ⟨⟩; rfl) (by intro v hv; cases hv) (by decide +kernel)
  cases this

end Dtf.Wmi
