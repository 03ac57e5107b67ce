import Verif.Wmi.Instances

/-!
# Nodes, instances and hierarchies of version 1 of the WMI repository (C133, C134, C135)
-/

namespace Dtf.Wmi
open Py DataFormat Text Unified

/-! ## Model: nodes -/

/-- The data of the cell of a node (wmi_repository.py 1679-1713): offsets of nodes are those of the data of their
cells. -/
def nodeData (data : Bytes) (offset : Nat) : Res Bytes :=
  match cellSize data (offset - 4) with
  | .error e => .error e
  | .ok size => .ok (slice data offset (offset - 4 + size % 2 ^ 27))

/-- A node of a number of 32-bit integers and a footer (wmi_repository.yaml 953-1000, 1030-1172, 1188-1212). -/
def parseWords (n : Nat) (b : Bytes) : Option (List Nat × Bytes) := do
  let (ws, b) ← several (num 4) n b
  let (_, b) ← raw 12 b
  return (ws, b)

/-- A node of integers at an offset, with its members in order. -/
def words (n : Nat) (data : Bytes) (offset : Nat) : Res (List Nat) :=
  match nodeData data offset with
  | .error e => .error e
  | .ok d => (fromStream (parseWords n) d).map (·.1)

/-- A member of a node. -/
def member (ws : List Nat) (i : Nat) : Nat := ws.getD i 0

/-- `cim_rep_class_definition_leaf_node` (wmi_repository.yaml 1001-1029): the class definition block.  The padding is
relative to the start of the node. -/
def parseClassLeaf (b : Bytes) : Option (Bytes × Bytes) := do
  let (d, r) ← sized b
  let (_, r) ← sized r
  let (_, r) ← raw ((4 - (b.length - r.length) % 4) % 4) r
  let (_, r) ← raw 12 r
  return (d, r)

/-- `cim_rep_instance_leaf_node` (wmi_repository.yaml 1173-1187). -/
def parseInstanceLeaf (b : Bytes) : Option (Bytes × Bytes) := do
  let (d, r) ← sized b
  let (_, r) ← raw 12 r
  return (d, r)

/-- The text up to the first two zero bytes at an even offset, and what follows them. -/
def units : Bytes → Option (Bytes × Bytes)
  | a :: b :: rest =>
    if a = 0 ∧ b = 0 then some ([], rest) else (units rest).map (fun r => (a :: b :: r.1, r.2))
  | _ => none

/-- `cim_rep_name_node` (wmi_repository.yaml 1213-1230). -/
def parseNameNode (utf16 : Bytes → Option Str) (b : Bytes) : Option (Str × Bytes) := do
  let (d, r) ← units b
  let s ← utf16 d
  let (_, r) ← raw ((4 - (b.length - r.length) % 4) % 4) r
  let (_, r) ← raw 12 r
  return (s, r)

/-- `_ReadNameNode` at an offset (wmi_repository.py 1623-1656). -/
def readNameNode (utf16 : Bytes → Option Str) (data : Bytes) (offset : Nat) : Res Str :=
  match nodeData data offset with
  | .error e => .error e
  | .ok d => (fromStream (parseNameNode utf16) d).map (·.1)

/-- `_ReadChildObjectsTree` (wmi_repository.py 1226-1275), with the values of the depth of its root
(wmi_repository.yaml 1121-1123).  All nodes are read before the first offset is given. -/
def readTree (data : Bytes) (offset : Nat) : Res (List Nat) :=
  match words 3 data offset with
  | .error e => .error e
  | .ok root =>
    if 2 < member root 0 then .error .parseError
    else if member root 0 = 1 then .ok [member root 2]
    else if member root 0 = 2 ∧ 40 < member root 2 then
      match words 4 data (member root 2) with
      | .error e => .error e
      | .ok branch => if 40 < member branch 3 then words 10 data (member branch 3) else .ok []
    else .ok []

/-! ## Model: instances -/

/-- A float is zero if all of its bits but the sign are. -/
def realZero (b : Bytes) : Bool := leNat b % 2 ^ (8 * b.length - 1) = 0

/-- The type qualifier as `Build` uses it (wmi_repository.py 103-104, 129): an attribute error, from the lowering of its
case, for one that is not a text. -/
def typeQualifier (p : Property) : Res (Option Str) :=
  match lastOf p.qualifiers "type".toList with
  | none => .ok none
  | some .none => .ok none
  | some (.text s) => .ok (some s)
  | some (.texts l) => if l = [] then .ok none else .error .attributeError
  | some (.boolean b) => if b then .error .attributeError else .ok none
  | some (.integer i) => if i = 0 then .ok none else .error .attributeError
  | some (.real b) => if realZero b then .ok none else .error .attributeError

/-- The properties up to the first whose type qualifier cannot be used, with the error of that. -/
def propertyDefs : List Property → List PropertyDef × Option Err
  | [] => ([], none)
  | p :: ps =>
    match typeQualifier p with
    | .error e => ([], some e)
    | .ok q =>
      let r := propertyDefs ps
      (⟨p.name, p.type, p.offset, q⟩ :: r.1, r.2)

/-- Setting an item of a dictionary, in the order of the dictionary. -/
def setItem {β : Type} (l : List (Str × β)) (x : Str × β) : List (Str × β) :=
  if x.1 ∈ l.map (·.1) then l.map (fun y => if y.1 = x.1 then x else y) else l ++ [x]

def dictOf {β : Type} (sets : List (Str × β)) : List (Str × β) := sets.foldl setItem []

/-- `Build` with the one class definition that is used (wmi_repository.py 75-142, 1895-1898). -/
def buildOne (c : ClassInfo) : Res ClassMap :=
  let r := propertyDefs ((dictOf (c.properties.map (fun p => (p.name, p)))).map (·.2))
  match buildMap [⟨c.name, c.super, r.1⟩] with
  | .error e => .error e
  | .ok m =>
    match r.2 with
    | some e => .error e
    | none => .ok m

/-- An instance, without what is only kept for debug output. -/
structure Inst where
  className : Str
  derivation : List Str
  super : Option Str
  dynasty : Option Str
  properties : List (Str × Value)
deriving DecidableEq, Repr

/-- `_ReadClassDefinition` (wmi_repository.py 1746-1774). -/
def readClassAt (cp : Bytes → Option Str) (data : Bytes) (offset : Nat) : Res (Option ClassInfo) :=
  match words 5 data offset with
  | .error e => .error e
  | .ok branch =>
    if member branch 3 ≤ 40 then .ok none
    else
      match nodeData data (member branch 3) with
      | .error e => .error e
      | .ok d =>
        match fromStream parseClassLeaf d with
        | .error e => .error e
        | .ok (block, _) => (readClass cp block).map some

/-- The reading of an instance from the data of its block with its class (wmi_repository.py 1895-1911): an attribute
error, from the building of the map, without class definition. -/
def readWith (cp : Bytes → Option Str) (c : Option ClassInfo) (block : Bytes) : Res Inst :=
  match c with
  | none => .error .attributeError
  | some c =>
    match buildOne c with
    | .error e => .error e
    | .ok m =>
      (readInstance cp ((dictOf m.properties.reverse).map (·.2)) m.propertiesSize block).map
        (fun r => ⟨m.className, m.derivation, m.super, m.dynasty, r.2⟩)

/-- `_ReadInstance` (wmi_repository.py 1852-1917). -/
def readInstanceAt (cp : Bytes → Option Str) (data : Bytes) (offset : Nat) : Res (Option Inst) :=
  match words 5 data offset with
  | .error e => .error e
  | .ok branch =>
    if member branch 1 ≤ 40 ∨ member branch 3 ≤ 40 ∨ member branch 2 ≠ 2 then .ok none
    else
      match words 8 data (member branch 1) with
      | .error e => .error e
      | .ok root =>
        if member root 1 ≤ 40 then .ok none
        else
          match readClassAt cp data (member root 1) with
          | .error e => .error e
          | .ok c =>
            match nodeData data (member branch 3) with
            | .error e => .error e
            | .ok d =>
              match fromStream parseInstanceLeaf d with
              | .error e => .error e
              | .ok (block, _) => (readWith cp c block).map some

/-! ## Model: hierarchies -/

/-- The loops over the leaf values of a tree of instances (wmi_repository.py 1961-1984, 2037-2052). -/
def leafLoop {β : Type} (data : Bytes) (visit : Nat → Res (List β)) : List Nat → Res (List β)
  | [] => .ok []
  | v :: vs =>
    match (if 40 < v then
        match words 2 data v with
        | .error e => .error e
        | .ok leaf => if 40 < member leaf 1 then visit (member leaf 1) else .ok []
      else .ok [] : Res (List β)) with
    | .error e => .error e
    | .ok xs => (leafLoop data visit vs).map (xs ++ ·)

/-- The instances below a root node (wmi_repository.py 1957-1962, 2033-2039). -/
def below {β : Type} (data : Bytes) (visit : Nat → Res (List β)) (tree : Nat) : Res (List β) :=
  if 40 < tree ∧ tree ≠ 0xFFFFFFFF then
    match readTree data tree with
    | .error e => .error e
    | .ok vs => leafLoop data visit vs
  else .ok []

/-- `_ReadInstanceHierarchy` (wmi_repository.py 1919-1984), with the number of levels of nested calls that are allowed.
If any instance cannot be read the result is the error; the code gives those before it first. -/
def instances (cp : Bytes → Option Str) (data : Bytes) : Nat → Nat → Res (List (Option Inst))
  | 0, _ => .error .recursionError
  | limit + 1, offset =>
    match words 7 data offset with
    | .error e => .error e
    | .ok root =>
      match (if 40 < member root 2 then (readInstanceAt cp data (member root 2)).map ([·]) else .ok [] :
          Res (List (Option Inst))) with
      | .error e => .error e
      | .ok xs => (below data (instances cp data limit) (member root 0)).map (xs ++ ·)

/-- The name of a namespace (wmi_repository.py 2025): of a property of that name. -/
def nameOf (i : Inst) : Option Str :=
  match i.properties.lookup "Name".toList with
  | some (.text s) => some s
  | _ => none

/-- The names of the segments of a namespace with backslashes in between (wmi_repository.py 2029). -/
def joined : List Str → Str
  | [] => []
  | [s] => s
  | s :: t :: rest => s ++ '\\' :: joined (t :: rest)

/-- `_ReadNamespaceInstanceHierarchy` (wmi_repository.py 2004-2052): the namespaces with their instances.  Without
instance it is an attribute error, and a type error, from the joining of the segments, without name. -/
def namespacesFrom (cp : Bytes → Option Str) (data : Bytes) : Nat → List Str → Nat → Res (List (Str × Inst))
  | 0, _, _ => .error .recursionError
  | limit + 1, segments, offset =>
    match words 7 data offset with
    | .error e => .error e
    | .ok root =>
      if 40 < member root 2 then
        match readInstanceAt cp data (member root 2) with
        | .error e => .error e
        | .ok none => .error .attributeError
        | .ok (some i) =>
          match nameOf i with
          | none => .error .typeError
          | some name =>
            (below data (namespacesFrom cp data limit (segments ++ [name])) (member root 0)).map
              ((joined (segments ++ [name]), i) :: ·)
      else .ok []

/-- `ReadInstances` (wmi_repository.py 2065-2074): a type error, from the comparison, without root node. -/
def readInstances (cp : Bytes → Option Str) (data : Bytes) (limit : Nat) (nodes : Nodes) :
    Res (List (Option Inst)) :=
  match nodes.root with
  | none => .error .typeError
  | some root => if 40 < root then instances cp data limit root else .ok []

/-- `ReadNamespaces` (wmi_repository.py 2076-2085). -/
def readNamespaces (cp : Bytes → Option Str) (data : Bytes) (limit : Nat) (nodes : Nodes) :
    Res (List (Str × Inst)) :=
  match nodes.root with
  | none => .error .typeError
  | some root => if 40 < root then namespacesFrom cp data limit [] root else .ok []

/-- `_ReadChildObjectsList` (wmi_repository.py 1120-1160) with what is done with the values; `none` is out of fuel. -/
def listLoop {β : Type} (utf16 : Bytes → Option Str) (data : Bytes) (visit : Nat → Res (List β)) :
    Nat → Nat → Option (Res (List β))
  | 0, _ => none
  | fuel + 1, offset =>
    if 40 < offset then
      match words 7 data offset with
      | .error e => some (.error e)
      | .ok element =>
        match (if 40 < member element 1 then (readNameNode utf16 data (member element 1)).map (fun _ => ())
            else .ok () : Res Unit) with
        | .error e => some (.error e)
        | .ok _ =>
          match visit (member element 2) with
          | .error e => some (.error e)
          | .ok xs => (listLoop utf16 data visit fuel (member element 6)).map (·.map (xs ++ ·))
    else some (.ok [])

def readList {β : Type} (utf16 : Bytes → Option Str) (data : Bytes) (visit : Nat → Res (List β)) (fuel offset : Nat) :
    Option (Res (List β)) :=
  match words 5 data offset with
  | .error e => some (.error e)
  | .ok list => listLoop utf16 data visit fuel (member list 1)

/-- The instance of a value of the list of a class (wmi_repository.py 1828-1830). -/
def listValue (cp : Bytes → Option Str) (data : Bytes) (v : Nat) : Res (List (Option Inst)) :=
  if 40 < v then (readInstanceAt cp data v).map ([·]) else .ok []

/-- The loop over the classes below a class (wmi_repository.py 1833-1839). -/
def classLoop {β : Type} (visit : Nat → Option (Res (List β))) : List Nat → Option (Res (List β))
  | [] => some (.ok [])
  | v :: vs =>
    match (if 40 < v then visit v else some (.ok []) : Option (Res (List β))) with
    | none => none
    | some (.error e) => some (.error e)
    | some (.ok xs) => (classLoop visit vs).map (·.map (xs ++ ·))

/-- `_ReadClassDefinitionHierarchy` (wmi_repository.py 1788-1839).  The class definition is read, but not given. -/
def classInstances (cp utf16 : Bytes → Option Str) (data : Bytes) (fuel : Nat) :
    Nat → Nat → Option (Res (List (Option Inst)))
  | 0, _ => some (.error .recursionError)
  | limit + 1, offset =>
    match words 8 data offset with
    | .error e => some (.error e)
    | .ok root =>
      match (if 40 < member root 1 then (readClassAt cp data (member root 1)).map (fun _ => ()) else .ok () : Res Unit) with
      | .error e => some (.error e)
      | .ok _ =>
        match (if 40 < member root 4 then readList utf16 data (listValue cp data) fuel (member root 4) else some (.ok []) :
            Option (Res (List (Option Inst)))) with
        | none => none
        | some (.error e) => some (.error e)
        | some (.ok xs) =>
          (if 40 < member root 5 ∧ (member root 3 = 9 ∨ member root 3 = 10) then
            match readTree data (member root 5) with
            | .error e => some (.error e)
            | .ok vs => classLoop (classInstances cp utf16 data fuel limit) vs
          else some (.ok [])).map (·.map (xs ++ ·))

/-- `ReadClassDefinitions` (wmi_repository.py 2054-2063). -/
def readClassDefinitions (cp utf16 : Bytes → Option Str) (data : Bytes) (fuel limit : Nat) (nodes : Nodes) :
    Option (Res (List (Option Inst))) :=
  match nodes.system with
  | none => some (.error .typeError)
  | some root => if 40 < root then classInstances cp utf16 data fuel limit root else some (.ok [])

/-! ## Specification -/

/-- A cell with some data: its size, in 27 bits, is stored in front of it. -/
def CellAt (data : Bytes) (offset : Nat) (d : Bytes) : Prop :=
  40 < offset ∧ d.length + 4 < 2 ^ 27 ∧
    ∃ flags, flags < 32 ∧ Holds data (offset - 4) (leBytes 4 (flags * 2 ^ 27 + (d.length + 4)) ++ d)

/-- A node of integers: they are followed by 12 bytes, and anything else that is in the cell. -/
def WordsAt (data : Bytes) (offset : Nat) (ws : List Nat) : Prop :=
  (∀ w ∈ ws, w < 2 ^ 32) ∧ ∃ footer extra : Bytes, footer.length = 12 ∧
    CellAt data offset (ws.flatMap (leBytes 4) ++ (footer ++ extra))

/-- The leaf node of a class definition. -/
def ClassLeafAt (data : Bytes) (offset : Nat) (block : Bytes) : Prop :=
  block.length + 4 < 2 ^ 32 ∧ ∃ unknown padding footer extra : Bytes, unknown.length + 4 < 2 ^ 32 ∧ footer.length = 12 ∧
    padding.length < 4 ∧ (block.length + unknown.length + padding.length) % 4 = 0 ∧
    CellAt data offset (sizedBytes block ++ (sizedBytes unknown ++ (padding ++ (footer ++ extra))))

/-- The leaf node of an instance. -/
def InstanceLeafAt (data : Bytes) (offset : Nat) (block : Bytes) : Prop :=
  block.length + 4 < 2 ^ 32 ∧ ∃ footer extra : Bytes, footer.length = 12 ∧
    CellAt data offset (sizedBytes block ++ (footer ++ extra))

/-- A node with a name. -/
def NameNodeAt (utf16 : Bytes → Option Str) (data : Bytes) (offset : Nat) : Prop :=
  ∃ (us : List (UInt8 × UInt8)) (s : Str) (padding footer extra : Bytes), (∀ u ∈ us, u ≠ (0, 0)) ∧
    utf16 (us.flatMap (fun u => [u.1, u.2])) = some s ∧ footer.length = 12 ∧ padding.length < 4 ∧
    (2 * us.length + 2 + padding.length) % 4 = 0 ∧
    CellAt data offset (us.flatMap (fun u => [u.1, u.2]) ++ ([0, 0] ++ (padding ++ (footer ++ extra))))

/-- The map of a property: its type qualifier is the last one of that name. -/
def MapOf (p : StoredProperty) (m : PropertyMap) : Prop :=
  ∃ a q b t, p.qualifiers = a ++ q :: b ∧ q.name.map Char.toLower = "type".toList ∧ q.value = .text t ∧ t ≠ [] ∧
    (∀ x ∈ b, x.name.map Char.toLower ≠ "type".toList) ∧
    m = ⟨p.name, p.type, p.offset, valueSize p.type, (t.map Char.toLower).takeWhile (· ≠ ':')⟩

/-- The size of the values of the properties: the end of the last one. -/
inductive ValuesSize : List StoredProperty → Nat → Prop
  | none : ValuesSize [] 0
  | last (a b : List StoredProperty) (p : StoredProperty) : (∀ q ∈ a ++ b, q.offset < p.offset) →
      ValuesSize (a ++ p :: b) (p.offset + valueSize p.type)

/-- A class is stored at an offset of a root node, and its properties have maps. -/
structure ClassNodeAt (cp : Bytes → Option Str) (data : Bytes) (root : Nat) (c : StoredClass) (maps : List PropertyMap)
    (size : Nat) : Prop where
  ok : c.Ok cp
  qualifiers : ∀ q ∈ c.qualifiers, q.type ≠ 0x13 ∧ q.type ≠ 0x66
  propertyQualifiers : ∀ p ∈ c.properties, ∀ q ∈ p.qualifiers, q.type ≠ 0x13 ∧ q.type ≠ 0x66
  values : c.values.length < 2 ^ 27
  names : (c.properties.map (fun p => p.name.map Char.toLower)).Nodup
  count : maps.length = c.properties.length
  maps : ∀ x ∈ c.properties.zip maps, MapOf x.1 x.2
  size : ValuesSize c.properties size
  stored : ∃ (instance' branch parent type list sub unknown child i r unknown2 leaf unknown3 : Nat) (extra : Bytes),
    WordsAt data root [instance', branch, parent, type, list, sub, unknown, child] ∧ 40 < branch ∧
    WordsAt data branch [i, r, unknown2, leaf, unknown3] ∧ ClassLeafAt data leaf (c.bytes ++ extra)

/-- An instance is stored at an offset of a branch node, with its class. -/
structure InstanceNodeAt (cp : Bytes → Option Str) (data : Bytes) (offset : Nat) (c : StoredClass)
    (values : List (PropertyMap × Value)) : Prop where
  stored : ∃ (i : StoredInstance) (size r root leaf unknown : Nat), ClassNodeAt cp data root c (values.map (·.1)) size ∧
    WordsAt data offset [r, root, 2, leaf, unknown] ∧ InstanceLeafAt data leaf i.bytes ∧ i.Ok cp values.length size ∧
    ∀ x ∈ values, HasValue cp i x.1 x.2 ∧ ¬ Unreadable x.1.dataType

/-- What an instance of a class is, with that of which its class is derived. -/
def instanceOf (c : StoredClass) (derivation : List Str) (values : List (PropertyMap × Value)) : Inst :=
  ⟨c.name, derivation, derivation[0]?, derivation[1]?, values.map (fun x => (x.1.name, x.2))⟩

/-- The claim of C133: an instance of a class, derived from a class of a name or not, comes out as it was stored. -/
def C133_instance_claim : Prop := ∀ (cp : Bytes → Option Str) (data : Bytes) (offset : Nat) (c : StoredClass)
  (values : List (PropertyMap × Value)), InstanceNodeAt cp data offset c values →
  readInstanceAt cp data offset = .ok (some (instanceOf c (c.super.map (·.2.2)).toList values))

/-- A tree gives offsets of values. -/
inductive TreeAt (data : Bytes) : Nat → List Nat → Prop
  | empty (offset count branch : Nat) : WordsAt data offset [0, count, branch] → TreeAt data offset []
  | single (offset count value : Nat) : WordsAt data offset [1, count, value] → TreeAt data offset [value]
  | many (offset count branch count2 max unknown leaf : Nat) (values : List Nat) :
      WordsAt data offset [2, count, branch] → WordsAt data branch [count2, max, unknown, leaf] →
      WordsAt data leaf values → values.length = 10 → TreeAt data offset values

/-- The values of a tree that may not be there. -/
def ChildrenAt (data : Bytes) (offset : Nat) (values : List Nat) : Prop :=
  ((offset ≤ 40 ∨ offset = 0xFFFFFFFF) ∧ values = []) ∨ (offset ≠ 0xFFFFFFFF ∧ TreeAt data offset values)

/-- An instance of a class that is not derived from another one. -/
def InstanceAt (cp : Bytes → Option Str) (data : Bytes) (offset : Nat) (i : Inst) : Prop :=
  40 < offset ∧ ∃ c values, InstanceNodeAt cp data offset c values ∧ c.super = none ∧ i = instanceOf c [] values

/-- Trees of anything, with what follows them. -/
inductive Forest (α : Type)
  | nil
  | cons (x : α) (children siblings : Forest α)

/-- Everything in a forest: parents before their children, in order. -/
def Forest.list {α : Type} : Forest α → List α
  | .nil => []
  | .cons x c s => x :: (c.list ++ s.list)

/-- The number of levels. -/
def Forest.depth {α : Type} : Forest α → Nat
  | .nil => 0
  | .cons _ c s => max (c.depth + 1) s.depth

def Forest.All {α : Type} (P : α → Prop) : Forest α → Prop
  | .nil => True
  | .cons x c s => P x ∧ c.All P ∧ s.All P

/-- A name below another one. -/
def pathOf (parent : Option Str) (name : Str) : Str :=
  match parent with
  | none => name
  | some p => p ++ '\\' :: name

/-- The namespaces of a forest below one of a name, with their own names. -/
def Forest.paths (name : Inst → Str) (parent : Option Str) : Forest Inst → List (Str × Inst)
  | .nil => []
  | .cons x c s =>
    (pathOf parent (name x), x) :: (c.paths name (some (pathOf parent (name x))) ++ s.paths name parent)

/-- The trees of instances of the leaf values of a tree. -/
inductive ForestAt (cp : Bytes → Option Str) (data : Bytes) : List Nat → Forest Inst → Prop
  | nil : ForestAt cp data [] .nil
  | unset (v : Nat) (vs : List Nat) (f : Forest Inst) : v ≤ 40 → ForestAt cp data vs f → ForestAt cp data (v :: vs) f
  | unsetRoot (v : Nat) (vs : List Nat) (f : Forest Inst) (name root : Nat) : WordsAt data v [name, root] → root ≤ 40 →
      ForestAt cp data vs f → ForestAt cp data (v :: vs) f
  | node (v : Nat) (vs : List Nat) (name root tree name2 branch u1 list u2 node : Nat) (i : Inst) (ws : List Nat)
      (children siblings : Forest Inst) :
      WordsAt data v [name, root] → WordsAt data root [tree, name2, branch, u1, list, u2, node] →
      ChildrenAt data tree ws → InstanceAt cp data branch i → ForestAt cp data ws children →
      ForestAt cp data vs siblings → ForestAt cp data (v :: vs) (.cons i children siblings)

/-- The tree of the instances from a root node on. -/
def RootAt (cp : Bytes → Option Str) (data : Bytes) (root : Nat) (i : Inst) (children : Forest Inst) : Prop :=
  ∃ (tree name branch u1 list u2 node : Nat) (ws : List Nat),
    WordsAt data root [tree, name, branch, u1, list, u2, node] ∧ ChildrenAt data tree ws ∧
    InstanceAt cp data branch i ∧ ForestAt cp data ws children

/-- An instance has a property with its name. -/
def Named (name : Inst → Str) (i : Inst) : Prop :=
  ∃ a b, i.properties = a ++ ("Name".toList, .text (name i)) :: b ∧ ∀ x ∈ a, x.1 ≠ "Name".toList

/-- Elements of a list, with the offsets of their values. -/
inductive ListAt (utf16 : Bytes → Option Str) (data : Bytes) : Nat → List Nat → Prop
  | nil (offset : Nat) : offset ≤ 40 → ListAt utf16 data offset []
  | cons (offset u name value o1 o2 previous next : Nat) (values : List Nat) :
      WordsAt data offset [u, name, value, o1, o2, previous, next] → (name ≤ 40 ∨ NameNodeAt utf16 data name) →
      ListAt utf16 data next values → ListAt utf16 data offset (value :: values)

/-- The instances of the values of a list; some values are not set. -/
inductive ValuesAt (cp : Bytes → Option Str) (data : Bytes) : List Nat → List Inst → Prop
  | nil : ValuesAt cp data [] []
  | unset (v : Nat) (vs : List Nat) (is : List Inst) : v ≤ 40 → ValuesAt cp data vs is → ValuesAt cp data (v :: vs) is
  | set (v : Nat) (vs : List Nat) (i : Inst) (is : List Inst) : InstanceAt cp data v i → ValuesAt cp data vs is →
      ValuesAt cp data (v :: vs) (i :: is)

/-- The instances of a list that may not be there, with the number of its elements. -/
def ListNodeAt (cp utf16 : Bytes → Option Str) (data : Bytes) (list length : Nat) (is : List Inst) : Prop :=
  (list ≤ 40 ∧ is = []) ∨ ∃ o first last u count vs, WordsAt data list [o, first, last, u, count] ∧
    ListAt utf16 data first vs ∧ vs.length ≤ length ∧ ValuesAt cp data vs is

/-- Classes at the offsets of their root nodes, with the instances of each of them and the classes below it. -/
inductive ClassesAt (cp utf16 : Bytes → Option Str) (data : Bytes) (length : Nat) : List Nat → Forest (List Inst) → Prop
  | nil : ClassesAt cp utf16 data length [] .nil
  | unset (v : Nat) (vs : List Nat) (f : Forest (List Inst)) : v ≤ 40 → ClassesAt cp utf16 data length vs f →
      ClassesAt cp utf16 data length (v :: vs) f
  | node (v : Nat) (vs : List Nat) (instance' branch parent type list sub unknown child : Nat) (is : List Inst)
      (ws : List Nat) (children siblings : Forest (List Inst)) :
      WordsAt data v [instance', branch, parent, type, list, sub, unknown, child] →
      (branch ≤ 40 ∨ ∃ c maps size, ClassNodeAt cp data v c maps size) → ListNodeAt cp utf16 data list length is →
      ((sub ≤ 40 ∨ type ≠ 9 ∧ type ≠ 10) ∧ ws = [] ∨ (type = 9 ∨ type = 10) ∧ TreeAt data sub ws) →
      ClassesAt cp utf16 data length ws children → ClassesAt cp utf16 data length vs siblings →
      ClassesAt cp utf16 data length (v :: vs) (.cons is children siblings)

/-! ## Proofs: nodes -/

theorem dataAt_held (data : Bytes) (off : Nat) (b : Bytes) (n : Nat) (h : Holds data off b) (hn : b.length = n) :
    dataAt data off n = .ok b := by
  subst hn
  obtain ⟨pre, post, rfl, rfl⟩ := h
  exact dataAt_append pre b post

theorem masked_size (flags n : Nat) (hf : flags < 32) (hn : n < 2 ^ 27) :
    flags * 2 ^ 27 + n < 256 ^ 4 ∧ (flags * 2 ^ 27 + n) % 2 ^ 27 = n := by
  omega

/-- What is done with the size of a cell. -/
def cellRest (data : Bytes) (offset size masked : Nat) : Res Nat :=
  if masked = 0 then .ok size
  else if masked < 4 then .error .parseError
  else
    match dataAt data offset masked with
    | .error e => .error e
    | .ok _ => .ok size

theorem cellSize_of (data : Bytes) (offset : Nat) (b : Bytes) (h : dataAt data offset 4 = .ok b) :
    cellSize data offset = cellRest data offset (leNat b) (leNat b % 2 ^ 27) := by
  unfold cellSize
  rw [h]
  rfl

theorem cell_data (data : Bytes) (offset : Nat) (d : Bytes) (h : CellAt data offset d) : nodeData data offset = .ok d := by
  obtain ⟨ho, hl, flags, hf, hh⟩ := h
  obtain ⟨hn, hm⟩ := masked_size flags (d.length + 4) hf hl
  generalize flags * 2 ^ 27 + (d.length + 4) = size at hn hm hh
  have hlen : (leBytes 4 size).length = 4 := leBytes_length 4 _
  have h1 := dataAt_held _ _ _ 4 (holds_prefix _ _ _ _ hh) hlen
  have h2 : dataAt data (offset - 4) (d.length + 4) = .ok (leBytes 4 size ++ d) :=
    dataAt_held _ _ _ _ hh (by rw [List.length_append, hlen, Nat.add_comm])
  have h3 : leNat (leBytes 4 size) = size := by rw [leNat_leBytes, Nat.mod_eq_of_lt hn]
  have h4 : slice data offset (offset - 4 + (d.length + 4)) = d := by
    have := (holds_slice _ _ _ (holds_suffix _ _ _ _ hh)).1
    rw [hlen, Nat.sub_add_cancel (by omega)] at this
    rw [show offset - 4 + (d.length + 4) = offset + d.length by omega, this]
  have h5 : cellSize data (offset - 4) = .ok size := by
    rw [cellSize_of _ _ _ h1, h3, hm]
    unfold cellRest
    rw [if_neg (by omega), if_neg (by omega), h2]
  unfold nodeData
  rw [h5]
  dsimp only
  rw [hm, h4]

theorem words_read (data : Bytes) (offset : Nat) (ws : List Nat) (n : Nat) (hn : ws.length = n) (h : WordsAt data offset ws) :
    words n data offset = .ok ws := by
  subst hn
  obtain ⟨hw, footer, extra, hf, hc⟩ := h
  have hp : parseWords ws.length (ws.flatMap (leBytes 4) ++ (footer ++ extra)) = some (ws, extra) := by
    unfold parseWords
    simp only [Option.bind_eq_bind]
    rw [several_flatMap (num 4) (leBytes 4) ws (fun x hx rest => num_bytes 4 x (by have := hw x hx; omega) rest),
      Option.bind_some]
    simp only
    rw [raw_bytes_of 12 footer extra hf, Option.bind_some]
    rfl
  unfold words
  rw [cell_data _ _ _ hc]
  simp only
  rw [fromStream_bytes _ _ _ (by
    intro he
    have := congrArg List.length he
    simp only [List.length_append, List.length_nil] at this
    omega) hp]
  rfl

theorem classLeaf_read (data : Bytes) (offset : Nat) (block : Bytes) (h : ClassLeafAt data offset block) :
    ∃ d r, nodeData data offset = .ok d ∧ fromStream parseClassLeaf d = .ok (block, r) := by
  obtain ⟨hb, unknown, padding, footer, extra, hu, hf, hp, ha, hc⟩ := h
  refine ⟨_, extra, cell_data _ _ _ hc, fromStream_bytes _ _ _ (by simp [sizedBytes, leBytes]) ?_⟩
  unfold parseClassLeaf
  simp only [Option.bind_eq_bind]
  rw [sized_bytes block _ hb, Option.bind_some]
  simp only
  rw [sized_bytes unknown _ hu, Option.bind_some]
  simp only
  rw [raw_bytes_of _ padding _ (by
    simp only [List.length_append, sizedBytes, leBytes_length]
    omega), Option.bind_some]
  simp only
  rw [raw_bytes_of 12 footer extra hf, Option.bind_some]
  rfl

theorem instanceLeaf_read (data : Bytes) (offset : Nat) (block : Bytes) (h : InstanceLeafAt data offset block) :
    ∃ d r, nodeData data offset = .ok d ∧ fromStream parseInstanceLeaf d = .ok (block, r) := by
  obtain ⟨hb, footer, extra, hf, hc⟩ := h
  refine ⟨_, extra, cell_data _ _ _ hc, fromStream_bytes _ _ _ (by simp [sizedBytes, leBytes]) ?_⟩
  unfold parseInstanceLeaf
  simp only [Option.bind_eq_bind]
  rw [sized_bytes block _ hb, Option.bind_some]
  simp only
  rw [raw_bytes_of 12 footer extra hf, Option.bind_some]
  rfl

theorem units_read (us : List (UInt8 × UInt8)) (rest : Bytes) (h : ∀ u ∈ us, u ≠ (0, 0)) :
    units (us.flatMap (fun u => [u.1, u.2]) ++ ([0, 0] ++ rest)) = some (us.flatMap (fun u => [u.1, u.2]), rest) := by
  induction us with
  | nil => rfl
  | cons u us ih =>
    have hu : ¬ (u.1 = 0 ∧ u.2 = 0) := by
      intro h0
      exact h u (by simp) (Prod.ext h0.1 h0.2)
    simp only [List.flatMap_cons, List.cons_append, List.nil_append, units]
    rw [if_neg hu]
    have := ih (fun x hx => h x (by simp [hx]))
    simp only [List.cons_append, List.nil_append] at this
    rw [this]
    rfl

theorem nameNode_read (utf16 : Bytes → Option Str) (data : Bytes) (offset : Nat) (h : NameNodeAt utf16 data offset) :
    ∃ s, readNameNode utf16 data offset = .ok s := by
  obtain ⟨us, s, padding, footer, extra, hu, hs, hf, hp, ha, hc⟩ := h
  refine ⟨s, ?_⟩
  have hl : (us.flatMap (fun u => [u.1, u.2])).length = 2 * us.length := by
    clear hu hs ha hc
    induction us with
    | nil => rfl
    | cons u us ih => simp only [List.flatMap_cons, List.length_append, ih, List.length_cons, List.length_nil]; omega
  unfold readNameNode
  rw [cell_data _ _ _ hc]
  simp only
  rw [fromStream_bytes _ _ (s, extra) (by simp) (by
    unfold parseNameNode
    simp only [Option.bind_eq_bind]
    rw [units_read us _ hu, Option.bind_some]
    simp only
    rw [hs, Option.bind_some]
    rw [raw_bytes_of _ padding _ (by
      simp only [List.length_append, hl, List.length_cons, List.length_nil]
      omega), Option.bind_some]
    simp only
    rw [raw_bytes_of 12 footer extra hf, Option.bind_some]
    rfl)]
  rfl

theorem words_pos (data : Bytes) (offset : Nat) (ws : List Nat) (h : WordsAt data offset ws) : 40 < offset := by
  obtain ⟨_, _, _, _, hc⟩ := h
  exact hc.1

theorem tree_read (data : Bytes) (offset : Nat) (vs : List Nat) (h : TreeAt data offset vs) :
    readTree data offset = .ok vs := by
  unfold readTree
  cases h with
  | empty count branch h =>
    rw [words_read _ _ _ 3 rfl h]
    rfl
  | single count value h =>
    rw [words_read _ _ _ 3 rfl h]
    rfl
  | many count branch count2 max unknown leaf _ h1 h2 h3 hl =>
    rw [words_read _ _ _ 3 rfl h1]
    simp only [member, List.getD_cons_zero, List.getD_cons_succ]
    rw [if_neg (by omega), if_neg (by omega), if_pos ⟨trivial, words_pos _ _ _ h2⟩, words_read _ _ _ 4 rfl h2]
    simp only [List.getD_cons_zero, List.getD_cons_succ]
    rw [if_pos (words_pos _ _ _ h3), words_read _ _ _ 10 hl h3]

/-! ## Proofs: C133 -/

theorem dict_append {β : Type} (l acc : List (Str × β)) (h : ((acc ++ l).map (·.1)).Nodup) :
    l.foldl setItem acc = acc ++ l := by
  induction l generalizing acc with
  | nil => simp
  | cons x l ih =>
    have hx : x.1 ∉ acc.map (·.1) := by
      rw [List.map_append, List.map_cons, List.nodup_append] at h
      intro hm
      exact h.2.2 x.1 hm x.1 (by simp) rfl
    rw [List.foldl_cons, setItem, if_neg hx, ih _ (by simpa using h)]
    simp

theorem dict_nodup {β : Type} (l : List (Str × β)) (h : (l.map (·.1)).Nodup) : dictOf l = l := by
  unfold dictOf
  rw [dict_append l [] (by simpa using h)]
  rfl

/-- The property with the largest offset so far. -/
def larger (l : Option PropertyMap) (m : PropertyMap) : Option PropertyMap :=
  match l with
  | none => some m
  | some l => if l.offset < m.offset then some m else some l

theorem loop_typed (l : List (PropertyDef × PropertyMap)) (st : BuildState)
    (h : ∀ x ∈ l, ∃ c cs, x.1.qualifier = some (c :: cs) ∧ x.2 = propertyMap x.1 (c :: cs)) :
    buildLoop (l.map (·.1)) st = .ok ⟨(l.map (fun x => (x.1.name.map Char.toLower, x.2))).reverse ++ st.properties,
      (l.map (·.2)).foldl larger st.largest⟩ := by
  induction l generalizing st with
  | nil => rfl
  | cons x l ih =>
    obtain ⟨c, cs, hq, hm⟩ := h x (by simp)
    rw [List.map_cons, buildLoop]
    have hs : buildStep st x.1 = .ok ⟨(x.1.name.map Char.toLower, x.2) :: st.properties, larger st.largest x.2⟩ := by
      unfold buildStep
      rw [hq, hm]
      rfl
    rw [hs]
    simp only
    rw [ih _ (fun y hy => h y (by simp [hy]))]
    simp

theorem larger_keep (ms : List PropertyMap) (m : PropertyMap) (h : ∀ x ∈ ms, x.offset < m.offset) :
    ms.foldl larger (some m) = some m := by
  induction ms with
  | nil => rfl
  | cons x ms ih =>
    have := h x (by simp)
    rw [List.foldl_cons, larger, if_neg (by omega), ih (fun y hy => h y (by simp [hy]))]

theorem larger_below (ms : List PropertyMap) (o : Nat) (st : Option PropertyMap) (hs : ∀ x, st = some x → x.offset < o)
    (h : ∀ x ∈ ms, x.offset < o) : ∀ x, ms.foldl larger st = some x → x.offset < o := by
  induction ms generalizing st with
  | nil => exact hs
  | cons m ms ih =>
    rw [List.foldl_cons]
    refine ih _ ?_ (fun y hy => h y (by simp [hy]))
    intro x hx
    unfold larger at hx
    split at hx
    · cases hx; exact h _ (by simp)
    · split at hx
      · cases hx; exact h _ (by simp)
      · cases hx; exact hs _ rfl

theorem larger_last (a b : List PropertyMap) (m : PropertyMap) (h : ∀ x ∈ a ++ b, x.offset < m.offset) :
    (a ++ m :: b).foldl larger none = some m := by
  rw [List.foldl_append, List.foldl_cons]
  have h1 : larger (a.foldl larger none) m = some m := by
    have := larger_below a m.offset none (by simp) (fun x hx => h x (by simp [hx]))
    cases hl : a.foldl larger none with
    | none => rfl
    | some x => rw [larger, if_pos (this x hl)]
  rw [h1]
  exact larger_keep b m (fun x hx => h x (by simp [hx]))

/-- What is used of a property that has a map. -/
def defOf (p : StoredProperty) (q : Str) : PropertyDef := ⟨p.name, p.type, p.offset, some q⟩

theorem typeQualifier_of (p : StoredProperty) (m : PropertyMap) (h : MapOf p m) :
    ∃ c cs, typeQualifier p.shown = .ok (some (c :: cs)) ∧ m = propertyMap (defOf p (c :: cs)) (c :: cs) := by
  obtain ⟨a, q, b, t, hq, hn, hv, ht, hb, hm⟩ := h
  cases t with
  | nil => exact absurd rfl ht
  | cons c cs =>
    refine ⟨c, cs, ?_, hm⟩
    unfold typeQualifier
    have : lastOf p.shown.qualifiers "type".toList = some (.text (c :: cs)) := by
      show lastOf (p.qualifiers.map (·.shown)) _ = _
      rw [hq, List.map_append, List.map_cons]
      have hs : q.shown = ("type".toList, .text (c :: cs)) := by
        unfold StoredQualifier.shown
        rw [hn, hv]
      rw [hs]
      refine lastOf_spec _ _ _ _ ?_
      intro x hx
      obtain ⟨y, hy, rfl⟩ := List.mem_map.1 hx
      exact hb y hy
    rw [this]

theorem propertyDefs_of (ps : List StoredProperty) (maps : List PropertyMap) (hl : maps.length = ps.length)
    (h : ∀ x ∈ ps.zip maps, MapOf x.1 x.2) :
    ∃ l : List (PropertyDef × PropertyMap), propertyDefs (ps.map (·.shown)) = (l.map (·.1), none) ∧ l.map (·.2) = maps ∧
      l.map (·.1.name) = ps.map (·.name) ∧
      ∀ x ∈ l, ∃ c cs, x.1.qualifier = some (c :: cs) ∧ x.2 = propertyMap x.1 (c :: cs) := by
  induction ps generalizing maps with
  | nil =>
    obtain rfl : maps = [] := List.length_eq_zero_iff.1 hl
    exact ⟨[], rfl, rfl, rfl, by simp⟩
  | cons p ps ih =>
    cases maps with
    | nil => cases hl
    | cons m maps =>
      obtain ⟨l, h1, h2, h3, h4⟩ := ih maps (by simpa using hl) (fun x hx => h x (by simp [hx]))
      obtain ⟨c, cs, hq, hm⟩ := typeQualifier_of p m (h (p, m) (by simp))
      refine ⟨(defOf p (c :: cs), m) :: l, ?_, by simp [h2], by simp [h3, defOf], ?_⟩
      · rw [List.map_cons, propertyDefs, hq]
        simp only
        rw [h1]
        rfl
      · intro x hx
        rcases List.mem_cons.1 hx with rfl | hx
        · exact ⟨c, cs, rfl, hm⟩
        · exact h4 x hx

theorem mapOf_offset (p : StoredProperty) (m : PropertyMap) (h : MapOf p m) :
    m.name = p.name ∧ m.offset = p.offset ∧ m.size = valueSize p.type := by
  obtain ⟨a, q, b, t, _, _, _, _, _, rfl⟩ := h
  exact ⟨rfl, rfl, rfl⟩

theorem size_of (ps : List StoredProperty) (maps : List PropertyMap) (size : Nat) (hl : maps.length = ps.length)
    (h : ∀ x ∈ ps.zip maps, MapOf x.1 x.2) (hs : ValuesSize ps size) :
    (match maps.foldl larger none with | none => 0 | some m => m.offset + m.size) = size := by
  cases hs with
  | none =>
    obtain rfl : maps = [] := List.length_eq_zero_iff.1 hl
    rfl
  | last a b p hp =>
    obtain ⟨ma, mb, rfl, hma⟩ : ∃ ma mb, maps = ma ++ mb ∧ ma.length = a.length :=
      ⟨maps.take a.length, maps.drop a.length, (List.take_append_drop _ _).symm, by
        rw [List.length_take]; simp only [List.length_append, List.length_cons] at hl; omega⟩
    cases mb with
    | nil => simp only [List.length_append, List.length_cons, List.length_nil] at hl; omega
    | cons m mb =>
      have hmb : mb.length = b.length := by
        simp only [List.length_append, List.length_cons] at hl; omega
      rw [List.zip_append hma.symm, List.zip_cons_cons] at h
      have hm := mapOf_offset p m (h (p, m) (by simp))
      have hside : ∀ (xs : List StoredProperty) (ms : List PropertyMap), ms.length = xs.length →
          (∀ x ∈ xs.zip ms, MapOf x.1 x.2) → (∀ q ∈ xs, q.offset < p.offset) → ∀ y ∈ ms, y.offset < m.offset := by
        intro xs ms hl hz ho y hy
        obtain ⟨i, hi, rfl⟩ := List.getElem_of_mem hy
        have hz' := mapOf_offset _ _ (hz (xs[i]'(by omega), ms[i]) (by
          rw [← List.getElem_zip (h := by rw [List.length_zip]; omega)]
          exact List.getElem_mem _))
        have := ho (xs[i]'(by omega)) (List.getElem_mem _)
        rw [hz'.2.1, hm.2.1]
        exact this
      rw [larger_last ma mb m (by
        intro y hy
        rcases List.mem_append.1 hy with hy | hy
        · exact hside a ma hma (fun x hx => h x (by simp [hx])) (fun q hq => hp q (by simp [hq])) y hy
        · exact hside b mb hmb (fun x hx => h x (by simp [hx])) (fun q hq => hp q (by simp [hq])) y hy)]
      simp only
      rw [hm.2.1, hm.2.2]

theorem nodup_of_map {α β : Type} (f : α → β) (l : List α) (h : (l.map f).Nodup) : l.Nodup := by
  induction l with
  | nil => exact List.nodup_nil
  | cons a l ih =>
    rw [List.map_cons, List.nodup_cons] at h
    exact List.nodup_cons.2 ⟨fun hm => h.1 (List.mem_map_of_mem hm), ih h.2⟩

theorem buildOne_of (c : StoredClass) (maps : List PropertyMap) (size : Nat) (hl : maps.length = c.properties.length)
    (hn : (c.properties.map (fun p => p.name.map Char.toLower)).Nodup) (h : ∀ x ∈ c.properties.zip maps, MapOf x.1 x.2)
    (hs : ValuesSize c.properties size) :
    ∃ m, buildOne c.shown = .ok m ∧ m.className = c.name ∧ m.derivation = [] ∧ m.super = none ∧ m.dynasty = none ∧
      (dictOf m.properties.reverse).map (·.2) = maps ∧ m.propertiesSize = size := by
  obtain ⟨l, h1, h2, h3, h4⟩ := propertyDefs_of c.properties maps hl h
  have hnames : (c.properties.map (·.name)).Nodup := by
    refine nodup_of_map (List.map Char.toLower) _ ?_
    rw [List.map_map]
    exact hn
  have hd : (dictOf (c.shown.properties.map (fun p => (p.name, p)))).map (·.2) = c.properties.map (·.shown) := by
    rw [dict_nodup]
    · rw [List.map_map]
      show List.map _ (List.map _ _) = _
      rw [List.map_map]
      rfl
    · rw [List.map_map]
      show (List.map _ (List.map _ _)).Nodup
      rw [List.map_map]
      exact hnames
  unfold buildOne
  simp only
  rw [hd, h1]
  simp only
  have hb := loop_typed l ⟨[], none⟩ h4
  unfold buildMap
  simp only [List.getLast?_singleton, List.flatMap_cons, List.flatMap_nil, List.append_nil, List.dropLast_singleton,
    List.map_nil, List.reverse_nil]
  rw [hb]
  simp only
  refine ⟨_, rfl, rfl, rfl, rfl, rfl, ?_, ?_⟩
  · simp only [List.append_nil, List.reverse_reverse]
    rw [dict_nodup _ (by
      rw [List.map_map]
      have : l.map ((fun x : Str × PropertyMap => x.1) ∘ fun x => (x.1.name.map Char.toLower, x.2)) =
          (l.map (·.1.name)).map (List.map Char.toLower) := by rw [List.map_map]; rfl
      rw [this, h3, List.map_map]
      exact hn), List.map_map]
    exact h2
  · simp only
    rw [h2]
    exact size_of _ _ _ hl h hs

theorem classNode_read (cp : Bytes → Option Str) (data : Bytes) (root : Nat) (c : StoredClass) (maps : List PropertyMap)
    (size : Nat) (h : ClassNodeAt cp data root c maps size) :
    ∃ ws, words 8 data root = .ok ws ∧ 40 < member ws 1 ∧ readClassAt cp data (member ws 1) = .ok (some c.shown) := by
  obtain ⟨i', branch, parent, type, list, sub, unknown, child, i, r, u2, leaf, u3, extra, h1, hb, h2, h3⟩ := h.stored
  refine ⟨_, words_read _ _ _ 8 rfl h1, hb, ?_⟩
  show readClassAt cp data branch = _
  unfold readClassAt
  rw [words_read _ _ _ 5 rfl h2]
  simp only [member, List.getD_cons_zero, List.getD_cons_succ]
  have hleaf : 40 < leaf := by
    obtain ⟨_, _, _, _, _, _, _, _, _, hc⟩ := h3
    exact hc.1
  obtain ⟨d, r, hd, hr⟩ := classLeaf_read _ _ _ h3
  rw [if_neg (by omega), hd]
  simp only
  rw [hr]
  simp only
  rw [C129_class_partial cp c extra h.ok h.qualifiers h.propertyQualifiers h.values]
  rfl

theorem instance_at (cp : Bytes → Option Str) (data : Bytes) (offset : Nat) (c : StoredClass)
    (values : List (PropertyMap × Value)) (h : InstanceNodeAt cp data offset c values) :
    readInstanceAt cp data offset = .ok (some (instanceOf c [] values)) := by
  obtain ⟨i, size, r, root, leaf, unknown, hc, hw, hl, hi, hv⟩ := h.stored
  obtain ⟨ws, h1, h2, h3⟩ := classNode_read _ _ _ _ _ _ hc
  obtain ⟨d, rest, hd, hr⟩ := instanceLeaf_read _ _ _ hl
  have hroot : 40 < root := by
    obtain ⟨_, _, _, _, _, _, _, _, _, _, _, _, _, _, hw, _⟩ := hc.stored
    exact words_pos _ _ _ hw
  have hleaf : 40 < leaf := by
    obtain ⟨_, _, _, _, hc⟩ := hl
    exact hc.1
  unfold readInstanceAt
  rw [words_read _ _ _ 5 rfl hw]
  simp only [member, List.getD_cons_zero, List.getD_cons_succ] at h2 h3 ⊢
  rw [if_neg (by omega), h1]
  simp only
  rw [if_neg (by omega), h3]
  simp only
  rw [hd]
  simp only
  rw [hr]
  simp only
  obtain ⟨m, hm, e1, e2, e3, e4, e5, e6⟩ := buildOne_of c _ size hc.count hc.names hc.maps hc.size
  unfold readWith
  simp only
  rw [hm]
  simp only
  rw [e5, e6, C131_instance_partial cp i values size hi (fun x hx => (hv x hx).1) (fun x hx => (hv x hx).2), e1, e2, e3, e4]
  rfl

/-- **C133** (in part: for classes that are not derived from another one): an instance comes out as it was stored, with
the name and the properties of its class. -/
theorem C133_instance_partial (cp : Bytes → Option Str) (data : Bytes) (offset : Nat) (c : StoredClass)
    (values : List (PropertyMap × Value)) (h : InstanceNodeAt cp data offset c values) (hs : c.super = none) :
    readInstanceAt cp data offset = .ok (some (instanceOf c (c.super.map (·.2.2)).toList values)) := by
  rw [hs]
  exact instance_at cp data offset c values h

/-- C133: an instance of a derived class never says so. -/
theorem C133_super_missing (cp : Bytes → Option Str) (data : Bytes) (offset : Nat) (i : Inst)
    (h : readInstanceAt cp data offset = .ok (some i)) : i.derivation = [] ∧ i.super = none ∧ i.dynasty = none := by
  unfold readInstanceAt at h
  split at h
  · cases h
  · split at h
    · cases h
    · split at h
      · cases h
      · split at h
        · cases h
        · split at h
          · cases h
          · split at h
            · cases h
            · split at h
              · cases h
              · cases hw : readWith cp _ _ with
                | error e => rw [hw] at h; cases h
                | ok j =>
                  rw [hw] at h
                  cases h
                  unfold readWith at hw
                  split at hw
                  · cases hw
                  · split at hw
                    · cases hw
                    · rename_i c m hm
                      cases hr : readInstance cp ((dictOf m.properties.reverse).map (·.2)) m.propertiesSize _ with
                      | error e => rw [hr] at hw; cases hw
                      | ok r =>
                        rw [hr] at hw
                        cases hw
                        unfold buildOne at hm
                        simp only at hm
                        split at hm
                        · cases hm
                        · rename_i m' hb
                          split at hm
                          · cases hm
                          · cases hm
                            unfold buildMap at hb
                            simp only [List.getLast?_singleton, List.dropLast_singleton, List.map_nil,
                              List.reverse_nil] at hb
                            split at hb
                            · cases hb
                            · cases hb
                              exact ⟨rfl, rfl, rfl⟩

/-! ## Proofs: C134 -/

theorem instanceAt_read (cp : Bytes → Option Str) (data : Bytes) (offset : Nat) (i : Inst) (h : InstanceAt cp data offset i) :
    readInstanceAt cp data offset = .ok (some i) := by
  obtain ⟨_, c, values, hi, _, rfl⟩ := h
  exact instance_at cp data offset c values hi

theorem below_read {β : Type} (data : Bytes) (visit : Nat → Res (List β)) (tree : Nat) (ws : List Nat) (xs : List β)
    (h : ChildrenAt data tree ws) (hw : leafLoop data visit ws = .ok xs) : below data visit tree = .ok xs := by
  unfold below
  rcases h with ⟨ht, rfl⟩ | ⟨ht, hr⟩
  · rw [if_neg (by omega)]
    exact hw
  · have hpos : 40 < tree := by
      cases hr with
      | empty _ _ h => exact words_pos _ _ _ h
      | single _ _ h => exact words_pos _ _ _ h
      | many _ _ _ _ _ _ _ h => exact words_pos _ _ _ h
    rw [if_pos ⟨hpos, ht⟩, tree_read _ _ _ hr]
    exact hw

/-- The leaf values of a tree, visited one by one. -/
theorem leafLoop_unset {β : Type} (data : Bytes) (visit : Nat → Res (List β)) (v : Nat) (vs : List Nat) (xs : List β)
    (hv : v ≤ 40) (h : leafLoop data visit vs = .ok xs) : leafLoop data visit (v :: vs) = .ok xs := by
  rw [leafLoop, if_neg (by omega), h]
  rfl

theorem leafLoop_unsetRoot {β : Type} (data : Bytes) (visit : Nat → Res (List β)) (v name root : Nat) (vs : List Nat)
    (xs : List β) (hw : WordsAt data v [name, root]) (hr : root ≤ 40) (h : leafLoop data visit vs = .ok xs) :
    leafLoop data visit (v :: vs) = .ok xs := by
  rw [leafLoop, if_pos (words_pos _ _ _ hw), words_read _ _ _ 2 rfl hw]
  simp only [member, List.getD_cons_zero, List.getD_cons_succ]
  rw [if_neg (by omega), h]
  rfl

theorem leafLoop_set {β : Type} (data : Bytes) (visit : Nat → Res (List β)) (v name root : Nat) (vs : List Nat)
    (xs ys : List β) (hw : WordsAt data v [name, root]) (hr : 40 < root) (hx : visit root = .ok xs)
    (h : leafLoop data visit vs = .ok ys) : leafLoop data visit (v :: vs) = .ok (xs ++ ys) := by
  rw [leafLoop, if_pos (words_pos _ _ _ hw), words_read _ _ _ 2 rfl hw]
  simp only [member, List.getD_cons_zero, List.getD_cons_succ]
  rw [if_pos hr, hx]
  simp only
  rw [h]
  rfl

theorem instances_root (cp : Bytes → Option Str) (data : Bytes) (limit root tree name branch u1 list u2 node : Nat) (i : Inst)
    (ws : List Nat) (xs : List (Option Inst)) (hw : WordsAt data root [tree, name, branch, u1, list, u2, node])
    (hc : ChildrenAt data tree ws) (hi : InstanceAt cp data branch i)
    (h : leafLoop data (instances cp data limit) ws = .ok xs) :
    instances cp data (limit + 1) root = .ok (some i :: xs) := by
  rw [instances, words_read _ _ _ 7 rfl hw]
  simp only [member, List.getD_cons_zero, List.getD_cons_succ]
  rw [if_pos hi.1, instanceAt_read _ _ _ _ hi]
  simp only [Except.map]
  rw [below_read _ _ _ _ _ hc h]
  rfl

theorem instances_forest (cp : Bytes → Option Str) (data : Bytes) (vs : List Nat) (f : Forest Inst)
    (h : ForestAt cp data vs f) :
    ∀ limit, f.depth ≤ limit → leafLoop data (instances cp data limit) vs = .ok (f.list.map some) := by
  induction h with
  | nil => intro limit _; rfl
  | unset v vs f hv _ ih => intro limit hl; exact leafLoop_unset _ _ _ _ _ hv (ih limit hl)
  | unsetRoot v vs f name root hw hr _ ih => intro limit hl; exact leafLoop_unsetRoot _ _ _ _ _ _ _ hw hr (ih limit hl)
  | node v vs name root tree name2 branch u1 list u2 node i ws c s hw hr hc hi _ _ ihc ihs =>
    intro limit hl
    simp only [Forest.depth] at hl
    obtain ⟨n, rfl⟩ : ∃ n, limit = n + 1 := ⟨limit - 1, by omega⟩
    rw [leafLoop_set _ _ _ _ _ _ _ _ hw (words_pos _ _ _ hr)
      (instances_root _ _ _ _ _ _ _ _ _ _ _ _ _ _ hr hc hi (ihc n (by omega))) (ihs (n + 1) (by omega))]
    simp [Forest.list]

/-- **C134**: all instances of a repository are read, parents before their children and in order, if the levels are
fewer than the nested calls that are allowed. -/
theorem C134_instances (cp : Bytes → Option Str) (data : Bytes) (limit root : Nat) (system : Option Nat) (i : Inst)
    (f : Forest Inst) (h : RootAt cp data root i f) (hl : f.depth < limit) :
    readInstances cp data limit ⟨some root, system⟩ = .ok ((i :: f.list).map some) := by
  obtain ⟨tree, name, branch, u1, list, u2, node, ws, hw, hc, hi, hf⟩ := h
  obtain ⟨n, rfl⟩ : ∃ n, limit = n + 1 := ⟨limit - 1, by omega⟩
  unfold readInstances
  simp only
  rw [if_pos (words_pos _ _ _ hw),
    instances_root _ _ _ _ _ _ _ _ _ _ _ _ _ _ hw hc hi (instances_forest _ _ _ _ hf n (by omega))]
  rfl

/-- The name of what some segments stand for. -/
def parentOf (segments : List Str) : Option Str := if segments = [] then none else some (joined segments)

theorem joined_snoc (segments : List Str) (name : Str) :
    joined (segments ++ [name]) = pathOf (parentOf segments) name := by
  induction segments with
  | nil => rfl
  | cons s rest ih =>
    cases rest with
    | nil => rfl
    | cons t rest =>
      have h : parentOf (t :: rest) = some (joined (t :: rest)) := rfl
      rw [h] at ih
      show s ++ '\\' :: joined ((t :: rest) ++ [name]) = joined (s :: t :: rest) ++ '\\' :: name
      rw [ih]
      simp [joined, pathOf]

theorem parentOf_snoc (segments : List Str) (name : Str) :
    parentOf (segments ++ [name]) = some (pathOf (parentOf segments) name) := by
  rw [← joined_snoc]
  simp [parentOf]

theorem nameOf_named (name : Inst → Str) (i : Inst) (h : Named name i) : nameOf i = some (name i) := by
  obtain ⟨a, b, hp, ha⟩ := h
  unfold nameOf
  have : i.properties.lookup "Name".toList = some (.text (name i)) := by
    rw [hp, lookup_append, lookup_none a _ (by simpa using ha)]
    simp
  rw [this]

theorem namespaces_root (cp : Bytes → Option Str) (data : Bytes) (nm : Inst → Str) (limit : Nat) (segments : List Str)
    (root tree name branch u1 list u2 node : Nat) (i : Inst)
    (ws : List Nat) (xs : List (Str × Inst)) (hw : WordsAt data root [tree, name, branch, u1, list, u2, node])
    (hc : ChildrenAt data tree ws) (hi : InstanceAt cp data branch i) (hn : Named nm i)
    (h : leafLoop data (namespacesFrom cp data limit (segments ++ [nm i])) ws = .ok xs) :
    namespacesFrom cp data (limit + 1) segments root = .ok ((pathOf (parentOf segments) (nm i), i) :: xs) := by
  rw [namespacesFrom, words_read _ _ _ 7 rfl hw]
  simp only [member, List.getD_cons_zero, List.getD_cons_succ]
  rw [if_pos hi.1, instanceAt_read _ _ _ _ hi]
  simp only
  rw [nameOf_named nm i hn]
  simp only
  rw [below_read _ _ _ _ _ hc h, joined_snoc]
  rfl

theorem namespaces_forest (cp : Bytes → Option Str) (data : Bytes) (nm : Inst → Str) (vs : List Nat) (f : Forest Inst)
    (h : ForestAt cp data vs f) (hn : f.All (Named nm)) :
    ∀ limit segments, f.depth ≤ limit →
      leafLoop data (namespacesFrom cp data limit segments) vs = .ok (f.paths nm (parentOf segments)) := by
  induction h with
  | nil => intro limit _ _; rfl
  | unset v vs f hv _ ih => intro limit segments hl; exact leafLoop_unset _ _ _ _ _ hv (ih hn limit segments hl)
  | unsetRoot v vs f name root hw hr _ ih =>
    intro limit segments hl; exact leafLoop_unsetRoot _ _ _ _ _ _ _ hw hr (ih hn limit segments hl)
  | node v vs name root tree name2 branch u1 list u2 node i ws c s hw hr hc hi _ _ ihc ihs =>
    intro limit segments hl
    obtain ⟨h1, h2, h3⟩ := hn
    simp only [Forest.depth] at hl
    obtain ⟨n, rfl⟩ : ∃ n, limit = n + 1 := ⟨limit - 1, by omega⟩
    rw [leafLoop_set _ _ _ _ _ _ _ _ hw (words_pos _ _ _ hr)
      (namespaces_root _ _ nm _ _ _ _ _ _ _ _ _ _ _ _ _ hr hc hi h1 (ihc h2 n _ (by omega))) (ihs h3 (n + 1) _ (by omega)),
      parentOf_snoc]
    rfl

/-- **C134**: all namespaces of a repository are read with their full names, parents before their children and in order,
if the levels are fewer than the nested calls that are allowed. -/
theorem C134_namespaces (cp : Bytes → Option Str) (data : Bytes) (limit root : Nat) (system : Option Nat) (i : Inst)
    (f : Forest Inst) (name : Inst → Str) (h : RootAt cp data root i f) (hi : Named name i) (hf : f.All (Named name))
    (hl : f.depth < limit) :
    readNamespaces cp data limit ⟨some root, system⟩ = .ok ((name i, i) :: f.paths name (some (name i))) := by
  obtain ⟨tree, nm, branch, u1, list, u2, node, ws, hw, hc, hb, hfo⟩ := h
  obtain ⟨n, rfl⟩ : ∃ n, limit = n + 1 := ⟨limit - 1, by omega⟩
  unfold readNamespaces
  simp only
  rw [if_pos (words_pos _ _ _ hw), namespaces_root _ _ name _ _ _ _ _ _ _ _ _ _ _ _ _ hw hc hb hi
    (namespaces_forest _ _ name _ _ hfo hf n _ (by omega))]
  rfl

theorem several_length {α : Type} (read : Bytes → Option (α × Bytes)) (n : Nat) (b : Bytes) (l : List α) (r : Bytes)
    (h : several read n b = some (l, r)) : l.length = n := by
  induction n generalizing b l r with
  | zero => cases h; rfl
  | succ n ih =>
    simp only [several] at h
    obtain ⟨x, _, h⟩ := Option.bind_eq_some_iff.1 h
    obtain ⟨y, hy, h⟩ := Option.bind_eq_some_iff.1 h
    cases h
    rw [List.length_cons, ih _ _ _ hy]

theorem words_length (n : Nat) (data : Bytes) (offset : Nat) (ws : List Nat) (h : words n data offset = .ok ws) :
    ws.length = n := by
  unfold words at h
  split at h
  · cases h
  · rename_i d _
    unfold fromStream at h
    split at h
    · cases h
    · split at h
      · cases h
      · rename_i r hr
        cases h
        unfold parseWords at hr
        obtain ⟨x, hx, hr⟩ := Option.bind_eq_some_iff.1 hr
        obtain ⟨y, hy, hr⟩ := Option.bind_eq_some_iff.1 hr
        cases hr
        exact several_length _ _ _ _ _ hx

/-- C134: whatever is stored, no object has more than ten children. -/
theorem C134_ten (data : Bytes) (offset : Nat) (vs : List Nat) (h : readTree data offset = .ok vs) : vs.length ≤ 10 := by
  unfold readTree at h
  split at h
  · cases h
  · split at h
    · cases h
    · split at h
      · cases h; simp
      · split at h
        · split at h
          · cases h
          · split at h
            · rw [words_length _ _ _ _ h]
            · cases h; simp
        · cases h; simp

/-! ## Proofs: C135 -/

/-- **C135**: all values of a list are visited, in order, if the list ends. -/
theorem C135_list {β : Type} (utf16 : Bytes → Option Str) (data : Bytes) (visit : Nat → Res (List β)) (f : Nat → List β)
    (offset : Nat) (vs : List Nat) (h : ListAt utf16 data offset vs) (hv : ∀ v ∈ vs, visit v = .ok (f v)) :
    ∀ fuel, vs.length < fuel → listLoop utf16 data visit fuel offset = some (.ok (vs.flatMap f)) := by
  induction h with
  | nil offset ho =>
    intro fuel hf
    obtain ⟨n, rfl⟩ : ∃ n, fuel = n + 1 := ⟨fuel - 1, by simp at hf; omega⟩
    rw [listLoop, if_neg (by omega)]
    rfl
  | cons offset u name value o1 o2 previous next values hw hn _ ih =>
    intro fuel hf
    simp only [List.length_cons] at hf
    obtain ⟨n, rfl⟩ : ∃ n, fuel = n + 1 := ⟨fuel - 1, by omega⟩
    rw [listLoop, if_pos (words_pos _ _ _ hw), words_read _ _ _ 7 rfl hw]
    simp only [member, List.getD_cons_zero, List.getD_cons_succ]
    have hname : (if 40 < name then (readNameNode utf16 data name).map (fun _ => ()) else .ok () : Res Unit) = .ok () := by
      rcases hn with hn | hn
      · rw [if_neg (by omega)]
      · obtain ⟨s, hs⟩ := nameNode_read _ _ _ hn
        split
        · rw [hs]; rfl
        · rfl
    rw [hname]
    simp only
    rw [hv value (by simp)]
    simp only
    rw [ih (fun v hv' => hv v (by simp [hv'])) n (by omega)]
    rfl

theorem tree_pos (data : Bytes) (offset : Nat) (vs : List Nat) (h : TreeAt data offset vs) : 40 < offset := by
  cases h with
  | empty _ _ h => exact words_pos _ _ _ h
  | single _ _ h => exact words_pos _ _ _ h
  | many _ _ _ _ _ _ _ h => exact words_pos _ _ _ h

theorem values_read (cp : Bytes → Option Str) (data : Bytes) (vs : List Nat) (is : List Inst) (h : ValuesAt cp data vs is) :
    ∃ f, (∀ v ∈ vs, listValue cp data v = .ok (f v)) ∧ vs.flatMap f = is.map some := by
  refine ⟨fun v => match listValue cp data v with | .ok x => x | .error _ => [], ?_, ?_⟩
  · intro v hv
    have : ∃ x, listValue cp data v = .ok x := by
      induction h with
      | nil => cases hv
      | unset w vs is hw _ ih =>
        rcases List.mem_cons.1 hv with rfl | hv
        · exact ⟨[], by rw [listValue, if_neg (by omega)]⟩
        · exact ih hv
      | set w vs i is hi _ ih =>
        rcases List.mem_cons.1 hv with rfl | hv
        · exact ⟨[some i], by rw [listValue, if_pos hi.1, instanceAt_read _ _ _ _ hi]; rfl⟩
        · exact ih hv
    obtain ⟨x, hx⟩ := this
    simp only [hx]
  · induction h with
    | nil => rfl
    | unset w vs is hw _ ih =>
      have : listValue cp data w = .ok [] := by rw [listValue, if_neg (by omega)]
      simp only [List.flatMap_cons, this, List.nil_append]
      exact ih
    | set w vs i is hi _ ih =>
      have : listValue cp data w = .ok [some i] := by rw [listValue, if_pos hi.1, instanceAt_read _ _ _ _ hi]; rfl
      simp only [List.flatMap_cons, this, List.map_cons, List.singleton_append]
      rw [ih]

theorem listNode_read (cp utf16 : Bytes → Option Str) (data : Bytes) (list length fuel : Nat) (is : List Inst)
    (h : ListNodeAt cp utf16 data list length is) (hf : length < fuel) :
    (if 40 < list then readList utf16 data (listValue cp data) fuel list else some (.ok []) :
      Option (Res (List (Option Inst)))) = some (.ok (is.map some)) := by
  rcases h with ⟨h, rfl⟩ | ⟨o, first, last, u, count, vs, hw, hl, hn, hv⟩
  · rw [if_neg (by omega)]
    rfl
  · obtain ⟨f, h1, h2⟩ := values_read _ _ _ _ hv
    rw [if_pos (words_pos _ _ _ hw), readList, words_read _ _ _ 5 rfl hw]
    simp only [member, List.getD_cons_zero, List.getD_cons_succ]
    rw [C135_list utf16 data _ f first vs hl h1 fuel (by omega), h2]

theorem classLoop_set {β : Type} (visit : Nat → Option (Res (List β))) (v : Nat) (vs : List Nat) (xs ys : List β)
    (hv : 40 < v) (hx : visit v = some (.ok xs)) (h : classLoop visit vs = some (.ok ys)) :
    classLoop visit (v :: vs) = some (.ok (xs ++ ys)) := by
  rw [classLoop, if_pos hv, hx]
  simp only
  rw [h]
  rfl

theorem classes_read (cp utf16 : Bytes → Option Str) (data : Bytes) (length fuel : Nat) (hf : length < fuel) (vs : List Nat)
    (f : Forest (List Inst)) (h : ClassesAt cp utf16 data length vs f) :
    ∀ limit, f.depth ≤ limit →
      classLoop (classInstances cp utf16 data fuel limit) vs = some (.ok (f.list.flatten.map some)) := by
  induction h with
  | nil => intro limit _; rfl
  | unset v vs f hv _ ih =>
    intro limit hl
    rw [classLoop, if_neg (by omega), ih limit hl]
    rfl
  | node v vs instance' branch parent type list sub unknown child is ws c s hw hb hi hs _ _ ihc ihs =>
    intro limit hl
    simp only [Forest.depth] at hl
    obtain ⟨n, rfl⟩ : ∃ n, limit = n + 1 := ⟨limit - 1, by omega⟩
    have hone : classInstances cp utf16 data fuel (n + 1) v = some (.ok (is.map some ++ c.list.flatten.map some)) := by
      rw [classInstances, words_read _ _ _ 8 rfl hw]
      simp only
      have hc : (if 40 < member [instance', branch, parent, type, list, sub, unknown, child] 1 then
          (readClassAt cp data (member [instance', branch, parent, type, list, sub, unknown, child] 1)).map (fun _ => ())
          else .ok () : Res Unit) = .ok () := by
        rcases hb with hb | ⟨c, maps, size, hb⟩
        · rw [if_neg (by simp only [member, List.getD_cons_zero, List.getD_cons_succ]; omega)]
        · obtain ⟨ws, h1, h2, h3⟩ := classNode_read _ _ _ _ _ _ hb
          rw [words_read _ _ _ 8 rfl hw] at h1
          cases h1
          rw [h3]
          split <;> rfl
      rw [hc]
      simp only [member, List.getD_cons_zero, List.getD_cons_succ]
      rw [listNode_read _ _ _ _ _ _ _ hi hf]
      simp only
      rcases hs with ⟨hs, rfl⟩ | ⟨ht, htree⟩
      · rw [if_neg (by omega)]
        have := ihc n (by omega)
        simp only [classLoop, Option.some.injEq, Except.ok.injEq] at this
        simp only [Option.map_some, Except.map, this]
      · rw [if_pos ⟨tree_pos _ _ _ htree, ht⟩, tree_read _ _ _ htree]
        simp only
        rw [ihc n (by omega)]
        rfl
    rw [classLoop_set _ _ _ _ _ (words_pos _ _ _ hw) hone (ihs (n + 1) (by omega))]
    simp [Forest.list]

/-- **C135**: the instances of the lists of all classes are read, those of a class before those of the classes below it,
if the lists end. -/
theorem C135_classes (cp utf16 : Bytes → Option Str) (data : Bytes) (length fuel limit system : Nat) (root : Option Nat)
    (f : Forest (List Inst)) (h : ClassesAt cp utf16 data length [system] f) (hf : length < fuel) (hl : f.depth ≤ limit)
    (hs : 40 < system) :
    readClassDefinitions cp utf16 data fuel limit ⟨root, some system⟩ = some (.ok (f.list.flatten.map some)) := by
  have := classes_read cp utf16 data length fuel hf [system] f h limit hl
  unfold readClassDefinitions
  simp only
  rw [if_pos hs]
  rw [classLoop, if_pos hs] at this
  cases hc : classInstances cp utf16 data fuel limit system with
  | none => rw [hc] at this; cases this
  | some r =>
    rw [hc] at this
    cases r with
    | error e => cases this
    | ok xs =>
      simp only [classLoop, Option.map_some, Except.map, List.append_nil] at this
      exact this

/-! ## Examples and what is not so -/

def cellBytes (d : Bytes) : Bytes := leBytes 4 (d.length + 4) ++ d
def wordsBytes (ws : List Nat) : Bytes := ws.flatMap (leBytes 4) ++ (List.replicate 12 0 ++ [])

theorem cellAt_of (data : Bytes) (offset : Nat) (d : Bytes) (ho : 40 < offset) (hl : d.length + 4 < 2 ^ 27)
    (h : slice data (offset - 4) (offset - 4 + (cellBytes d).length) = cellBytes d) (hd : offset ≤ data.length) :
    CellAt data offset d := by
  refine ⟨ho, hl, 0, by omega, ?_⟩
  rw [Nat.zero_mul, Nat.zero_add]
  exact holds_of_slice _ _ _ h (by omega)

theorem wordsAt_of (data : Bytes) (offset : Nat) (ws : List Nat)
    (h : (∀ w ∈ ws, w < 2 ^ 32) ∧ 40 < offset ∧ (wordsBytes ws).length + 4 < 2 ^ 27 ∧
      slice data (offset - 4) (offset - 4 + (cellBytes (wordsBytes ws)).length) = cellBytes (wordsBytes ws) ∧
      offset ≤ data.length) : WordsAt data offset ws :=
  ⟨h.1, List.replicate 12 0, [], by simp, cellAt_of _ _ _ h.2.1 h.2.2.1 h.2.2.2.1 h.2.2.2.2⟩

/-- A class of namespaces, that may be derived from another one. -/
def namespaceClass (super : Option (UInt8 × Bytes × Str)) : StoredClass :=
  ⟨0, 0, "_N".toList, super, [],
    [⟨4, 18, 0, "Name".toList, 0, 0, 8, [⟨0x8000000A, 0, 8, [10, 0, 0, 0], "type".toList, .text "String".toList⟩]⟩], [],
    [0, 0x5f, 0x4e, 0] ++ ([0, 0x4e, 0x61, 0x6d, 0x65, 0] ++ ([0, 0x53, 0x74, 0x72, 0x69, 0x6e, 0x67, 0] ++
      (leBytes 4 8 ++ (leBytes 2 0 ++ (leBytes 4 0 ++ (leBytes 4 0 ++ (leBytes 4 17 ++ (leBytes 4 0x8000000A ++ ([0] ++
        (leBytes 4 8 ++ [10, 0, 0, 0])))))))))), false⟩

/-- An instance with a name. -/
def namespaceInstance (name : Bytes) : StoredInstance :=
  ⟨0, "_N".toList, 0, [0], [4, 0, 0, 0], [], none, 0, [0, 0x5f, 0x4e, 0] ++ ([0] ++ (name ++ [0]))⟩

def namespaceMap : PropertyMap := ⟨"Name".toList, 8, 0, 4, "string".toList⟩

def namespaceInst (name : Str) : Inst := ⟨"_N".toList, [], none, none, [("Name".toList, .text name)]⟩

/-- The node of a class definition, with its padding. -/
def classLeafBytes (block : Bytes) : Bytes :=
  sizedBytes block ++ (sizedBytes [] ++ (List.replicate ((4 - block.length % 4) % 4) 0 ++ (List.replicate 12 0 ++ [])))

def instanceLeafBytes (block : Bytes) : Bytes := sizedBytes block ++ (List.replicate 12 0 ++ [])

/-- A repository with the namespaces `root` and `root\\b`; the first is in the list of their class. -/
def sampleRepository (super : Option (UInt8 × Bytes × Str)) : Bytes :=
  List.replicate 40 0 ++ (cellBytes (wordsBytes [88, 0, 184, 0, 0, 0, 0]) ++ (cellBytes (wordsBytes [1, 1, 116]) ++
    (cellBytes (wordsBytes [0, 140]) ++ (cellBytes (wordsBytes [0, 0, 220, 0, 0, 0, 0]) ++
    (cellBytes (wordsBytes [44, 256, 2, 340, 0]) ++ (cellBytes (wordsBytes [140, 256, 2, 389, 0]) ++
    (cellBytes (wordsBytes [0, 304, 0, 0, 435, 0, 0, 0]) ++ (cellBytes (wordsBytes [0, 256, 0, 515, 0]) ++
    (cellBytes (instanceLeafBytes (namespaceInstance [0x72, 0x6f, 0x6f, 0x74]).bytes) ++
    (cellBytes (instanceLeafBytes (namespaceInstance [0x62]).bytes) ++
    (cellBytes (wordsBytes [0, 471, 471, 0, 1]) ++ (cellBytes (wordsBytes [0, 0, 184, 0, 0, 0, 0]) ++
    cellBytes (classLeafBytes (namespaceClass super).bytes)))))))))))))

def derivedFrom : Option (UInt8 × Bytes × Str) := some (0, [0x42], ['B'])

theorem namespaceClass_ok (super : Option (UInt8 × Bytes × Str)) (h : super = none ∨ super = derivedFrom) :
    (namespaceClass super).Ok asciiText where
  nameOffset := by rcases h with rfl | rfl <;> decide +kernel
  name := ⟨0, [0x5f, 0x4e], by decide, (by rcases h with rfl | rfl <;> decide +kernel), [],
    (namespaceClass super).values.drop 4, (by rcases h with rfl | rfl <;> decide +kernel), rfl⟩
  super := by
    intro flags text s hs
    rcases h with rfl | rfl <;> cases hs
    exact ⟨by decide, by decide⟩
  superSize := by rcases h with rfl | rfl <;> decide
  qualifiers := by intro q hq; cases hq
  qualifiersSize := by show 0 + 4 < _; decide
  properties := by
    intro p hp
    simp only [namespaceClass, List.mem_singleton] at hp
    subst hp
    refine ⟨.string 4 _ (by decide) ⟨0, [0x4e, 0x61, 0x6d, 0x65], by decide, by decide,
      [0, 0x5f, 0x4e, 0], (namespaceClass none).values.drop 10,
      (by rcases h with rfl | rfl <;> decide +kernel), rfl⟩,
      ⟨(namespaceClass none).values.take 18, [], (by rcases h with rfl | rfl <;> decide +kernel), by decide +kernel⟩, by decide, by decide, by decide,
      by decide, by decide, by decide, ?_⟩
    intro q hq
    simp only [List.mem_singleton] at hq
    subst hq
    exact ⟨.predefined 10 "type" .type, .string 10 _ (by decide) ⟨0, [0x53, 0x74, 0x72, 0x69, 0x6e, 0x67], by decide,
      by decide, (namespaceClass none).values.take 10, (namespaceClass none).values.drop 18,
      (by rcases h with rfl | rfl <;> decide +kernel), by decide +kernel⟩⟩
  count := by show 1 < _; decide
  defaults := by show 0 < _; decide
  values := by rcases h with rfl | rfl <;> decide +kernel

theorem namespaceClass_at (super : Option (UInt8 × Bytes × Str)) (h : super = none ∨ super = derivedFrom) :
    ClassNodeAt asciiText (sampleRepository super) 256 (namespaceClass super) [namespaceMap] 4 where
  ok := namespaceClass_ok super h
  qualifiers := by intro q hq; cases hq
  propertyQualifiers := by
    intro p hp q hq
    simp only [namespaceClass, List.mem_singleton] at hp
    subst hp
    simp only [List.mem_singleton] at hq
    subst hq
    decide
  values := by rcases h with rfl | rfl <;> decide +kernel
  names := by rcases h with rfl | rfl <;> decide +kernel
  count := rfl
  maps := by
    intro x hx
    simp only [namespaceClass, List.zip_cons_cons, List.zip_nil_right, List.mem_singleton] at hx
    subst hx
    exact ⟨[], _, [], "String".toList, rfl, by decide, rfl, by decide, by simp, by decide⟩
  size := .last [] [] _ (by simp)
  stored := by
    refine ⟨0, 304, 0, 0, 435, 0, 0, 0, 0, 256, 0, 515, 0, [], ?_⟩
    rcases h with rfl | rfl
    · refine ⟨wordsAt_of _ _ _ (by decide +kernel), by decide, wordsAt_of _ _ _ (by decide +kernel), by decide +kernel,
        [], List.replicate 2 0, List.replicate 12 0, [], by decide, by decide, by decide, by decide +kernel, ?_⟩
      exact cellAt_of _ _ (classLeafBytes (namespaceClass none).bytes) (by decide) (by decide +kernel) (by decide +kernel)
        (by decide +kernel)
    · refine ⟨wordsAt_of _ _ _ (by decide +kernel), by decide, wordsAt_of _ _ _ (by decide +kernel), by decide +kernel,
        [], List.replicate 3 0, List.replicate 12 0, [], by decide, by decide, by decide, by decide +kernel, ?_⟩
      exact cellAt_of _ _ (classLeafBytes (namespaceClass derivedFrom).bytes) (by decide) (by decide +kernel)
        (by decide +kernel) (by decide +kernel)

theorem namespaceInstance_ok (name : Bytes) : (namespaceInstance name).Ok asciiText 1 4 where
  nameOffset := by show 0 < 2 ^ 32; decide
  name := ⟨0, [0x5f, 0x4e], by decide, by show asciiText [0x5f, 0x4e] = some "_N".toList; decide, [], [0] ++ (name ++ [0]),
    rfl, rfl⟩
  state := by show 1 = _; decide
  stored := by show 4 = _; rfl
  qualifiers := by show 0 + 4 < _; decide
  dynamic := by intro l hl; cases hl
  unknown2 := by show 0 < _; decide

theorem namespaceInstance_value (name : Bytes) (h : 0 ∉ name) : HasValue asciiText (namespaceInstance name) namespaceMap
    (.text (name.map (fun c => Char.ofNat c.toNat))) :=
  ⟨[4, 0, 0, 0], ⟨[], [], rfl, rfl⟩, .text 8 _ 4 _ (.inl rfl) (by decide) (by decide)
    ⟨0, name, h, rfl, [0, 0x5f, 0x4e, 0], [], by simp [namespaceInstance], rfl⟩⟩

theorem namespaceInstance_at (super : Option (UInt8 × Bytes × Str)) (h : super = none ∨ super = derivedFrom)
    (branch r leaf : Nat) (name : Bytes) (hn : 0 ∉ name)
    (h1 : WordsAt (sampleRepository super) branch [r, 256, 2, leaf, 0])
    (h2 : InstanceLeafAt (sampleRepository super) leaf (namespaceInstance name).bytes) :
    InstanceNodeAt asciiText (sampleRepository super) branch (namespaceClass super)
      [(namespaceMap, .text (name.map (fun c => Char.ofNat c.toNat)))] :=
  ⟨namespaceInstance name, 4, r, 256, leaf, 0, namespaceClass_at super h, h1, h2, namespaceInstance_ok name, by
    intro x hx
    simp only [List.mem_singleton] at hx
    subst hx
    exact ⟨namespaceInstance_value name hn, by show ¬ Unreadable 8; decide⟩⟩

theorem sample_root (super : Option (UInt8 × Bytes × Str)) (h : super = none ∨ super = derivedFrom) :
    InstanceNodeAt asciiText (sampleRepository super) 184 (namespaceClass super)
      [(namespaceMap, .text "root".toList)] := by
  refine namespaceInstance_at super h 184 44 340 [0x72, 0x6f, 0x6f, 0x74] (by decide) ?_ ?_
  · rcases h with rfl | rfl <;> exact wordsAt_of _ _ _ (by decide +kernel)
  · refine ⟨by decide, List.replicate 12 0, [], by decide, ?_⟩
    rcases h with rfl | rfl <;>
      exact cellAt_of _ _ (instanceLeafBytes (namespaceInstance [0x72, 0x6f, 0x6f, 0x74]).bytes) (by decide) (by decide)
        (by decide +kernel) (by decide +kernel)

example : readInstanceAt asciiText (sampleRepository none) 184 = .ok (some (namespaceInst "root".toList)) :=
  C133_instance_partial _ _ _ _ _ (sample_root none (.inl rfl)) rfl

/-- C133: the super class of the class of an instance is not there. -/
theorem C133_instance_claim_false : ¬ C133_instance_claim := by
  intro h
  have h1 := h asciiText (sampleRepository derivedFrom) 184 _ _ (sample_root derivedFrom (.inr rfl))
  have h2 := C133_super_missing _ _ _ _ h1
  exact absurd h2.2.1 (by decide)

theorem sample_first : InstanceAt asciiText (sampleRepository none) 184 (namespaceInst "root".toList) :=
  ⟨by decide, _, _, sample_root none (.inl rfl), rfl, rfl⟩

theorem sample_second : InstanceAt asciiText (sampleRepository none) 220 (namespaceInst "b".toList) := by
  refine ⟨by decide, _, [(namespaceMap, .text "b".toList)], namespaceInstance_at none (.inl rfl) 220 140 389 [0x62]
    (by decide) ?_ ?_, rfl, rfl⟩
  · exact wordsAt_of _ _ _ (by decide +kernel)
  · exact ⟨by decide, List.replicate 12 0, [], by decide,
      cellAt_of _ _ (instanceLeafBytes (namespaceInstance [0x62]).bytes) (by decide) (by decide) (by decide +kernel)
        (by decide +kernel)⟩

theorem sample_tree : RootAt asciiText (sampleRepository none) 44 (namespaceInst "root".toList)
    (.cons (namespaceInst "b".toList) .nil .nil) :=
  ⟨88, 0, 184, 0, 0, 0, 0, [116], wordsAt_of _ _ _ (by decide +kernel),
    .inr ⟨by decide, .single _ 1 _ (wordsAt_of _ _ _ (by decide +kernel))⟩, sample_first,
    .node 116 [] 0 140 0 0 220 0 0 0 0 _ [] .nil .nil (wordsAt_of _ _ _ (by decide +kernel))
      (wordsAt_of _ _ _ (by decide +kernel)) (.inl ⟨.inl (by decide), rfl⟩) sample_second .nil .nil⟩

/-- The text of the first property. -/
def firstText (i : Inst) : Str :=
  match i.properties with
  | (_, .text s) :: _ => s
  | _ => []

example : readNamespaces asciiText (sampleRepository none) 1000 ⟨some 44, none⟩ =
    .ok [("root".toList, namespaceInst "root".toList), ("root\\b".toList, namespaceInst "b".toList)] :=
  C134_namespaces asciiText (sampleRepository none) 1000 44 none _ _ firstText sample_tree ⟨[], [], rfl, by simp⟩
    ⟨⟨[], [], rfl, by simp⟩, trivial, trivial⟩ (by decide)

example : readInstances asciiText (sampleRepository none) 1000 ⟨some 44, none⟩ =
    .ok [some (namespaceInst "root".toList), some (namespaceInst "b".toList)] :=
  C134_instances asciiText (sampleRepository none) 1000 44 none _ _ sample_tree (by decide)

example : readClassDefinitions asciiText asciiText (sampleRepository none) 2 1000 ⟨none, some 256⟩ =
    some (.ok [some (namespaceInst "root".toList)]) :=
  C135_classes asciiText asciiText (sampleRepository none) 1 2 1000 256 none (.cons [namespaceInst "root".toList] .nil .nil)
    (.node 256 [] 0 304 0 0 435 0 0 0 _ [] .nil .nil (wordsAt_of _ _ _ (by decide +kernel))
      (.inr ⟨_, _, _, namespaceClass_at none (.inl rfl)⟩)
      (.inr ⟨0, 471, 471, 0, 1, [184], wordsAt_of _ _ _ (by decide +kernel),
        .cons 471 0 0 184 0 0 0 0 [] (wordsAt_of _ _ _ (by decide +kernel)) (.inl (by decide)) (.nil 0 (by decide)),
        by decide, .set _ _ _ _ sample_first .nil⟩) (.inl ⟨.inl (by decide), rfl⟩) .nil .nil)
    (by decide) (by decide) (by decide)

/-- A list whose element is followed by itself. -/
def endlessList : Bytes :=
  List.replicate 40 0 ++ (cellBytes (wordsBytes [0, 80, 80, 0, 1]) ++ cellBytes (wordsBytes [0, 0, 0, 0, 0, 0, 80]))

/-- The claim of C135: the reading of a list ends. -/
def C135_ends_claim : Prop := ∀ (cp utf16 : Bytes → Option Str) (data : Bytes) (offset : Nat),
  ∃ fuel r, readList utf16 data (listValue cp data) fuel offset = some r

theorem endless_loop (cp utf16 : Bytes → Option Str) (fuel : Nat) :
    listLoop utf16 endlessList (listValue cp endlessList) fuel 80 = none := by
  induction fuel with
  | zero => rfl
  | succ fuel ih =>
    have hw : words 7 endlessList 80 = .ok [0, 0, 0, 0, 0, 0, 80] := by decide +kernel
    have hv : listValue cp endlessList 0 = .ok [] := rfl
    rw [listLoop, if_pos (by decide), hw]
    simp only [member, List.getD_cons_zero, List.getD_cons_succ]
    rw [if_neg (by decide)]
    simp only
    rw [hv]
    simp only
    rw [ih]
    rfl

/-- C135: the reading of a list whose element is followed by itself never ends. -/
theorem C135_ends_claim_false : ¬ C135_ends_claim := by
  intro h
  obtain ⟨fuel, r, hr⟩ := h asciiText asciiText endlessList 44
  have hw : words 5 endlessList 44 = .ok [0, 80, 80, 0, 1] := by decide +kernel
  rw [readList, hw] at hr
  simp only [member, List.getD_cons_zero, List.getD_cons_succ] at hr
  rw [endless_loop] at hr
  cases hr

/-- A tree of instances whose root is below itself. -/
def endlessTree : Bytes :=
  List.replicate 40 0 ++ (cellBytes (wordsBytes [88, 0, 0, 0, 0, 0, 0]) ++ (cellBytes (wordsBytes [1, 1, 116]) ++
    cellBytes (wordsBytes [0, 44])))

/-- C134: the reading of a tree whose root is below itself always fails for the number of nested calls. -/
theorem C134_cycle (cp : Bytes → Option Str) (limit : Nat) :
    instances cp endlessTree limit 44 = .error .recursionError := by
  induction limit with
  | zero => rfl
  | succ limit ih =>
    have h1 : words 7 endlessTree 44 = .ok [88, 0, 0, 0, 0, 0, 0] := by decide +kernel
    have h2 : readTree endlessTree 88 = .ok [116] := by decide +kernel
    have h3 : words 2 endlessTree 116 = .ok [0, 44] := by decide +kernel
    rw [instances, h1]
    simp only [member, List.getD_cons_zero, List.getD_cons_succ]
    rw [if_neg (by decide)]
    simp only
    rw [below, if_pos (by decide), h2]
    simp only
    rw [leafLoop, if_pos (by decide), h3]
    simp only [member, List.getD_cons_zero, List.getD_cons_succ]
    rw [if_pos (by decide), ih]
    rfl

/-- The claim of C134 on errors: a repository without namespaces is a parse error. -/
def C134_errors_claim : Prop := ∀ (cp : Bytes → Option Str) (data : Bytes) (fuel limit : Nat) (nodes : Nodes) (e : Err),
  readCells data fuel = some (.ok nodes) → readNamespaces cp data limit nodes = .error e →
  e = .parseError ∨ e = .recursionError

/-- C134: a repository that ends before the cell of its root node is a type error. -/
theorem C134_errors_claim_false : ¬ C134_errors_claim := by
  intro h
  rcases h asciiText (List.replicate 40 0) 1 1000 ⟨none, none⟩ .typeError (by decide +kernel) rfl with h | h <;> cases h

end Dtf.Wmi
