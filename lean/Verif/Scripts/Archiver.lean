import Verif.Text
import Verif.Py
import Mathlib.Data.List.Basic
import Mathlib.Data.List.Forall2

/-!
# Property lists of NSKeyedArchiver (C152, C153, C154)

scripts/decode_nskeyedarchiver_plist.py puts the objects of an archive together.  The property list is what plistlib gives.
Calls are counted by the limit on recursion as calls of `_DecodeObject` only; Python counts those of the callbacks too.
-/

namespace Dtf.Archiver
open Py Text

/-- A value of a property list, as given by plistlib.  Real numbers and dates are known by a number each. -/
inductive P
  | bool (b : Bool)
  | int (n : Int)
  | real (r : Nat)
  | data (b : Bytes)
  | str (s : List Char)
  | date (d : Nat)
  | uid (n : Nat)
  | arr (l : List P)
  | dict (m : List (List Char × P))

/-- A value that was decoded.  A value that was left as it is, is `raw`. -/
inductive O
  | none
  | bool (b : Bool)
  | int (n : Int)
  | real (r : Nat)
  | str (s : List Char)
  | arr (l : List O)
  | dict (m : List (O × O))
  | raw (p : P)

/-! ## Model -/

/-- The integer that a real number is equal to, if there is one. -/
abbrev Whole := Nat → Option Int

/-- Whether Python takes a value for true.  A `plistlib.UID` and a date always are. -/
def P.truthy (whole : Whole) : P → Bool
  | .bool b => b
  | .int n => n != 0
  | .real r => whole r != some 0
  | .data b => !b.isEmpty
  | .str s => !s.isEmpty
  | .date _ => true
  | .uid _ => true
  | .arr l => !l.isEmpty
  | .dict m => !m.isEmpty

def O.truthy (whole : Whole) : O → Bool
  | .none => false
  | .bool b => b
  | .int n => n != 0
  | .real r => whole r != some 0
  | .str s => !s.isEmpty
  | .arr l => !l.isEmpty
  | .dict m => !m.isEmpty
  | .raw p => p.truthy whole

/-- `_GetPlistUID` (decode_nskeyedarchiver_plist.py 293-313).  The value under `CF$UID` can be of any type. -/
def getUid : P → Option P
  | .uid n => some (.int n)
  | .dict [(k, v)] => if k = "CF$UID".toList then some v else none
  | _ => none

/-- `sequence[index]`: a negative index counts from the end. -/
def pyIndex {α : Type} (l : List α) (i : Int) : Res α :=
  match l[(if i < 0 then i + l.length else i).toNat]? with
  | some x => if i < 0 ∧ i + l.length < 0 then .error .indexError else .ok x
  | none => .error .indexError

/-- The integer of a value that can be an index. -/
def asIndex : P → Option Int
  | .int n => some n
  | .bool b => some (if b then 1 else 0)
  | .uid n => some n
  | _ => none

def ofChar (c : Char) : P := .str [c]

def ofByte (b : UInt8) : P := .int b.toNat

/-- `container[key]`. -/
def item (container key : P) : Res P :=
  match container with
  | .dict m =>
    match key with
    | .str s =>
      match m.lookup s with
      | some v => .ok v
      | none => .error .keyError
    | .arr _ => .error .typeError
    | .dict _ => .error .typeError
    | _ => .error .keyError
  | _ =>
    match asIndex key with
    | none => .error .typeError
    | some i =>
      match container with
      | .arr l => pyIndex l i
      | .str s => (pyIndex s i).map ofChar
      | .data b => (pyIndex b i).map ofByte
      | _ => .error .typeError

/-- `iter(value)`. -/
def iterate : P → Res (List P)
  | .arr l => .ok l
  | .dict m => .ok (m.map (fun kv => .str kv.1))
  | .str s => .ok (s.map ofChar)
  | .data b => .ok (b.map ofByte)
  | _ => .error .typeError

/-- The digits of `base64.urlsafe_b64encode`. -/
def digit64 (n : Nat) : Char :=
  if n < 26 then Char.ofNat (65 + n) else if n < 52 then Char.ofNat (71 + n) else if n < 62 then Char.ofNat (n - 4)
  else if n = 62 then '-' else '_'

/-- `str(base64.urlsafe_b64encode(data))[2:-1]` (decode_nskeyedarchiver_plist.py 257-258). -/
def base64 : Bytes → List Char
  | a :: b :: c :: r =>
    let n := a.toNat * 65536 + b.toNat * 256 + c.toNat
    digit64 (n / 262144) :: digit64 (n / 4096 % 64) :: digit64 (n / 64 % 64) :: digit64 (n % 64) :: base64 r
  | [a, b] =>
    let n := a.toNat * 65536 + b.toNat * 256
    [digit64 (n / 262144), digit64 (n / 4096 % 64), digit64 (n / 64 % 64), '=']
  | [a] =>
    let n := a.toNat * 65536
    [digit64 (n / 262144), digit64 (n / 4096 % 64), '=', '=']
  | [] => []

def hex (b : Bytes) : List Char := b.flatMap (fun x => [digitChar (x.toNat / 16), digitChar (x.toNat % 16)])

/-- `str(uuid.UUID(bytes=data))`. -/
def uuidText (b : Bytes) : List Char :=
  hex (slice b 0 4) ++ '-' :: (hex (slice b 4 6) ++ '-' :: (hex (slice b 6 8) ++ '-' :: (hex (slice b 8 10) ++
    '-' :: hex (slice b 10 16))))

/-- The methods that decode objects of a class. -/
inductive Method
  | composite
  | array
  | dictionary
  | hashTable
  | set
  | url
  | uuid
  deriving DecidableEq

/-- `_CALLBACKS` (decode_nskeyedarchiver_plist.py 24-41). -/
def callbacks : List (List Char × Method) :=
  [("BackgroundItemContainer".toList, .composite), ("BackgroundItems".toList, .composite),
    ("BackgroundLoginItem".toList, .composite), ("Bookmark".toList, .composite), ("BTMUserSettings".toList, .composite),
    ("ItemRecord".toList, .composite), ("NSArray".toList, .array), ("NSDictionary".toList, .dictionary),
    ("NSHashTable".toList, .hashTable), ("NSMutableArray".toList, .array), ("NSMutableDictionary".toList, .dictionary),
    ("NSMutableSet".toList, .set), ("NSSet".toList, .set), ("NSURL".toList, .url), ("NSUUID".toList, .uuid),
    ("Storage".toList, .composite)]

/-- The loop of `_DecodeComposite` and `_DecodeContainer` over the members of a dictionary
(decode_nskeyedarchiver_plist.py 55-65, 79-89).  The keys of a dictionary are distinct. -/
def members (whole : Whole) (dec : P → Res O) (skip : List (List Char)) : List (List Char × P) → Res (List (O × O))
  | [] => .ok []
  | (k, v) :: r =>
    if k ∈ skip then members whole dec skip r
    else if v.truthy whole then
      match dec v with
      | .error e => .error e
      | .ok o => (members whole dec skip r).map ((.str k, o) :: ·)
    else members whole dec skip r

/-- The names that `_DecodeContainer` leaves out. -/
def skipped : List (List Char) := ["$class".toList, "container".toList]

def isSkipped : P → Bool
  | .str s => s ∈ skipped
  | _ => false

/-- `_DecodeContainer` (decode_nskeyedarchiver_plist.py 67-91): of the types that can be iterated over, only a dictionary has
`get`. -/
def container (whole : Whole) (dec : P → Res O) : P → Res O
  | .dict m => (members whole dec skipped m).map .dict
  | p =>
    match iterate p with
    | .error e => .error e
    | .ok ks => if ks.all isSkipped then .ok (.dict []) else .error .attributeError

/-- `[self._DecodeObject(element, objects_list) for element in ...]`. -/
def mapRes {α β : Type} (f : α → Res β) : List α → Res (List β)
  | [] => .ok []
  | x :: r =>
    match f x with
    | .error e => .error e
    | .ok y => (mapRes f r).map (y :: ·)

/-- `_DecodeNSArray` (decode_nskeyedarchiver_plist.py 91-107). -/
def decodeArray (dec : P → Res O) (m : List (List Char × P)) : Res O :=
  match m.lookup "NS.objects".toList with
  | none => .error .runtimeError
  | some v =>
    match iterate v with
    | .error e => .error e
    | .ok l => (mapRes dec l).map .arr

/-- Whether a value can be a key of a dictionary. -/
def O.hashable : O → Bool
  | .arr _ => false
  | .dict _ => false
  | .raw _ => false
  | _ => true

/-- The value of a number. -/
def O.number (whole : Whole) : O → Option Int
  | .int n => some n
  | .bool b => some (if b then 1 else 0)
  | .real r => whole r
  | _ => Option.none

/-- Whether two keys are equal: `1`, `1.0` and `True` are. -/
def sameKey (whole : Whole) (x y : O) : Bool :=
  match x, y with
  | .none, .none => true
  | .str s, .str t => s = t
  | .real r, .real q => r = q || ((whole r).isSome && whole r = whole q)
  | x, y => (x.number whole).isSome && x.number whole = y.number whole

/-- `dictionary[key] = value`. -/
def setKey (whole : Whole) (k v : O) : List (O × O) → List (O × O)
  | [] => [(k, v)]
  | (k', v') :: r => if sameKey whole k' k then (k', v) :: r else (k', v') :: setKey whole k v r

/-- The loop of `_DecodeNSDictionary` (decode_nskeyedarchiver_plist.py 130-138). -/
def pairs (whole : Whole) (dec : P → Res O) (values : P) : Nat → List P → List (O × O) → Res (List (O × O))
  | _, [], acc => .ok acc
  | i, k :: r, acc =>
    match dec k with
    | .error e => .error e
    | .ok k =>
      match item values (.int i) with
      | .error e => .error e
      | .ok v =>
        match dec v with
        | .error e => .error e
        | .ok v => if k.hashable then pairs whole dec values (i + 1) r (setKey whole k v acc) else .error .typeError

/-- `_DecodeNSDictionary` (decode_nskeyedarchiver_plist.py 109-138). -/
def decodeDictionary (whole : Whole) (dec : P → Res O) (m : List (List Char × P)) : Res O :=
  match m.lookup "NS.keys".toList, m.lookup "NS.objects".toList with
  | some ks, some vs =>
    match iterate ks with
    | .error e => .error e
    | .ok l =>
      match iterate vs with
      | .error e => .error e
      | .ok l' => if l.length ≠ l'.length then .error .runtimeError else (pairs whole dec vs 0 l []).map .dict
  | _, _ => .error .runtimeError

/-- `_DecodeNSHashTable` (decode_nskeyedarchiver_plist.py 140-168). -/
def decodeHashTable (whole : Whole) (objects : P) (dec : P → Res O) (m : List (List Char × P)) : Res O :=
  match m.lookup "$1".toList with
  | none => .error .runtimeError
  | some v =>
    match getUid v with
    | none => .error .runtimeError
    | some u =>
      match item objects u with
      | .error e => .error e
      | .ok r => container whole dec r

/-- The loop of `_DecodeNSSet` (decode_nskeyedarchiver_plist.py 185-193): what is returned is the last element.  An element
that is not a reference asks for the item `None`. -/
def elements (whole : Whole) (objects : P) (dec : P → Res O) : List P → Option O → Res O
  | [], none => .error .unboundLocalError
  | [], some o => .ok o
  | v :: r, _ =>
    match getUid v with
    | none =>
      match objects with
      | .dict _ => .error .keyError
      | _ => .error .typeError
    | some u =>
      match item objects u with
      | .error e => .error e
      | .ok x =>
        match container whole dec x with
        | .error e => .error e
        | .ok o => elements whole objects dec r (some o)

/-- `_DecodeNSSet` (decode_nskeyedarchiver_plist.py 170-193). -/
def decodeSet (whole : Whole) (objects : P) (dec : P → Res O) (m : List (List Char × P)) : Res O :=
  match m.lookup "NS.objects".toList with
  | none => .error .runtimeError
  | some v =>
    match iterate v with
    | .error e => .error e
    | .ok l => elements whole objects dec l none

/-- `_DecodeNSURL` (decode_nskeyedarchiver_plist.py 195-219). -/
def decodeUrl (whole : Whole) (dec : P → Res O) (m : List (List Char × P)) : Res O :=
  match m.lookup "NS.base".toList, m.lookup "NS.relative".toList with
  | some base, some relative =>
    match dec base with
    | .error e => .error e
    | .ok base =>
      match dec relative with
      | .error e => .error e
      | .ok relative =>
        if base.truthy whole then
          match base, relative with
          | .str b, .str r => .ok (.str (b ++ '/' :: r))
          | _, _ => .error .typeError
        else .ok relative
  | _, _ => .error .runtimeError

/-- `_DecodeNSUUID` (decode_nskeyedarchiver_plist.py 222-239).  Python raises an AssertionError for 16 elements that are not
bytes, which is a `typeError` here. -/
def decodeUuid (m : List (List Char × P)) : Res O :=
  match m.lookup "NS.uuidbytes".toList with
  | none => .error .runtimeError
  | some v =>
    match iterate v with
    | .error e => .error e
    | .ok l =>
      if l.length ≠ 16 then .error .runtimeError
      else
        match v with
        | .data b => .ok (.str (uuidText b))
        | _ => .error .typeError

/-- The name of a class, or what is raised by a name that is not a text, in the look-up of the method or in the message. -/
abbrev Name := Res (List Char)

def P.name : P → Name
  | .str s => .ok s
  | .bool _ => .error .valueError
  | .int _ => .error .valueError
  | .real _ => .error .valueError
  | .date _ => .error .runtimeError
  | _ => .error .typeError

def O.name : O → Name
  | .str s => .ok s
  | .bool _ => .error .valueError
  | .int _ => .error .valueError
  | .real _ => .error .valueError
  | .raw p => p.name
  | _ => .error .typeError

/-- The value of a text in a dictionary that was decoded. -/
def lookupText (s : List Char) : List (O × O) → Option O
  | [] => none
  | (.str t, v) :: r => if t = s then some v else lookupText s r
  | _ :: r => lookupText s r

/-- `decoded_class.get("$classname")` (decode_nskeyedarchiver_plist.py 272-274), nothing if it is not true. -/
def className (whole : Whole) : O → Res (Option Name)
  | .raw (.dict m) =>
    match m.lookup "$classname".toList with
    | none => .ok none
    | some v => .ok (if v.truthy whole then some v.name else none)
  | .dict m =>
    match lookupText "$classname".toList m with
    | none => .ok none
    | some v => .ok (if v.truthy whole then some v.name else none)
  | _ => .error .attributeError

/-- The call of a method (decode_nskeyedarchiver_plist.py 276-281). -/
def call (whole : Whole) (objects : P) (dec : P → Res O) (m : List (List Char × P)) : Method → Res O
  | .composite => (members whole dec ["$class".toList] m).map .dict
  | .array => decodeArray dec m
  | .dictionary => decodeDictionary whole dec m
  | .hashTable => decodeHashTable whole objects dec m
  | .set => decodeSet whole objects dec m
  | .url => decodeUrl whole dec m
  | .uuid => decodeUuid m

/-- `_DecodeObject` (decode_nskeyedarchiver_plist.py 243-291), with as many calls in each other as the limit. -/
def decode (whole : Whole) (objects : P) : Nat → P → Res O
  | 0, _ => .error .recursionError
  | limit + 1, e =>
    match getUid e with
    | some u =>
      match item objects u with
      | .error e => .error e
      | .ok r => decode whole objects limit r
    | none =>
      match e with
      | .bool b => .ok (.bool b)
      | .int n => .ok (.int n)
      | .real r => .ok (.real r)
      | .data b => .ok (.str (base64 b))
      | .str s => .ok (if s = "$null".toList then .none else .str s)
      | .dict m =>
        match m.lookup "$class".toList with
        | none => .ok (.raw e)
        | some c =>
          if c.truthy whole then
            match decode whole objects limit c with
            | .error e => .error e
            | .ok k =>
              match className whole k with
              | .error e => .error e
              | .ok none => .ok (.raw e)
              | .ok (some (.error e)) => .error e
              | .ok (some (.ok name)) =>
                match callbacks.lookup name with
                | none => .error .runtimeError
                | some method => call whole objects (decode whole objects limit) m method
          else .ok (.raw e)
      | .arr l => (mapRes (decode whole objects limit) l).map .arr
      | .date _ => .error .runtimeError
      | .uid _ => .error .runtimeError

/-- The loop of `DecodePlistFile` over the names at the top (decode_nskeyedarchiver_plist.py 339-346). -/
def tops (whole : Whole) (objects : P) (limit : Nat) : List (List Char × P) → Res (List (O × O))
  | [] => .ok []
  | (name, v) :: r =>
    match getUid v with
    | none => (tops whole objects limit r).map ((.str name, .raw v) :: ·)
    | some u =>
      match item objects u with
      | .error e => .error e
      | .ok x =>
        match decode whole objects limit x with
        | .error e => .error e
        | .ok o => (tops whole objects limit r).map ((.str name, o) :: ·)

/-- Whether a value is equal to the version. -/
def isVersion (whole : Whole) : Option P → Bool
  | some (.int n) => n = 100000
  | some (.real r) => whole r = some 100000
  | _ => false

def isArchiver : Option P → Bool
  | some (.str s) => s = "NSKeyedArchiver".toList
  | _ => false

/-- `DecodePlistFile` (decode_nskeyedarchiver_plist.py 315-348), from the property list. -/
def decodePlist (whole : Whole) (limit : Nat) : P → Res O
  | .dict m =>
    if isArchiver (m.lookup "$archiver".toList) && isVersion whole (m.lookup "$version".toList) then
      let objects := match m.lookup "$objects".toList with
        | none => .arr []
        | some v => if v.truthy whole then v else .arr []
      match m.lookup "$top".toList with
      | none => .ok (.dict [])
      | some (.dict t) => (tops whole objects limit t).map .dict
      | some _ => .error .attributeError
    else .error .runtimeError
  | _ => .error .attributeError

/-! ## Specification: what an archive holds -/

/-- The value is a reference to an object of the table. -/
def Refers (e : P) (n : Nat) : Prop := e = .uid n ∨ e = .dict [("CF$UID".toList, .int n)]

/-- The object of the table with the number. -/
def Entry (table : List P) (e : P) (x : P) : Prop := ∃ n, Refers e n ∧ table[n]? = some x

/-- The dictionary is an object of the class: a reference to a description of the class, which has its name. -/
def OfClass (table : List P) (m : List (List Char × P)) (name : List Char) : Prop :=
  ∃ c k, m.lookup "$class".toList = some c ∧ Entry table c (.dict k) ∧ k.lookup "$class".toList = none ∧
    k.lookup "$classname".toList = some (.str name)

/-- A value that is zero, false or empty. -/
def Blank (whole : Whole) (p : P) : Prop :=
  p = .bool false ∨ p = .int 0 ∨ (∃ r, p = .real r ∧ whole r = some 0) ∨ p = .data [] ∨ p = .str [] ∨ p = .arr [] ∨
    p = .dict []

/-- A member of an object and of what it stands for. -/
def Member (H : P → O → Prop) (x : List Char × P) (y : O × O) : Prop := y.1 = .str x.1 ∧ H x.2 y.2

/-- An object of the class stands for the value, for what members stand for.  Without `full` the objects are left out that
the script does not decode: sets, and objects with a member that is zero, false or empty. -/
inductive Object (whole : Whole) (full : Prop) (table : List P) (H : P → O → Prop) (name : List Char)
    (m : List (List Char × P)) : O → Prop
  | array (l : List P) (l' : List O) :
      name ∈ ["NSArray".toList, "NSMutableArray".toList] → m.lookup "NS.objects".toList = some (.arr l) →
      List.Forall₂ H l l' → Object whole full table H name m (.arr l')
  | dictionary (ks vs : List P) (ts : List (List Char)) (vs' : List O) :
      name ∈ ["NSDictionary".toList, "NSMutableDictionary".toList] → m.lookup "NS.keys".toList = some (.arr ks) →
      m.lookup "NS.objects".toList = some (.arr vs) → ts.Nodup → List.Forall₂ H ks (ts.map .str) → List.Forall₂ H vs vs' →
      ks.length = vs.length → Object whole full table H name m (.dict ((ts.map .str).zip vs'))
  | composite (l : List (O × O)) :
      name ∈ ["BackgroundItemContainer".toList, "BackgroundItems".toList, "BackgroundLoginItem".toList,
        "Bookmark".toList, "BTMUserSettings".toList, "ItemRecord".toList, "Storage".toList] →
      (full ∨ ∀ x ∈ m, x.1 ≠ "$class".toList → ¬ Blank whole x.2) →
      List.Forall₂ (Member H) (m.filter (·.1 ≠ "$class".toList)) l → Object whole full table H name m (.dict l)
  | hashTable (v : P) (m' : List (List Char × P)) (l : List (O × O)) :
      name = "NSHashTable".toList → m.lookup "$1".toList = some v → Entry table v (.dict m') →
      (full ∨ ∀ x ∈ m', x.1 ≠ "$class".toList → x.1 ≠ "container".toList → ¬ Blank whole x.2) →
      List.Forall₂ (Member H) (m'.filter (fun x => x.1 ≠ "$class".toList ∧ x.1 ≠ "container".toList)) l →
      Object whole full table H name m (.dict l)
  | url (base relative : P) (b : O) (r : List Char) (t : List Char) :
      name = "NSURL".toList → m.lookup "NS.base".toList = some base → m.lookup "NS.relative".toList = some relative →
      H base b → H relative (.str r) →
      (b = .none ∧ t = r ∨ ∃ s, b = .str s ∧ s ≠ [] ∧ t = s ++ '/' :: r) → Object whole full table H name m (.str t)
  | uuid (b : Bytes) :
      name = "NSUUID".toList → m.lookup "NS.uuidbytes".toList = some (.data b) → b.length = 16 →
      Object whole full table H name m (.str (uuidText b))
  | set (l : List P) (l' : List O) :
      full → name ∈ ["NSSet".toList, "NSMutableSet".toList] → m.lookup "NS.objects".toList = some (.arr l) →
      List.Forall₂ H l l' → Object whole full table H name m (.arr l')

/-- The value of the archive stands for the other one, with at most so many values in each other. -/
def Holds (whole : Whole) (full : Prop) (table : List P) : Nat → P → O → Prop
  | 0, _, _ => False
  | d + 1, e, o =>
    (∃ x, Entry table e x ∧ Holds whole full table d x o) ∨
    (∃ b, e = .bool b ∧ o = .bool b) ∨ (∃ n, e = .int n ∧ o = .int n) ∨ (∃ r, e = .real r ∧ o = .real r) ∨
    (∃ b, e = .data b ∧ o = .str (base64 b)) ∨ (∃ s, e = .str s ∧ s ≠ "$null".toList ∧ o = .str s) ∨
    (e = .str "$null".toList ∧ o = .none) ∨
    (∃ l l', e = .arr l ∧ o = .arr l' ∧ List.Forall₂ (Holds whole full table d) l l') ∨
    (∃ m name, e = .dict m ∧ OfClass table m name ∧ Object whole full table (Holds whole full table d) name m o)

/-- The property list is an archive with a table of objects, and the value is what is at its top. -/
def Archive (whole : Whole) (full : Prop) (d : Nat) (p : P) (o : O) : Prop :=
  ∃ m table t l, p = .dict m ∧ m.lookup "$archiver".toList = some (.str "NSKeyedArchiver".toList) ∧
    m.lookup "$version".toList = some (.int 100000) ∧ m.lookup "$objects".toList = some (.arr table) ∧
    m.lookup "$top".toList = some (.dict t) ∧ o = .dict l ∧
    List.Forall₂ (Member (fun e o => ∃ x, Entry table e x ∧ Holds whole full table d x o)) t l

/-! ## Decoding -/

theorem getUid_refers {e : P} {n : Nat} (h : Refers e n) : getUid e = some (.int n) := by
  rcases h with rfl | rfl
  · rfl
  · rw [getUid, if_pos rfl]

theorem item_entry {table : List P} {n : Nat} {x : P} (h : table[n]? = some x) : item (.arr table) (.int n) = .ok x := by
  have : ¬ ((n : Int) < 0) := by omega
  simp only [item, asIndex, pyIndex, if_neg this, Int.toNat_natCast, h]
  rw [if_neg (by simp [this])]

/-- A dictionary with another name is not a reference. -/
theorem getUid_dict {m : List (List Char × P)} {k : List Char} {v : P} (hk : k ≠ "CF$UID".toList)
    (h : m.lookup k = some v) : getUid (.dict m) = none := by
  match m, h with
  | [], h => simp at h
  | [(k', v')], h =>
    rw [getUid, if_neg]
    rintro rfl
    simp only [List.lookup] at h
    split at h
    · rename_i he
      exact hk (by simpa using he)
    · simp at h
  | _ :: _ :: _, h => rfl

theorem decode_entry {whole : Whole} {table : List P} {e x : P} (h : Entry table e x) (limit : Nat) :
    decode whole (.arr table) (limit + 1) e = decode whole (.arr table) limit x := by
  obtain ⟨n, hn, hx⟩ := h
  conv =>
    lhs
    rw [decode.eq_def]
    dsimp only
    rw [getUid_refers hn]
    dsimp only
    rw [item_entry hx]

theorem mapRes_forall {α β : Type} {f : α → Res β} {l : List α} {l' : List β} (h : List.Forall₂ (fun x y => f x = .ok y) l l') :
    mapRes f l = .ok l' := by
  induction h with
  | nil => rfl
  | cons hx hr ih => rw [mapRes, hx]; dsimp only; rw [ih]; rfl

/-- What Python takes for false is zero, false or empty. -/
theorem truthy_blank (whole : Whole) (p : P) : p.truthy whole = false ↔ Blank whole p := by
  cases p <;> simp [P.truthy, Blank]

theorem members_forall {whole : Whole} {dec : P → Res O} {skip : List (List Char)} {m : List (List Char × P)}
    {l : List (O × O)} (hb : ∀ x ∈ m, x.1 ∉ skip → ¬ Blank whole x.2)
    (h : List.Forall₂ (fun x y => y.1 = .str x.1 ∧ dec x.2 = .ok y.2) (m.filter (·.1 ∉ skip)) l) :
    members whole dec skip m = .ok l := by
  induction m generalizing l with
  | nil =>
    cases h
    rfl
  | cons x m ih =>
    obtain ⟨k, v⟩ := x
    have ih := fun l => ih (l := l) (fun x hx => hb x (by simp [hx]))
    rw [members]
    by_cases hk : k ∈ skip
    · rw [List.filter_cons, if_neg (by simp [hk])] at h
      rw [if_pos hk]
      exact ih l h
    · rw [List.filter_cons, if_pos (by simp [hk])] at h
      have ht : v.truthy whole = true := by
        have := hb (k, v) (by simp) hk
        rw [← truthy_blank] at this
        simpa using this
      rw [if_neg hk, if_pos ht]
      cases h with
      | @cons _ y _ r hy hr =>
        obtain ⟨y1, y2⟩ := y
        obtain ⟨hy1, hy2⟩ := hy
        dsimp only at hy1 hy2
        subst hy1
        rw [hy2]
        dsimp only
        rw [ih r hr]
        rfl

/-- The class of an object is found. -/
theorem decode_class {whole : Whole} {table : List P} {m : List (List Char × P)} {name : List Char}
    (h : OfClass table m name) (hn : name ≠ []) (limit : Nat) :
    decode whole (.arr table) (limit + 3) (.dict m) =
      match callbacks.lookup name with
      | none => .error .runtimeError
      | some method => call whole (.arr table) (decode whole (.arr table) (limit + 2)) m method := by
  obtain ⟨c, k, hc, he, hk, hname⟩ := h
  have ht : c.truthy whole = true := by
    obtain ⟨n, hr, _⟩ := he
    rcases hr with rfl | rfl <;> rfl
  have hd : decode whole (.arr table) (limit + 2) c = .ok (.raw (.dict k)) := by
    rw [show limit + 2 = (limit + 1) + 1 from rfl, decode_entry he, decode, getUid_dict (by decide) hname]
    dsimp only
    rw [hk]
  rw [show limit + 3 = (limit + 2) + 1 from rfl, decode, getUid_dict (by decide) hc]
  dsimp only
  rw [hc]
  dsimp only
  rw [if_pos ht, hd]
  dsimp only
  rw [className, hname]
  dsimp only
  rw [if_pos (by cases name <;> simp_all [P.truthy])]
  rfl

theorem setKey_new {whole : Whole} {t : List Char} {v : O} {acc : List (O × O)}
    (h : ∀ x ∈ acc, ∃ s, x.1 = .str s ∧ s ≠ t) : setKey whole (.str t) v acc = acc ++ [(.str t, v)] := by
  induction acc with
  | nil => rfl
  | cons x acc ih =>
    obtain ⟨s, hs, hne⟩ := h x (by simp)
    obtain ⟨x1, x2⟩ := x
    dsimp only at hs
    subst hs
    rw [setKey, if_neg (by simpa [sameKey] using hne), ih (fun x hx => h x (by simp [hx]))]
    rfl

theorem pairs_forall {whole : Whole} {dec : P → Res O} {ks vs before : List P} {ts : List (List Char)} {vs' : List O}
    {acc : List (O × O)} (hk : List.Forall₂ (fun x y => dec x = .ok y) ks (ts.map .str))
    (hv : List.Forall₂ (fun x y => dec x = .ok y) vs vs') (hl : ks.length = vs.length) (hn : ts.Nodup)
    (ha : ∀ x ∈ acc, ∃ s, x.1 = .str s ∧ s ∉ ts) :
    pairs whole dec (.arr (before ++ vs)) before.length ks acc = .ok (acc ++ (ts.map .str).zip vs') := by
  induction ks generalizing vs before ts vs' acc with
  | nil =>
    cases ts with
    | nil => simp [pairs]
    | cons t ts => cases hk
  | cons k ks ih =>
    cases vs with
    | nil => simp at hl
    | cons v vs =>
      cases hv with
      | @cons _ v' _ vs' hv hvs =>
        cases ts with
        | nil => cases hk
        | cons t ts =>
          rw [List.map_cons, List.forall₂_cons] at hk
          obtain ⟨hk, hks⟩ := hk
          rw [pairs, hk]
          dsimp only
          rw [item_entry (x := v) (by simp)]
          dsimp only
          rw [hv]
          dsimp only
          rw [if_pos (show (O.str t).hashable = true from rfl), setKey_new]
          · have := ih (vs := vs) (before := before ++ [v]) (ts := ts) (vs' := vs') (acc := acc ++ [(.str t, v')]) hks hvs
              (by simpa using hl) (by simp at hn; exact hn.2) (by
                intro x hx
                rcases List.mem_append.1 hx with hx | hx
                · obtain ⟨s, hs, hne⟩ := ha x hx
                  exact ⟨s, hs, fun h => hne (by simp [h])⟩
                · simp at hx
                  subst hx
                  exact ⟨t, rfl, by simp at hn; exact hn.1⟩)
            simpa using this
          · intro x hx
            obtain ⟨s, hs, hne⟩ := ha x hx
            exact ⟨s, hs, fun h => hne (by simp [h])⟩

theorem container_forall {whole : Whole} {dec : P → Res O} {m : List (List Char × P)} {l : List (O × O)}
    (hb : ∀ x ∈ m, x.1 ≠ "$class".toList → x.1 ≠ "container".toList → ¬ Blank whole x.2)
    (h : List.Forall₂ (Member (fun x y => dec x = .ok y))
      (m.filter (fun x => x.1 ≠ "$class".toList ∧ x.1 ≠ "container".toList)) l) :
    container whole dec (.dict m) = .ok (.dict l) := by
  have : members whole dec skipped m = .ok l := by
    apply members_forall
    · intro x hx hs
      refine hb x hx ?_ ?_ <;> (intro he; exact hs (by rw [he]; decide))
    · refine cast ?_ h
      congr 2
      funext x
      simp only [skipped, List.mem_cons, List.not_mem_nil, or_false, not_or, ne_eq]
  rw [container, this]
  rfl

theorem object_name {whole : Whole} {full : Prop} {table : List P} {H : P → O → Prop} {name : List Char}
    {m : List (List Char × P)} {o : O} (h : Object whole full table H name m o) : name ≠ [] := by
  rintro rfl
  cases h with
  | array l l' hn => exact absurd hn (by decide +kernel)
  | dictionary ks vs ts vs' hn => exact absurd hn (by decide +kernel)
  | composite l hn => exact absurd hn (by decide +kernel)
  | hashTable v m' l hn => exact absurd hn (by decide +kernel)
  | url base relative b r t hn => exact absurd hn (by decide +kernel)
  | uuid b hn => exact absurd hn (by decide +kernel)
  | set l l' hf hn => exact absurd hn (by decide +kernel)

/-- C152.  A value of an archive is decoded as what it stands for, if it is not in more values than the limit allows. -/
theorem C152_value_partial {whole : Whole} {table : List P} (d : Nat) (e : P) (o : O) (h : Holds whole False table d e o)
    (limit : Nat) (hl : d + 2 ≤ limit) : decode whole (.arr table) limit e = .ok o := by
  induction d generalizing e o limit with
  | zero => exact h.elim
  | succ d ih =>
    obtain ⟨limit, rfl⟩ : ∃ k, limit = k + 3 := ⟨limit - 3, by omega⟩
    have hf : ∀ {l l'}, List.Forall₂ (Holds whole False table d) l l' →
        List.Forall₂ (fun x y => decode whole (.arr table) (limit + 2) x = .ok y) l l' :=
      fun h => h.imp (fun x y h => ih x y h _ (by omega))
    have hm : ∀ {l l'}, List.Forall₂ (Member (Holds whole False table d)) l l' →
        List.Forall₂ (Member (fun x y => decode whole (.arr table) (limit + 2) x = .ok y)) l l' :=
      fun h => h.imp (fun x y h => ⟨h.1, ih _ _ h.2 _ (by omega)⟩)
    rw [Holds] at h
    rcases h with ⟨x, hx, h⟩ | ⟨b, rfl, rfl⟩ | ⟨n, rfl, rfl⟩ | ⟨r, rfl, rfl⟩ | ⟨b, rfl, rfl⟩ | ⟨s, rfl, hs, rfl⟩ | ⟨rfl, rfl⟩ |
      ⟨l, l', rfl, rfl, h⟩ | ⟨m, name, rfl, hc, h⟩
    · rw [show limit + 3 = (limit + 2) + 1 from rfl, decode_entry hx]
      exact ih x o h _ (by omega)
    · rfl
    · rfl
    · rfl
    · rfl
    · rw [show limit + 3 = (limit + 2) + 1 from rfl, decode, getUid]
      · dsimp only
        rw [if_neg hs]
      · nofun
      · nofun
    · rfl
    · rw [show limit + 3 = (limit + 2) + 1 from rfl, decode, getUid]
      · dsimp only
        rw [mapRes_forall (hf h)]
        rfl
      · nofun
      · nofun
    · rw [decode_class hc]
      · cases h with
        | array l l' hn ho hr =>
          have : callbacks.lookup name = some .array := by
            simp only [List.mem_cons, List.not_mem_nil, or_false] at hn
            rcases hn with rfl | rfl <;> decide +kernel
          rw [this]
          simp only [call, decodeArray, ho, iterate]
          rw [mapRes_forall (hf hr)]
          rfl
        | dictionary ks vs ts vs' hn hk hv hd hkr hvr hlen =>
          have : callbacks.lookup name = some .dictionary := by
            simp only [List.mem_cons, List.not_mem_nil, or_false] at hn
            rcases hn with rfl | rfl <;> decide +kernel
          rw [this]
          simp only [call, decodeDictionary, hk, hv, iterate]
          rw [if_neg (by simpa using hlen)]
          have := pairs_forall (whole := whole) (before := []) (acc := []) (hf hkr) (hf hvr) hlen hd (by simp)
          rw [List.nil_append, List.nil_append] at this
          rw [show (0 : Nat) = ([] : List P).length from rfl, this]
          rfl
        | composite l hn hb hr =>
          have : callbacks.lookup name = some .composite := by
            simp only [List.mem_cons, List.not_mem_nil, or_false] at hn
            rcases hn with rfl | rfl | rfl | rfl | rfl | rfl | rfl <;> decide +kernel
          rw [this]
          simp only [call]
          rw [members_forall (l := l)]
          · rfl
          · intro x hx hne
            exact hb.resolve_left id x hx (by simpa using hne)
          · have := hm hr
            refine cast ?_ this
            congr 2
            funext x
            simp only [List.mem_cons, List.not_mem_nil, or_false, ne_eq]
        | hashTable v m' l hn hv he hb hr =>
          have : callbacks.lookup name = some .hashTable := by
            subst hn
            decide +kernel
          rw [this]
          simp only [call, decodeHashTable, hv]
          obtain ⟨n, hn, hx⟩ := he
          rw [getUid_refers hn]
          dsimp only
          rw [item_entry hx]
          dsimp only
          exact container_forall (hb.resolve_left id) (hm hr)
        | url base relative b r t hn hb hr hb' hr' ht =>
          have : callbacks.lookup name = some .url := by
            subst hn
            decide +kernel
          rw [this]
          simp only [call, decodeUrl, hb, hr]
          rw [ih _ _ hb' _ (by omega)]
          dsimp only
          rw [ih _ _ hr' _ (by omega)]
          dsimp only
          rcases ht with ⟨rfl, rfl⟩ | ⟨s, rfl, hs, rfl⟩
          · rfl
          · rw [if_pos (by cases s <;> simp_all [O.truthy])]
        | uuid b hn hb hlen =>
          have : callbacks.lookup name = some .uuid := by
            subst hn
            decide +kernel
          rw [this]
          simp only [call, decodeUuid, hb, iterate, List.length_map]
          rw [if_neg (by simpa using hlen)]
        | set l l' hfalse => exact hfalse.elim
      · exact object_name h

/-- C152.  An archive is decoded as what is at its top. -/
theorem C152_archive_partial {whole : Whole} (d : Nat) (p : P) (o : O) (h : Archive whole False d p o) (limit : Nat)
    (hl : d + 2 ≤ limit) : decodePlist whole limit p = .ok o := by
  obtain ⟨m, table, t, l, rfl, ha, hv, ho, ht, rfl, h⟩ := h
  have key : tops whole (.arr table) limit t = .ok l := by
    clear ha hv ho ht
    induction h with
    | nil => rfl
    | @cons x y t l hx hr ih =>
      obtain ⟨name, v⟩ := x
      obtain ⟨y1, y2⟩ := y
      obtain ⟨h1, x, ⟨n, hn, hx⟩, hh⟩ := hx
      dsimp only at h1 hn hh
      subst h1
      rw [tops, getUid_refers hn]
      dsimp only
      rw [item_entry hx]
      dsimp only
      rw [C152_value_partial d x y2 hh limit hl]
      dsimp only
      rw [ih]
      rfl
  rw [decodePlist, ha, hv, ho, ht]
  dsimp only
  rw [if_pos (show (isArchiver (some (.str "NSKeyedArchiver".toList)) && isVersion whole (some (.int 100000))) = true by
    simp [isArchiver, isVersion])]
  by_cases hb : (P.arr table).truthy whole = true
  · rw [if_pos hb, key]
    rfl
  · have : table = [] := by
      cases table
      · rfl
      · exact absurd rfl hb
    subst this
    rw [if_neg hb, key]
    rfl

/-- An archive is decoded as what is at its top, for each of the classes that the script has a method for. -/
def C152_archive_claim : Prop := ∀ whole d p o, Archive whole True d p o → ∃ limit, decodePlist whole limit p = .ok o

/-- An archive with the object number 1 at its top. -/
def archive (table : List P) : P :=
  .dict [("$archiver".toList, .str "NSKeyedArchiver".toList), ("$version".toList, .int 100000),
    ("$objects".toList, .arr table), ("$top".toList, .dict [("root".toList, .uid 1)])]

theorem archive_holds {whole : Whole} {full : Prop} {d : Nat} {table : List P} {x : P} {o : O} (hx : table[1]? = some x)
    (h : Holds whole full table d x o) : Archive whole full d (archive table) (.dict [(.str "root".toList, o)]) :=
  ⟨_, table, [("root".toList, .uid 1)], _, rfl, rfl, rfl, rfl, rfl, rfl, .cons ⟨rfl, x, ⟨1, .inl rfl, hx⟩, h⟩ .nil⟩

/-- An object with a member. -/
def bookmark (v : P) : List P :=
  [.str "$null".toList, .dict [("$class".toList, .uid 2), ("n".toList, v)], .dict [("$classname".toList, .str "Bookmark".toList)]]

theorem bookmark_holds {whole : Whole} {full : Prop} {v : P} {o : O} (hf : full ∨ ¬ Blank whole v)
    (h : Holds whole full (bookmark v) 1 v o) :
    Archive whole full 2 (archive (bookmark v)) (.dict [(.str "root".toList, .dict [(.str "n".toList, o)])]) := by
  refine archive_holds rfl ?_
  rw [Holds]
  refine .inr (.inr (.inr (.inr (.inr (.inr (.inr (.inr ⟨_, "Bookmark".toList, rfl, ⟨.uid 2, _, rfl, ⟨2, .inl rfl, rfl⟩, rfl,
    rfl⟩, ?_⟩)))))))
  refine .composite _ (by decide) ?_ ?_
  · refine hf.imp_right (fun hb x hx hc => ?_)
    simp only [List.mem_cons, List.not_mem_nil, or_false] at hx
    rcases hx with rfl | rfl
    · exact absurd rfl hc
    · exact hb
  · exact .cons ⟨rfl, h⟩ .nil

/-- A member that is zero is lost. -/
theorem C152_archive_claim_false : ¬ C152_archive_claim := by
  intro h
  obtain ⟨limit, h⟩ := h (fun _ => none) 2 _ _ (bookmark_holds (v := .int 0) (o := .int 0) (.inl trivial)
    (by rw [Holds]; exact .inr (.inr (.inl ⟨0, rfl, rfl⟩))))
  match limit with
  | 0 =>
    rw [show decodePlist (fun _ => none) 0 (archive (bookmark (.int 0))) = .error .recursionError from rfl] at h
    cases h
  | 1 =>
    rw [show decodePlist (fun _ => none) 1 (archive (bookmark (.int 0))) = .error .recursionError from rfl] at h
    cases h
  | 2 =>
    rw [show decodePlist (fun _ => none) 2 (archive (bookmark (.int 0))) = .error .recursionError from rfl] at h
    cases h
  | limit + 3 =>
    have : decodePlist (fun _ => none) (limit + 3) (archive (bookmark (.int 0))) =
        .ok (.dict [(.str "root".toList, .dict [])]) := rfl
    rw [this] at h
    simp at h

/-- C152.  Members that are zero, false or empty are lost, all others are kept. -/
theorem C152_members {whole : Whole} {table : List P} {m : List (List Char × P)} {name : List Char} {limit : Nat}
    {l : List (O × O)} (hc : OfClass table m name) (hn : callbacks.lookup name = some .composite) (h0 : name ≠ [])
    (h : decode whole (.arr table) (limit + 3) (.dict m) = .ok (.dict l)) :
    l.map (·.1) = (m.filter (fun x => x.1 ≠ "$class".toList ∧ x.2.truthy whole)).map (fun x => .str x.1) := by
  rw [decode_class hc h0, hn] at h
  simp only [call] at h
  have key : ∀ (dec : P → Res O) m l, members whole dec ["$class".toList] m = .ok l →
      l.map (·.1) = (m.filter (fun x => x.1 ≠ "$class".toList ∧ x.2.truthy whole)).map (fun x => .str x.1) := by
    intro dec m
    induction m with
    | nil =>
      intro l h
      simp only [members, Except.ok.injEq] at h
      subst h
      rfl
    | cons x m ih =>
      obtain ⟨k, v⟩ := x
      intro l h
      rw [members] at h
      by_cases hk : k = "$class".toList
      · rw [if_pos (by simp [hk])] at h
        rw [List.filter_cons, if_neg (by simp [hk])]
        exact ih l h
      · rw [if_neg (by simpa using hk)] at h
        by_cases ht : v.truthy whole = true
        · rw [if_pos ht] at h
          rw [List.filter_cons, if_pos (by simpa [ht] using hk)]
          cases hd : dec v with
          | error e => rw [hd] at h; cases h
          | ok o =>
            rw [hd] at h
            dsimp only at h
            cases hr : members whole dec ["$class".toList] m with
            | error e => rw [hr] at h; cases h
            | ok r =>
              rw [hr] at h
              have : l = (.str k, o) :: r := by
                simpa [Except.map] using h.symm
              subst this
              simp only [List.map_cons, ih r hr]
        · rw [if_neg ht] at h
          rw [List.filter_cons, if_neg (by simp [ht])]
          exact ih l h
  cases hr : members whole (decode whole (.arr table) (limit + 2)) ["$class".toList] m with
  | error e => rw [hr] at h; cases h
  | ok r =>
    rw [hr] at h
    have : r = l := by simpa [Except.map] using h
    subst this
    exact key _ _ _ hr

/-- C152.  What a set is decoded as is its last element, whatever the others are, and that as if it had no class. -/
theorem C152_set {whole : Whole} {table l : List P} {m : List (List Char × P)} {name : List Char} {limit : Nat} {o : O}
    (hc : OfClass table m name) (hn : name ∈ ["NSSet".toList, "NSMutableSet".toList])
    (hl : m.lookup "NS.objects".toList = some (.arr l)) :
    (l = [] → decode whole (.arr table) (limit + 3) (.dict m) = .error .unboundLocalError) ∧
    (decode whole (.arr table) (limit + 3) (.dict m) = .ok o → ∃ before x u r, l = before ++ [x] ∧ getUid x = some u ∧
      item (.arr table) u = .ok r ∧ container whole (decode whole (.arr table) (limit + 2)) r = .ok o) := by
  have h0 : name ≠ [] := by
    rintro rfl
    exact absurd hn (by decide)
  have hs : callbacks.lookup name = some .set := by
    simp only [List.mem_cons, List.not_mem_nil, or_false] at hn
    rcases hn with rfl | rfl <;> decide +kernel
  rw [decode_class hc h0, hs]
  simp only [call, decodeSet, hl, iterate]
  refine ⟨?_, ?_⟩
  · rintro rfl
    rfl
  · have key : ∀ (dec : P → Res O) l last, elements whole (.arr table) dec l last = .ok o → l ≠ [] →
        ∃ before x u r, l = before ++ [x] ∧ getUid x = some u ∧ item (.arr table) u = .ok r ∧ container whole dec r = .ok o := by
      intro dec l
      induction l with
      | nil => intro last _ h; exact absurd rfl h
      | cons v l ih =>
        intro last h _
        rw [elements.eq_def] at h
        dsimp only at h
        cases hu : getUid v with
        | none => rw [hu] at h; cases h
        | some u =>
          rw [hu] at h
          dsimp only at h
          cases hi : item (.arr table) u with
          | error e => rw [hi] at h; cases h
          | ok r =>
            rw [hi] at h
            dsimp only at h
            cases hr : container whole dec r with
            | error e => rw [hr] at h; cases h
            | ok y =>
              rw [hr] at h
              dsimp only at h
              cases l with
              | nil =>
                rw [elements] at h
                cases h
                exact ⟨[], v, u, r, rfl, hu, hi, hr⟩
              | cons v' l =>
                obtain ⟨before, x, u, r, he, hh⟩ := ih _ h (by simp)
                exact ⟨v :: before, x, u, r, by rw [he]; rfl, hh⟩
    intro h
    refine key _ l none h ?_
    rintro rfl
    rw [elements] at h
    cases h

/-- Members, references and arrays are decoded. -/
example : decodePlist (fun _ => none) 5 (archive (bookmark (.arr [.str "a".toList, .uid 0, .int 7]))) =
    .ok (.dict [(.str "root".toList, .dict [(.str "n".toList, .arr [.str "a".toList, .none, .int 7])])]) := rfl

/-! ## Data and identifiers as text -/

/-- The value of a digit, after RFC 4648, section 5. -/
def value64 (c : Char) : Option Nat :=
  let n := c.toNat
  if 65 ≤ n ∧ n ≤ 90 then some (n - 65) else if 97 ≤ n ∧ n ≤ 122 then some (n - 71)
  else if 48 ≤ n ∧ n ≤ 57 then some (n + 4) else if c = '-' then some 62 else if c = '_' then some 63 else none

/-- The data that a text stands for, after RFC 4648, section 5. -/
def unbase64 : List Char → Option Bytes
  | [] => some []
  | a :: b :: c :: d :: r => do
    let x ← value64 a
    let y ← value64 b
    if c = '=' ∧ d = '=' ∧ r = [] then
      if y % 16 = 0 then some [UInt8.ofNat (x * 4 + y / 16)] else none
    else
      let z ← value64 c
      if d = '=' ∧ r = [] then
        if z % 4 = 0 then some [UInt8.ofNat (x * 4 + y / 16), UInt8.ofNat (y % 16 * 16 + z / 4)] else none
      else
        let w ← value64 d
        let rest ← unbase64 r
        some (UInt8.ofNat (x * 4 + y / 16) :: UInt8.ofNat (y % 16 * 16 + z / 4) :: UInt8.ofNat (z % 4 * 64 + w) :: rest)
  | _ => none

theorem digit64_spec (n : Nat) (h : n < 64) : value64 (digit64 n) = some n ∧ digit64 n ≠ '=' := by
  have : ∀ n : Fin 64, value64 (digit64 n) = some n.val ∧ digit64 n ≠ '=' := by decide +kernel
  exact this ⟨n, h⟩

theorem ofNat_eq (a : UInt8) (n : Nat) (h : n = a.toNat) : UInt8.ofNat n = a := by
  subst h
  simp

/-- C153.  Data are shown as text from which they can be read. -/
theorem C153_data (b : Bytes) : unbase64 (base64 b) = some b := by
  induction b using base64.induct with
  | case1 a b c r ih =>
    have ha := a.toNat_lt
    have hb := b.toNat_lt
    have hc := c.toNat_lt
    have h1 := digit64_spec ((a.toNat * 65536 + b.toNat * 256 + c.toNat) / 262144) (by omega)
    have h2 := digit64_spec ((a.toNat * 65536 + b.toNat * 256 + c.toNat) / 4096 % 64) (by omega)
    have h3 := digit64_spec ((a.toNat * 65536 + b.toNat * 256 + c.toNat) / 64 % 64) (by omega)
    have h4 := digit64_spec ((a.toNat * 65536 + b.toNat * 256 + c.toNat) % 64) (by omega)
    rw [base64, unbase64, h1.1, h2.1]
    simp only [Option.bind_eq_bind, Option.bind_some]
    rw [if_neg (fun h => h3.2 h.1), h3.1]
    simp only [Option.bind_some]
    rw [if_neg (fun h => h4.2 h.1), h4.1]
    simp only [Option.bind_some, ih]
    rw [ofNat_eq a _ (by omega), ofNat_eq b _ (by omega), ofNat_eq c _ (by omega)]
  | case2 a b =>
    have ha := a.toNat_lt
    have hb := b.toNat_lt
    have h1 := digit64_spec ((a.toNat * 65536 + b.toNat * 256) / 262144) (by omega)
    have h2 := digit64_spec ((a.toNat * 65536 + b.toNat * 256) / 4096 % 64) (by omega)
    have h3 := digit64_spec ((a.toNat * 65536 + b.toNat * 256) / 64 % 64) (by omega)
    rw [base64, unbase64, h1.1, h2.1]
    simp only [Option.bind_eq_bind, Option.bind_some]
    rw [if_neg (fun h => h3.2 h.1), h3.1]
    simp only [Option.bind_some]
    rw [if_pos (by simp), if_pos (by omega), ofNat_eq a _ (by omega), ofNat_eq b _ (by omega)]
  | case3 a =>
    have ha := a.toNat_lt
    have h1 := digit64_spec (a.toNat * 65536 / 262144) (by omega)
    have h2 := digit64_spec (a.toNat * 65536 / 4096 % 64) (by omega)
    rw [base64, unbase64, h1.1, h2.1]
    simp only [Option.bind_eq_bind, Option.bind_some]
    rw [if_pos (by simp), if_pos (by omega), ofNat_eq a _ (by omega)]
  | case4 => rfl

example : base64 [0xfb, 0xff, 0xbf, 1] = "-_-_AQ==".toList := by decide +kernel

/-- The bytes of pairs of digits. -/
def unhex : List Char → Option Bytes
  | [] => some []
  | a :: b :: r => do
    let x ← digitVal a
    let y ← digitVal b
    let rest ← unhex r
    some (UInt8.ofNat (x * 16 + y) :: rest)
  | _ => none

theorem unhex_hex (b : Bytes) : unhex (hex b) = some b := by
  induction b with
  | nil => rfl
  | cons x b ih =>
    have hx := x.toNat_lt
    rw [hex, List.flatMap_cons, ← hex]
    rw [List.cons_append, List.cons_append, List.nil_append, unhex, digitVal_digitChar _ (by omega),
      digitVal_digitChar _ (by omega), ih]
    simp only [Option.bind_eq_bind, Option.bind_some]
    rw [ofNat_eq x _ (by omega)]

theorem hex_plain (b : Bytes) : '-' ∉ hex b ∧ (hex b).length = 2 * b.length := by
  induction b with
  | nil => exact ⟨by simp [hex], rfl⟩
  | cons x b ih =>
    have hx := x.toNat_lt
    have hd : ∀ n < 16, '-' ≠ digitChar n := by decide
    rw [hex, List.flatMap_cons, ← hex]
    refine ⟨?_, by simp [ih.2]; omega⟩
    simp only [List.mem_append, List.mem_cons, List.not_mem_nil, or_false, not_or]
    exact ⟨⟨hd _ (by omega), hd _ (by omega)⟩, ih.1⟩

/-- C153.  An identifier is shown as groups of 8, 4, 4, 4 and 12 digits, which are its bytes in order. -/
theorem C153_uuid (b : Bytes) (h : b.length = 16) :
    (splitOn '-' (uuidText b)).map List.length = [8, 4, 4, 4, 12] ∧
      unhex (splitOn '-' (uuidText b)).flatten = some b := by
  have hs : splitOn '-' (uuidText b) = [hex (slice b 0 4), hex (slice b 4 6), hex (slice b 6 8), hex (slice b 8 10),
      hex (slice b 10 16)] := by
    rw [uuidText, splitOn_append_sep _ _ _ (hex_plain _).1, splitOn_append_sep _ _ _ (hex_plain _).1,
      splitOn_append_sep _ _ _ (hex_plain _).1, splitOn_append_sep _ _ _ (hex_plain _).1,
      splitOn_of_notMem _ _ (hex_plain _).1]
  rw [hs]
  constructor
  · simp [(hex_plain _).2, slice, h]
  · have : [hex (slice b 0 4), hex (slice b 4 6), hex (slice b 6 8), hex (slice b 8 10), hex (slice b 10 16)].flatten =
        hex b := by
      match b, h with
      | [_, _, _, _, _, _, _, _, _, _, _, _, _, _, _, _], _ => rfl
    rw [this]
    exact unhex_hex b

/-- Values of different types can be told apart. -/
def C153_types_claim : Prop := ∀ whole limit p q o, decode whole (.arr []) limit p = .ok o →
  decode whole (.arr []) limit q = .ok o → (∃ b, p = .data b) → ∃ b, q = .data b

/-- Data and its text give the same. -/
theorem C153_types_claim_false : ¬ C153_types_claim := by
  intro h
  obtain ⟨b, hb⟩ := h (fun _ => none) 1 (.data [0]) (.str "AA==".toList) (.str "AA==".toList)
    (by
      show Except.ok (O.str (base64 [0])) = _
      rw [show base64 [0] = "AA==".toList by decide +kernel]) rfl ⟨_, rfl⟩
  cases hb

/-! ## Archives that are refused -/

/-- The classes that can be decoded. -/
def supported : List (List Char) :=
  ["BTMUserSettings", "BackgroundItemContainer", "BackgroundItems", "BackgroundLoginItem", "Bookmark", "ItemRecord", "NSArray",
    "NSDictionary", "NSHashTable", "NSMutableArray", "NSMutableDictionary", "NSMutableSet", "NSSet", "NSURL", "NSUUID",
    "Storage"].map String.toList

/-- C154.  An object of another class is refused with a RuntimeError. -/
theorem C154_class {whole : Whole} {table : List P} {m : List (List Char × P)} {name : List Char} (limit : Nat)
    (hc : OfClass table m name) (h0 : name ≠ []) (hn : name ∉ supported) :
    decode whole (.arr table) (limit + 3) (.dict m) = .error .runtimeError := by
  rw [decode_class hc h0]
  have : callbacks.lookup name = none := by
    have hs : ∀ x ∈ callbacks, x.1 ∈ supported := by decide +kernel
    generalize callbacks = l at hs
    induction l with
    | nil => rfl
    | cons x l ih =>
      rw [List.lookup_cons]
      have : (name == x.1) = false := by
        rw [beq_eq_false_iff_ne]
        rintro rfl
        exact hn (hs x (by simp))
      rw [this]
      exact ih (fun y hy => hs y (by simp [hy]))
  rw [this]

/-- C154.  Only an archive of this kind and version is decoded; all others are refused with a RuntimeError. -/
theorem C154_header (whole : Whole) (limit : Nat) (m : List (List Char × P)) :
    (∀ o, decodePlist whole limit (.dict m) = .ok o → m.lookup "$archiver".toList = some (.str "NSKeyedArchiver".toList) ∧
      (m.lookup "$version".toList = some (.int 100000) ∨
        ∃ r, m.lookup "$version".toList = some (.real r) ∧ whole r = some 100000)) ∧
    (m.lookup "$archiver".toList ≠ some (.str "NSKeyedArchiver".toList) →
      decodePlist whole limit (.dict m) = .error .runtimeError) ∧
    ((∀ n, m.lookup "$version".toList = some (.int n) → n ≠ 100000) →
      (∀ r, m.lookup "$version".toList = some (.real r) → whole r ≠ some 100000) →
      decodePlist whole limit (.dict m) = .error .runtimeError) := by
  have ha : ∀ x, isArchiver x = true ↔ x = some (.str "NSKeyedArchiver".toList) := by
    intro x
    generalize hw : some (P.str "NSKeyedArchiver".toList) = w
    match x with
    | none =>
      subst hw
      exact ⟨fun h => (nomatch (show false = true from h)), nofun⟩
    | some (.str s) =>
      subst hw
      show decide (s = "NSKeyedArchiver".toList) = true ↔ _
      rw [decide_eq_true_iff]
      refine ⟨fun h => congrArg (fun x => some (P.str x)) h, fun h => ?_⟩
      injection h with h
      injection h
    | some (.bool _) | some (.int _) | some (.real _) | some (.data _) | some (.date _) | some (.uid _) | some (.arr _)
    | some (.dict _) =>
      subst hw
      exact ⟨fun h => (nomatch (show false = true from h)), nofun⟩
  have hv : ∀ x, isVersion whole x = true ↔ x = some (.int 100000) ∨ ∃ r, x = some (.real r) ∧ whole r = some 100000 := by
    intro x
    match x with
    | none => simp [isVersion]
    | some (.int n) => simp [isVersion]
    | some (.real r) => simp [isVersion]
    | some (.bool _) | some (.str _) | some (.data _) | some (.date _) | some (.uid _) | some (.arr _)
    | some (.dict _) => simp [isVersion]
  rw [decodePlist]
  refine ⟨fun o h => ?_, fun h => ?_, fun h1 h2 => ?_⟩
  · split at h
    · rename_i hb
      rw [Bool.and_eq_true, ha, hv] at hb
      exact hb
    · cases h
  · rw [if_neg]
    rw [Bool.and_eq_true, ha]
    exact fun hb => h hb.1
  · rw [if_neg]
    rw [Bool.and_eq_true, hv]
    rintro ⟨_, hb | ⟨r, hr, hw⟩⟩
    · exact h1 _ hb rfl
    · exact h2 r hr hw

/-- What cannot be decoded is refused with a RuntimeError, if there is no limit on the depth of calls. -/
def C154_errors_claim : Prop := ∀ whole p, ∃ limit, ∀ e, decodePlist whole limit p = .error e → e = .runtimeError

/-- An array that has itself as an element. -/
def ouroboros : P :=
  archive [.str "$null".toList, .dict [("$class".toList, .uid 2), ("NS.objects".toList, .arr [.uid 1])],
    .dict [("$classname".toList, .str "NSArray".toList)]]

/-- C154.  An array that has itself as an element is decoded without end. -/
theorem C154_cycle (whole : Whole) (limit : Nat) : decodePlist whole limit ouroboros = .error .recursionError := by
  have key : ∀ limit, (∀ l, l < limit + 1 → decode whole (.arr [.str "$null".toList,
      .dict [("$class".toList, .uid 2), ("NS.objects".toList, .arr [.uid 1])],
      .dict [("$classname".toList, .str "NSArray".toList)]]) l
        (.dict [("$class".toList, .uid 2), ("NS.objects".toList, .arr [.uid 1])]) = .error .recursionError) := by
    intro limit
    induction limit with
    | zero =>
      intro l hl
      obtain rfl : l = 0 := by omega
      rfl
    | succ limit ih =>
      intro l hl
      match l, hl with
      | 0, _ => rfl
      | 1, _ => rfl
      | 2, _ => rfl
      | l + 3, hl =>
        rw [decode_class (name := "NSArray".toList) ⟨.uid 2, _, rfl, ⟨2, .inl rfl, rfl⟩, rfl, rfl⟩ (by decide)]
        rw [show callbacks.lookup "NSArray".toList = some .array by decide +kernel]
        have := ih (l + 1) (by omega)
        rw [← decode_entry (e := .uid 1) ⟨1, .inl rfl, rfl⟩ (l + 1)] at this
        simp only [call, decodeArray, iterate, List.lookup]
        rw [show ("NS.objects".toList == "$class".toList) = false by decide,
          show ("NS.objects".toList == "NS.objects".toList) = true by decide]
        dsimp only
        rw [mapRes, this]
        rfl
  have := key limit limit (by omega)
  have e : decodePlist whole limit ouroboros = (match decode whole (.arr [.str "$null".toList,
      .dict [("$class".toList, .uid 2), ("NS.objects".toList, .arr [.uid 1])],
      .dict [("$classname".toList, .str "NSArray".toList)]]) limit
        (.dict [("$class".toList, .uid 2), ("NS.objects".toList, .arr [.uid 1])]) with
      | .error e => Except.error e
      | .ok o => (tops whole (.arr [.str "$null".toList,
      .dict [("$class".toList, .uid 2), ("NS.objects".toList, .arr [.uid 1])],
      .dict [("$classname".toList, .str "NSArray".toList)]]) limit []).map ((O.str "root".toList, o) :: ·)).map .dict := rfl
  rw [e, this]
  rfl

theorem C154_errors_claim_false : ¬ C154_errors_claim := by
  intro h
  obtain ⟨limit, h⟩ := h (fun _ => none) ouroboros
  have := h _ (C154_cycle _ limit)
  cases this

/-- Arrays in each other. -/
def nested : Nat → P
  | 0 => .int 1
  | n + 1 => .arr [nested n]

def nestedValue : Nat → O
  | 0 => .int 1
  | n + 1 => .arr [nestedValue n]

/-- C154.  No limit is enough for all archives without cycles. -/
theorem C154_deep (whole : Whole) (table : List P) (n : Nat) :
    Holds whole False table (n + 1) (nested n) (nestedValue n) ∧
      ∀ limit ≤ n, decode whole (.arr table) limit (nested n) = .error .recursionError := by
  induction n with
  | zero =>
    refine ⟨?_, ?_⟩
    · rw [Holds]
      exact .inr (.inr (.inl ⟨1, rfl, rfl⟩))
    · intro limit hl
      obtain rfl : limit = 0 := by omega
      rfl
  | succ n ih =>
    refine ⟨?_, ?_⟩
    · rw [Holds]
      exact .inr (.inr (.inr (.inr (.inr (.inr (.inr (.inl ⟨_, _, rfl, rfl, .cons ih.1 .nil⟩)))))))
    · intro limit hl
      match limit, hl with
      | 0, _ => rfl
      | limit + 1, hl =>
        rw [nested, decode, getUid]
        · dsimp only
          rw [mapRes, ih.2 limit (by omega)]
          rfl
        · nofun
        · nofun

/-- A reference to an object that is not in the table is refused. -/
def C154_reference_claim : Prop := ∀ whole limit table (n : Int), (∀ k : Nat, n = k → table.length ≤ k) →
  ∃ e, decode whole (.arr table) limit (.dict [("CF$UID".toList, .int n)]) = .error e

/-- A negative number counts from the end of the table. -/
theorem C154_reference_claim_false : ¬ C154_reference_claim := by
  intro h
  obtain ⟨e, he⟩ := h (fun _ => none) 2 [.int 7] (-1) (by omega)
  have : decode (fun _ => none) (.arr [.int 7]) 2 (.dict [("CF$UID".toList, .int (-1))]) = .ok (.int 7) := rfl
  rw [this] at he
  cases he

/-- C154.  A reference beyond the end of the table is refused, with an IndexError. -/
theorem C154_reference_partial (whole : Whole) (limit : Nat) (table : List P) (n : Nat) (h : table.length ≤ n) (e : P)
    (he : Refers e n) : decode whole (.arr table) (limit + 1) e = .error .indexError := by
  rw [decode.eq_def]
  dsimp only
  rw [getUid_refers he]
  have : ¬ ((n : Int) < 0) := by omega
  have hn : table[n]? = none := List.getElem?_eq_none h
  simp only [item, asIndex, pyIndex, if_neg this, Int.toNat_natCast, hn]

end Dtf.Archiver
