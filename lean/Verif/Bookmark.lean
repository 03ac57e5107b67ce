import Verif.Records
import Verif.Holds

/-!
# Bookmark data of background items (C108)
-/

namespace Dtf.Bookmark
open Py DataFormat

/-! ## Model -/

/-- The value of a data record, by the member that has it (bookmark_data.yaml 118-236). -/
inductive Content where
  | text (s : Bytes)
  | int (v : Int)
  /-- The bits of a floating-point number. -/
  | float (bits : Nat)
  | offsets (l : List Nat)
  | data (b : Bytes)
deriving DecidableEq, Repr

structure Record where
  type : Nat
  content : Content
deriving DecidableEq, Repr

/-- A signed integer of `w` bytes at the start of the data. -/
def intOf (w : Nat) (d : Bytes) : Option Content := if d.length < w then none else some (.int (signed w (leNat (d.take w))))

def floatOf (w : Nat) (d : Bytes) : Option Content := if d.length < w then none else some (.float (leNat (d.take w)))

/-- The members of `bookmark_data_record` (bookmark_data.yaml 237-252).  Data that is too small for the type is refused; that
strings can be decoded is not modelled. -/
def contentOf (type : Nat) (d : Bytes) : Option Content :=
  if type = 0x101 then some (.text d)
  else if type = 0x301 then intOf 1 d
  else if type = 0x302 then intOf 2 d
  else if type = 0x303 then intOf 4 d
  else if type = 0x304 then intOf 8 d
  else if type = 0x305 then floatOf 4 d
  else if type = 0x306 then floatOf 8 d
  else if type = 0x601 then if d.length % 4 = 0 then some (.offsets (leNats 4 (d.length / 4) d)) else none
  else some (.data d)

def recordMap : DataTypeMap Record :=
  (sizedMap 8 (fun b => leNat (slice b 0 4)) id).refine (fun b =>
    (contentOf (leNat (slice b 4 8)) (b.drop 8)).map (Record.mk (leNat (slice b 4 8))))

/-- `_ReadDataRecord` (bookmark_data.py 53-77). -/
def readRecord (data : Bytes) (off : Nat) : Res Record :=
  match structAt recordMap data off with
  | .error e => .error e
  | .ok (r, _) => .ok r

/-- `data_record.string`. -/
def stringOf : Content → Res Bytes
  | .text s => .ok s
  | _ => .error .attributeError

/-- `data_record.integer`. -/
def integerOf : Content → Res Int
  | .int v => .ok v
  | _ => .error .attributeError

/-- `data_record.integers`. -/
def integersOf : Content → Res (List Nat)
  | .offsets l => .ok l
  | _ => .error .attributeError

/-- `data_record.data`. -/
def dataOf : Content → Res Bytes
  | .data b => .ok b
  | _ => .error .attributeError

/-- `_ReadStringsArray` and `_ReadIntegersArray` (bookmark_data.py 104-148). -/
def readArray {α : Type} (member : Content → Res α) (data : Bytes) : List Nat → Res (List α)
  | [] => .ok []
  | o :: os =>
    match readRecord data (48 + o) with
    | .error e => .error e
    | .ok r =>
      match member r.content with
      | .error e => .error e
      | .ok x =>
        match readArray member data os with
        | .error e => .error e
        | .ok xs => .ok (x :: xs)

/-- `bookmark_data_header` (bookmark_data.yaml 83-102): the size and the offset of the data area. -/
def headerMap : DataTypeMap (Nat × Nat) :=
  (fixedMap 48 id).refine (fun b =>
    if slice b 0 4 = [97, 108, 105, 115] ∨ slice b 0 4 = [98, 111, 111, 107] then
      some (leNat (slice b 4 8), leNat (slice b 12 16))
    else none)

def sizeMap : DataTypeMap Nat := (fixedMap 4 id).refine (fun b => some (leNat b))

/-- The tag, the offset of the record and an unknown value. -/
def tagged : List Nat → List (Nat × Nat × Nat)
  | a :: b :: c :: l => (a, b, c) :: tagged l
  | _ => []

/-- `bookmark_data_toc` (bookmark_data.yaml 264-285): the offset of the next table and the tagged values. -/
def tocMap : DataTypeMap (Nat × List (Nat × Nat × Nat)) :=
  (sizedMap 20 (fun b => 12 * leNat (slice b 16 20)) id).refine (fun b =>
    if leNat (slice b 4 8) = 0xfffffffe then
      some (leNat (slice b 12 16), tagged (leNats 4 (3 * leNat (slice b 16 20)) (b.drop 20)))
    else none)

/-- What is shown for a tagged value. -/
inductive Shown where
  /-- The bits of a Cocoa timestamp. -/
  | date (bits : Nat)
  | path (s : Bytes)
  | integers (l : List Int)
  | flags (a b c : Nat)
  | other
deriving DecidableEq, Repr

/-- `_ReadStructureFromByteStream` (data_format.py 634-669) for a structure of a fixed size. -/
def fromBytes (n : Nat) (b : Bytes) : Res Bytes :=
  if b = [] then .error .valueError else if b.length < n then .error .parseError else .ok (b.take n)

def readDate (c : Content) : Res Shown :=
  match dataOf c with
  | .error e => .error e
  | .ok b =>
    match fromBytes 8 b with
    | .error e => .error e
    | .ok b => .ok (.date (beNat b))

/-- `"/".join(strings_array)`. -/
def joinPath : List Bytes → Bytes
  | [] => []
  | [s] => s
  | s :: ss => s ++ 47 :: joinPath ss

def readPath (data : Bytes) (c : Content) : Res Shown :=
  match integersOf c with
  | .error e => .error e
  | .ok os =>
    match readArray stringOf data os with
    | .error e => .error e
    | .ok ss => .ok (.path (joinPath ss))

def readIntegers (data : Bytes) (c : Content) : Res Shown :=
  match integersOf c with
  | .error e => .error e
  | .ok os =>
    match readArray integerOf data os with
    | .error e => .error e
    | .ok l => .ok (.integers l)

def readFlags (c : Content) : Res Shown :=
  match dataOf c with
  | .error e => .error e
  | .ok b =>
    match fromBytes 24 b with
    | .error e => .error e
    | .ok b => .ok (.flags (leNat (slice b 0 8)) (leNat (slice b 8 16)) (leNat (slice b 16 24)))

/-- One round of the loop over the tagged values (bookmark_data.py 218-270). -/
def readTagged (data : Bytes) (tag off : Nat) : Res Shown :=
  match readRecord data (48 + off) with
  | .error e => .error e
  | .ok r =>
    if r.type = 0x400 then readDate r.content
    else if tag = 0x1004 then readPath data r.content
    else if tag = 0x1005 then readIntegers data r.content
    else if tag = 0x1010 ∨ tag = 0x2020 then readFlags r.content
    else .ok .other

def readTags (data : Bytes) : List (Nat × Nat × Nat) → Res (List (Nat × Shown))
  | [] => .ok []
  | (tag, off, _) :: ts =>
    match readTagged data tag off with
    | .error e => .error e
    | .ok x =>
      match readTags data ts with
      | .error e => .error e
      | .ok xs => .ok ((tag, x) :: xs)

/-- The table of contents and its values (bookmark_data.py 150-177, 209-270). -/
def readToc (data : Bytes) (areaSize : Nat) : Res (List (Nat × Shown)) :=
  match structAt tocMap data ((48 + areaSize : Nat) : Int) with
  | .error e => .error e
  | .ok ((next, ts), _) => if next ≠ 0 then .error .parseError else readTags data ts

/-- `ReadFileObject` (bookmark_data.py 179-270): the tags with what is shown for each. -/
def readFile (data : Bytes) : Res (List (Nat × Shown)) :=
  match structAt headerMap data 0 with
  | .error e => .error e
  | .ok ((size, area), _) =>
    if size ≠ data.length then .error .parseError
    else if area ≠ 48 then .error .parseError
    else
      match structAt sizeMap data 48 with
      | .error e => .error e
      | .ok (areaSize, _) => readToc data areaSize

/-! ## Specification

From the documentation of the format: the offsets are relative to the start of the data area, which is at 48. -/

def recordBytes (type : Nat) (d : Bytes) : Bytes := leBytes 4 d.length ++ (leBytes 4 type ++ d)

/-- A record is in the data area. -/
def Stored (data : Bytes) (off type : Nat) (d : Bytes) : Prop :=
  d.length < 2 ^ 32 ∧ type < 2 ^ 32 ∧ Holds data (48 + off) (recordBytes type d)

/-- An integer of 8, 16, 32 or 64 bits is in the data area. -/
def StoredInt (data : Bytes) (off : Nat) (v : Int) : Prop :=
  ∃ k < 4, Utmp.Fits (2 ^ k) v ∧ Stored data off (0x301 + k) (leBytes (2 ^ k) (unsigned (2 ^ k) v))

/-- The components of a path with slashes between them. -/
def slashed (ss : List Bytes) : Bytes := (ss.flatMap (fun s => 47 :: s)).drop 1

/-- What a tagged value stands for. -/
inductive Means (data : Bytes) : Nat → Nat → Shown → Prop
  | date (tag off n : Nat) (h : n < 2 ^ 64) (hs : Stored data off 0x400 (beBytes 8 n)) : Means data tag off (.date n)
  | path (off : Nat) (cs : List (Nat × Bytes)) (hs : Stored data off 0x601 ((cs.map (·.1)).flatMap (leBytes 4)))
      (hc : ∀ c ∈ cs, c.1 < 2 ^ 32 ∧ Stored data c.1 0x101 c.2) : Means data 0x1004 off (.path (slashed (cs.map (·.2))))
  | integers (off : Nat) (cs : List (Nat × Int)) (hs : Stored data off 0x601 ((cs.map (·.1)).flatMap (leBytes 4)))
      (hc : ∀ c ∈ cs, c.1 < 2 ^ 32 ∧ StoredInt data c.1 c.2) : Means data 0x1005 off (.integers (cs.map (·.2)))
  | flags (tag off a b c : Nat) (ht : tag = 0x1010 ∨ tag = 0x2020) (ha : a < 2 ^ 64) (hb : b < 2 ^ 64) (hc : c < 2 ^ 64)
      (hs : Stored data off 0x201 (leBytes 8 a ++ (leBytes 8 b ++ leBytes 8 c))) : Means data tag off (.flags a b c)
  | text (tag off : Nat) (s : Bytes) (ht : tag ∉ [0x1004, 0x1005, 0x1010, 0x2020]) (hs : Stored data off 0x101 s) :
      Means data tag off .other
  | int (tag off : Nat) (v : Int) (ht : tag ∉ [0x1004, 0x1005, 0x1010, 0x2020]) (hs : StoredInt data off v) :
      Means data tag off .other

def headerBytes (signature : Bytes) (size unknown area : Nat) (reserved : Bytes) : Bytes :=
  [signature, leBytes 4 size, leBytes 4 unknown, leBytes 4 area, reserved].flatten

def tocBytes (size identifier : Nat) (ts : List (Nat × Nat × Nat)) : Bytes :=
  [leBytes 4 size, leBytes 4 0xfffffffe, leBytes 4 identifier, leBytes 4 0, leBytes 4 ts.length].flatten ++
    ts.flatMap (fun t => leBytes 4 t.1 ++ (leBytes 4 t.2.1 ++ leBytes 4 t.2.2))

/-- A file that is not as the format says is reported as a parse error. -/
def C108_errors_claim : Prop := ∀ data e, readFile data = .error e → e = .parseError

/-! ## Proofs -/

theorem record_encodes (type : Nat) (d : Bytes) (c : Content) (hd : d.length < 2 ^ 32) (ht : type < 2 ^ 32)
    (hc : contentOf type d = some c) : Encodes recordMap (recordBytes type d) ⟨type, c⟩ := by
  have e : recordBytes type d = [leBytes 4 d.length, leBytes 4 type, d].flatten := by simp [recordBytes]
  have f0 : leNat (slice (recordBytes type d) 0 4) = d.length := by
    rw [e]; exact leField [] 4 _ _ 0 4 rfl rfl (by omega)
  have f1 : leNat (slice (recordBytes type d) 4 8) = type := by
    rw [e]; exact leField [_] 4 _ _ 4 8 (by simp) rfl (by omega)
  have f2 : (recordBytes type d).drop 8 = d := by
    rw [recordBytes, ← List.append_assoc]; exact List.drop_left' (by simp)
  have hl : (recordBytes type d).length = 8 + d.length := by simp [recordBytes]; omega
  refine encodes_refine _ _ _ _ _ (encodes_sized 8 _ _ _ (by omega) (by omega) ?_) ?_
  · show 8 + leNat (slice (List.take 8 (recordBytes type d)) 0 4) = _
    rw [slice_take _ _ _ _ (by omega), f0, hl]
  · show (contentOf (leNat (slice (recordBytes type d) 4 8)) ((recordBytes type d).drop 8)).map
      (Record.mk (leNat (slice (recordBytes type d) 4 8))) = _
    rw [f1, f2, hc]; rfl

theorem read_stored (data : Bytes) (off type : Nat) (d : Bytes) (h : Stored data off type d) (c : Content)
    (hc : contentOf type d = some c) : readRecord data (48 + off) = .ok ⟨type, c⟩ := by
  obtain ⟨hd, ht, hh⟩ := h
  rw [readRecord, encodes_holds _ _ _ (record_encodes type d c hd ht hc) data (48 + off) hh]

theorem intOf_bytes (w : Nat) (v : Int) (h : Utmp.Fits w v) : intOf w (leBytes w (unsigned w v)) = some (.int v) := by
  rw [intOf, if_neg (by simp), List.take_of_length_le (by simp), leNat_leBytes_of_lt _ _ (unsigned_lt w v),
    signed_unsigned w v h.1 h.2]

theorem read_int (data : Bytes) (off : Nat) (v : Int) (h : StoredInt data off v) :
    ∃ t, 0x301 ≤ t ∧ t ≤ 0x304 ∧ readRecord data (48 + off) = .ok ⟨t, .int v⟩ := by
  obtain ⟨k, hk, hf, hs⟩ := h
  have hk' : k = 0 ∨ k = 1 ∨ k = 2 ∨ k = 3 := by omega
  refine ⟨0x301 + k, by omega, by omega, read_stored data off _ _ hs _ ?_⟩
  rcases hk' with rfl | rfl | rfl | rfl <;> exact intOf_bytes _ v hf

theorem array_content (l : List Nat) (h : ∀ n ∈ l, n < 2 ^ 32) :
    contentOf 0x601 (l.flatMap (leBytes 4)) = some (.offsets l) := by
  have hl : (l.flatMap (leBytes 4)).length = 4 * l.length := flatMap_fixed_length 4 _ (by simp) l
  show (if (l.flatMap (leBytes 4)).length % 4 = 0 then _ else _) = _
  rw [hl, if_pos (by omega), Nat.mul_div_cancel_left _ (by omega)]
  have := leNats_flatMap 4 l (fun n hn => by have := h n hn; omega) []
  rw [List.append_nil] at this
  rw [this]

theorem readArray_ok {α : Type} (member : Content → Res α) (data : Bytes) (cs : List (Nat × α))
    (h : ∀ c ∈ cs, ∃ r, readRecord data (48 + c.1) = .ok r ∧ member r.content = .ok c.2) :
    readArray member data (cs.map (·.1)) = .ok (cs.map (·.2)) := by
  induction cs with
  | nil => rfl
  | cons c cs ih =>
    obtain ⟨r, h1, h2⟩ := h c (by simp)
    rw [List.map_cons, readArray, h1]
    dsimp only
    rw [h2]
    dsimp only
    rw [ih (fun d hd => h d (by simp [hd]))]
    rfl

theorem joinPath_slashed (ss : List Bytes) : joinPath ss = slashed ss := by
  unfold slashed
  induction ss with
  | nil => rfl
  | cons s ss ih =>
    cases ss with
    | nil => simp [joinPath]
    | cons t ts =>
      show s ++ 47 :: joinPath (t :: ts) = _
      rw [ih]; simp

theorem fromBytes_ok (b : Bytes) (h : b ≠ []) : fromBytes b.length b = .ok b := by
  rw [fromBytes, if_neg h, if_neg (by omega), List.take_length]

theorem readTagged_means (data : Bytes) (tag off : Nat) (x : Shown) (h : Means data tag off x) :
    readTagged data tag off = .ok x := by
  cases h with
  | date _ _ n h hs =>
    rw [readTagged, read_stored _ _ _ _ hs (.data _) rfl]
    show readDate (.data (beBytes 8 n)) = _
    have e := fromBytes_ok (beBytes 8 n) (by rw [← List.length_pos_iff]; simp)
    rw [length_beBytes] at e
    rw [readDate, dataOf]
    dsimp only
    rw [e]
    dsimp only
    rw [beNat_beBytes_of_lt _ _ (by omega)]
  | path _ cs hs hc =>
    rw [readTagged, read_stored _ _ _ _ hs _ (array_content _ (by
      intro n hn; obtain ⟨c, hc', rfl⟩ := List.mem_map.1 hn; exact (hc c hc').1))]
    show readPath data (.offsets (cs.map (·.1))) = _
    rw [readPath, integersOf]
    dsimp only
    rw [readArray_ok stringOf data cs (fun c hc' => ⟨_, read_stored _ _ _ _ (hc c hc').2 (.text c.2) rfl, rfl⟩)]
    dsimp only
    rw [joinPath_slashed]
  | integers _ cs hs hc =>
    rw [readTagged, read_stored _ _ _ _ hs _ (array_content _ (by
      intro n hn; obtain ⟨c, hc', rfl⟩ := List.mem_map.1 hn; exact (hc c hc').1))]
    show readIntegers data (.offsets (cs.map (·.1))) = _
    rw [readIntegers, integersOf]
    dsimp only
    rw [readArray_ok integerOf data cs (fun c hc' => by
      obtain ⟨t, _, _, e⟩ := read_int _ _ _ (hc c hc').2
      exact ⟨_, e, rfl⟩)]
  | flags _ _ a b c ht ha hb hc hs =>
    rw [readTagged, read_stored _ _ _ _ hs (.data _) rfl]
    have e1 : tag ≠ 0x1004 := by omega
    have e2 : tag ≠ 0x1005 := by omega
    show (if tag = 0x1004 then _ else if tag = 0x1005 then _ else if tag = 0x1010 ∨ tag = 0x2020 then _ else _) = _
    rw [if_neg e1, if_neg e2, if_pos ht, readFlags, dataOf]
    dsimp only
    have e : leBytes 8 a ++ (leBytes 8 b ++ leBytes 8 c) = [leBytes 8 a, leBytes 8 b, leBytes 8 c].flatten := by simp
    rw [e]
    have hl : [leBytes 8 a, leBytes 8 b, leBytes 8 c].flatten.length = 24 := by simp
    have e' := fromBytes_ok [leBytes 8 a, leBytes 8 b, leBytes 8 c].flatten (by rw [← List.length_pos_iff, hl]; omega)
    rw [hl] at e'
    rw [e']
    dsimp only
    have f0 : leNat (slice [leBytes 8 a, leBytes 8 b, leBytes 8 c].flatten 0 8) = a :=
      leField [] 8 _ _ 0 8 rfl rfl (by omega)
    have f1 : leNat (slice [leBytes 8 a, leBytes 8 b, leBytes 8 c].flatten 8 16) = b :=
      leField [_] 8 _ _ 8 16 (by simp) rfl (by omega)
    have f2 : leNat (slice [leBytes 8 a, leBytes 8 b, leBytes 8 c].flatten 16 24) = c :=
      leField [_, _] 8 _ _ 16 24 (by simp) rfl (by omega)
    rw [f0, f1, f2]
  | text _ _ s ht hs =>
    rw [readTagged, read_stored _ _ _ _ hs (.text s) rfl]
    simp only [List.mem_cons, List.not_mem_nil, or_false, not_or] at ht
    show (if tag = 0x1004 then _ else if tag = 0x1005 then _ else if tag = 0x1010 ∨ tag = 0x2020 then _ else _) = _
    rw [if_neg ht.1, if_neg ht.2.1, if_neg (by omega)]
  | int _ _ v ht hs =>
    obtain ⟨t, t1, t2, e⟩ := read_int _ _ _ hs
    rw [readTagged, e]
    simp only [List.mem_cons, List.not_mem_nil, or_false, not_or] at ht
    show (if t = 0x400 then _ else if tag = 0x1004 then _ else if tag = 0x1005 then _ else
      if tag = 0x1010 ∨ tag = 0x2020 then _ else _) = _
    rw [if_neg (by omega), if_neg ht.1, if_neg ht.2.1, if_neg (by omega)]

theorem tagged_values (ts : List (Nat × Nat × Nat)) (h : ∀ t ∈ ts, t.1 < 2 ^ 32 ∧ t.2.1 < 2 ^ 32 ∧ t.2.2 < 2 ^ 32) :
    tagged (leNats 4 (3 * ts.length) (ts.flatMap (fun t => leBytes 4 t.1 ++ (leBytes 4 t.2.1 ++ leBytes 4 t.2.2)))) = ts := by
  have e : ts.flatMap (fun t => leBytes 4 t.1 ++ (leBytes 4 t.2.1 ++ leBytes 4 t.2.2)) =
      (ts.flatMap (fun t => [t.1, t.2.1, t.2.2])).flatMap (leBytes 4) := by
    rw [List.flatMap_assoc]; simp
  have hl : 3 * ts.length = (ts.flatMap (fun t => [t.1, t.2.1, t.2.2])).length := by
    clear h e
    induction ts with
    | nil => rfl
    | cons t ts ih => rw [List.flatMap_cons, List.length_append, ← ih, List.length_cons]; simp; omega
  have := leNats_flatMap 4 (ts.flatMap (fun t => [t.1, t.2.1, t.2.2])) (by
    intro n hn
    obtain ⟨t, ht, hn⟩ := List.mem_flatMap.1 hn
    have := h t ht
    simp only [List.mem_cons, List.not_mem_nil, or_false] at hn
    omega) []
  rw [List.append_nil] at this
  rw [e, hl, this]
  clear h e hl this
  induction ts with
  | nil => rfl
  | cons t ts ih => show (t.1, t.2.1, t.2.2) :: tagged (ts.flatMap (fun t => [t.1, t.2.1, t.2.2])) = _; rw [ih]

theorem toc_length (size identifier : Nat) (ts : List (Nat × Nat × Nat)) :
    (tocBytes size identifier ts).length = 20 + 12 * ts.length := by
  have hb : (ts.flatMap (fun t => leBytes 4 t.1 ++ (leBytes 4 t.2.1 ++ leBytes 4 t.2.2))).length = 12 * ts.length :=
    flatMap_fixed_length 12 _ (by intro t; simp) ts
  rw [tocBytes, List.length_append, hb]; simp

theorem toc_encodes (size identifier : Nat) (ts : List (Nat × Nat × Nat)) (hl : ts.length < 2 ^ 32)
    (h : ∀ t ∈ ts, t.1 < 2 ^ 32 ∧ t.2.1 < 2 ^ 32 ∧ t.2.2 < 2 ^ 32) :
    Encodes tocMap (tocBytes size identifier ts) (0, ts) := by
  have hd : (tocBytes size identifier ts).drop 20 =
      ts.flatMap (fun t => leBytes 4 t.1 ++ (leBytes 4 t.2.1 ++ leBytes 4 t.2.2)) := List.drop_left' (by simp)
  have hlen := toc_length size identifier ts
  have ht : (tocBytes size identifier ts).take 20 =
      [leBytes 4 size, leBytes 4 0xfffffffe, leBytes 4 identifier, leBytes 4 0, leBytes 4 ts.length].flatten :=
    List.take_left' (by simp)
  have f (a b : Nat) (hb : b ≤ 20) : slice (tocBytes size identifier ts) a b =
      slice [leBytes 4 size, leBytes 4 0xfffffffe, leBytes 4 identifier, leBytes 4 0, leBytes 4 ts.length].flatten a b := by
    rw [← ht, slice_take _ _ _ _ hb]
  have f1 : leNat (slice (tocBytes size identifier ts) 4 8) = 0xfffffffe := by
    rw [f _ _ (by omega)]; exact leField [_] 4 _ _ 4 8 (by simp) rfl (by omega)
  have f3 : leNat (slice (tocBytes size identifier ts) 12 16) = 0 := by
    rw [f _ _ (by omega)]; exact leField [_, _, _] 4 _ _ 12 16 (by simp) rfl (by omega)
  have f4 : leNat (slice (tocBytes size identifier ts) 16 20) = ts.length := by
    rw [f _ _ (by omega)]; exact leField [_, _, _, _] 4 _ _ 16 20 (by simp) rfl (by omega)
  refine encodes_refine _ _ _ _ _ (encodes_sized 20 _ _ _ (by omega) (by omega) ?_) ?_
  · show 20 + 12 * leNat (slice (List.take 20 (tocBytes size identifier ts)) 16 20) = _
    rw [slice_take _ _ _ _ (by omega), f4, hlen]
  · show (if leNat (slice (tocBytes size identifier ts) 4 8) = 0xfffffffe then
      some (leNat (slice (tocBytes size identifier ts) 12 16),
        tagged (leNats 4 (3 * leNat (slice (tocBytes size identifier ts) 16 20)) ((tocBytes size identifier ts).drop 20)))
      else none) = _
    rw [if_pos f1, f3, f4, hd, tagged_values ts h]

theorem header_encodes (signature : Bytes) (size unknown area : Nat) (reserved : Bytes)
    (hs : signature = [97, 108, 105, 115] ∨ signature = [98, 111, 111, 107]) (h1 : size < 2 ^ 32) (h2 : area < 2 ^ 32)
    (hr : reserved.length = 32) :
    Encodes headerMap (headerBytes signature size unknown area reserved) (size, area) := by
  have hsl : signature.length = 4 := by rcases hs with rfl | rfl <;> rfl
  have f0 : slice (headerBytes signature size unknown area reserved) 0 4 = signature :=
    slice_fields [] _ _ 0 4 rfl (by simp [hsl])
  have f1 : leNat (slice (headerBytes signature size unknown area reserved) 4 8) = size :=
    leField [_] 4 _ _ 4 8 (by simp [hsl]) rfl (by omega)
  have f2 : leNat (slice (headerBytes signature size unknown area reserved) 12 16) = area :=
    leField [_, _, _] 4 _ _ 12 16 (by simp [hsl]) rfl (by omega)
  refine encodes_refine _ _ _ _ _ (encodes_fixed 48 id _ (by omega) (by simp [headerBytes, hsl, hr])) ?_
  show (if slice (headerBytes signature size unknown area reserved) 0 4 = [97, 108, 105, 115] ∨
      slice (headerBytes signature size unknown area reserved) 0 4 = [98, 111, 111, 107] then
      some (leNat (slice (headerBytes signature size unknown area reserved) 4 8),
        leNat (slice (headerBytes signature size unknown area reserved) 12 16)) else none) = _
  rw [f0, f1, f2, if_pos hs]

theorem readTags_means (data : Bytes) (ts : List ((Nat × Nat × Nat) × Shown))
    (h : ∀ t ∈ ts, Means data t.1.1 t.1.2.1 t.2) :
    readTags data (ts.map (·.1)) = .ok (ts.map (fun t => (t.1.1, t.2))) := by
  induction ts with
  | nil => rfl
  | cons t ts ih =>
    obtain ⟨⟨tag, off, u⟩, x⟩ := t
    rw [List.map_cons, readTags, readTagged_means data tag off x (h ((tag, off, u), x) (by simp))]
    dsimp only
    rw [ih (fun t ht => h t (by simp [ht]))]
    rfl

theorem readToc_ok (data : Bytes) (areaSize size identifier : Nat) (ts : List (Nat × Nat × Nat)) (hd : data.length < 2 ^ 32)
    (ht : Holds data (48 + areaSize) (tocBytes size identifier ts))
    (hv : ∀ t ∈ ts, t.1 < 2 ^ 32 ∧ t.2.1 < 2 ^ 32 ∧ t.2.2 < 2 ^ 32) :
    readToc data areaSize = readTags data ts := by
  have hl : ts.length < 2 ^ 32 := by
    have := (holds_slice _ _ _ ht).2
    rw [toc_length] at this
    omega
  rw [readToc, encodes_holds tocMap _ _ (toc_encodes size identifier ts hl hv) data (48 + areaSize) ht]
  rfl

/-- The values of the table of contents are shown with what they stand for, wherever the records are. -/
theorem C108_shown (data : Bytes) (signature : Bytes) (unknown : Nat) (reserved : Bytes) (areaSize size identifier : Nat)
    (ts : List ((Nat × Nat × Nat) × Shown))
    (hs : signature = [97, 108, 105, 115] ∨ signature = [98, 111, 111, 107]) (hr : reserved.length = 32)
    (hd : data.length < 2 ^ 32) (hh : Holds data 0 (headerBytes signature data.length unknown 48 reserved))
    (ha : areaSize < 2 ^ 32) (hz : Holds data 48 (leBytes 4 areaSize))
    (ht : Holds data (48 + areaSize) (tocBytes size identifier (ts.map (·.1))))
    (hv : ∀ t ∈ ts, t.1.1 < 2 ^ 32 ∧ t.1.2.1 < 2 ^ 32 ∧ t.1.2.2 < 2 ^ 32)
    (hm : ∀ t ∈ ts, Means data t.1.1 t.1.2.1 t.2) :
    readFile data = .ok (ts.map (fun t => (t.1.1, t.2))) := by
  have e1 := encodes_holds _ _ _ (header_encodes signature data.length unknown 48 reserved hs hd (by omega) hr) data 0 hh
  have es : Encodes sizeMap (leBytes 4 areaSize) areaSize :=
    encodes_refine _ _ _ _ _ (encodes_fixed 4 id _ (by omega) (by simp)) (by
      show some (leNat (leBytes 4 areaSize)) = _
      rw [leNat_leBytes_of_lt _ _ (by omega)])
  have e2 := encodes_holds _ _ _ es data 48 hz
  have z : ((0 : Nat) : Int) = 0 := rfl
  have z' : ((48 : Nat) : Int) = 48 := rfl
  rw [z] at e1
  rw [z'] at e2
  rw [readFile, e1]
  dsimp only
  rw [if_neg (fun h => h rfl), if_neg (fun h => h rfl), e2]
  dsimp only
  rw [← readTags_means data ts hm]
  generalize htt : ts.map (·.1) = tt at ht ⊢
  refine readToc_ok data areaSize size identifier tt hd ht ?_
  intro t ht'
  rw [← htt] at ht'
  obtain ⟨t', hm', e⟩ := List.mem_map.1 ht'
  rw [← e]
  exact hv t' hm'

theorem tagged_length (n : Nat) (b : Bytes) : (tagged (leNats 4 (3 * n) b)).length = n := by
  induction n generalizing b with
  | zero => rfl
  | succ n ih =>
    show (tagged (leNats 4 (3 * n + 1 + 1 + 1) b)).length = _
    simp only [leNats, tagged, List.length_cons]
    rw [ih]

theorem readTags_length (data : Bytes) (ts : List (Nat × Nat × Nat)) (xs : List (Nat × Shown))
    (h : readTags data ts = .ok xs) : xs.length = ts.length := by
  induction ts generalizing xs with
  | nil => cases h; rfl
  | cons t ts ih =>
    obtain ⟨tag, off, u⟩ := t
    rw [readTags] at h
    split at h
    · cases h
    · split at h
      · cases h
      · rename_i ys hy
        cases h
        rw [List.length_cons, List.length_cons, ih ys hy]

theorem readToc_complete (data : Bytes) (n : Nat) (xs : List (Nat × Shown)) (h : readToc data n = .ok xs) :
    leNat (slice data (48 + n + 12) (48 + n + 16)) = 0 ∧
      xs.length = leNat (slice data (48 + n + 16) (48 + n + 20)) := by
  unfold readToc at h
  split at h
  · cases h
  · rename_i next ts k he
    split at h
    · cases h
    · rename_i h0
      obtain ⟨_, g, hk⟩ := structAt_sized_ok 20 _ _ data (48 + n) _ _ (by omega) he
      have hk' : 20 ≤ k.toNat := by omega
      split at g
      · injection g with g
        have g1 : leNat (slice (slice data (48 + n) (48 + n + k.toNat)) 12 16) = next := by injection g
        have g2 : tagged (leNats 4 (3 * leNat (slice (slice data (48 + n) (48 + n + k.toNat)) 16 20))
          ((slice data (48 + n) (48 + n + k.toNat)).drop 20)) = ts := by injection g
        rw [slice_slice _ _ _ _ _ (by omega)] at g1 g2
        refine ⟨by omega, ?_⟩
        rw [readTags_length _ _ _ h, ← g2, tagged_length]
      · cases g

/-- A file that is read has the size and the offset of the data area that its header says, and one table of contents, of
which every value is shown. -/
theorem C108_complete (data : Bytes) (xs : List (Nat × Shown)) (h : readFile data = .ok xs) :
    leNat (slice data 4 8) = data.length ∧ leNat (slice data 12 16) = 48 ∧
      leNat (slice data (48 + leNat (slice data 48 52) + 12) (48 + leNat (slice data 48 52) + 16)) = 0 ∧
      xs.length = leNat (slice data (48 + leNat (slice data 48 52) + 16) (48 + leNat (slice data 48 52) + 20)) := by
  unfold readFile at h
  split at h
  · cases h
  · rename_i size area n he
    split at h
    · cases h
    · rename_i h1
      split at h
      · cases h
      · rename_i h2
        split at h
        · cases h
        · rename_i areaSize n' he'
          obtain ⟨_, g, _⟩ := structAt_fixed_ok 48 _ data 0 _ _ (by omega) he
          obtain ⟨_, g', _⟩ := structAt_fixed_ok 4 _ data 48 _ _ (by omega) he'
          have k : leNat (slice data 48 52) = areaSize := by injection g'
          split at g
          · have k1 : leNat (slice (slice data 0 (0 + 48)) 4 8) = size := by injection g with g; injection g
            have k2 : leNat (slice (slice data 0 (0 + 48)) 12 16) = area := by injection g with g; injection g
            rw [slice_slice _ _ _ _ _ (by omega)] at k1 k2
            obtain ⟨k3, k4⟩ := readToc_complete data areaSize xs h
            rw [k]
            exact ⟨k1.trans (by omega), k2.trans (by omega), k3, k4⟩
          · cases g

theorem readRecord_error (data : Bytes) (off : Nat) (e : Err) (h : readRecord data off = .error e) : e = .parseError := by
  rw [readRecord] at h
  split at h
  · rename_i e' he
    cases h
    exact errors_refine _ _ (errors_sized _ _ _ (by omega)) data off e he
  · cases h

/-- The errors other than those that are meant to report that a file is not as the format says. -/
def Reported (e : Err) : Prop := e = .parseError ∨ e = .valueError ∨ e = .attributeError

theorem readArray_error {α : Type} (member : Content → Res α) (hm : ∀ c e, member c = .error e → Reported e) (data : Bytes)
    (os : List Nat) (e : Err) (h : readArray member data os = .error e) : Reported e := by
  induction os with
  | nil => cases h
  | cons o os ih =>
    rw [readArray] at h
    split at h
    · rename_i e' he
      cases h
      exact .inl (readRecord_error _ _ _ he)
    · split at h
      · rename_i e' he
        cases h
        exact hm _ _ he
      · split at h
        · rename_i e' he
          cases h
          exact ih he
        · cases h

theorem fromBytes_error (n : Nat) (b : Bytes) (e : Err) (h : fromBytes n b = .error e) : Reported e := by
  unfold fromBytes at h
  split at h
  · cases h; exact .inr (.inl rfl)
  · split at h
    · cases h; exact .inl rfl
    · cases h

theorem member_error {c : Content} {e : Err} :
    (stringOf c = .error e → Reported e) ∧ (integerOf c = .error e → Reported e) ∧
      (integersOf c = .error e → Reported e) ∧ (dataOf c = .error e → Reported e) := by
  refine ⟨?_, ?_, ?_, ?_⟩ <;> cases c <;> intro h <;> cases h <;> exact .inr (.inr rfl)

theorem readTagged_error (data : Bytes) (tag off : Nat) (e : Err) (h : readTagged data tag off = .error e) : Reported e := by
  unfold readTagged at h
  split at h
  · rename_i e' he
    cases h
    exact .inl (readRecord_error _ _ _ he)
  · split at h
    · unfold readDate at h
      split at h
      · cases h; rename_i he; exact member_error.2.2.2 he
      · split at h
        · cases h; rename_i he; exact fromBytes_error _ _ _ he
        · cases h
    · split at h
      · unfold readPath at h
        split at h
        · cases h; rename_i he; exact member_error.2.2.1 he
        · split at h
          · cases h; rename_i he; exact readArray_error _ (fun _ _ h => member_error.1 h) _ _ _ he
          · cases h
      · split at h
        · unfold readIntegers at h
          split at h
          · cases h; rename_i he; exact member_error.2.2.1 he
          · split at h
            · cases h; rename_i he; exact readArray_error _ (fun _ _ h => member_error.2.1 h) _ _ _ he
            · cases h
        · split at h
          · unfold readFlags at h
            split at h
            · cases h; rename_i he; exact member_error.2.2.2 he
            · split at h
              · cases h; rename_i he; exact fromBytes_error _ _ _ he
              · cases h
          · cases h

theorem readTags_error (data : Bytes) (ts : List (Nat × Nat × Nat)) (e : Err) (h : readTags data ts = .error e) :
    Reported e := by
  induction ts with
  | nil => cases h
  | cons t ts ih =>
    obtain ⟨tag, off, u⟩ := t
    rw [readTags] at h
    split at h
    · cases h; rename_i he; exact readTagged_error _ _ _ _ he
    · split at h
      · cases h; rename_i he; exact ih he
      · cases h

/-- Reading fails with a parse error, a `ValueError` or an `AttributeError`.  Missing from the claim: the latter two. -/
theorem C108_errors_partial (data : Bytes) (e : Err) (h : readFile data = .error e) :
    e = .parseError ∨ e = .valueError ∨ e = .attributeError := by
  unfold readFile at h
  split at h
  · cases h; rename_i he
    exact .inl (errors_refine _ _ (errors_fixed _ _ (by omega)) data 0 e he)
  · split at h
    · cases h; exact .inl rfl
    · split at h
      · cases h; exact .inl rfl
      · split at h
        · cases h; rename_i he
          exact .inl (errors_refine _ _ (errors_fixed _ _ (by omega)) data 48 e he)
        · unfold readToc at h
          split at h
          · cases h; rename_i he
            exact .inl (errors_refine _ _ (errors_sized _ _ _ (by omega)) data _ e he)
          · split at h
            · cases h; exact .inl rfl
            · exact readTags_error _ _ _ h

/-- A bookmark with one tagged value, of which the record is the first of the data area. -/
def sampleFile (tag type : Nat) (d : Bytes) : Bytes :=
  headerBytes [98, 111, 111, 107] (48 + 4 + (8 + d.length) + 32) 0 48 (List.replicate 32 0) ++
    leBytes 4 (12 + d.length) ++ recordBytes type d ++ tocBytes 32 1 [(tag, 4, 0)]

/-- A path that is a string in place of an array. -/
theorem C108_errors_claim_false : ¬ C108_errors_claim := by
  intro h
  have := h (sampleFile 0x1004 0x101 [97]) .attributeError (by decide +kernel)
  cases this

/-- Flags without data. -/
example : readFile (sampleFile 0x1010 0x201 []) = .error .valueError := by decide +kernel

/-- A bookmark with a path of two components, a list of their identifiers, a date and flags. -/
def sample : Bytes :=
  headerBytes [98, 111, 111, 107] 252 0 48 (List.replicate 32 0) ++ leBytes 4 136 ++
    recordBytes 0x101 [97, 98, 99, 100] ++ recordBytes 0x101 [101, 102, 103, 104] ++
    recordBytes 0x601 (leBytes 4 4 ++ leBytes 4 16) ++ recordBytes 0x303 (leBytes 4 7) ++
    recordBytes 0x304 (leBytes 8 (unsigned 8 (-2))) ++ recordBytes 0x601 (leBytes 4 44 ++ leBytes 4 56) ++
    recordBytes 0x400 (beBytes 8 9) ++ recordBytes 0x201 (leBytes 8 1 ++ (leBytes 8 2 ++ leBytes 8 3)) ++
    tocBytes 56 1 [(0x1004, 28, 0), (0x1005, 72, 0), (0x1040, 88, 0), (0x1010, 104, 0)]

theorem sample_stored (off type : Nat) (d : Bytes) (h : (slice sample (48 + off) (48 + off + (recordBytes type d).length) = recordBytes type d ∧
    48 + off ≤ sample.length) ∧ d.length < 2 ^ 32 ∧ type < 2 ^ 32) : Stored sample off type d :=
  ⟨h.2.1, h.2.2, holds_of_slice _ _ _ h.1.1 h.1.2⟩

example : readFile sample = .ok [(0x1004, .path [97, 98, 99, 100, 47, 101, 102, 103, 104]), (0x1005, .integers [7, -2]),
    (0x1040, .date 9), (0x1010, .flags 1 2 3)] := by
  refine C108_shown sample [98, 111, 111, 107] 0 (List.replicate 32 0) 136 56 1
    [((0x1004, 28, 0), .path [97, 98, 99, 100, 47, 101, 102, 103, 104]), ((0x1005, 72, 0), .integers [7, -2]),
      ((0x1040, 88, 0), .date 9), ((0x1010, 104, 0), .flags 1 2 3)] (.inr rfl) (by decide) (by decide +kernel)
    (holds_of_slice _ _ _ (by decide +kernel) (by decide +kernel)) (by decide)
    (holds_of_slice _ _ _ (by decide +kernel) (by decide +kernel))
    (holds_of_slice _ _ _ (by decide +kernel) (by decide +kernel)) (by decide) ?_
  intro t ht
  simp only [List.mem_cons, List.not_mem_nil, or_false] at ht
  rcases ht with rfl | rfl | rfl | rfl
  · refine Means.path 28 [(4, [97, 98, 99, 100]), (16, [101, 102, 103, 104])] (sample_stored _ _ _ (by decide +kernel)) ?_
    intro c hc
    simp only [List.mem_cons, List.not_mem_nil, or_false] at hc
    rcases hc with rfl | rfl <;> exact ⟨by decide, sample_stored _ _ _ (by decide +kernel)⟩
  · refine Means.integers 72 [(44, 7), (56, -2)] (sample_stored _ _ _ (by decide +kernel)) ?_
    intro c hc
    simp only [List.mem_cons, List.not_mem_nil, or_false] at hc
    rcases hc with rfl | rfl
    · exact ⟨by decide, 2, by decide, ⟨by decide, by decide⟩, sample_stored _ _ _ (by decide +kernel)⟩
    · exact ⟨by decide, 3, by decide, ⟨by decide, by decide⟩, sample_stored _ _ _ (by decide +kernel)⟩
  · exact Means.date _ _ 9 (by decide) (sample_stored _ _ _ (by decide +kernel))
  · exact Means.flags _ _ 1 2 3 (.inl rfl) (by decide) (by decide) (by decide) (sample_stored _ _ _ (by decide +kernel))

end Dtf.Bookmark
