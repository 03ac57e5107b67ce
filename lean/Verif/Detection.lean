import Verif.Records
import Verif.ChangeLog

/-!
# Windows Defender DetectionHistory files (C107)
-/

namespace Dtf.Detection
open Py DataFormat
open ChangeLog (Utf16)

/-! ## Model -/

/-- A string of a given size in UTF-16 with a terminator (`elements_data_size` with `elements_terminator`): what is before
the terminator, or all of it.  That the text can be decoded is not modelled. -/
def until0 : Bytes → Bytes
  | a :: b :: l => if a = 0 ∧ b = 0 then [] else a :: b :: until0 l
  | l => l

/-- The object that `_ReadValue` (detection_history.py 183-219) makes. -/
inductive Value where
  | int (n : Nat)
  | filetime (n : Nat)
  | text (s : Bytes)
  | guid (b : Bytes)
  | data (b : Bytes)
deriving DecidableEq, Repr

/-- The bytes after the data up to a multiple of 8. -/
def padding (n : Nat) : Nat := (8 - n % 8) % 8

/-- `detection_history_value` (detection_history.yaml); other types are refused. -/
def parseValue (b : Bytes) : Option Value :=
  let size := leNat (slice b 0 4)
  let type := leNat (slice b 4 8)
  if type = 0 ∨ type = 5 ∨ type = 6 then if size = 4 then some (.int (leNat (slice b 8 12))) else none
  else if type = 8 then if size = 8 then some (.int (leNat (slice b 8 16))) else none
  else if type = 0x0a then if size = 8 then some (.filetime (leNat (slice b 8 16))) else none
  else if type = 0x15 then some (.text (until0 (slice b 8 (8 + size))))
  else if type = 0x1e then if size = 16 then some (.guid (slice b 8 24)) else none
  else if type = 0x28 then some (.data (slice b 8 (8 + size)))
  else none

def valueMap : DataTypeMap Value :=
  (sizedMap 8 (fun b => leNat (slice b 0 4) + padding (leNat (slice b 0 4))) id).refine parseValue

/-- `ReadFileObject` (detection_history.py 229-239): the values. -/
def readValues (data : Bytes) (fuel : Nat) : Option (Res (List Value)) := readUntil valueMap data data.length fuel 0 []

/-- A threat tracking value. -/
inductive Tracked where
  | int8 (key : Bytes) (n : Nat)
  | int32 (key : Bytes) (n : Nat)
  | int64 (key : Bytes) (n : Nat)
  | text (key s : Bytes)
  | bytes (key b : Bytes)
deriving DecidableEq, Repr

/-- `threat_tracking_value` (detection_history.yaml) after the type: the value and its size with the `8 + n` bytes before. -/
def parseRest (n : Nat) (key : Bytes) (type : Nat) (rest : Bytes) : Option (Tracked × Nat) :=
  if type = 5 then if rest.length < 1 then none else some (.int8 key (leNat (rest.take 1)), 9 + n)
  else if type = 3 then if rest.length < 4 then none else some (.int32 key (leNat (rest.take 4)), 12 + n)
  else if type = 4 then if rest.length < 8 then none else some (.int64 key (leNat (rest.take 8)), 16 + n)
  else if type = 6 then
    if rest.length < 4 + leNat (rest.take 4) then none
    else some (.text key (until0 (slice rest 4 (4 + leNat (rest.take 4)))), 12 + n + leNat (rest.take 4))
  else if type = 7 then if rest.length < 5 then none else some (.bytes key (rest.take 5), 13 + n)
  else none

/-- `threat_tracking_value` (detection_history.yaml): the value and its size. -/
def parseTracked (b : Bytes) : Option (Tracked × Nat) :=
  let n := leNat (slice b 0 4)
  if b.length < 8 + n then none
  else parseRest n (until0 (slice b 4 (4 + n))) (leNat (slice b (4 + n) (8 + n))) (b.drop (8 + n))

/-- `_ReadThreatTrackingValue` (detection_history.py 153-181) in the loop over the values (116-121); an empty byte stream
is a `ValueError` (data_format.py 654-655). -/
def trackedStep (b : Bytes) (off : Nat) : Res (Tracked × Nat) :=
  if b.drop off = [] then .error .valueError
  else
    match parseTracked (b.drop off) with
    | none => .error .parseError
    | some (t, n) => .ok (t, off + n)

/-- `_ReadThreatTrackingData` (detection_history.py 91-121). -/
def readTracking (b : Bytes) : Option (Res (List Tracked)) :=
  if b = [] then some (.error .valueError)
  else if b.length < 4 then some (.error .parseError)
  else if leNat (slice b 0 4) ≠ 1 then walk (trackedStep b) (leNat (slice b 0 4)) (b.length + 1) 4 []
  else if b.length < 20 then some (.error .parseError)
  else walk (trackedStep b) (leNat (slice b 12 16)) (b.length + 1) (leNat (slice b 4 8) + 4) []

/-- `"Magic.Version:1.2"`. -/
def separator : Value := .text ("Magic.Version:1.2".toList.flatMap (fun c => [c.toNat.toUInt8, 0]))

/-- What is shown for a value: with a description for its set and index, or as tracking data. -/
inductive Shown where
  | value (set index : Nat) (v : Value)
  | tracking (ts : List Tracked)
deriving DecidableEq, Repr

/-- The values that are false for Python; the tracking data has to be a byte stream. -/
def notBytes : Value → Err
  | .int 0 | .filetime 0 | .text [] => .valueError
  | _ => .parseError

/-- One value (detection_history.py 250-271). -/
def showValue (set index : Nat) (v : Value) : Res Shown :=
  if set = 2 ∧ index = 5 then
    match v with
    | .data b =>
      match readTracking b with
      | none => .error .runtimeError -- never the case, see `readTracking_ends`
      | some (.error e) => .error e
      | some (.ok ts) => .ok (.tracking ts)
    | v => .error (notBytes v)
  else .ok (.value set index v)

/-- The loop that shows the values, with debug output (detection_history.py 241-273). -/
def showValues : Nat → Nat → List Value → Res (List Shown)
  | _, _, [] => .ok []
  | set, index, v :: vs =>
    let set' := if v = separator then min (set + 1) 2 else set
    let index' := if v = separator then 0 else index
    match showValue set' index' v with
    | .error e => .error e
    | .ok x =>
      match showValues set' (index' + 1) vs with
      | .error e => .error e
      | .ok xs => .ok (x :: xs)

/-- `ReadFileObject` (detection_history.py 221-273): the values, with what is shown if there is debug output. -/
def readFile (debug : Bool) (data : Bytes) (fuel : Nat) : Option (Res (List Value × List Shown)) :=
  match readValues data fuel with
  | none => none
  | some (.error e) => some (.error e)
  | some (.ok vs) =>
    if debug then
      match showValues 0 0 vs with
      | .error e => some (.error e)
      | .ok xs => some (.ok (vs, xs))
    else some (.ok (vs, []))

/-! ## The specification -/

/-- A value as it is stored. -/
inductive Stored where
  | int32 (type n : Nat)
  | int64 (n : Nat)
  | filetime (n : Nat)
  | text (s : Bytes)
  | guid (b : Bytes)
  | data (b : Bytes)

def Stored.value : Stored → Value
  | .int32 _ n | .int64 n => .int n
  | .filetime n => .filetime n
  | .text s => .text s
  | .guid b => .guid b
  | .data b => .data b

def Stored.type : Stored → Nat
  | .int32 t _ => t
  | .int64 _ => 8
  | .filetime _ => 0x0a
  | .text _ => 0x15
  | .guid _ => 0x1e
  | .data _ => 0x28

def Stored.content : Stored → Bytes
  | .int32 _ n => leBytes 4 n
  | .int64 n | .filetime n => leBytes 8 n
  | .text s => s ++ [0, 0]
  | .guid b | .data b => b

def Stored.Ok (v : Stored) : Prop :=
  v.content.length < 2 ^ 32 ∧
    match v with
    | .int32 t n => (t = 0 ∨ t = 5 ∨ t = 6) ∧ n < 2 ^ 32
    | .int64 n | .filetime n => n < 2 ^ 64
    | .text s => Utf16 s
    | .guid b => b.length = 16
    | .data _ => True

/-- A stored value and the bytes of its padding. -/
def storedBytes (v : Stored × Bytes) : Bytes :=
  [leBytes 4 v.1.content.length, leBytes 4 v.1.type, v.1.content, v.2].flatten

/-- The padding goes up to the next multiple of 8. -/
def StoredOk (v : Stored × Bytes) : Prop := v.1.Ok ∧ v.2.length < 8 ∧ (v.1.content.length + v.2.length) % 8 = 0

def Tracked.key : Tracked → Bytes
  | .int8 k _ | .int32 k _ | .int64 k _ | .text k _ | .bytes k _ => k

def Tracked.type : Tracked → Nat
  | .int8 .. => 5
  | .int32 .. => 3
  | .int64 .. => 4
  | .text .. => 6
  | .bytes .. => 7

def Tracked.content : Tracked → Bytes
  | .int8 _ n => leBytes 1 n
  | .int32 _ n => leBytes 4 n
  | .int64 _ n => leBytes 8 n
  | .text _ s => leBytes 4 (s.length + 2) ++ (s ++ [0, 0])
  | .bytes _ b => b

def Tracked.bytes' (t : Tracked) : Bytes :=
  [leBytes 4 (t.key.length + 2), t.key ++ [0, 0], leBytes 4 t.type].flatten ++ t.content

def Tracked.Ok (t : Tracked) : Prop :=
  Utf16 t.key ∧ t.key.length + 2 < 2 ^ 32 ∧
    match t with
    | .int8 _ n => n < 2 ^ 8
    | .int32 _ n => n < 2 ^ 32
    | .int64 _ n => n < 2 ^ 64
    | .text _ s => Utf16 s ∧ s.length + 2 < 2 ^ 32
    | .bytes _ b => b.length = 5

/-- Tracking data: an optional header with additional data, the size of the values and the values.  The sizes may or may not
count the 4 bytes of the size of the values. -/
inductive TrackingBytes (ts : List Tracked) : Bytes → Prop where
  | values (n : Nat) : n ≠ 1 → n < 2 ^ 32 → n = (ts.flatMap (·.bytes')).length ∨ n = (ts.flatMap (·.bytes')).length + 4 →
    TrackingBytes ts (leBytes 4 n ++ ts.flatMap (·.bytes'))
  | header (size total n unknown : Nat) (more : Bytes) : size = 20 + more.length → size < 2 ^ 32 → total < 2 ^ 32 →
    total = size + (ts.flatMap (·.bytes')).length ∨ total = size + (ts.flatMap (·.bytes')).length + 4 →
    TrackingBytes ts ([leBytes 4 1, leBytes 4 size, leBytes 4 n, leBytes 4 total, leBytes 4 unknown, more,
      leBytes 4 n].flatten ++ ts.flatMap (·.bytes'))

/-- A value of a set: the tracking data or another one. -/
inductive Item where
  | value (v : Value)
  | tracking (ts : List Tracked) (b : Bytes)

def Item.read : Item → Value
  | .value v => v
  | .tracking _ b => .data b

def Item.shown (set index : Nat) : Item → Shown
  | .value v => .value set index v
  | .tracking ts _ => .tracking ts

/-- The tracking data is value 5 of the resources. -/
def Item.Ok (set index : Nat) : Item → Prop
  | .value v => v ≠ separator ∧ ¬ (set = 2 ∧ index = 5)
  | .tracking ts b => set = 2 ∧ index = 5 ∧ (∀ t ∈ ts, t.Ok) ∧ TrackingBytes ts b

def ItemsOk (set : Nat) : Nat → List Item → Prop
  | _, [] => True
  | i, x :: xs => x.Ok set i ∧ ItemsOk set (i + 1) xs

def itemsShown (set : Nat) : Nat → List Item → List Shown
  | _, [] => []
  | i, x :: xs => x.shown set i :: itemsShown set (i + 1) xs

/-- The values after the first set: the set for the threat is number 1, the sets for its resources are number 2.  Each
begins with a separator. -/
def SetsOk : Nat → List (List Item) → Prop
  | _, [] => True
  | k, s :: ss => ItemsOk k 1 s ∧ SetsOk (min (k + 1) 2) ss

def setsShown : Nat → List (List Item) → List Shown
  | _, [] => []
  | k, s :: ss => .value k 0 separator :: itemsShown k 1 s ++ setsShown (min (k + 1) 2) ss

/-- The debug output does not make a difference for what is accepted. -/
def C107_debug_claim : Prop := ∀ data fuel vs, readFile false data fuel = some (.ok (vs, [])) →
  ∃ xs, readFile true data fuel = some (.ok (vs, xs))

/-- A file that cannot be read is a parse error. -/
def C107_errors_claim : Prop := ∀ debug data fuel e, readFile debug data fuel = some (.error e) → e = .parseError

/-! ## Proofs: the values -/

theorem until0_append (s : Bytes) (h : Utf16 s) : until0 (s ++ [0, 0]) = s := by
  induction h with
  | nil => rfl
  | cons a b l h _ ih =>
    show (if a = 0 ∧ b = 0 then [] else a :: b :: until0 (l ++ [0, 0])) = _
    rw [if_neg h, ih]

theorem padding_eq (n p : Nat) (hp : p < 8) (h : (n + p) % 8 = 0) : padding n = p := by unfold padding; omega

theorem parseValue_bytes (v : Stored × Bytes) (h : StoredOk v) : parseValue (storedBytes v) = some v.1.value := by
  obtain ⟨v, pad⟩ := v
  obtain ⟨⟨h1, h2⟩, h3, h4⟩ := h
  dsimp only at h1 h2 h3 h4 ⊢
  unfold parseValue
  generalize hB : storedBytes (v, pad) = B
  unfold storedBytes at hB
  dsimp only at hB
  have ht : v.type < 2 ^ 32 := by
    cases v <;> simp only [Stored.type] <;> first | omega | (dsimp only at h2; omega)
  have f0 : leNat (slice B 0 4) = v.content.length := hB ▸ leField [] 4 _ _ 0 4 rfl rfl (by omega)
  have f1 : leNat (slice B 4 8) = v.type := hB ▸ leField [_] 4 _ _ 4 8 (by simp) rfl (by omega)
  have f2 : slice B 8 (8 + v.content.length) = v.content :=
    hB ▸ slice_fields [_, _] _ _ 8 (8 + v.content.length) (by simp) (by simp)
  dsimp only
  cases v with
  | int32 t n =>
    dsimp only at h2
    have g0 : leNat (slice B 0 4) = 4 := by rw [f0]; simp [Stored.content]
    have g1 : leNat (slice B 4 8) = t := f1
    have g2 : slice B 8 12 = leBytes 4 n := by simpa [Stored.content] using f2
    rw [g0, g1, if_pos h2.1, if_pos rfl, g2, leNat_leBytes_of_lt 4 n (by omega)]
    rfl
  | int64 n =>
    dsimp only at h2
    have g0 : leNat (slice B 0 4) = 8 := by rw [f0]; simp [Stored.content]
    have g1 : leNat (slice B 4 8) = 8 := f1
    have g2 : slice B 8 16 = leBytes 8 n := by simpa [Stored.content] using f2
    rw [g0, g1, if_neg (by decide), if_pos rfl, if_pos rfl, g2, leNat_leBytes_of_lt 8 n (by omega)]
    rfl
  | filetime n =>
    dsimp only at h2
    have g0 : leNat (slice B 0 4) = 8 := by rw [f0]; simp [Stored.content]
    have g1 : leNat (slice B 4 8) = 10 := f1
    have g2 : slice B 8 16 = leBytes 8 n := by simpa [Stored.content] using f2
    rw [g0, g1, if_neg (by decide), if_neg (by decide), if_pos rfl, if_pos rfl, g2, leNat_leBytes_of_lt 8 n (by omega)]
    rfl
  | text s =>
    dsimp only at h2
    have g1 : leNat (slice B 4 8) = 21 := f1
    rw [f0, g1, if_neg (by decide), if_neg (by decide), if_neg (by decide), if_pos rfl, f2]
    simp only [Stored.content]
    rw [until0_append s h2]
    rfl
  | guid b =>
    dsimp only at h2
    have g0 : leNat (slice B 0 4) = 16 := by rw [f0]; exact h2
    have g1 : leNat (slice B 4 8) = 30 := f1
    have g2 : slice B 8 24 = b := by
      simp only [Stored.content, h2] at f2
      exact f2
    rw [g0, g1, if_neg (by decide), if_neg (by decide), if_neg (by decide), if_neg (by decide), if_pos rfl, if_pos rfl, g2]
    rfl
  | data b =>
    have g1 : leNat (slice B 4 8) = 40 := f1
    rw [f0, g1, if_neg (by decide), if_neg (by decide), if_neg (by decide), if_neg (by decide), if_neg (by decide), if_pos rfl,
      f2]
    rfl

theorem value_encodes (v : Stored × Bytes) (h : StoredOk v) : Encodes valueMap (storedBytes v) v.1.value := by
  refine encodes_refine _ _ _ _ _ (encodes_sized 8 _ id _ (by decide) (by simp [storedBytes]; omega) ?_) (parseValue_bytes v h)
  obtain ⟨⟨h1, h2⟩, h3, h4⟩ := h
  rw [slice_take _ 8 0 4 (by decide)]
  have f0 : leNat (slice (storedBytes v) 0 4) = v.1.content.length := leField [] 4 _ _ 0 4 rfl rfl (by omega)
  rw [f0, padding_eq _ _ h3 h4]
  simp [storedBytes]
  omega

/-- All values are read, in order. -/
theorem C107_values (vs : List (Stored × Bytes)) (h : ∀ v ∈ vs, StoredOk v) (fuel : Nat) :
    readValues (vs.flatMap storedBytes) (vs.length + fuel + 1) = some (.ok (vs.map (·.1.value))) := by
  have := readUntil_encodes valueMap (vs.map (fun v => (storedBytes v, v.1.value)))
    (by intro i hi; obtain ⟨v, hv, rfl⟩ := List.mem_map.mp hi; exact value_encodes v (h v hv))
    (by
      intro i hi hz
      obtain ⟨v, hv, rfl⟩ := List.mem_map.mp hi
      have := congrArg List.length hz
      simp [storedBytes] at this) [] [] fuel []
  rw [List.flatMap_map, List.length_map, List.append_nil, List.nil_append, List.map_map] at this
  exact this

/-- Reading ends for all files. -/
theorem C107_terminates (data : Bytes) (debug : Bool) : readFile debug data (data.length + 1) ≠ none := by
  have h := readUntil_terminates valueMap (positive_refine _ parseValue (positive_sized 8 _ id (by decide))) data
    data.length 0 []
  unfold readFile readValues
  split
  · rename_i hx
    exact absurd hx h
  · simp
  · split
    · split <;> simp
    · simp

/-! ## Proofs: the tracking data -/

theorem parseTracked_bytes (t : Tracked) (h : t.Ok) (post : Bytes) :
    parseTracked (t.bytes' ++ post) = some (t, t.bytes'.length) := by
  obtain ⟨h1, h2, h3⟩ := h
  have hty : t.type < 2 ^ 32 := by cases t <;> simp [Tracked.type]
  have e : t.bytes' ++ post = [leBytes 4 (t.key.length + 2), t.key ++ [0, 0], leBytes 4 t.type, t.content, post].flatten := by
    simp [Tracked.bytes']
  have hl : t.bytes'.length = 10 + t.key.length + t.content.length := by simp [Tracked.bytes']; omega
  unfold parseTracked
  generalize hB : t.bytes' ++ post = B at e
  have hBl : B.length = 10 + t.key.length + t.content.length + post.length := by rw [← hB, List.length_append, hl]
  have f0 : leNat (slice B 0 4) = t.key.length + 2 := e ▸ leField [] 4 _ _ 0 4 rfl rfl (by omega)
  have f1 : slice B 4 (4 + (t.key.length + 2)) = t.key ++ [0, 0] :=
    e ▸ slice_fields [_] _ _ 4 (4 + (t.key.length + 2)) (by simp) (by simp)
  have f2 : leNat (slice B (4 + (t.key.length + 2)) (8 + (t.key.length + 2))) = t.type :=
    e ▸ leField [_, _] 4 _ _ (4 + (t.key.length + 2)) (8 + (t.key.length + 2)) (by simp) (by omega) (by omega)
  have f3 : B.drop (8 + (t.key.length + 2)) = t.content ++ post := by
    rw [← hB, Tracked.bytes', List.append_assoc]
    exact List.drop_left' (by simp; omega)
  dsimp only
  rw [f0, if_neg (by omega), f1, f2, f3, until0_append _ h1, hl]
  cases t with
  | int8 k n =>
    show parseRest (k.length + 2) k 5 (leBytes 1 n ++ post) = some (.int8 k n, 10 + k.length + (leBytes 1 n).length)
    dsimp only at h3
    unfold parseRest
    rw [if_pos rfl, if_neg (by simp), List.take_left' (by simp), leNat_leBytes_of_lt 1 n (by omega)]
    simp
    omega
  | int32 k n =>
    show parseRest (k.length + 2) k 3 (leBytes 4 n ++ post) = some (.int32 k n, 10 + k.length + (leBytes 4 n).length)
    dsimp only at h3
    unfold parseRest
    rw [if_neg (by decide), if_pos rfl, if_neg (by simp), List.take_left' (by simp), leNat_leBytes_of_lt 4 n (by omega)]
    simp
    omega
  | int64 k n =>
    show parseRest (k.length + 2) k 4 (leBytes 8 n ++ post) = some (.int64 k n, 10 + k.length + (leBytes 8 n).length)
    dsimp only at h3
    unfold parseRest
    rw [if_neg (by decide), if_neg (by decide), if_pos rfl, if_neg (by simp), List.take_left' (by simp),
      leNat_leBytes_of_lt 8 n (by omega)]
    simp
    omega
  | text k s =>
    show parseRest (k.length + 2) k 6 (leBytes 4 (s.length + 2) ++ (s ++ [0, 0]) ++ post) =
      some (.text k s, 10 + k.length + (leBytes 4 (s.length + 2) ++ (s ++ [0, 0])).length)
    dsimp only at h3
    have ht : (leBytes 4 (s.length + 2) ++ (s ++ [0, 0]) ++ post).take 4 = leBytes 4 (s.length + 2) := by
      rw [List.append_assoc, List.take_left' (by simp)]
    have hs : slice (leBytes 4 (s.length + 2) ++ (s ++ [0, 0]) ++ post) 4 (4 + (s.length + 2)) = s ++ [0, 0] := by
      have := slice_fields [leBytes 4 (s.length + 2)] (s ++ [0, 0]) [post] 4 (4 + (s.length + 2)) (by simp) (by simp)
      simpa using this
    unfold parseRest
    rw [ht, leNat_leBytes_of_lt 4 _ (by omega), if_neg (by decide), if_neg (by decide), if_neg (by decide), if_pos rfl,
      if_neg (by simp), hs, until0_append s h3.1]
    simp
    omega
  | bytes k b =>
    show parseRest (k.length + 2) k 7 (b ++ post) = some (.bytes k b, 10 + k.length + b.length)
    dsimp only at h3
    unfold parseRest
    rw [if_neg (by decide), if_neg (by decide), if_neg (by decide), if_neg (by decide), if_pos rfl,
      if_neg (by simp; omega), List.take_left' h3, h3]
    simp
    omega

theorem tracked_length (t : Tracked) : 10 ≤ t.bytes'.length := by simp [Tracked.bytes']; omega

theorem tracked_walk (ts : List Tracked) (h : ∀ t ∈ ts, t.Ok) (pre : Bytes) (stop fuel : Nat) (acc : List Tracked)
    (h1 : stop ≤ pre.length + (ts.flatMap (·.bytes')).length) (h2 : pre.length + (ts.flatMap (·.bytes')).length ≤ stop + 4)
    (hf : ts.length < fuel) :
    walk (trackedStep (pre ++ ts.flatMap (·.bytes'))) stop fuel pre.length acc = some (.ok (acc ++ ts)) := by
  induction ts generalizing pre acc fuel with
  | nil =>
    obtain ⟨fuel, rfl⟩ : ∃ f, fuel = f + 1 := ⟨fuel - 1, by simp at hf; omega⟩
    simp only [List.flatMap_nil, List.length_nil, Nat.add_zero] at h1
    rw [walk, if_neg (by omega), List.append_nil]
  | cons t ts ih =>
    obtain ⟨fuel, rfl⟩ : ∃ f, fuel = f + 1 := ⟨fuel - 1, by simp at hf; omega⟩
    have hl := tracked_length t
    rw [List.flatMap_cons, List.length_append] at h1 h2
    rw [walk, if_pos (by omega)]
    have hs : trackedStep (pre ++ (t :: ts).flatMap (·.bytes')) pre.length = .ok (t, (pre ++ t.bytes').length) := by
      unfold trackedStep
      rw [List.drop_left, List.flatMap_cons, if_neg, parseTracked_bytes t (h t (by simp))]
      · simp
      · intro hz
        have := congrArg List.length hz
        simp only [List.length_append, List.length_nil] at this
        omega
    rw [hs]
    dsimp only
    have e : pre ++ (t :: ts).flatMap (·.bytes') = pre ++ t.bytes' ++ ts.flatMap (·.bytes') := by simp
    rw [e, ih (fun x hx => h x (by simp [hx])) (pre ++ t.bytes') fuel (acc ++ [t]) (by rw [List.length_append]; omega)
      (by rw [List.length_append]; omega) (by simp at hf; omega)]
    simp

theorem tracked_count (ts : List Tracked) : ts.length ≤ (ts.flatMap (·.bytes')).length := by
  induction ts with
  | nil => simp
  | cons t ts ih =>
    have := tracked_length t
    rw [List.flatMap_cons, List.length_append, List.length_cons]
    omega

/-- All values of the tracking data are read, with and without a header, whatever the sizes count. -/
theorem C107_tracking (ts : List Tracked) (h : ∀ t ∈ ts, t.Ok) (b : Bytes) (hb : TrackingBytes ts b) :
    readTracking b = some (.ok ts) := by
  have hc := tracked_count ts
  unfold readTracking
  cases hb with
  | values n h1 h2 h3 =>
    have f0 : leNat (slice (leBytes 4 n ++ ts.flatMap (·.bytes')) 0 4) = n := by
      have := leField [] 4 n [ts.flatMap (·.bytes')] 0 4 rfl rfl (by omega)
      simpa using this
    rw [if_neg (by intro hz; have := congrArg List.length hz; simp at this), if_neg (by simp), f0, if_pos h1]
    have := tracked_walk ts h (leBytes 4 n) n ((leBytes 4 n ++ ts.flatMap (·.bytes')).length + 1) []
      (by simp only [leBytes_length]; omega) (by simp only [leBytes_length]; omega)
      (by simp only [List.length_append, leBytes_length]; omega)
    rwa [leBytes_length, List.nil_append] at this
  | header size total n unknown more h1 h2 h3 h4 =>
    generalize hB : [leBytes 4 1, leBytes 4 size, leBytes 4 n, leBytes 4 total, leBytes 4 unknown, more,
      leBytes 4 n].flatten = B
    have hl : B.length = size + 4 := by rw [← hB]; simp; omega
    have hs (i j : Nat) (hj : j ≤ B.length) : slice (B ++ ts.flatMap (·.bytes')) i j = slice B i j := by
      simp only [slice]
      rw [List.take_append_of_le_length hj]
    have f0 : leNat (slice B 0 4) = 1 := hB ▸ leField [] 4 _ _ 0 4 rfl rfl (by omega)
    have f1 : leNat (slice B 4 8) = size := hB ▸ leField [_] 4 _ _ 4 8 (by simp) rfl (by omega)
    have f3 : leNat (slice B 12 16) = total := hB ▸ leField [_, _, _] 4 _ _ 12 16 (by simp) rfl (by omega)
    rw [hs 0 4 (by omega), hs 4 8 (by omega), hs 12 16 (by omega), f0, f1, f3,
      if_neg (by intro hz; have := congrArg List.length hz; simp only [List.length_append, List.length_nil] at this; omega),
      if_neg (by rw [List.length_append]; omega), if_neg (by simp), if_neg (by rw [List.length_append]; omega), ← hl]
    exact tracked_walk ts h B total _ [] (by omega) (by omega) (by rw [List.length_append]; omega)

theorem parseRest_size (n : Nat) (key : Bytes) (type : Nat) (rest : Bytes) (t : Tracked) (m : Nat)
    (h : parseRest n key type rest = some (t, m)) : 8 + n < m ∧ m ≤ 8 + n + rest.length := by
  unfold parseRest at h
  split at h
  · split at h
    · cases h
    · cases h; omega
  · split at h
    · split at h
      · cases h
      · cases h; omega
    · split at h
      · split at h
        · cases h
        · cases h; omega
      · split at h
        · split at h
          · cases h
          · cases h; omega
        · split at h
          · split at h
            · cases h
            · cases h; omega
          · cases h

theorem trackedStep_forward (b : Bytes) (off : Nat) (t : Tracked) (next : Nat) (h : trackedStep b off = .ok (t, next)) :
    off < next ∧ next ≤ b.length := by
  unfold trackedStep at h
  split at h
  · cases h
  · split at h
    · cases h
    · rename_i n hn
      cases h
      unfold parseTracked at hn
      dsimp only at hn
      have hd : (b.drop off).length = b.length - off := List.length_drop
      split at hn
      · cases hn
      · rename_i hk
        have hr : ((b.drop off).drop (8 + leNat (slice (b.drop off) 0 4))).length =
          b.length - off - (8 + leNat (slice (b.drop off) 0 4)) := by rw [List.length_drop, hd]
        have := parseRest_size _ _ _ _ _ _ hn
        omega

theorem readTracking_ends (b : Bytes) : readTracking b ≠ none := by
  have key : ∀ stop fuel off acc, b.length - off < fuel → walk (trackedStep b) stop fuel off acc ≠ none := by
    intro stop fuel
    induction fuel with
    | zero => intro off acc h; omega
    | succ fuel ih =>
      intro off acc h
      rw [walk]
      split
      · split
        · simp
        · rename_i x m hm
          have := trackedStep_forward b off x m hm
          exact ih _ _ (by omega)
      · simp
  unfold readTracking
  split
  · simp
  · split
    · simp
    · split
      · exact key _ _ _ _ (by omega)
      · split
        · simp
        · exact key _ _ _ _ (by omega)

/-! ## Proofs: what is shown -/

theorem showValue_item (set index : Nat) (x : Item) (h : x.Ok set index) :
    showValue set index x.read = .ok (x.shown set index) := by
  unfold showValue
  cases x with
  | value v => rw [if_neg h.2]; rfl
  | tracking ts b =>
    obtain ⟨h1, h2, h3, h4⟩ := h
    rw [if_pos ⟨h1, h2⟩]
    simp only [Item.read, C107_tracking ts h3 b h4]
    rfl

theorem read_ne_separator (set index : Nat) (x : Item) (h : x.Ok set index) : x.read ≠ separator := by
  cases x with
  | value v => exact h.1
  | tracking ts b => intro hx; cases hx

theorem showValues_items (set index : Nat) (xs : List Item) (h : ItemsOk set index xs) (vs : List Value) (out : List Shown)
    (hv : showValues set (index + xs.length) vs = .ok out) :
    showValues set index (xs.map (·.read) ++ vs) = .ok (itemsShown set index xs ++ out) := by
  induction xs generalizing index with
  | nil => exact hv
  | cons x xs ih =>
    rw [List.map_cons, List.cons_append, showValues]
    rw [if_neg (read_ne_separator set index x h.1), if_neg (read_ne_separator set index x h.1),
      showValue_item set index x h.1]
    dsimp only
    rw [ih (index + 1) h.2 (by rw [← hv]; congr 1; rw [List.length_cons]; omega)]
    rfl

theorem showValues_sets (k : Nat) (hk : k ≤ 2) (sets : List (List Item)) (h : SetsOk (min (k + 1) 2) sets) (index : Nat) :
    showValues k index (sets.flatMap (fun s => separator :: s.map (·.read))) = .ok (setsShown (min (k + 1) 2) sets) := by
  induction sets generalizing k index with
  | nil => rfl
  | cons s sets ih =>
    rw [List.flatMap_cons, List.cons_append, showValues]
    rw [if_pos rfl, if_pos rfl]
    have h0 : showValue (min (k + 1) 2) 0 separator = .ok (.value (min (k + 1) 2) 0 separator) := by
      unfold showValue
      rw [if_neg (by omega)]
    rw [h0]
    dsimp only
    rw [showValues_items _ (0 + 1) s h.1 _ _ (ih (min (k + 1) 2) (by omega) h.2 _)]
    rfl

/-- Every value is shown with the number of its set and its index in it, and the tracking data of every resource with its
values. -/
theorem C107_shown (first : List Item) (sets : List (List Item)) (h : ItemsOk 0 0 first) (hs : SetsOk 1 sets) :
    showValues 0 0 (first.map (·.read) ++ sets.flatMap (fun s => separator :: s.map (·.read))) =
      .ok (itemsShown 0 0 first ++ setsShown 1 sets) :=
  showValues_items 0 0 first h _ _ (showValues_sets 0 (by decide) sets hs _)

/-- Without debug output a file that cannot be read is a parse error. -/
theorem C107_errors_partial (data : Bytes) (fuel : Nat) (e : Err) (h : readFile false data fuel = some (.error e)) :
    e = .parseError := by
  unfold readFile readValues at h
  split at h
  · cases h
  · rename_i e' hx
    cases h
    exact readUntil_error _ (errors_refine _ _ (errors_sized _ _ _ (by decide))) _ _ _ _ _ _ hx
  · simp at h

def emptyTracking : List (Stored × Bytes) :=
  [(.text ("Magic.Version:1.2".toList.flatMap (fun c => [c.toNat.toUInt8, 0])), [0, 0, 0, 0]),
    (.text ("Magic.Version:1.2".toList.flatMap (fun c => [c.toNat.toUInt8, 0])), [0, 0, 0, 0]),
    (.int64 1, []), (.int64 2, []), (.int64 3, []), (.int64 4, []), (.data [], [])]

theorem emptyTracking_ok : ∀ v ∈ emptyTracking, StoredOk v := by
  have hu : Utf16 ("Magic.Version:1.2".toList.flatMap (fun c => [c.toNat.toUInt8, 0])) := by
    repeat first | exact .nil | refine .cons _ _ _ (by decide) ?_
  have ht : StoredOk (.text ("Magic.Version:1.2".toList.flatMap (fun c => [c.toNat.toUInt8, 0])), [0, 0, 0, 0]) :=
    ⟨⟨by decide, hu⟩, by decide, by decide⟩
  intro v hv
  simp only [emptyTracking, List.mem_cons, List.not_mem_nil, or_false] at hv
  rcases hv with rfl | rfl | rfl | rfl | rfl | rfl | rfl
  · exact ht
  · exact ht
  all_goals exact ⟨⟨by decide, by decide⟩, by decide, by decide⟩

theorem emptyTracking_debug (fuel : Nat) :
    readFile true (emptyTracking.flatMap storedBytes) (7 + fuel + 1) = some (.error .valueError) := by
  unfold readFile
  rw [show 7 + fuel + 1 = emptyTracking.length + fuel + 1 from rfl, C107_values emptyTracking emptyTracking_ok fuel]
  decide +kernel

/-- Tracking data of size 0 makes reading fail, but only with debug output. -/
theorem C107_debug_claim_false : ¬ C107_debug_claim := by
  intro h
  obtain ⟨xs, hx⟩ := h (emptyTracking.flatMap storedBytes) (7 + 0 + 1) (emptyTracking.map (·.1.value))
    (by unfold readFile; rw [show 7 + 0 + 1 = emptyTracking.length + 0 + 1 from rfl, C107_values emptyTracking emptyTracking_ok 0]; rfl)
  rw [emptyTracking_debug 0] at hx
  cases hx

theorem C107_errors_claim_false : ¬ C107_errors_claim := by
  intro h
  have := h true _ _ _ (emptyTracking_debug 0)
  cases this

def sampleTracked : Tracked := .int32 [75, 0] 7

theorem sampleTracked_ok : sampleTracked.Ok := ⟨.cons _ _ _ (by decide) .nil, by decide, by show 7 < 2 ^ 32; decide⟩

/-- Tracking data with a header of 24 bytes whose sizes do not count the size of the values. -/
def sampleTracking : Bytes :=
  [leBytes 4 1, leBytes 4 24, leBytes 4 16, leBytes 4 40, leBytes 4 0, [1, 2, 3, 4], leBytes 4 16].flatten ++
    [sampleTracked].flatMap (·.bytes')

theorem sampleTracking_ok : TrackingBytes [sampleTracked] sampleTracking :=
  .header 24 40 16 0 [1, 2, 3, 4] rfl (by decide) (by decide) (.inl (by decide))

/-- A file with a threat and two resources, of which the second has tracking data. -/
example : showValues 0 0 ([Item.value (.int 1)].map (·.read) ++
      [[Item.value (.text [65, 0])], [.value (.int 2)],
        [.value (.int 1), .value (.int 2), .value (.int 3), .value (.int 4), .tracking [sampleTracked] sampleTracking,
          .value (.filetime 6)]].flatMap (fun s => separator :: s.map (·.read))) =
    .ok ([.value 0 0 (.int 1), .value 1 0 separator, .value 1 1 (.text [65, 0]), .value 2 0 separator,
      .value 2 1 (.int 2), .value 2 0 separator, .value 2 1 (.int 1), .value 2 2 (.int 2), .value 2 3 (.int 3),
      .value 2 4 (.int 4), .tracking [sampleTracked], .value 2 6 (.filetime 6)]) :=
  C107_shown [.value (.int 1)] _ ⟨⟨by decide, by decide⟩, trivial⟩
    ⟨⟨⟨by decide, by decide⟩, trivial⟩, ⟨⟨by decide, by decide⟩, trivial⟩,
      ⟨⟨by decide, by decide⟩, ⟨by decide, by decide⟩, ⟨by decide, by decide⟩, ⟨by decide, by decide⟩,
        ⟨rfl, rfl, by intro t ht; rw [List.mem_singleton] at ht; rw [ht]; exact sampleTracked_ok, sampleTracking_ok⟩,
        ⟨by decide, by decide⟩, trivial⟩, trivial⟩

example : readValues (emptyTracking.flatMap storedBytes) 8 = some (.ok (emptyTracking.map (·.1.value))) :=
  C107_values emptyTracking emptyTracking_ok 0

end Dtf.Detection
