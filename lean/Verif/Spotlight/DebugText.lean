import Verif.Spotlight.Tables
import Verif.Scripts.LogText
import Verif.HexDump.Props
import Verif.Formats.Props

/-!
# The attributes of a Spotlight store in debug mode (C177)

The text that is written for an attribute.  The texts of floating-point values and of date and times are parameters.
-/

namespace Dtf.Spotlight.DebugText
open Py DataFormat Formats Spotlight

abbrev Str := List Char

/-! ## Model -/

/-- What is left to Python and dfdatetime: `f"{value:f}"` by the width and the bits of a floating-point value, comparisons with
7500000000.0 and 0, `CocoaTime.CopyToDateTimeString` and `str()` of a list of texts. -/
structure Env where
  float : Nat → Nat → Str
  below : Nat → Bool
  zero : Nat → Bool
  cocoa : Nat → Res (Option Str)
  list : List Str → Str

/-- The values of an array, `enumerate(metadata_attribute.value)`.  Simplified: a text is not taken apart. -/
def items : Val → Res (List Val)
  | .ints l => .ok (l.map .int)
  | .floats l => .ok (l.map .float)
  | .texts l => .ok (l.map .text)
  | _ => .error .typeError

/-- `_DebugPrintDecimalValue` (data_format.py 81-88).  Simplified: all other kinds of values raise a TypeError. -/
def decimal (description : Str) : Val → Res Str
  | .int n => .ok (formatValue description (dec n))
  | _ => .error .typeError

/-- A text that is passed to `_DebugPrintValue` (data_format.py 149-158). -/
def plain (env : Env) (description : Str) : Val → Res Str
  | .text s => .ok (formatValue description s)
  | .texts l => .ok (formatValue description (env.list l))
  | _ => .error .typeError

/-- `_FormatFloatingPoint` and `_DebugPrintValue`. -/
def floating (env : Env) (width : Nat) (description : Str) : Val → Res Str
  | .float bits => .ok (formatValue description (env.float width bits))
  | _ => .error .typeError

/-- `_DebugPrintData` (data_format.py 70-79). -/
def dumped (description : Str) : Val → Res Str
  | .data b => .ok (description ++ [':', '\n'] ++ HexDump.dump b)
  | _ => .error .typeError

/-- `_DebugPrintCocoaTimeValue` (spotlight_storedb.py 446-463): a value without text is formatted as hexadecimal, which
floating-point values cannot be. -/
def cocoa (env : Env) (description : Str) (bits : Nat) : Res Str :=
  if env.zero bits then .ok (formatValue description "Not set (0)".toList)
  else
    match env.cocoa bits with
    | .error e => .error e
    | .ok none => .error .valueError
    | .ok (some s) => .ok (formatValue description (s ++ " UTC".toList))

/-- A value of type 0x0c (lines 518-541), with the end of its description. -/
def dateTime (env : Env) (suffix : Str) : Val → Res Str
  | .float bits =>
    if env.below bits then cocoa env ("Date and time".toList ++ suffix) bits
    else floating env 8 ("Floating-point".toList ++ suffix) (.float bits)
  | _ => .error .typeError

def each (f : Str → Val → Res Str) : Nat → List Val → Res Str
  | _, [] => .ok []
  | index, v :: vs =>
    match f (": ".toList ++ dec index) v with
    | .error e => .error e
    | .ok line => (each f (index + 1) vs).map (line ++ ·)

/-- A value, or every value of an array with its index. -/
def oneOrEach (single : Bool) (f : Str → Val → Res Str) (v : Val) : Res Str :=
  if single then f [] v
  else
    match items v with
    | .error e => .error e
    | .ok vs => each f 0 vs

/-- `_DebugPrintMetadataAttribute` (spotlight_storedb.py 465-556), without the empty line at the end. -/
def body (env : Env) (a : Attr) : Res Str :=
  if a.key = "kMDStoreAccumulatedSizes" then dumped "Data".toList a.value
  else if a.valueType = 0x00 then
    match decimal "Integer".toList a.value with
    | .error e => .error e
    | .ok line =>
      .ok (line ++ formatValue "Boolean".toList (if a.value = .int 0 then "False".toList else "True".toList))
  else if a.valueType = 0x02 ∨ a.valueType = 0x06 then
    match a.value with
    | .int n => .ok (formatValue "Integer".toList ("0x".toList ++ hexw 8 n))
    | _ => .error .typeError
  else if a.valueType = 0x07 then
    oneOrEach (a.propertyType &&& 2 = 0) (fun s => decimal ("Integer".toList ++ s)) a.value
  else if a.valueType = 0x08 then oneOrEach (a.propertyType &&& 2 = 0) (fun s => decimal ("Byte".toList ++ s)) a.value
  else if a.valueType = 0x09 then
    oneOrEach (a.propertyType &&& 2 = 0) (fun s => floating env 4 ("Floating-point".toList ++ s)) a.value
  else if a.valueType = 0x0A then
    oneOrEach (a.propertyType &&& 2 = 0) (fun s => floating env 8 ("Floating-point".toList ++ s)) a.value
  else if a.valueType = 0x0B then
    oneOrEach (a.propertyType &&& 3 ≠ 2) (fun s => plain env ("String".toList ++ s)) a.value
  else if a.valueType = 0x0C then oneOrEach (a.propertyType &&& 2 = 0) (dateTime env) a.value
  else if a.valueType = 0x0E then dumped "Binary data".toList a.value
  else if a.valueType = 0x0F then
    if a.propertyType &&& 3 = 3 then plain env "Localized string".toList a.value
    else if a.propertyType &&& 3 = 2 then plain env "Values list".toList a.value
    else plain env "Value".toList a.value
  else .ok []

def debugAttribute (env : Env) (a : Attr) : Res Str := (body env a).map (· ++ ['\n'])

/-! ## Specification -/

/-- The floating-point values of a value. -/
def floatsOf : Val → List Nat
  | .float bits => [bits]
  | .floats l => l
  | _ => []

/-- A date and time that has a text. -/
def HasTime (env : Env) (bits : Nat) : Prop :=
  env.below bits = false ∨ env.zero bits = true ∨ ∃ s, env.cocoa bits = .ok (some s)

/-! ## Proofs -/

theorem each_ok (f : Str → Val → Res Str) (vs : List Val) (h : ∀ v ∈ vs, ∀ s, ∃ t, f s v = .ok t) (i : Nat) :
    ∃ t, each f i vs = .ok t := by
  induction vs generalizing i with
  | nil => exact ⟨_, rfl⟩
  | cons v vs ih =>
    obtain ⟨t, ht⟩ := h v List.mem_cons_self (": ".toList ++ dec i)
    obtain ⟨u, hu⟩ := ih (fun w hw => h w (List.mem_cons_of_mem _ hw)) (i + 1)
    refine ⟨t ++ u, ?_⟩
    unfold each
    rw [ht, hu]
    rfl

theorem each_lines (f : Str → Val → Res Str) (g : Str → Val → Str) (vs : List Val) (h : ∀ v ∈ vs, ∀ s, f s v = .ok (g s v)) (i : Nat) :
    each f i vs = .ok ((vs.mapIdx fun j v => g (": ".toList ++ dec (i + j)) v).flatten) := by
  induction vs generalizing i with
  | nil => rfl
  | cons v vs ih =>
    unfold each
    rw [h v List.mem_cons_self, ih (fun w hw => h w (List.mem_cons_of_mem _ hw))]
    simp only [Except.map, List.mapIdx_cons, List.flatten_cons, Nat.add_zero]
    congr 4
    funext j w
    rw [Nat.add_right_comm, Nat.add_assoc, Nat.add_comm j 1]

theorem oneOrEach_ok (single : Bool) (f : Str → Val → Res Str) (v : Val) (vs : List Val)
    (h : ∀ w ∈ vs, ∀ s, ∃ t, f s w = .ok t) (hv : if single then v ∈ vs else items v = .ok vs) :
    ∃ t, oneOrEach single f v = .ok t := by
  unfold oneOrEach
  cases single with
  | true => exact h v hv []
  | false =>
    rw [if_neg (by decide)] at hv ⊢
    rw [hv]
    exact each_ok f vs h 0

theorem map_ok {r : Res Str} {t : Str} (h : r = .ok t) : r.map (· ++ ['\n']) = .ok (t ++ ['\n']) := by
  rw [h]
  rfl

theorem decimal_ok (d : Str) (l : List Nat) : ∀ w ∈ l.map Val.int, ∀ s : Str, ∃ t, decimal (d ++ s) w = .ok t := by
  intro w hw s
  rw [List.mem_map] at hw
  obtain ⟨n, _, rfl⟩ := hw
  exact ⟨_, rfl⟩

theorem floating_ok (env : Env) (width : Nat) (d : Str) (l : List Nat) :
    ∀ w ∈ l.map Val.float, ∀ s : Str, ∃ t, floating env width (d ++ s) w = .ok t := by
  intro w hw s
  rw [List.mem_map] at hw
  obtain ⟨n, _, rfl⟩ := hw
  exact ⟨_, rfl⟩

theorem cocoa_ok (env : Env) (d : Str) (bits : Nat) (h : env.zero bits = true ∨ ∃ s, env.cocoa bits = .ok (some s)) :
    ∃ t, cocoa env d bits = .ok t := by
  unfold cocoa
  rcases h with h | ⟨s, h⟩
  · rw [if_pos h]
    exact ⟨_, rfl⟩
  · split
    · exact ⟨_, rfl⟩
    · rw [h]
      exact ⟨_, rfl⟩

theorem dateTime_ok (env : Env) (l : List Nat) (h : ∀ bits ∈ l, HasTime env bits) :
    ∀ w ∈ l.map Val.float, ∀ s : Str, ∃ t, dateTime env s w = .ok t := by
  intro w hw s
  rw [List.mem_map] at hw
  obtain ⟨n, hn, rfl⟩ := hw
  unfold dateTime
  dsimp only
  rcases h n hn with h | h
  · rw [if_neg (by rw [h]; decide)]
    exact ⟨_, rfl⟩
  · split
    · exact cocoa_ok env _ n h
    · exact ⟨_, rfl⟩

/-- The kinds of integers that are read. -/
theorem readIntValue_kind (p : Nat) (data : Bytes) (v : Val) (n : Nat) (h : readIntValue p data = .ok (v, n)) :
    if p &&& 2 = 0 then ∃ i, v = .int i else ∃ l, v = .ints l := by
  unfold readIntValue at h
  split at h <;> rename_i hp
  · rw [if_pos hp]
    split at h
    · cases h
    · cases h
      exact ⟨_, rfl⟩
  · rw [if_neg hp]
    split at h
    · cases h
    · split at h
      · cases h
      · cases h
      · cases h
        exact ⟨_, rfl⟩

theorem readByteValue_kind (p : Nat) (data : Bytes) (v : Val) (n : Nat) (h : readByteValue p data = .ok (v, n)) :
    if p &&& 2 = 0 then ∃ i, v = .int i else ∃ l, v = .ints l := by
  unfold readByteValue at h
  split at h <;> rename_i hp
  · rw [if_neg hp]
    split at h
    · cases h
    · split at h
      · cases h
      · cases h
        exact ⟨_, rfl⟩
  · rw [if_pos (by omega)]
    split at h
    · cases h
    · cases h
      exact ⟨_, rfl⟩

theorem readFloatValue_kind (w p : Nat) (data : Bytes) (v : Val) (n : Nat) (h : readFloatValue w p data = .ok (v, n)) :
    if p &&& 2 = 0 then ∃ i, v = .float i else ∃ l, v = .floats l := by
  unfold readFloatValue at h
  split at h <;> rename_i hp
  · rw [if_pos hp]
    split at h
    · cases h
    · cases h
      exact ⟨_, rfl⟩
  · rw [if_neg hp]
    split at h
    · cases h
    · split at h
      · cases h
      · cases h
        exact ⟨_, rfl⟩

theorem readStringValue_kind (decode : Bytes → Option Str) (p : Nat) (data : Bytes) (v : Val) (n : Nat)
    (h : readStringValue decode p data = .ok (v, n)) : if p &&& 3 = 2 then ∃ l, v = .texts l else ∃ s, v = .text s := by
  unfold readStringValue at h
  split at h
  · cases h
  · split at h
    · cases h
    · split at h
      · cases h
      · cases h
      · split at h <;> rename_i hp
        · rw [if_pos hp]
          cases h
          exact ⟨_, rfl⟩
        · rw [if_neg hp]
          split at h
          · cases h
          · cases h
            exact ⟨_, rfl⟩

theorem readReferenceValue_kind (t : Tables) (p : Nat) (data : Bytes) (v : Val) (n : Nat)
    (h : readReferenceValue t p data = .ok (v, n)) : (∃ l, v = .texts l) ∨ ∃ s, v = .text s := by
  unfold readReferenceValue at h
  split at h
  · cases h
  · split at h
    · split at h
      · cases h
        exact .inr ⟨_, rfl⟩
      · cases h
        exact .inr ⟨_, rfl⟩
    · split at h
      · cases h
        exact .inl ⟨_, rfl⟩
      · cases h
        exact .inr ⟨_, rfl⟩

theorem plain_ok (env : Env) (d : Str) (v : Val) (h : (∃ l, v = .texts l) ∨ ∃ s, v = .text s) :
    ∃ t, plain env d v = .ok t := by
  rcases h with ⟨l, rfl⟩ | ⟨s, rfl⟩ <;> exact ⟨_, rfl⟩

/-- C177.  Every attribute that is read is shown, whatever dfdatetime makes of a date and time. -/
def C177_shown_claim : Prop :=
  ∀ (env : Env) (decode : Bytes → Option Str) (tb : Tables) (t : MetaType) (data : Bytes) (a : Attr) (n : Nat),
    readAttribute (otherValue decode tb) (some t) data = .ok (some a, n) → ∃ text, debugAttribute env a = .ok text

/-- C177.  Every attribute that is read is shown.  Missing: a date and time without text, see `C177_time`. -/
theorem C177_shown_partial (env : Env) (decode : Bytes → Option Str) (tb : Tables) (t : MetaType) (data : Bytes) (a : Attr) (n : Nat)
    (h : readAttribute (otherValue decode tb) (some t) data = .ok (some a, n))
    (ht : a.valueType = 0x0C → ∀ bits ∈ floatsOf a.value, HasTime env bits) : ∃ text, debugAttribute env a = .ok text := by
  suffices hb : ∃ text, body env a = .ok text by
    obtain ⟨text, hb⟩ := hb
    exact ⟨_, map_ok hb⟩
  unfold readAttribute at h
  dsimp only at h
  generalize hr : (if t.keyName = "kMDStoreAccumulatedSizes" then (.ok (.data data, data.length) : Res (Val × Nat)) else _) = r at h
  cases r with
  | error e => cases h
  | ok x =>
    obtain ⟨v, m⟩ := x
    cases h
    unfold body
    dsimp only at ht ⊢
    by_cases hk : t.keyName = "kMDStoreAccumulatedSizes"
    · rw [if_pos hk] at hr ⊢
      cases hr
      exact ⟨_, rfl⟩
    rw [if_neg hk] at hr ⊢
    by_cases h0 : t.valueType = 0x00 ∨ t.valueType = 0x02 ∨ t.valueType = 0x06
    · rw [if_pos h0] at hr
      have hv : ∃ i, v = .int i := by
        split at hr
        · cases hr
        · cases hr
          exact ⟨_, rfl⟩
      obtain ⟨i, rfl⟩ := hv
      by_cases hz : t.valueType = 0x00
      · rw [if_pos hz]
        exact ⟨_, rfl⟩
      · rw [if_neg hz, if_pos (by omega)]
        exact ⟨_, rfl⟩
    rw [if_neg h0] at hr
    rw [if_neg (by omega), if_neg (by omega)]
    by_cases h7 : t.valueType = 0x07
    · rw [if_pos h7] at hr ⊢
      have := readIntValue_kind _ _ _ _ hr
      by_cases hp : t.propertyType &&& 2 = 0
      · rw [if_pos hp] at this
        obtain ⟨i, rfl⟩ := this
        exact oneOrEach_ok _ _ _ _ (decimal_ok _ [i]) (by simp [hp])
      · rw [if_neg hp] at this
        obtain ⟨l, rfl⟩ := this
        exact oneOrEach_ok _ _ _ _ (decimal_ok _ l) (by simp [hp, items])
    rw [if_neg h7] at hr ⊢
    by_cases h8 : t.valueType = 0x08
    · rw [if_pos h8] at hr ⊢
      have := readByteValue_kind _ _ _ _ hr
      by_cases hp : t.propertyType &&& 2 = 0
      · rw [if_pos hp] at this
        obtain ⟨i, rfl⟩ := this
        exact oneOrEach_ok _ _ _ _ (decimal_ok _ [i]) (by simp [hp])
      · rw [if_neg hp] at this
        obtain ⟨l, rfl⟩ := this
        exact oneOrEach_ok _ _ _ _ (decimal_ok _ l) (by simp [hp, items])
    rw [if_neg h8] at hr ⊢
    unfold otherValue at hr
    by_cases h9 : t.valueType = 0x09
    · rw [if_pos (.inl h9), if_pos h9] at hr
      rw [if_pos h9]
      have := readFloatValue_kind _ _ _ _ _ hr
      by_cases hp : t.propertyType &&& 2 = 0
      · rw [if_pos hp] at this
        obtain ⟨i, rfl⟩ := this
        exact oneOrEach_ok _ _ _ _ (floating_ok env 4 _ [i]) (by simp [hp])
      · rw [if_neg hp] at this
        obtain ⟨l, rfl⟩ := this
        exact oneOrEach_ok _ _ _ _ (floating_ok env 4 _ l) (by simp [hp, items])
    rw [if_neg h9]
    rw [if_neg h9] at hr
    by_cases hA : t.valueType = 0x0A
    · rw [if_pos (by omega), if_pos (.inl hA)] at hr
      rw [if_pos hA]
      have := readFloatValue_kind _ _ _ _ _ hr
      by_cases hp : t.propertyType &&& 2 = 0
      · rw [if_pos hp] at this
        obtain ⟨i, rfl⟩ := this
        exact oneOrEach_ok _ _ _ _ (floating_ok env 8 _ [i]) (by simp [hp])
      · rw [if_neg hp] at this
        obtain ⟨l, rfl⟩ := this
        exact oneOrEach_ok _ _ _ _ (floating_ok env 8 _ l) (by simp [hp, items])
    rw [if_neg hA]
    by_cases hB : t.valueType = 0x0B
    · rw [if_pos (by omega), if_neg (by omega), if_pos hB] at hr
      rw [if_pos hB]
      have := readStringValue_kind _ _ _ _ _ hr
      by_cases hp : t.propertyType &&& 3 = 2
      · rw [if_pos hp] at this
        obtain ⟨l, rfl⟩ := this
        refine oneOrEach_ok _ _ _ (l.map .text) (fun w hw s => ?_) (by simp [hp, items])
        rw [List.mem_map] at hw
        obtain ⟨x, _, rfl⟩ := hw
        exact ⟨_, rfl⟩
      · rw [if_neg hp] at this
        obtain ⟨s, rfl⟩ := this
        refine oneOrEach_ok _ _ _ [.text s] (fun w hw s => ?_) (by simp [hp])
        rw [List.mem_singleton] at hw
        subst hw
        exact ⟨_, rfl⟩
    rw [if_neg hB]
    by_cases hC : t.valueType = 0x0C
    · rw [if_pos (by omega), if_pos (.inr hC)] at hr
      rw [if_pos hC]
      have := readFloatValue_kind _ _ _ _ _ hr
      by_cases hp : t.propertyType &&& 2 = 0
      · rw [if_pos hp] at this
        obtain ⟨i, rfl⟩ := this
        exact oneOrEach_ok _ _ _ _ (dateTime_ok env [i] (ht hC)) (by simp [hp])
      · rw [if_neg hp] at this
        obtain ⟨l, rfl⟩ := this
        exact oneOrEach_ok _ _ _ _ (dateTime_ok env l (ht hC)) (by simp [hp, items])
    rw [if_neg hC]
    by_cases hE : t.valueType = 0x0E
    · rw [if_neg (by omega), if_pos hE] at hr
      rw [if_pos hE]
      split at hr
      · cases hr
      · cases hr
        exact ⟨_, rfl⟩
    rw [if_neg hE]
    by_cases hF : t.valueType = 0x0F
    · rw [if_neg (by omega), if_neg hE, if_pos hF, if_neg (by omega), if_neg hB] at hr
      rw [if_pos hF]
      have := readReferenceValue_kind _ _ _ _ _ hr
      split
      · exact plain_ok env _ _ this
      · split
        · exact plain_ok env _ _ this
        · exact plain_ok env _ _ this
    · rw [if_neg hF]
      exact ⟨_, rfl⟩

/-- C177.  A date and time for which there is no text raises a ValueError. -/
theorem C177_time (env : Env) (key : String) (p bits : Nat) (hk : key ≠ "kMDStoreAccumulatedSizes") (hp : p &&& 2 = 0)
    (hb : env.below bits = true) (hz : env.zero bits = false) (hc : env.cocoa bits = .ok none) :
    debugAttribute env ⟨key, 0x0C, p, .float bits⟩ = .error .valueError := by
  unfold debugAttribute body
  simp only [if_neg hk]
  simp [oneOrEach, hp, dateTime, hb, cocoa, hz, hc, Except.map]

/-- What is left to Python, with no text for any date and time. -/
def someEnv : Env := ⟨fun _ n => dec n, fun _ => true, fun n => n = 0, fun _ => .ok none, fun l => l.flatten⟩

/-- A date and time, a floating-point value of eight bytes. -/
theorem timeRead (decode : Bytes → Option Str) (tb : Tables) :
    readAttribute (otherValue decode tb) (some ⟨"kMDItemFSCreationDate", 0x0C, 0⟩) (leBytes 8 0x41B0000000000000) =
      .ok (some ⟨"kMDItemFSCreationDate", 0x0C, 0, .float 0x41B0000000000000⟩, 8) := by
  have h := C140_float decode tb ⟨"kMDItemFSCreationDate", 0x0C, 0⟩ 8 0x41B0000000000000 [] (by decide) (.inr ⟨.inr rfl, rfl⟩) rfl
    (by decide)
  rw [List.append_nil] at h
  exact h

theorem C177_shown_claim_false : ¬ C177_shown_claim := by
  intro h
  obtain ⟨text, e⟩ := h someEnv (fun _ => none) ⟨[], [], [], []⟩ _ _ _ _ (timeRead _ _)
  rw [C177_time someEnv _ 0 0x41B0000000000000 (by decide) rfl rfl rfl rfl] at e
  cases e

/-! ## What is shown -/

theorem mapIdx_of_map {α β γ : Type} (f : α → β) (g : Nat → β → γ) (l : List α) :
    (l.map f).mapIdx g = l.mapIdx fun i a => g i (f a) := by
  refine List.ext_getElem? fun i => ?_
  simp only [List.getElem?_mapIdx, List.getElem?_map, Option.map_map]
  rfl

/-- C177.  The text of a list of integers or bytes has one line for every value, with its index. -/
theorem C177_list (env : Env) (key : String) (vt p : Nat) (l : List Nat) (hk : key ≠ "kMDStoreAccumulatedSizes")
    (hp : p &&& 2 ≠ 0) (hv : vt = 7 ∨ vt = 8) :
    debugAttribute env ⟨key, vt, p, .ints l⟩ = .ok ((l.mapIdx fun i n =>
      formatValue ((if vt = 7 then "Integer: ".toList else "Byte: ".toList) ++ dec i) (dec n)).flatten ++ ['\n']) := by
  have key : ∀ d : Str, oneOrEach (decide (p &&& 2 = 0)) (fun s => decimal (d ++ s)) (.ints l) =
      .ok ((l.mapIdx fun i n => formatValue (d ++ (": ".toList ++ dec i)) (dec n)).flatten) := by
    intro d
    unfold oneOrEach
    rw [if_neg (by simpa using hp)]
    unfold items
    dsimp only
    rw [each_lines _ (fun s v => match v with
      | .int n => formatValue (d ++ s) (dec n)
      | _ => []) _ (fun v hv s => ?_)]
    · rw [mapIdx_of_map]
      simp only [Nat.zero_add]
    · rw [List.mem_map] at hv
      obtain ⟨n, _, rfl⟩ := hv
      rfl
  unfold debugAttribute body
  dsimp only
  rw [if_neg hk]
  rcases hv with rfl | rfl
  · rw [if_neg (by decide), if_neg (by decide), if_pos rfl, key]
    rfl
  · rw [if_neg (by decide), if_neg (by decide), if_neg (by decide), if_pos rfl, key]
    rfl

theorem first_line {a b x y : Str} (ha : '\n' ∉ a) (hb : '\n' ∉ b) (h : a ++ '\n' :: x = b ++ '\n' :: y) : a = b := by
  induction a generalizing b with
  | nil =>
    cases b with
    | nil => rfl
    | cons c b =>
      simp only [List.nil_append, List.cons_append, List.cons.injEq] at h
      exact absurd (h.1 ▸ List.mem_cons_self) hb
  | cons c a ih =>
    cases b with
    | nil =>
      simp only [List.nil_append, List.cons_append, List.cons.injEq] at h
      exact absurd (h.1 ▸ List.mem_cons_self) ha
    | cons d b =>
      simp only [List.cons_append, List.cons.injEq] at h
      rw [h.1, ih (fun hc => ha (List.mem_cons_of_mem _ hc)) (fun hc => hb (List.mem_cons_of_mem _ hc)) h.2]

theorem dec_line (n : Nat) : '\n' ∉ dec n := dec_notMem n '\n' (by decide)

theorem hexw_line (w n : Nat) : '\n' ∉ hexw w n := hexw_notMem w n '\n' (by decide)

theorem line_notMem (d t : Str) (hd : '\n' ∉ d) (ht : '\n' ∉ t) : '\n' ∉ d ++ tabs d ++ [':', ' '] ++ t := by
  unfold tabs
  simp only [List.mem_append, List.mem_cons, List.mem_replicate, List.not_mem_nil, or_false, not_or]
  exact ⟨⟨⟨hd, fun h => absurd h.2 (by decide)⟩, by decide, by decide⟩, ht⟩

/-- The first line of two texts. -/
theorem value_line (d t u x y : Str) (hd : '\n' ∉ d) (ht : '\n' ∉ t) (hu : '\n' ∉ u)
    (h : formatValue d t ++ x = formatValue d u ++ y) : t = u := by
  unfold formatValue at h
  rw [List.append_assoc, List.append_assoc (_ ++ u)] at h
  exact List.append_cancel_left (first_line (line_notMem d t hd ht) (line_notMem d u hd hu) h)

theorem body_ok {r : Res Str} {text : Str} (h : r.map (· ++ ['\n']) = .ok text) : ∃ t, r = .ok t ∧ text = t ++ ['\n'] := by
  cases r with
  | error e => cases h
  | ok t =>
    cases h
    exact ⟨t, rfl, rfl⟩

theorem dumped_injective (d : Str) (v w : Val) (t : Str) (h1 : dumped d v = .ok t) (h2 : dumped d w = .ok t) : v = w := by
  unfold dumped at h1 h2
  split at h1
  · cases h1
    split at h2
    · rename_i b _ c
      have e : HexDump.dump c = HexDump.dump b := List.append_cancel_left (Except.ok.inj h2)
      have hb := HexDump.C08_dump_is_lossless b
      rw [← e, HexDump.C08_dump_is_lossless c] at hb
      rw [Option.some.inj hb]
    · cases h2
  · cases h1

theorem decimal_int (d : Str) (v : Val) (t : Str) (h : decimal d v = .ok t) : ∃ n, v = .int n ∧ t = formatValue d (dec n) := by
  unfold decimal at h
  split at h
  · cases h
    exact ⟨_, rfl, rfl⟩
  · cases h

theorem decimal_injective (d : Str) (hd : '\n' ∉ d) (v w : Val) (t u x y : Str) (h1 : decimal d v = .ok t) (h2 : decimal d w = .ok u)
    (h : t ++ x = u ++ y) : v = w := by
  obtain ⟨m, rfl, rfl⟩ := decimal_int d v t h1
  obtain ⟨n, rfl, rfl⟩ := decimal_int d w u h2
  rw [dec_injective _ _ (value_line d _ _ _ _ hd (dec_line m) (dec_line n) h)]

/-- The decimals of arrays. -/
theorem each_injective (d : Str) (hd : '\n' ∉ d) (i : Nat) (vs ws : List Val) (t : Str)
    (h1 : each (fun s => decimal (d ++ s)) i vs = .ok t) (h2 : each (fun s => decimal (d ++ s)) i ws = .ok t) : vs = ws := by
  have hn : ∀ i, '\n' ∉ d ++ (": ".toList ++ dec i) := by
    intro i hm
    rcases List.mem_append.mp hm with h | h
    · exact hd h
    · rcases List.mem_append.mp h with h | h
      · exact absurd h (by decide)
      · exact dec_line i h
  induction vs generalizing i ws t with
  | nil =>
    cases h1
    cases ws with
    | nil => rfl
    | cons w ws =>
      unfold each at h2
      cases hw : decimal (d ++ (": ".toList ++ dec i)) w with
      | error e =>
        rw [hw] at h2
        cases h2
      | ok u =>
        rw [hw] at h2
        obtain ⟨n, rfl, rfl⟩ := decimal_int _ _ _ hw
        cases hr : each (fun s => decimal (d ++ s)) (i + 1) ws with
        | error e =>
          rw [hr] at h2
          cases h2
        | ok r =>
          rw [hr] at h2
          have := congrArg List.length (Except.ok.inj h2)
          simp [formatValue] at this
  | cons v vs ih =>
    unfold each at h1
    cases hv : decimal (d ++ (": ".toList ++ dec i)) v with
    | error e =>
      rw [hv] at h1
      cases h1
    | ok u =>
      rw [hv] at h1
      cases hr : each (fun s => decimal (d ++ s)) (i + 1) vs with
      | error e =>
        rw [hr] at h1
        cases h1
      | ok r =>
        rw [hr] at h1
        have h1 : u ++ r = t := Except.ok.inj h1
        cases ws with
        | nil =>
          cases h2
          obtain ⟨n, rfl, rfl⟩ := decimal_int _ _ _ hv
          have := congrArg List.length h1
          simp [formatValue] at this
        | cons w ws =>
          unfold each at h2
          cases hw : decimal (d ++ (": ".toList ++ dec i)) w with
          | error e =>
            rw [hw] at h2
            cases h2
          | ok u' =>
            rw [hw] at h2
            cases hr' : each (fun s => decimal (d ++ s)) (i + 1) ws with
            | error e =>
              rw [hr'] at h2
              cases h2
            | ok r' =>
              rw [hr'] at h2
              have h2 : u' ++ r' = t := Except.ok.inj h2
              have e : v = w := decimal_injective _ (hn i) v w u u' r r' hv hw (h1.trans h2.symm)
              subst e
              rw [hv] at hw
              cases hw
              rw [← h1] at h2
              have := List.append_cancel_left h2
              subst this
              rw [ih (i + 1) ws _ hr hr']

theorem decimals_injective (d : Str) (hd : '\n' ∉ d) (single : Bool) (v w : Val) (t : Str)
    (h1 : oneOrEach single (fun s => decimal (d ++ s)) v = .ok t) (h2 : oneOrEach single (fun s => decimal (d ++ s)) w = .ok t)
    (hv : single = false → ∃ l, v = .ints l) (hw : single = false → ∃ l, w = .ints l) : v = w := by
  unfold oneOrEach at h1 h2
  cases single with
  | true => exact decimal_injective (d ++ []) (by simpa using hd) v w t t [] [] h1 h2 rfl
  | false =>
    rw [if_neg (by decide)] at h1 h2
    obtain ⟨l, rfl⟩ := hv rfl
    obtain ⟨m, rfl⟩ := hw rfl
    have e := each_injective d hd 0 (l.map .int) (m.map .int) t h1 h2
    rw [List.map_inj_right fun _ _ h => Val.int.inj h] at e
    rw [e]

/-- The value of an attribute that is read. -/
theorem read_attr (other : Nat → Nat → Bytes → Res (Val × Nat)) (t : MetaType) (data : Bytes) (a : Attr) (n : Nat)
    (h : readAttribute other (some t) data = .ok (some a, n)) : a = ⟨t.keyName, t.valueType, t.propertyType, a.value⟩ := by
  unfold readAttribute at h
  dsimp only at h
  split at h
  · cases h
  · cases h
    rfl

theorem read_lists (other : Nat → Nat → Bytes → Res (Val × Nat)) (t : MetaType) (data : Bytes) (a : Attr) (n : Nat)
    (hk : t.keyName ≠ "kMDStoreAccumulatedSizes") (hv : t.valueType = 7 ∨ t.valueType = 8) (hp : t.propertyType &&& 2 ≠ 0)
    (h : readAttribute other (some t) data = .ok (some a, n)) : ∃ l, a.value = .ints l := by
  unfold readAttribute at h
  dsimp only at h
  rw [if_neg hk, if_neg (by omega)] at h
  by_cases h7 : t.valueType = 7
  · rw [if_pos h7] at h
    cases hr : readIntValue t.propertyType data with
    | error e =>
      rw [hr] at h
      cases h
    | ok x =>
      rw [hr] at h
      cases h
      have := readIntValue_kind _ _ x.1 x.2 hr
      rw [if_neg hp] at this
      exact this
  · rw [if_neg h7, if_pos (by omega)] at h
    cases hr : readByteValue t.propertyType data with
    | error e =>
      rw [hr] at h
      cases h
    | ok x =>
      rw [hr] at h
      cases h
      have := readByteValue_kind _ _ x.1 x.2 hr
      rw [if_neg hp] at this
      exact this

/-- C177.  Attributes of integers, bytes or data that are read with the same type and shown with the same text are the same. -/
theorem C177_seen (env : Env) (other : Nat → Nat → Bytes → Res (Val × Nat)) (t : MetaType) (data data' : Bytes) (a b : Attr) (m n : Nat)
    (ha : readAttribute other (some t) data = .ok (some a, m)) (hb : readAttribute other (some t) data' = .ok (some b, n))
    (ht : t.keyName = "kMDStoreAccumulatedSizes" ∨ t.valueType ∈ [0, 2, 6, 7, 8, 0xE]) (text : Str)
    (h1 : debugAttribute env a = .ok text) (h2 : debugAttribute env b = .ok text) : a = b := by
  suffices hv : a.value = b.value by
    rw [read_attr _ _ _ _ _ ha, read_attr _ _ _ _ _ hb, hv]
  have la := read_lists other t data a m
  have lb := read_lists other t data' b n
  rw [read_attr _ _ _ _ _ ha] at h1
  rw [read_attr _ _ _ _ _ hb] at h2
  replace ⟨x, h1, hx⟩ := body_ok h1
  replace ⟨y, h2, hy⟩ := body_ok h2
  have hxy : y = x := List.append_cancel_right (hy.symm.trans hx)
  rw [hxy] at h2
  unfold body at h1 h2
  dsimp only at h1 h2
  by_cases hk : t.keyName = "kMDStoreAccumulatedSizes"
  · rw [if_pos hk] at h1 h2
    exact dumped_injective _ _ _ _ h1 h2
  rw [if_neg hk] at h1 h2
  have ht := ht.resolve_left hk
  simp only [List.mem_cons, List.not_mem_nil, or_false] at ht
  by_cases h0 : t.valueType = 0
  · rw [if_pos h0] at h1 h2
    cases e1 : decimal "Integer".toList a.value with
    | error e =>
      rw [e1] at h1
      cases h1
    | ok u =>
      cases e2 : decimal "Integer".toList b.value with
      | error e =>
        rw [e2] at h2
        cases h2
      | ok w =>
        rw [e1] at h1
        rw [e2] at h2
        exact decimal_injective _ (by decide) _ _ _ _ _ _ e1 e2 ((Except.ok.inj h1).trans (Except.ok.inj h2).symm)
  rw [if_neg h0] at h1 h2
  by_cases h26 : t.valueType = 2 ∨ t.valueType = 6
  · rw [if_pos h26] at h1 h2
    split at h1
    · rename_i i hi
      split at h2
      · rename_i j hj
        have e := (Except.ok.inj h1).trans (Except.ok.inj h2).symm
        have hl : ∀ n, '\n' ∉ "0x".toList ++ hexw 8 n := by
          intro n hm
          rcases List.mem_append.mp hm with h | h
          · exact absurd h (by decide)
          · exact hexw_line 8 n h
        have := value_line "Integer".toList _ _ [] [] (by decide) (hl i) (hl j) (by rw [e])
        rw [hi, hj, hexw_injective 8 _ _ (List.append_cancel_left this)]
      · cases h2
    · cases h1
  rw [if_neg h26] at h1 h2
  by_cases h7 : t.valueType = 7
  · rw [if_pos h7] at h1 h2
    exact decimals_injective _ (by decide) _ _ _ _ h1 h2 (fun hs => la hk (.inl h7) (by simpa using hs) ha)
      (fun hs => lb hk (.inl h7) (by simpa using hs) hb)
  rw [if_neg h7] at h1 h2
  by_cases h8 : t.valueType = 8
  · rw [if_pos h8] at h1 h2
    exact decimals_injective _ (by decide) _ _ _ _ h1 h2 (fun hs => la hk (.inr h8) (by simpa using hs) ha)
      (fun hs => lb hk (.inr h8) (by simpa using hs) hb)
  rw [if_neg h8, if_neg (by omega), if_neg (by omega), if_neg (by omega), if_neg (by omega), if_pos (by omega)] at h1 h2
  exact dumped_injective _ _ _ _ h1 h2

/-- C177.  Nothing is shown of attributes of the other types. -/
theorem C177_unknown (env : Env) (other : Nat → Nat → Bytes → Res (Val × Nat)) (t : MetaType) (data : Bytes) (a : Attr) (n : Nat)
    (h : readAttribute other (some t) data = .ok (some a, n)) (hk : t.keyName ≠ "kMDStoreAccumulatedSizes")
    (ht : t.valueType ∈ [1, 3, 4, 5, 0xD] ∨ 0xF < t.valueType) :
    n = 0 ∧ debugAttribute env a = .ok ['\n'] := by
  have ht : t.valueType = 1 ∨ t.valueType = 3 ∨ t.valueType = 4 ∨ t.valueType = 5 ∨ t.valueType = 0xD ∨ 0xF < t.valueType := by
    rcases ht with h | h
    · simp only [List.mem_cons, List.not_mem_nil, or_false] at h
      omega
    · omega
  constructor
  · unfold readAttribute at h
    dsimp only at h
    rw [if_neg hk, if_neg (by omega), if_neg (by omega), if_neg (by omega), if_neg (by omega), if_neg (by omega),
      if_neg (by omega)] at h
    cases h
    rfl
  · rw [read_attr _ _ _ _ _ h]
    unfold debugAttribute body
    dsimp only
    rw [if_neg hk, if_neg (by omega), if_neg (by omega), if_neg (by omega), if_neg (by omega), if_neg (by omega),
      if_neg (by omega), if_neg (by omega), if_neg (by omega), if_neg (by omega), if_neg (by omega)]
    rfl

/-- An attribute of three bytes. -/
example : readAttribute (otherValue (fun _ => none) ⟨[], [], [], []⟩) (some ⟨"k", 8, 2⟩) [3, 7, 8, 9] =
    .ok (some ⟨"k", 8, 2, .ints [7, 8, 9]⟩, 4) := by rfl

example : debugAttribute someEnv ⟨"k", 8, 2, .ints [7, 8]⟩ =
    .ok ("Byte: 0\t\t\t\t\t\t\t\t\t: 7\nByte: 1\t\t\t\t\t\t\t\t\t: 8\n\n".toList) := by rfl

/-- An attribute of which nothing is shown. -/
example : readAttribute (otherValue (fun _ => none) ⟨[], [], [], []⟩) (some ⟨"k", 3, 0⟩) [3] = .ok (some ⟨"k", 3, 0, .absent⟩, 0) := by
  rfl

end Dtf.Spotlight.DebugText
