import Verif.Unified.Points

/-!
# References, data items, backtraces and values of trace points (C116, C118, C119, C120)
-/

namespace Dtf.Unified
open Py Formats Text DataFormat

/-! ## Model: references and program counters -/

/-- `_CalculateFormatStringReference` (unified_logging.py 2689-2718).  A member that is not there and a member that
is zero have the same effect. -/
def formatReference (p : Place) (reference : Nat) : Nat × Bool :=
  let dynamic := decide (reference &&& 0x80000000 ≠ 0)
  let reference := if dynamic then reference &&& 0x7FFFFFFF else reference
  let reference :=
    if p.largeShared.getD 0 ≠ 0 then reference ||| (p.largeShared.getD 0 <<< 31)
    else if p.largeOffset.getD 0 ≠ 0 then reference ||| (p.largeOffset.getD 0 <<< 31)
    else reference
  (reference, dynamic)

/-- `_CalculateNameStringReference` (unified_logging.py 2720-2748). -/
def nameReference (lower upper : Option Nat) : Nat × Bool :=
  let reference := lower.getD 0
  let dynamic := decide (reference &&& 0x80000000 ≠ 0)
  let reference := if dynamic then reference &&& 0x7FFFFFFF else reference
  let reference := if upper.getD 0 ≠ 0 then reference ||| (upper.getD 0 <<< 31) else reference
  (reference, dynamic)

/-- The load address of `_CalculateProgramCounter` (unified_logging.py 2760-2776). -/
def loadAddress (p : Place) : Nat :=
  let address := (p.upper.getD 0 <<< 32) ||| p.lower
  if p.largeShared.getD 0 ≠ 0 then
    if p.largeOffset.getD 0 ≠ 0 ∧ p.largeOffset.getD 0 ≠ p.largeShared.getD 0 >>> 1 then
      address ||| (p.largeOffset.getD 0 <<< 32)
    else address ||| (p.largeShared.getD 0 <<< 31)
  else if p.largeOffset.getD 0 ≠ 0 then address ||| (p.largeOffset.getD 0 <<< 31)
  else address

/-- `_CalculateProgramCounter` (unified_logging.py 2750-2792). -/
def programCounter (p : Place) (text : Nat) : Int := (loadAddress p : Int) - text

/-! ## Specification: references and program counters -/

/-- The part of a reference after its lower 31 bits (documentation, section on string references): the large shared
cache data if there is some, else the large offset data. -/
def highPart (p : Place) : Nat :=
  match p.largeShared, p.largeOffset with
  | some 0, some o => o
  | some 0, none => 0
  | some s, _ => s
  | none, some o => o
  | none, none => 0

/-- The claim of C116 about the load address of a trace point without large shared cache data: the one of the
documentation (section on invalid bounds for uuidtext files) is the load address of the UUID entry. -/
def C116_load_claim : Prop := ∀ p : Place, p.lower < 2 ^ 32 → p.largeShared = none → p.upper = none →
  loadAddress p = p.lower

/-- The claim of C116: trace points that only differ in the lower part of the load address have different program
counters. -/
def C116_distinct_claim : Prop := ∀ (p q : Place) (text : Nat), p.lower < 2 ^ 32 → q.lower < 2 ^ 32 →
  q = { p with lower := q.lower } → programCounter p text = programCounter q text → p.lower = q.lower

/-- The claim of C116: a program counter is not negative. -/
def C116_negative_claim : Prop := ∀ (p : Place) (text : Nat), 0 ≤ programCounter p text

/-! ## Proofs: references and program counters -/

theorem or_shift (x y n : Nat) (h : x < 2 ^ n) : x ||| (y <<< n) = y * 2 ^ n + x := by
  rw [Nat.or_comm, ← Nat.shiftLeft_add_eq_or_of_lt h, Nat.shiftLeft_eq]

theorem dynamic_bit (r : Nat) (h : r < 2 ^ 32) : decide (r &&& 0x80000000 ≠ 0) = decide (2 ^ 31 ≤ r) := by
  rw [show decide (r &&& 0x80000000 ≠ 0) = _ from flag_bit r 31, testBit_div]
  congr 1
  apply propext
  omega

theorem lower_bits (r : Nat) (h : r < 2 ^ 32) :
    (if decide (r &&& 0x80000000 ≠ 0) = true then r &&& 0x7FFFFFFF else r) = r % 2 ^ 31 := by
  rw [dynamic_bit r h]
  by_cases hr : 2 ^ 31 ≤ r
  · rw [if_pos (decide_eq_true hr)]
    exact Nat.and_two_pow_sub_one_eq_mod r 31
  · rw [if_neg (by simpa using hr), Nat.mod_eq_of_lt (Nat.lt_of_not_le hr)]

theorem high_part (p : Place) (x : Nat) (hx : x < 2 ^ 31) :
    (if p.largeShared.getD 0 ≠ 0 then x ||| (p.largeShared.getD 0 <<< 31)
      else if p.largeOffset.getD 0 ≠ 0 then x ||| (p.largeOffset.getD 0 <<< 31) else x) = highPart p * 2 ^ 31 + x := by
  unfold highPart
  cases hs : p.largeShared with
  | none =>
    cases ho : p.largeOffset with
    | none => simp
    | some o =>
      by_cases h0 : o = 0
      · simp [h0]
      · simp [h0, or_shift x o 31 hx]
  | some s =>
    by_cases h0 : s = 0
    · cases ho : p.largeOffset with
      | none => simp [h0]
      | some o =>
        by_cases h1 : o = 0
        · simp [h0, h1]
        · simp [h0, h1, or_shift x o 31 hx]
    · cases s with
      | zero => exact absurd rfl h0
      | succ s => simp [or_shift x (s + 1) 31 hx]

/-- **C116**: the reference of a format string is as documented: the lower 31 bits of the reference that is stored
and the large data before it; the highest bit says that it is dynamic. -/
theorem C116_format (p : Place) (r : Nat) (h : r < 2 ^ 32) :
    formatReference p r = (highPart p * 2 ^ 31 + r % 2 ^ 31, decide (2 ^ 31 ≤ r)) := by
  unfold formatReference
  simp only
  rw [lower_bits r h, high_part p _ (Nat.mod_lt _ (by decide)), dynamic_bit r h]

/-- **C116**: a reference determines what was stored. -/
theorem C116_format_injective (p q : Place) (r s : Nat) (hr : r < 2 ^ 32) (hs : s < 2 ^ 32)
    (h : formatReference p r = formatReference q s) : r = s ∧ highPart p = highPart q := by
  rw [C116_format p r hr, C116_format q s hs, Prod.mk.injEq] at h
  obtain ⟨h1, h2⟩ := h
  have h3 : (2 ^ 31 ≤ r ↔ 2 ^ 31 ≤ s) := by simpa using h2
  omega

/-- **C116**: the reference of the name of a signpost is as documented. -/
theorem C116_name (lower : Nat) (upper : Option Nat) (h : lower < 2 ^ 32) :
    nameReference (some lower) upper = (upper.getD 0 * 2 ^ 31 + lower % 2 ^ 31, decide (2 ^ 31 ≤ lower)) := by
  unfold nameReference
  simp only [Option.getD_some]
  rw [lower_bits lower h, dynamic_bit lower h]
  by_cases hu : upper.getD 0 = 0
  · simp [hu]
  · rw [if_pos hu, or_shift _ _ 31 (Nat.mod_lt _ (by decide))]

/-- **C116**: without a name there is no reference. -/
theorem C116_no_name : nameReference none none = (0, false) := by decide

theorem address_base (p : Place) (h : p.lower < 2 ^ 32) :
    (p.upper.getD 0 <<< 32) ||| p.lower = p.upper.getD 0 * 2 ^ 32 + p.lower := by
  rw [Nat.or_comm, or_shift _ _ 32 h]

/-- **C116**: the program counter of a trace point without large data. -/
theorem C116_counter (p : Place) (text : Nat) (h : p.lower < 2 ^ 32) (h1 : highPart p = 0) :
    programCounter p text = (p.upper.getD 0 * 2 ^ 32 + p.lower : Nat) - (text : Int) := by
  have hs : p.largeShared.getD 0 = 0 ∧ p.largeOffset.getD 0 = 0 := by
    unfold highPart at h1
    cases hs : p.largeShared with
    | none =>
      cases ho : p.largeOffset with
      | none => simp
      | some o => simpa [hs, ho] using h1
    | some s =>
      cases s with
      | zero =>
        cases ho : p.largeOffset with
        | none => simp
        | some o => simpa [hs, ho] using h1
      | succ s => simp [hs] at h1
  unfold programCounter loadAddress
  simp only
  rw [if_neg (by simp [hs.1]), if_neg (by simp [hs.2]), address_base p h]

/-- **C116**: the program counter of a large shared cache, if the large offset data is not the half of the large
shared cache data: as documented (section on invalid shared cache code pointer offsets). -/
theorem C116_counter_offset (p : Place) (s o text : Nat) (h : p.lower < 2 ^ 32) (hu : p.upper = none)
    (hs : p.largeShared = some s) (ho : p.largeOffset = some o) (h1 : s ≠ 0) (h2 : o ≠ 0) (h3 : o ≠ s / 2) :
    programCounter p text = (o * 2 ^ 32 + p.lower : Nat) - (text : Int) := by
  unfold programCounter loadAddress
  have e : s >>> 1 = s / 2 := Nat.shiftRight_eq_div_pow s 1
  simp only [hs, ho, hu, Option.getD_some, Option.getD_none, Nat.zero_shiftLeft, Nat.zero_or, e]
  rw [if_pos h1, if_pos ⟨h2, h3⟩, or_shift _ _ 32 h]

/-- **C116**: the program counter of a large shared cache otherwise, if its data is even: the half of it before
the lower part. -/
theorem C116_counter_shared (p : Place) (s text : Nat) (h : p.lower < 2 ^ 32) (hu : p.upper = none)
    (hs : p.largeShared = some (2 * s)) (h1 : s ≠ 0) (ho : p.largeOffset = none ∨ p.largeOffset = some s) :
    programCounter p text = (s * 2 ^ 32 + p.lower : Nat) - (text : Int) := by
  unfold programCounter loadAddress
  have e : (2 * s) >>> 1 = s := by
    rw [Nat.shiftRight_eq_div_pow]
    omega
  have e2 : (2 * s) <<< 31 = s <<< 32 := by
    rw [Nat.shiftLeft_eq, Nat.shiftLeft_eq]
    omega
  simp only [hs, hu, Option.getD_some, Option.getD_none, Nat.zero_shiftLeft, Nat.zero_or, e, e2]
  rw [if_pos (by omega)]
  rcases ho with ho | ho
  · rw [ho, if_neg (by simp), or_shift _ _ 32 h]
  · rw [ho, if_neg (by simp), or_shift _ _ 32 h]

/-- **C116** is false: the load address of the trace point of the documentation is another one. -/
theorem C116_load_claim_false : ¬ C116_load_claim := by
  intro h
  exact absurd (h ⟨0x000744dd, some 0xff97, none, none, none⟩ (by decide) rfl rfl) (by decide)

/-- **C116** is false: the highest bit of the lower part is lost if the large shared cache data is odd. -/
theorem C116_distinct_claim_false : ¬ C116_distinct_claim := by
  intro h
  exact absurd (h ⟨0, none, none, none, some 1⟩ ⟨0x80000000, none, none, none, some 1⟩ 0 (by decide) (by decide) rfl
    (by decide)) (by decide)

/-- **C116** (partial): lower parts of less than 31 bits are not lost. -/
theorem C116_distinct_partial (p q : Place) (text : Nat) (hp : p.lower < 2 ^ 31) (hq : q.lower < 2 ^ 31)
    (h : q = { p with lower := q.lower }) (he : programCounter p text = programCounter q text) : p.lower = q.lower := by
  have key : ∀ p : Place, p.lower < 2 ^ 31 → loadAddress p % 2 ^ 31 = p.lower := by
    intro p hp
    have hm : ∀ a b, (a ||| b) % 2 ^ 31 = (a % 2 ^ 31) ||| (b % 2 ^ 31) := fun a b => Nat.or_mod_two_pow
    have h32 : ∀ a, (a <<< 32) % 2 ^ 31 = 0 := by
      intro a
      rw [Nat.shiftLeft_eq]
      omega
    have h31 : ∀ a, (a <<< 31) % 2 ^ 31 = 0 := by
      intro a
      rw [Nat.shiftLeft_eq]
      omega
    unfold loadAddress
    simp only
    repeat' split
    all_goals simp only [hm, h32, h31, Nat.zero_or, Nat.or_zero, Nat.mod_eq_of_lt hp]
  unfold programCounter at he
  have e : loadAddress p = loadAddress q := by omega
  rw [← key p hp, ← key q hq, e]

/-- **C116** is false: the program counter is negative if the text of the image starts after the address. -/
theorem C116_negative_claim_false : ¬ C116_negative_claim := by
  intro h
  exact absurd (h ⟨1, none, none, none, none⟩ 2) (by decide)

/-- **C116** (partial): a program counter is not negative if the text starts at or before the load address. -/
theorem C116_negative_partial (p : Place) (text : Nat) (h : text ≤ loadAddress p) : 0 ≤ programCounter p text := by
  unfold programCounter
  omega

/-- The references of the documentation. -/
example : formatReference ⟨0xecf707e9, some 0x8008, none, none, some 2⟩ 0x117a0720 = (0x1117a0720, false) := by decide

example : formatReference ⟨0x000744dd, some 0xff97, none, none, none⟩ 0x777bca21 = (0x7fcbf77bca21, false) := by decide

example : programCounter ⟨0xecf707e9, some 0x8008, none, none, some 2⟩ 0 = 0x8008ecf707e9 := by decide

example : programCounter ⟨0xecf707e9, some 1, none, none, some 2⟩ 0xecf00000 = 0x1000707e9 := by decide

/-! ## Model: data items -/

def numericTypes : List Nat := [0x00, 0x02]
def precisionTypes : List Nat := [0x10, 0x12]
def stringTypes : List Nat := [0x20, 0x22, 0x40, 0x42]
def privateStringTypes : List Nat := [0x21, 0x41]
def binaryTypes : List Nat := [0x30, 0x32, 0xF2]
def privateTypes : List Nat := [0x01, 0x21, 0x25, 0x31, 0x35, 0x41, 0x45]

/-- The data items are read with: the values data, the private data and the offset of the private data range. -/
structure Data where
  values : Bytes
  private_ : Bytes
  offset : Int

/-- The data of an item (unified_logging.py 3818-3842); `none` if its type is not known.  The structure of an item
has no attribute of the other kind of item. -/
def itemData (d : Data) : Item → Res (Option Bytes)
  | .inline t data =>
    if t ∈ numericTypes ∨ t ∈ precisionTypes then .ok (some data)
    else if t ∈ stringTypes ∨ t ∈ privateStringTypes ∨ t ∈ binaryTypes then .error .attributeError
    else .ok none
  | .range t offset size =>
    if t ∈ numericTypes ∨ t ∈ precisionTypes then .error .attributeError
    else if t ∈ stringTypes then .ok (some (slice d.values offset (offset + size)))
    else if t ∈ privateStringTypes then
      .ok (some (sliceInt d.private_ (d.offset + offset) (d.offset + offset + size)))
    else if t ∈ binaryTypes then .ok (some (slice d.values offset (offset + size)))
    else .ok none

def privateText : List Char := "<private>".toList

/-- A round of the loop of `_ReadDataItems` (unified_logging.py 3817-3894); `none` for a precision, which is not a
value and which is not used (2817-2818).  `decode` is `_DecodeValue`. -/
def itemValue (decode : Nat → Option Bytes → Res (List Char)) (d : Data) (index : Nat) (item : Item) :
    Res (Option (List Char)) :=
  match itemData d item with
  | .error e => .error e
  | .ok data =>
    if item.type ∈ precisionTypes then .ok none
    else if item.type ∈ privateTypes ∧ data.getD [] = [] then .ok (some privateText)
    else (decode index data).map some

/-- `_ReadDataItems` (unified_logging.py 3788-3896), from the index of a value on.  The debug mode refuses types
that are not known (3844-3874); that is not modelled. -/
def readDataItems (decode : Nat → Option Bytes → Res (List Char)) (d : Data) : Nat → List Item → Res (List (List Char))
  | _, [] => .ok []
  | index, item :: items =>
    match itemValue decode d index item with
    | .error e => .error e
    | .ok none => readDataItems decode d index items
    | .ok (some v) => (readDataItems decode d (index + 1) items).map (v :: ·)

/-- `_DecodeValue` (unified_logging.py 2794-2823): `formatter` has the names of the decoders of each value, if there
is a string formatter, and `decoders` the decoders that there are. -/
def decodeValue (decoders : List Char → Option (Option Bytes → Res (List Char)))
    (formatter : Option (List (List (List Char)))) (index : Nat) (data : Option Bytes) : Res (List Char) :=
  match formatter with
  | none => .ok "<decode: missing string formatter>".toList
  | some names =>
    match names.getD index [] with
    | [] => .ok "<decode: missing decoder>".toList
    | name :: _ =>
      match decoders name with
      | none => .ok ("<decode: unsupported decoder: ".toList ++ name ++ ['>'])
      | some decoder => decoder data

/-- The private data of a firehose chunk (unified_logging.py 4126-4133). -/
def privateData (virtual : Nat) (chunk : Bytes) : Bytes :=
  let v := virtual &&& 0x0FFF
  if v = 0 then [] else sliceInt chunk (-((4096 : Int) - v)) chunk.length

/-- The offset of the private data range (unified_logging.py 4153-4163). -/
def privateOffset (range : Option (Nat × Nat)) (virtual : Nat) : Int :=
  match range with
  | none => 0
  | some (offset, _) => (offset : Int) - (virtual &&& 0x0FFF : Nat)

/-! ## Specification: data items -/

/-- The kinds of values of the table of the documentation. -/
inductive ItemKind
  | number | precision | string | binary | privateString | private_

def ItemKind.types : ItemKind → List Nat
  | .number => [0x00, 0x02]
  | .precision => [0x10, 0x12]
  | .string => [0x20, 0x22, 0x40, 0x42]
  | .binary => [0x30, 0x32, 0xf2]
  | .privateString => [0x21, 0x41]
  | .private_ => [0x01, 0x25, 0x31, 0x35, 0x45]

def Documented (t : Nat) : Prop := ∃ k : ItemKind, t ∈ k.types

/-- What is shown of an item: a number, a string and binary data are decoded, a private value is not shown, other
than a private string whose bytes are there. -/
inductive Shows (decode : Nat → Option Bytes → Res (List Char)) (d : Data) : Nat → Item → Res (List Char) → Prop
  | number (index t : Nat) (data : Bytes) (h : t ∈ ItemKind.number.types) :
    Shows decode d index (.inline t data) (decode index (some data))
  | string (index t offset size : Nat) (h : t ∈ ItemKind.string.types ∨ t ∈ ItemKind.binary.types) :
    Shows decode d index (.range t offset size) (decode index (some ((d.values.drop offset).take size)))
  | hidden (index t : Nat) (data : Bytes) (h : t ∈ ItemKind.private_.types) :
    Shows decode d index (.inline t data) (.ok privateText)
  | empty (index t offset size : Nat) (h : t ∈ ItemKind.privateString.types)
    (hd : sliceInt d.private_ (d.offset + offset) (d.offset + offset + size) = []) :
    Shows decode d index (.range t offset size) (.ok privateText)
  | privateString (index t offset size : Nat) (h : t ∈ ItemKind.privateString.types)
    (hd : sliceInt d.private_ (d.offset + offset) (d.offset + offset + size) ≠ []) :
    Shows decode d index (.range t offset size)
      (decode index (some (sliceInt d.private_ (d.offset + offset) (d.offset + offset + size))))

/-- The items that are values: all but the precisions. -/
def valueItems (items : List Item) : List Item := items.filter (fun i => ¬ i.type ∈ ItemKind.precision.types)

/-- The claim of C118 about private strings: the string is the bytes of the page of the chunk at its place. -/
def C118_private_claim : Prop := ∀ (public_ page : Bytes) (virtual offset size itemOffset itemSize t : Nat),
  page.length = 4096 → 0 < virtual → virtual < 4096 → t ∈ ItemKind.privateString.types → offset < 2 ^ 16 →
  offset + itemOffset + itemSize ≤ 4096 →
  itemData ⟨[], privateData virtual (public_ ++ page.drop virtual), privateOffset (some (offset, size)) virtual⟩
    (.range t itemOffset itemSize) = .ok (some (slice page (offset + itemOffset) (offset + itemOffset + itemSize)))

/-- The claim of C118 about types: no data item makes reading fail, if the decoders decode all data there is. -/
def C118_types_claim : Prop := ∀ (decoders : List Char → Option (Option Bytes → Res (List Char)))
  (formatter : Option (List (List (List Char)))) (d : Data) (items : List Item),
  (∀ name decoder, decoders name = some decoder → ∀ b, ∃ text, decoder (some b) = .ok text) →
  (∀ i ∈ items, i.Ok) → ∃ values, readDataItems (decodeValue decoders formatter) d 0 items = .ok values

/-! ## Proofs: data items -/

theorem itemValue_precision (decode : Nat → Option Bytes → Res (List Char)) (d : Data) (index : Nat) (i : Item)
    (h : i.Ok) (ht : i.type ∈ ItemKind.precision.types) : itemValue decode d index i = .ok none := by
  cases i with
  | inline t data =>
    have : t = 0x10 ∨ t = 0x12 := by simpa [Item.type, ItemKind.types] using ht
    rcases this with rfl | rfl <;> rfl
  | range t o n =>
    have : t = 0x10 ∨ t = 0x12 := by simpa [Item.type, ItemKind.types] using ht
    rcases this with rfl | rfl <;> simp [Item.Ok, HasRange] at h

theorem itemValue_shows (decode : Nat → Option Bytes → Res (List Char)) (d : Data) (index : Nat) (i : Item)
    (h : i.Ok) (hd : Documented i.type) (ht : ¬ i.type ∈ ItemKind.precision.types) :
    ∃ r, Shows decode d index i r ∧ itemValue decode d index i = r.map some := by
  obtain ⟨k, hk⟩ := hd
  cases i with
  | inline t data =>
    have hr := h.2.2
    simp only [Item.type] at hk ht
    cases k with
    | number =>
      refine ⟨_, .number index t data hk, ?_⟩
      simp only [ItemKind.types, List.mem_cons, List.not_mem_nil, or_false] at hk
      rcases hk with rfl | rfl <;> rfl
    | precision => exact absurd hk ht
    | string =>
      simp only [ItemKind.types, List.mem_cons, List.not_mem_nil, or_false] at hk
      rcases hk with rfl | rfl | rfl | rfl <;> simp [HasRange] at hr
    | binary =>
      simp only [ItemKind.types, List.mem_cons, List.not_mem_nil, or_false] at hk
      rcases hk with rfl | rfl | rfl <;> simp [HasRange] at hr
    | privateString =>
      simp only [ItemKind.types, List.mem_cons, List.not_mem_nil, or_false] at hk
      rcases hk with rfl | rfl <;> simp [HasRange] at hr
    | private_ =>
      refine ⟨_, .hidden index t data hk, ?_⟩
      simp only [ItemKind.types, List.mem_cons, List.not_mem_nil, or_false] at hk
      rcases hk with rfl | rfl | rfl | rfl | rfl <;> rfl
  | range t o n =>
    have hr := h.1
    simp only [Item.type] at hk ht
    have hs : slice d.values o (o + n) = (d.values.drop o).take n := by
      rw [slice_eq_take_drop]
      congr 1
      omega
    cases k with
    | number =>
      simp only [ItemKind.types, List.mem_cons, List.not_mem_nil, or_false] at hk
      rcases hk with rfl | rfl <;> simp [HasRange] at hr
    | precision => exact absurd hk ht
    | string =>
      refine ⟨_, .string index t o n (Or.inl hk), ?_⟩
      rw [← hs]
      simp only [ItemKind.types, List.mem_cons, List.not_mem_nil, or_false] at hk
      rcases hk with rfl | rfl | rfl | rfl <;> rfl
    | binary =>
      refine ⟨_, .string index t o n (Or.inr hk), ?_⟩
      rw [← hs]
      simp only [ItemKind.types, List.mem_cons, List.not_mem_nil, or_false] at hk
      rcases hk with rfl | rfl | rfl <;> rfl
    | privateString =>
      have e1 : itemData d (.range t o n) = .ok (some (sliceInt d.private_ (d.offset + o) (d.offset + o + n))) := by
        simp only [ItemKind.types, List.mem_cons, List.not_mem_nil, or_false] at hk
        rcases hk with rfl | rfl <;> rfl
      have e2 : t ∈ privateTypes := by
        simp only [ItemKind.types, List.mem_cons, List.not_mem_nil, or_false] at hk
        rcases hk with rfl | rfl <;> decide
      have e3 : ¬ t ∈ precisionTypes := ht
      by_cases he : sliceInt d.private_ (d.offset + o) (d.offset + o + n) = []
      · refine ⟨_, .empty index t o n hk he, ?_⟩
        unfold itemValue
        rw [e1]
        exact (if_neg e3).trans (if_pos ⟨e2, he⟩)
      · refine ⟨_, .privateString index t o n hk he, ?_⟩
        unfold itemValue
        rw [e1]
        exact (if_neg e3).trans (if_neg (fun x => he x.2))
    | private_ =>
      simp only [ItemKind.types, List.mem_cons, List.not_mem_nil, or_false] at hk
      rcases hk with rfl | rfl | rfl | rfl | rfl <;> simp [HasRange] at hr

theorem readDataItems_from (decode : Nat → Option Bytes → Res (List Char)) (d : Data) (items : List Item)
    (h : ∀ i ∈ items, i.Ok) (hd : ∀ i ∈ items, Documented i.type) (index : Nat) (out : List (List Char)) :
    readDataItems decode d index items = .ok out ↔
      out.length = (valueItems items).length ∧
        ∀ k (h1 : k < out.length) (h2 : k < (valueItems items).length),
          Shows decode d (index + k) (valueItems items)[k] (.ok out[k]) := by
  induction items generalizing index out with
  | nil =>
    simp only [readDataItems, valueItems, List.filter_nil, List.length_nil]
    constructor
    · intro h
      cases h
      exact ⟨rfl, fun k h1 => absurd h1 (Nat.not_lt_zero _)⟩
    · rintro ⟨h, _⟩
      rw [List.length_eq_zero_iff.1 h]
  | cons i is ih =>
    have ih := ih (fun j hj => h j (by simp [hj])) (fun j hj => hd j (by simp [hj]))
    by_cases ht : i.type ∈ ItemKind.precision.types
    · have e : valueItems (i :: is) = valueItems is := by
        unfold valueItems
        rw [List.filter_cons, if_neg (by simpa using ht)]
      rw [readDataItems, itemValue_precision decode d index i (h i (by simp)) ht]
      simp only [e]
      exact ih index out
    · have e : valueItems (i :: is) = i :: valueItems is := by
        unfold valueItems
        rw [List.filter_cons, if_pos (by simpa using ht)]
      obtain ⟨r, hr, hv⟩ := itemValue_shows decode d index i (h i (by simp)) (hd i (by simp)) ht
      have det : ∀ r', Shows decode d index i r' → r' = r := by
        intro r' hr'
        cases hr <;> cases hr' <;> first
          | rfl
          | contradiction
          | (rename_i a _ b; exfalso; revert a b; simp [ItemKind.types]; omega)
          | (exfalso; simp_all [ItemKind.types]; omega)
      rw [readDataItems, hv]
      cases r with
      | error err =>
        simp only [Except.map, e]
        constructor
        · intro x
          cases x
        · rintro ⟨hl, hs⟩
          cases out with
          | nil => simp at hl
          | cons o os =>
            have := hs 0 (by simp) (by simp)
            have := det _ (by simpa using this)
            cases this
      | ok v =>
        simp only [Except.map, e]
        cases out with
        | nil =>
          constructor
          · intro x
            cases hx : readDataItems decode d (index + 1) is with
            | error _ => rw [hx] at x; cases x
            | ok _ => rw [hx] at x; cases x
          · rintro ⟨hl, _⟩
            simp at hl
        | cons o os =>
          have ih := ih (index + 1) os
          constructor
          · intro x
            cases hx : readDataItems decode d (index + 1) is with
            | error _ => rw [hx] at x; cases x
            | ok os' =>
              rw [hx] at x
              simp only [Except.ok.injEq, List.cons.injEq] at x
              obtain ⟨rfl, rfl⟩ := x
              obtain ⟨h1, h2⟩ := ih.1 hx
              refine ⟨by simp [h1], fun k hk1 hk2 => ?_⟩
              cases k with
              | zero => exact hr
              | succ k =>
                have := h2 k (by simpa using hk1) (by simpa using hk2)
                rw [show index + 1 + k = index + (k + 1) by omega] at this
                exact this
          · rintro ⟨hl, hs⟩
            have h0 := det _ (hs 0 (by simp) (by simp))
            simp only [List.getElem_cons_zero, Except.ok.injEq] at h0
            have := ih.2 ⟨by simpa using hl, fun k hk1 hk2 => by
              have := hs (k + 1) (by simpa using hk1) (by simpa using hk2)
              rw [show index + 1 + k = index + (k + 1) by omega]
              exact this⟩
            rw [this, h0]

/-- **C118**: the values of data items of documented types: one for each item that is not a precision, in order,
the one with number `k` made by the decoders of number `k`; private values are not shown. -/
theorem C118_values (decode : Nat → Option Bytes → Res (List Char)) (d : Data) (items : List Item)
    (h : ∀ i ∈ items, i.Ok) (hd : ∀ i ∈ items, Documented i.type) (out : List (List Char)) :
    readDataItems decode d 0 items = .ok out ↔
      out.length = (valueItems items).length ∧
        ∀ k (h1 : k < out.length) (h2 : k < (valueItems items).length),
          Shows decode d k (valueItems items)[k] (.ok out[k]) := by
  have := readDataItems_from decode d items h hd 0 out
  simpa using this

/-- **C118**: private data is only shown in private strings: without them the values do not depend on it. -/
theorem C118_private (decode : Nat → Option Bytes → Res (List Char)) (values p q : Bytes) (a b : Int) (index : Nat)
    (items : List Item) (h : ∀ i ∈ items, ¬ i.type ∈ ItemKind.privateString.types) :
    readDataItems decode ⟨values, p, a⟩ index items = readDataItems decode ⟨values, q, b⟩ index items := by
  induction items generalizing index with
  | nil => rfl
  | cons i is ih =>
    have ih := fun index => ih index (fun j hj => h j (by simp [hj]))
    have hi : itemData ⟨values, p, a⟩ i = itemData ⟨values, q, b⟩ i := by
      cases i with
      | inline t data => rfl
      | range t o n =>
        have : ¬ t ∈ privateStringTypes := h _ (List.mem_cons_self ..)
        simp only [itemData, if_neg this]
    have hv : itemValue decode ⟨values, p, a⟩ index i = itemValue decode ⟨values, q, b⟩ index i := by
      unfold itemValue
      rw [hi]
    unfold readDataItems
    rw [hv]
    cases itemValue decode ⟨values, q, b⟩ index i with
    | error e => rfl
    | ok o =>
      cases o with
      | none => exact ih index
      | some v => simp only [ih (index + 1)]

/-- **C118**: the value of an item of private type without private data, whatever the item holds. -/
theorem C118_hidden (decode : Nat → Option Bytes → Res (List Char)) (d : Data) (index : Nat) (i : Item) (h : i.Ok)
    (ht : i.type ∈ ItemKind.private_.types ∨ i.type ∈ ItemKind.privateString.types) (hp : d.private_ = []) :
    itemValue decode d index i = .ok (some privateText) := by
  have hdoc : Documented i.type := by
    rcases ht with ht | ht
    · exact ⟨.private_, ht⟩
    · exact ⟨.privateString, ht⟩
  have hn : ¬ i.type ∈ ItemKind.precision.types := by
    intro hx
    simp only [ItemKind.types, List.mem_cons, List.not_mem_nil, or_false] at ht hx
    omega
  obtain ⟨r, hr, hv⟩ := itemValue_shows decode d index i h hdoc hn
  rw [hv]
  cases hr with
  | number t data h' =>
    simp only [Item.type, ItemKind.types, List.mem_cons, List.not_mem_nil, or_false] at ht h'
    omega
  | string t o n h' =>
    simp only [Item.type, ItemKind.types, List.mem_cons, List.not_mem_nil, or_false] at ht h'
    omega
  | hidden => rfl
  | empty => rfl
  | privateString t o n h' hd =>
    exfalso
    apply hd
    simp [hp, sliceInt, slice]

theorem and_0fff (v : Nat) (h : v < 4096) : v &&& 0x0FFF = v := by
  rw [show (0x0FFF : Nat) = 2 ^ 12 - 1 from rfl, Nat.and_two_pow_sub_one_eq_mod]
  exact Nat.mod_eq_of_lt h

/-- **C118**: the private data of a chunk is what is after the virtual offset of its page of 4096 bytes. -/
theorem C118_private_data (public_ page : Bytes) (virtual : Nat) (hp : page.length = 4096) (h0 : 0 < virtual)
    (h : virtual < 4096) : privateData virtual (public_ ++ page.drop virtual) = page.drop virtual := by
  unfold privateData
  simp only [and_0fff virtual h]
  rw [if_neg (by omega)]
  unfold sliceInt sliceIndex
  simp only [List.length_append, List.length_drop, hp]
  rw [if_pos (by omega), if_neg (by omega)]
  have e1 : (-((4096 : Int) - (virtual : Int)) + ((public_.length + (4096 - virtual) : Nat) : Int)).toNat = public_.length := by
    omega
  have e2 : min (((public_.length + (4096 - virtual) : Nat) : Int)).toNat (public_.length + (4096 - virtual)) =
      public_.length + (4096 - virtual) := by omega
  rw [e1, e2]
  unfold slice
  rw [List.take_of_length_le (by simp [hp]), List.drop_left]

/-- **C118**: a chunk whose page has no private data (the virtual offset is 4096) has none. -/
theorem C118_no_private_data (chunk : Bytes) : privateData 4096 chunk = [] := rfl

/-- **C118** is false: a range that starts before the private data is taken from the end of the private data. -/
theorem C118_private_claim_false : ¬ C118_private_claim := by
  intro h
  have := h [] (List.replicate 4092 0 ++ [1, 2, 3, 4]) 4092 4088 4 0 2 0x21 (by decide +kernel) (by decide) (by decide)
    (by decide) (by decide) (by decide)
  revert this
  decide +kernel

/-- **C118** (partial): the bytes of a private string are those of the page at its place, if its range does not
start before the private data. -/
theorem C118_private_partial (public_ page : Bytes) (virtual offset size itemOffset itemSize t : Nat)
    (hp : page.length = 4096) (h0 : 0 < virtual) (h : virtual < 4096) (ht : t ∈ ItemKind.privateString.types)
    (ho : virtual ≤ offset) (hi : offset + itemOffset + itemSize ≤ 4096) :
    itemData ⟨[], privateData virtual (public_ ++ page.drop virtual), privateOffset (some (offset, size)) virtual⟩
      (.range t itemOffset itemSize) =
        .ok (some (slice page (offset + itemOffset) (offset + itemOffset + itemSize))) := by
  rw [C118_private_data public_ page virtual hp h0 h]
  have e : itemData ⟨[], page.drop virtual, privateOffset (some (offset, size)) virtual⟩ (.range t itemOffset itemSize) =
      .ok (some (sliceInt (page.drop virtual) (privateOffset (some (offset, size)) virtual + itemOffset)
        (privateOffset (some (offset, size)) virtual + itemOffset + itemSize))) := by
    simp only [ItemKind.types, List.mem_cons, List.not_mem_nil, or_false] at ht
    rcases ht with rfl | rfl <;> rfl
  rw [e]
  simp only [privateOffset, and_0fff virtual h]
  unfold sliceInt sliceIndex
  rw [if_neg (by omega), if_neg (by omega)]
  have e1 : min ((offset : Int) - virtual + itemOffset + itemSize).toNat (page.drop virtual).length =
      offset - virtual + itemOffset + itemSize := by
    simp only [List.length_drop, hp]
    omega
  have e2 : min ((offset : Int) - virtual + itemOffset).toNat (page.drop virtual).length =
      offset - virtual + itemOffset := by
    simp only [List.length_drop, hp]
    omega
  rw [e1, e2, slice_eq_take_drop, slice_eq_take_drop, List.drop_drop]
  rw [show offset - virtual + itemOffset + itemSize - (offset - virtual + itemOffset) = itemSize by omega,
    show offset + itemOffset + itemSize - (offset + itemOffset) = itemSize by omega,
    show virtual + (offset - virtual + itemOffset) = offset + itemOffset by omega]

/-- The decoder of Boolean values gives a `TypeError` for a value without data (unified_logging.py 541). -/
def sampleDecoder : Option Bytes → Res (List Char)
  | none => .error .typeError
  | some b => .ok (if leNat b = 0 then ['n', 'o'] else ['y', 'e', 's'])

/-- **C118** is false: a data item of a type that is not documented has no data, which decoders refuse with a
`TypeError`. -/
theorem C118_types_claim_false : ¬ C118_types_claim := by
  intro h
  obtain ⟨v, hv⟩ := h (fun _ => some sampleDecoder) (some [[['b']]]) ⟨[], [], 0⟩ [.inline 0x72 [1]]
    (by
      rintro name decoder ⟨⟩ b
      exact ⟨_, rfl⟩)
    (by
      intro i hi
      simp only [List.mem_singleton] at hi
      subst hi
      simp [Item.Ok, HasRange])
  rw [show readDataItems (decodeValue (fun _ => some sampleDecoder) (some [[['b']]])) ⟨[], [], 0⟩ 0
    [.inline 0x72 [1]] = .error .typeError from by decide] at hv
  cases hv

theorem decodeValue_some (decoders : List Char → Option (Option Bytes → Res (List Char)))
    (formatter : Option (List (List (List Char))))
    (hd : ∀ name decoder, decoders name = some decoder → ∀ b, ∃ text, decoder (some b) = .ok text) (index : Nat)
    (b : Bytes) : ∃ text, decodeValue decoders formatter index (some b) = .ok text := by
  unfold decodeValue
  cases formatter with
  | none => exact ⟨_, rfl⟩
  | some names =>
    simp only
    cases names.getD index [] with
    | nil => exact ⟨_, rfl⟩
    | cons name _ =>
      simp only
      cases hn : decoders name with
      | none => exact ⟨_, rfl⟩
      | some decoder => exact hd name decoder hn b

/-- **C118** (partial): data items of documented types can always be read. -/
theorem C118_types_partial (decoders : List Char → Option (Option Bytes → Res (List Char)))
    (formatter : Option (List (List (List Char)))) (d : Data) (index : Nat) (items : List Item)
    (hdec : ∀ name decoder, decoders name = some decoder → ∀ b, ∃ text, decoder (some b) = .ok text)
    (h : ∀ i ∈ items, i.Ok) (hd : ∀ i ∈ items, Documented i.type) :
    ∃ values, readDataItems (decodeValue decoders formatter) d index items = .ok values := by
  induction items generalizing index with
  | nil => exact ⟨_, rfl⟩
  | cons i is ih =>
    have ih := fun index => ih index (fun j hj => h j (by simp [hj])) (fun j hj => hd j (by simp [hj]))
    unfold readDataItems
    by_cases ht : i.type ∈ ItemKind.precision.types
    · rw [itemValue_precision _ d index i (h i (by simp)) ht]
      exact ih index
    · obtain ⟨r, hr, hv⟩ := itemValue_shows (decodeValue decoders formatter) d index i (h i (by simp)) (hd i (by simp)) ht
      have : ∃ text, r = .ok text := by
        cases hr with
        | number => exact decodeValue_some decoders formatter hdec _ _
        | string => exact decodeValue_some decoders formatter hdec _ _
        | hidden => exact ⟨_, rfl⟩
        | empty => exact ⟨_, rfl⟩
        | privateString => exact decodeValue_some decoders formatter hdec _ _
      obtain ⟨text, rfl⟩ := this
      rw [hv]
      obtain ⟨vs, hvs⟩ := ih (index + 1)
      simp only [Except.map, hvs]
      exact ⟨_, rfl⟩

/-- A number, a precision, a string and two private values. -/
example : readDataItems (decodeValue (fun _ => some (fun b => .ok ((b.getD []).map (fun x => Char.ofNat x.toNat))))
      (some [[['a']], [['b']], [['c']], []])) ⟨[97, 98, 99], [100, 101], 0⟩ 0
      [.inline 0 [65], .inline 0x10 [1, 0, 0, 0], .range 0x22 1 2, .inline 1 [1, 2, 3, 4], .range 0x21 0 2] =
    .ok [['A'], ['b', 'c'], privateText, "<decode: missing decoder>".toList] := by decide

/-! ## Model: backtraces -/

/-- A sequence of members. -/
def several {α : Type} (read : Bytes → Option (α × Bytes)) : Nat → Bytes → Option (List α × Bytes)
  | 0, b => some ([], b)
  | n + 1, b => do
    let (x, b) ← read b
    let (xs, b) ← several read n b
    return (x :: xs, b)

/-- `tracev3_firehose_tracepoint_backtrace_data` (aul_tracev3.yaml 468-494): identifiers, offsets and indexes. -/
def parseBacktrace (b : Bytes) : Option (List Bytes × List Nat × List Nat) := do
  let (_, b) ← num 2 b
  let (_, b) ← num 1 b
  let (identifiers, b) ← num 1 b
  let (frames, b) ← num 1 b
  let (_, b) ← num 1 b
  let (ids, b) ← several (raw 16) identifiers b
  let (offsets, b) ← several (num 4) frames b
  let (indexes, _) ← several (num 1) frames b
  return (ids, offsets, indexes)

def zeroIdentifier : Bytes := List.replicate 16 0

/-- A round of the loop over the frames (unified_logging.py 3769-3784). -/
def frameOf (ids : List Bytes) (index offset : Nat) : Res (Bytes × Nat) :=
  if index = 0xFF then .ok (zeroIdentifier, offset)
  else match ids[index]? with
    | none => .error .indexError
    | some id => .ok (id, offset)

def framesOf (ids : List Bytes) : List (Nat × Nat) → Res (List (Bytes × Nat))
  | [] => .ok []
  | (index, offset) :: rest => do
    let f ← frameOf ids index offset
    let fs ← framesOf ids rest
    return f :: fs

/-- `_ReadBacktraceData` (unified_logging.py 3738-3786): image identifier and offset of the frames. -/
def readBacktrace (flags : Nat) (b : Bytes) : Res (List (Bytes × Nat)) :=
  if flags &&& 0x1000 = 0 then .ok []
  else if b = [] then .error .valueError
  else match parseBacktrace b with
    | none => .error .parseError
    | some (ids, offsets, indexes) => framesOf ids (indexes.zip offsets)

/-! ## Specification: backtraces -/

/-- A backtrace as it is stored: the identifiers of images and for every frame the index of its image and the
offset in it. -/
structure Backtrace where
  unknown1 : Nat
  unknown2 : Nat
  unknown3 : Nat
  ids : List Bytes
  frames : List (Nat × Nat)

def Backtrace.bytes (t : Backtrace) : Bytes :=
  leBytes 2 t.unknown1 ++ (leBytes 1 t.unknown2 ++ (leBytes 1 t.ids.length ++ (leBytes 1 t.frames.length ++
    (leBytes 1 t.unknown3 ++ (t.ids.flatten ++ (t.frames.flatMap (fun f => leBytes 4 f.2) ++
      t.frames.flatMap (fun f => leBytes 1 f.1)))))))

structure Backtrace.Ok (t : Backtrace) : Prop where
  unknown1 : t.unknown1 < 2 ^ 16
  unknown2 : t.unknown2 < 256
  unknown3 : t.unknown3 < 256
  ids : t.ids.length < 256 ∧ ∀ id ∈ t.ids, id.length = 16
  frames : t.frames.length < 256 ∧ ∀ f ∈ t.frames, f.1 < 256 ∧ f.2 < 2 ^ 32

/-- The image of a frame: none for index 255. -/
inductive ImageOf (ids : List Bytes) : Nat → Bytes → Prop
  | none : ImageOf ids 255 (List.replicate 16 0)
  | at (i : Nat) (h : i < ids.length) (hi : i ≠ 255) : ImageOf ids i ids[i]

/-- The claim of C119: a backtrace that can be read gives its frames, else there is a parse error. -/
def C119_errors_claim : Prop := ∀ (flags : Nat) (b : Bytes) (e : Err),
  readBacktrace flags b = .error e → e = .parseError

/-! ## Proofs: backtraces -/

theorem several_raw (ids : List Bytes) (h : ∀ id ∈ ids, id.length = 16) (rest : Bytes) :
    several (raw 16) ids.length (ids.flatten ++ rest) = some (ids, rest) := by
  induction ids with
  | nil => rfl
  | cons id ids ih =>
    simp only [List.length_cons, several, List.flatten_cons, List.append_assoc]
    have := raw_bytes id (ids.flatten ++ rest)
    rw [h id (by simp)] at this
    simp [this, ih (fun x hx => h x (by simp [hx]))]

theorem several_num {α : Type} (w : Nat) (g : α → Nat) (l : List α) (h : ∀ x ∈ l, g x < 256 ^ w) (rest : Bytes) :
    several (num w) l.length (l.flatMap (fun x => leBytes w (g x)) ++ rest) = some (l.map g, rest) := by
  induction l with
  | nil => rfl
  | cons x l ih =>
    simp only [List.length_cons, several, List.flatMap_cons, List.append_assoc]
    simp [num_bytes w (g x) (h x (by simp)), ih (fun y hy => h y (by simp [hy]))]

theorem parseBacktrace_bytes (t : Backtrace) (h : t.Ok) (rest : Bytes) :
    parseBacktrace (t.bytes ++ rest) = some (t.ids, t.frames.map (·.2), t.frames.map (·.1)) := by
  unfold parseBacktrace Backtrace.bytes
  simp only [List.append_assoc]
  rw [num_bytes 2 _ h.unknown1]
  simp only [Option.bind_eq_bind, Option.bind_some]
  rw [num_bytes 1 _ h.unknown2, Option.bind_some, num_bytes 1 _ h.ids.1, Option.bind_some, num_bytes 1 _ h.frames.1,
    Option.bind_some, num_bytes 1 _ h.unknown3, Option.bind_some, several_raw _ h.ids.2, Option.bind_some,
    several_num 4 (·.2) t.frames (fun f hf => (h.frames.2 f hf).2), Option.bind_some,
    several_num 1 (·.1) t.frames (fun f hf => (h.frames.2 f hf).1)]
  rfl

theorem zip_map_fst_snd (l : List (Nat × Nat)) : (l.map (·.1)).zip (l.map (·.2)) = l := by
  induction l with
  | nil => rfl
  | cons x l ih => simp [ih]

theorem readBacktrace_bytes (t : Backtrace) (h : t.Ok) (flags : Nat) (hf : flags.testBit 12 = true) (rest : Bytes) :
    readBacktrace flags (t.bytes ++ rest) = framesOf t.ids t.frames := by
  unfold readBacktrace
  rw [if_neg (show ¬ flags &&& 0x1000 = 0 from (and_two_pow_ne flags 12).2 hf), if_neg, parseBacktrace_bytes t h]
  · simp only
    rw [zip_map_fst_snd]
  · intro e
    have := congrArg List.length e
    simp only [Backtrace.bytes, List.length_append, leBytes_length, List.length_nil] at this
    omega

theorem framesOf_ok (ids : List Bytes) (hl : ids.length < 256) (frames : List (Nat × Nat)) (out : List (Bytes × Nat)) :
    framesOf ids frames = .ok out ↔ out.length = frames.length ∧
      ∀ k (h1 : k < out.length) (h2 : k < frames.length), ImageOf ids frames[k].1 out[k].1 ∧ out[k].2 = frames[k].2 := by
  induction frames generalizing out with
  | nil =>
    simp only [framesOf]
    constructor
    · intro h
      cases h
      exact ⟨rfl, fun k h1 => absurd h1 (Nat.not_lt_zero _)⟩
    · rintro ⟨h, _⟩
      rw [List.length_eq_zero_iff.1 h]
  | cons f fs ih =>
    obtain ⟨i, o⟩ := f
    have hframe : ∀ id o', frameOf ids i o = .ok (id, o') ↔ ImageOf ids i id ∧ o' = o := by
      intro id o'
      unfold frameOf
      by_cases hi : i = 0xFF
      · rw [if_pos hi, hi]
        constructor
        · intro x
          cases x
          exact ⟨.none, rfl⟩
        · rintro ⟨x, rfl⟩
          cases x with
          | none => rfl
          | «at» i h hn => exact absurd rfl hn
      · rw [if_neg hi]
        by_cases hlt : i < ids.length
        · rw [List.getElem?_eq_getElem hlt]
          constructor
          · intro x
            cases x
            exact ⟨.at i hlt hi, rfl⟩
          · rintro ⟨x, rfl⟩
            cases x with
            | none => exact absurd rfl hi
            | «at» i h hn => rfl
        · rw [List.getElem?_eq_none (by omega)]
          constructor
          · intro x
            cases x
          · rintro ⟨x, rfl⟩
            cases x with
            | none => exact absurd rfl hi
            | «at» i h hn => exact absurd h hlt
    have hstep : framesOf ids ((i, o) :: fs) =
        match frameOf ids i o with
        | .error e => .error e
        | .ok f => match framesOf ids fs with
          | .error e => .error e
          | .ok fs => .ok (f :: fs) := by
      simp only [framesOf, bind, Except.bind, pure, Except.pure]
      cases frameOf ids i o with
      | error e => rfl
      | ok f => cases framesOf ids fs <;> rfl
    rw [hstep]
    cases out with
    | nil =>
      constructor
      · intro x
        cases hx : frameOf ids i o with
        | error e => rw [hx] at x; cases x
        | ok f =>
          rw [hx] at x
          cases hy : framesOf ids fs with
          | error e => rw [hy] at x; cases x
          | ok fs => rw [hy] at x; cases x
      · rintro ⟨x, _⟩
        simp at x
    | cons g gs =>
      obtain ⟨id, o'⟩ := g
      constructor
      · intro x
        cases hx : frameOf ids i o with
        | error e => rw [hx] at x; cases x
        | ok f =>
          rw [hx] at x
          cases hy : framesOf ids fs with
          | error e => rw [hy] at x; cases x
          | ok fs' =>
            rw [hy] at x
            simp only [Except.ok.injEq, List.cons.injEq] at x
            obtain ⟨rfl, rfl⟩ := x
            have h1 := (hframe id o').1 hx
            obtain ⟨h2, h3⟩ := (ih fs').1 hy
            refine ⟨by simp [h2], fun k hk1 hk2 => ?_⟩
            cases k with
            | zero => exact h1
            | succ k => exact h3 k (by simpa using hk1) (by simpa using hk2)
      · rintro ⟨hlen, hk⟩
        have h1 := (hframe id o').2 (hk 0 (by simp) (by simp))
        have h2 := (ih gs).2 ⟨by simpa using hlen, fun k hk1 hk2 =>
          hk (k + 1) (by simpa using hk1) (by simpa using hk2)⟩
        rw [h1, h2]

/-- **C119**: the frames of a backtrace are those that are stored, in order, with the image their index stands for;
there is a result exactly if every index stands for an image. -/
theorem C119_frames (t : Backtrace) (h : t.Ok) (flags : Nat) (hf : flags.testBit 12 = true) (rest : Bytes)
    (out : List (Bytes × Nat)) :
    readBacktrace flags (t.bytes ++ rest) = .ok out ↔ out.length = t.frames.length ∧
      ∀ k (h1 : k < out.length) (h2 : k < t.frames.length),
        ImageOf t.ids t.frames[k].1 out[k].1 ∧ out[k].2 = t.frames[k].2 := by
  rw [readBacktrace_bytes t h flags hf, framesOf_ok _ h.ids.1]

/-- **C119**: without the flag there is no backtrace, whatever the data. -/
theorem C119_no_flag (flags : Nat) (hf : flags.testBit 12 = false) (b : Bytes) : readBacktrace flags b = .ok [] := by
  unfold readBacktrace
  rw [if_pos]
  apply Decidable.byContradiction
  intro h
  rw [(and_two_pow_ne flags 12).1 h] at hf
  cases hf

/-- **C119** is false: an index of an image that is not there gives an `IndexError`. -/
theorem C119_errors_claim_false : ¬ C119_errors_claim := by
  intro h
  have := h 0x1000 [1, 0, 0x12, 0, 1, 0, 5, 0, 0, 0, 0] .indexError (by decide)
  cases this

/-- **C119** is false: so does a trace point without values data, with a `ValueError`. -/
theorem C119_empty_claim_false : ¬ C119_errors_claim := by
  intro h
  have := h 0x1000 [] .valueError (by decide)
  cases this

theorem framesOf_error (ids : List Bytes) (frames : List (Nat × Nat)) (h : ∀ f ∈ frames, f.1 = 255 ∨ f.1 < ids.length) :
    ∃ out, framesOf ids frames = .ok out := by
  induction frames with
  | nil => exact ⟨_, rfl⟩
  | cons f fs ih =>
    obtain ⟨i, o⟩ := f
    obtain ⟨out, ho⟩ := ih (fun x hx => h x (by simp [hx]))
    have hi := h (i, o) (by simp)
    have : ∃ g, frameOf ids i o = .ok g := by
      unfold frameOf
      by_cases h1 : i = 0xFF
      · rw [if_pos h1]
        exact ⟨_, rfl⟩
      · rw [if_neg h1, List.getElem?_eq_getElem (hi.resolve_left h1)]
        exact ⟨_, rfl⟩
    obtain ⟨g, hg⟩ := this
    refine ⟨g :: out, ?_⟩
    simp only [framesOf, bind, Except.bind, pure, Except.pure, hg, ho]

/-- **C119** (partial): the error is a parse error, if there is values data and the indexes stand for images. -/
theorem C119_errors_partial (flags : Nat) (b : Bytes) (e : Err) (hb : b ≠ [])
    (hi : ∀ ids offsets indexes, parseBacktrace b = some (ids, offsets, indexes) →
      ∀ i ∈ indexes, i = 255 ∨ i < ids.length) (h : readBacktrace flags b = .error e) : e = .parseError := by
  unfold readBacktrace at h
  by_cases hf : flags &&& 0x1000 = 0
  · rw [if_pos hf] at h
    cases h
  · rw [if_neg hf, if_neg hb] at h
    cases hp : parseBacktrace b with
    | none =>
      rw [hp] at h
      cases h
      rfl
    | some x =>
      obtain ⟨ids, offsets, indexes⟩ := x
      rw [hp] at h
      obtain ⟨out, ho⟩ := framesOf_error ids (indexes.zip offsets)
        (fun f hf => hi ids offsets indexes hp f.1 (List.of_mem_zip (a := f.1) (b := f.2) hf).1)
      simp only [ho] at h
      cases h

/-- Two frames, one without an image. -/
example : readBacktrace 0x1002 ((⟨1, 0x12, 0, [List.replicate 16 7], [(0, 0x1000), (255, 5)]⟩ : Backtrace).bytes ++ [9]) =
    .ok [(List.replicate 16 7, 0x1000), (List.replicate 16 0, 5)] := by decide +kernel

/-! ## Model: values of trace records -/

/-- `data[i]` of Python. -/
def pyIndex {α : Type} (l : List α) (i : Int) : Option α :=
  if i < 0 then (if -i ≤ l.length then l[(i + l.length).toNat]? else none) else l[i.toNat]?

/-- `_ReadFirehoseTracepointTraceData` (unified_logging.py 4513-4553): the load address, the number of values, which
is the last byte of the data, and the values data. -/
def readTrace (flags : Nat) (b : Bytes) : Res ((Nat × Nat) × Bytes) :=
  match readPoint 0x0002 flags (num 4) b with
  | .error e => .error e
  | .ok (load, values) =>
    match pyIndex b (-1) with
    | none => .error .indexError
    | some n => .ok ((load, n.toNat), values)

/-- The loop of `_ReadFirehoseTracepointTraceValuesData` (unified_logging.py 4574-4593), with `left` rounds to go:
the offset of the size is then `-(1 + left)`. -/
def traceLoop (decode : Nat → Bytes → Res (List Char)) (values : Bytes) (n : Nat) : Nat → Nat → Res (List (List Char))
  | 0, _ => .ok []
  | left + 1, offset =>
    match pyIndex values (-(1 + (left + 1 : Nat) : Int)) with
    | none => .error .indexError
    | some size =>
      if size.toNat ≠ 4 ∧ size.toNat ≠ 8 then .error .parseError
      else match decode (n - (left + 1)) (slice values offset (offset + size.toNat)) with
        | .error e => .error e
        | .ok v => (traceLoop decode values n left (offset + size.toNat)).map (v :: ·)

/-- `_ReadFirehoseTracepointTraceValuesData` (unified_logging.py 4555-4595). -/
def traceValues (decode : Nat → Bytes → Res (List Char)) (n : Nat) (values : Bytes) : Res (List (List Char)) :=
  traceLoop decode values n n 0

/-! ## Specification: values of trace records -/

/-- The data of a trace record (documentation, section on trace trace points): load address, values, their sizes,
front to back, and their number. -/
def traceBytes (load : Nat) (vs : List Bytes) : Bytes :=
  leBytes 4 load ++ (vs.flatten ++ (vs.map (fun v => UInt8.ofNat v.length) ++ [UInt8.ofNat vs.length]))

/-- The texts of the values, each made with its number, or the first error. -/
def decodeAll (decode : Nat → Bytes → Res (List Char)) (first : Nat) : List Bytes → Res (List (List Char))
  | [] => .ok []
  | v :: vs => do
    let t ← decode first v
    let ts ← decodeAll decode (first + 1) vs
    return t :: ts

/-- The claim of C120 about errors: trace records that cannot be read give a parse error, if the decoders do not
fail. -/
def C120_errors_claim : Prop := ∀ (decode : Nat → Bytes → Res (List Char)) (flags : Nat) (b : Bytes) (e : Err),
  (∀ i v, ∃ t, decode i v = .ok t) →
  (readTrace flags b >>= fun r => traceValues decode r.1.2 r.2) = .error e → e = .parseError

/-- The claim of C120 about sizes: the values that are decoded have the size that is stored for them, 4 or 8 bytes. -/
def C120_sizes_claim : Prop := ∀ (flags : Nat) (b : Bytes) (x : (Nat × Nat) × Bytes) (out : List (List Char)),
  readTrace flags b = .ok x →
  traceValues (fun _ v => .ok (v.map (fun c => Char.ofNat c.toNat))) x.1.2 x.2 = .ok out →
  ∀ t ∈ out, t.length = 4 ∨ t.length = 8

/-! ## Proofs: values of trace records -/

theorem pyIndex_neg {α : Type} (l : List α) (k : Nat) (h0 : 0 < k) (hk : k ≤ l.length) :
    pyIndex l (-(k : Int)) = l[l.length - k]? := by
  unfold pyIndex
  rw [if_pos (by omega), if_pos (by omega)]
  congr 1
  omega

theorem traceLoop_stored (decode : Nat → Bytes → Res (List Char)) (pre vs : List Bytes)
    (h : ∀ v ∈ vs, v.length = 4 ∨ v.length = 8) (tail : UInt8) (values : Bytes) (n : Nat) (hn : n = pre.length + vs.length)
    (hv : values = (pre ++ vs).flatten ++ ((pre ++ vs).map (fun v => UInt8.ofNat v.length) ++ [tail])) :
    traceLoop decode values n vs.length pre.flatten.length = decodeAll decode pre.length vs := by
  induction vs generalizing pre with
  | nil => rfl
  | cons v vs ih =>
    have hvlen := h v (by simp)
    have hl : values.length = (pre ++ v :: vs).flatten.length + (pre.length + (vs.length + 1) + 1) := by
      rw [hv]
      simp only [List.length_append, List.length_map, List.length_cons, List.length_nil]
    have hidx : pyIndex values (-(1 + (vs.length + 1 : Nat) : Int)) = some (UInt8.ofNat v.length) := by
      have := pyIndex_neg values (1 + (vs.length + 1)) (by omega) (by omega)
      rw [show (-(1 + (vs.length + 1 : Nat) : Int)) = -((1 + (vs.length + 1) : Nat) : Int) by omega, this,
        show values.length - (1 + (vs.length + 1)) = (pre ++ v :: vs).flatten.length + pre.length by omega, hv,
        List.getElem?_append_right (by omega), show (pre ++ v :: vs).flatten.length + pre.length -
          (pre ++ v :: vs).flatten.length = pre.length by omega]
      simp
    have hsize : (UInt8.ofNat v.length).toNat = v.length := by
      rcases hvlen with e | e <;> rw [e] <;> rfl
    have hslice : slice values pre.flatten.length (pre.flatten.length + v.length) = v := by
      rw [hv]
      rw [List.flatten_append, List.flatten_cons]
      have := (slice_at pre.flatten v (vs.flatten ++ ((pre ++ v :: vs).map (fun v => UInt8.ofNat v.length) ++ [tail]))
        v.length (Nat.le_refl _)).trans List.take_length
      simpa only [List.append_assoc] using this
    simp only [List.length_cons, traceLoop]
    rw [hidx]
    simp only
    rw [hsize, if_neg (by omega), hslice, show n - (vs.length + 1) = pre.length by
      simp only [List.length_cons] at hn
      omega]
    have hn' : n = (pre ++ [v]).length + vs.length := by
      simp only [List.length_append, List.length_cons, List.length_nil] at hn ⊢
      omega
    have hv' : values = (pre ++ [v] ++ vs).flatten ++ ((pre ++ [v] ++ vs).map (fun v => UInt8.ofNat v.length) ++ [tail]) := by
      rw [hv]
      simp
    have ih := ih (pre ++ [v]) (fun x hx => h x (by simp [hx])) hn' hv'
    rw [show (pre ++ [v]).flatten.length = pre.flatten.length + v.length by simp,
      show (pre ++ [v]).length = pre.length + 1 by simp] at ih
    rw [ih]
    simp only [decodeAll, bind, Except.bind, pure, Except.pure]
    cases decode pre.length v with
    | error e => rfl
    | ok t =>
      simp only
      cases decodeAll decode (pre.length + 1) vs with
      | error e => rfl
      | ok ts => rfl

/-- **C120**: the values of a trace record come out as they were stored, in order, each decoded with its number. -/
theorem C120_values (decode : Nat → Bytes → Res (List Char)) (load : Nat) (hl : load < 2 ^ 32) (vs : List Bytes)
    (hn : vs.length < 256) (h : ∀ v ∈ vs, v.length = 4 ∨ v.length = 8) :
    ∃ values, readTrace 0x0002 (traceBytes load vs) = .ok ((load, vs.length), values) ∧
      traceValues decode vs.length values = decodeAll decode 0 vs := by
  refine ⟨vs.flatten ++ (vs.map (fun v => UInt8.ofNat v.length) ++ [UInt8.ofNat vs.length]), ?_, ?_⟩
  · unfold readTrace traceBytes
    rw [readPoint_ok 0x0002 0x0002 (num 4) _ _ rfl (by
      intro e
      have := congrArg List.length e
      simp at this) (num_bytes 4 load hl _)]
    simp only
    have hlen : (leBytes 4 load ++ (vs.flatten ++ (vs.map (fun v => UInt8.ofNat v.length) ++ [UInt8.ofNat vs.length]))).length =
        (leBytes 4 load ++ (vs.flatten ++ vs.map (fun v => UInt8.ofNat v.length))).length + 1 := by
      simp only [List.length_append, List.length_cons, List.length_nil]
      omega
    have := pyIndex_neg (leBytes 4 load ++ (vs.flatten ++ (vs.map (fun v => UInt8.ofNat v.length) ++
      [UInt8.ofNat vs.length]))) 1 (by omega) (by omega)
    rw [show (-1 : Int) = -((1 : Nat) : Int) from rfl, this, hlen, Nat.add_sub_cancel]
    have e : leBytes 4 load ++ (vs.flatten ++ (vs.map (fun v => UInt8.ofNat v.length) ++ [UInt8.ofNat vs.length])) =
        (leBytes 4 load ++ (vs.flatten ++ vs.map (fun v => UInt8.ofNat v.length))) ++ [UInt8.ofNat vs.length] := by simp
    rw [e, List.getElem?_append_right (by omega)]
    simp only [Nat.sub_self, List.getElem?_cons_zero]
    have : (UInt8.ofNat vs.length).toNat = vs.length := by
      rw [UInt8.toNat_ofNat']
      exact Nat.mod_eq_of_lt hn
    rw [this]
  · exact traceLoop_stored decode [] vs h (UInt8.ofNat vs.length) _ _ (by simp) (by simp)

/-- **C120** is false: a trace record of four bytes has no number of values; the last byte of the load address is
taken for it and there is an `IndexError`. -/
theorem C120_errors_claim_false : ¬ C120_errors_claim := by
  intro h
  have := h (fun _ _ => .ok []) 0x0002 [0, 0, 0, 1] .indexError (fun _ _ => ⟨_, rfl⟩) (by decide)
  cases this

/-- **C120** is false: a size that is larger than the values is not refused, the value then has the sizes in it. -/
theorem C120_sizes_claim_false : ¬ C120_sizes_claim := by
  intro h
  have := h 0x0002 [0, 0, 0, 0, 1, 2, 3, 4, 8, 1] ((0, 1), [1, 2, 3, 4, 8, 1]) [[1, 2, 3, 4, 8, 1].map Char.ofNat]
    (by decide) (by decide) _ (List.mem_singleton.2 rfl)
  revert this
  decide

theorem traceLoop_error (decode : Nat → Bytes → Res (List Char)) (hd : ∀ i v, ∃ t, decode i v = .ok t) (values : Bytes)
    (n left offset : Nat) (hl : left < values.length) (e : Err) (h : traceLoop decode values n left offset = .error e) :
    e = .parseError := by
  induction left generalizing offset with
  | zero => cases h
  | succ left ih =>
    rw [traceLoop] at h
    have := pyIndex_neg values (1 + (left + 1)) (by omega) (by omega)
    rw [show (-(1 + (left + 1 : Nat) : Int)) = -((1 + (left + 1) : Nat) : Int) by omega, this,
      List.getElem?_eq_getElem (by omega)] at h
    simp only at h
    by_cases hs : (values[values.length - (1 + (left + 1))]'(by omega)).toNat ≠ 4 ∧
        (values[values.length - (1 + (left + 1))]'(by omega)).toNat ≠ 8
    · rw [if_pos hs] at h
      cases h
      rfl
    · rw [if_neg hs] at h
      obtain ⟨t, ht⟩ := hd (n - (left + 1)) (slice values offset (offset +
        (values[values.length - (1 + (left + 1))]'(by omega)).toNat))
      rw [ht] at h
      simp only at h
      cases hr : traceLoop decode values n left (offset + (values[values.length - (1 + (left + 1))]'(by omega)).toNat) with
      | error e' =>
        rw [hr] at h
        cases h
        exact ih _ (by omega) hr
      | ok ts =>
        rw [hr] at h
        cases h

/-- **C120** (partial): the error is a parse error, if there is data and the values data has room for the sizes. -/
theorem C120_errors_partial (decode : Nat → Bytes → Res (List Char)) (flags : Nat) (b : Bytes) (e : Err)
    (hd : ∀ i v, ∃ t, decode i v = .ok t) (hb : b ≠ [])
    (hn : ∀ x, readTrace flags b = .ok x → x.1.2 < x.2.length)
    (h : (readTrace flags b >>= fun r => traceValues decode r.1.2 r.2) = .error e) : e = .parseError := by
  cases hr : readTrace flags b with
  | error e' =>
    rw [hr] at h
    cases h
    unfold readTrace at hr
    cases hp : readPoint 0x0002 flags (num 4) b with
    | error e'' =>
      rw [hp] at hr
      cases hr
      exact readPoint_error _ _ _ _ _ hb hp
    | ok x =>
      rw [hp] at hr
      have hpos : 0 < b.length := List.length_pos_iff.2 hb
      rw [show (-1 : Int) = -((1 : Nat) : Int) from rfl, pyIndex_neg b 1 (by omega) (by omega),
        List.getElem?_eq_getElem (by omega)] at hr
      cases hr
  | ok x =>
    rw [hr] at h
    exact traceLoop_error decode hd x.2 x.1.2 x.1.2 0 (hn x hr) e h

/-- Two values. -/
example : (readTrace 2 (traceBytes 0x1234 [[1, 2, 3, 4], [5, 6, 7, 8, 9, 10, 11, 12]]) >>= fun r =>
    traceValues (fun i v => .ok (Char.ofNat (48 + i) :: v.map (fun c => Char.ofNat (64 + c.toNat)))) r.1.2 r.2) =
    .ok ["0ABCD".toList, "1EFGHIJKL".toList] := by decide +kernel

end Dtf.Unified
