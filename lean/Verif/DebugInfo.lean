import Verif.Bsm
import Verif.ChromeCache.Files
import Verif.Formats.Model

/-!
# Debug definitions and debug mode (C161, C162)

dtformats/yaml_definitions_file.py, `ReadDebugInformationFile` of dtformats/data_format.py, and what debug mode changes.
-/

namespace Dtf.DebugInfo
open Py DataFormat

/-! ## Model: definitions -/

/-- A YAML document of a debug definitions file, whose values have the types of the documentation: keys other than the two that are
supported, the name of the data type map, and the attributes as mappings.  What is missing or null is empty, as the code has no
difference between these. -/
structure Document where
  others : List (List Char)
  dataTypeMap : List Char
  attributes : List (List (List Char × List Char))

/-- `attribute_values.get(key)`. -/
def get (a : List (List Char × List Char)) (key : String) : List Char := (a.lookup key.toList).getD []

structure Attribute where
  name : List Char
  description : List Char
  format : List Char
deriving DecidableEq

structure Definition where
  dataTypeMap : List Char
  attributes : List Attribute
deriving DecidableEq

/-- `_SUPPORTED_FORMATS` (yaml_definitions_file.py 69-81). -/
def supportedFormats : List (List Char) :=
  ["binary_data".toList, "decimal".toList, "floating_point".toList, "hexadecimal".toList, "hexadecimal_2digits".toList,
    "hexadecimal_4digits".toList, "hexadecimal_8digits".toList, "string".toList, "uuid".toList]

def customPrefix : List Char := "custom:".toList

/-- `attribute_format.startswith("custom:")`. -/
def isCustom (format : List Char) : Bool := customPrefix.isPrefixOf format

/-- The loop of `_ReadDefinition` (yaml_definitions_file.py 117-156), with the attributes that were set. -/
def readAttributes : List (List (List Char × List Char)) → List Attribute → Res (List Attribute)
  | [], acc => .ok acc
  | a :: r, acc =>
    if get a "name" = [] then .error .parseError
    else if get a "name" ∈ acc.map (·.name) then .error .parseError
    else if get a "description" = [] then .error .parseError
    else if get a "format" = [] then .error .parseError
    else if get a "format" ∉ supportedFormats ∧ isCustom (get a "format") = false then .error .parseError
    else readAttributes r (acc ++ [⟨get a "name", get a "description", get a "format"⟩])

/-- `_ReadDefinition` (yaml_definitions_file.py 83-158). -/
def readDefinition (d : Document) : Res Definition :=
  if d.others ≠ [] then .error .parseError
  else if d.dataTypeMap = [] then .error .parseError
  else if d.attributes = [] then .error .parseError
  else
    match readAttributes d.attributes [] with
    | .error e => .error e
    | .ok l => .ok ⟨d.dataTypeMap, l⟩

/-- `_DEBUG_FORMAT_CALLBACKS` (data_format.py 22-31). -/
def formatCallbacks : List (List Char × List Char) :=
  [("binary_data".toList, "_FormatDataInHexadecimal".toList), ("decimal".toList, "_FormatIntegerAsDecimal".toList),
    ("floating_point".toList, "_FormatFloatingPoint".toList),
    ("hexadecimal_2digits".toList, "_FormatIntegerAsHexadecimal2".toList),
    ("hexadecimal_4digits".toList, "_FormatIntegerAsHexadecimal4".toList),
    ("hexadecimal_8digits".toList, "_FormatIntegerAsHexadecimal8".toList), ("string".toList, "_FormatString".toList),
    ("uuid".toList, "_FormatUUIDAsString".toList)]

/-- The tuple of an attribute (data_format.py 804-815): the name, the description and the name of the method that formats the
value. -/
abbrev Info := List Char × List Char × Option (List Char)

def attributeInfo (custom : List (List Char × List Char)) (a : Attribute) : Info :=
  (a.name, a.description, if isCustom a.format then custom.lookup (a.format.drop 7) else formatCallbacks.lookup a.format)

abbrev Table := List (List Char × List Info)

/-- `table[name] = value`. -/
def setInfo (table : Table) (name : List Char) (value : List Info) : Table :=
  (name, value) :: table.filter (fun x => x.1 ≠ name)

/-- The loop of `ReadDebugInformationFile` (data_format.py 801-819). -/
def readTable (custom : List (List Char × List Char)) : List Document → Table → Res Table
  | [], table => .ok table
  | d :: r, table =>
    match readDefinition d with
    | .error e => .error e
    | .ok x => readTable custom r (setInfo table x.dataTypeMap (x.attributes.map (attributeInfo custom)))

/-! ## C161: definitions -/

/-- What the documentation asks of an attribute. -/
def Valid (a : List (List Char × List Char)) : Prop :=
  get a "name" ≠ [] ∧ get a "description" ≠ [] ∧
    (get a "format" ∈ supportedFormats ∨ ∃ s, get a "format" = "custom:".toList ++ s)

def attributeOf (a : List (List Char × List Char)) : Attribute := ⟨get a "name", get a "description", get a "format"⟩

theorem isCustom_iff (f : List Char) : isCustom f = true ↔ ∃ s, f = customPrefix ++ s := by
  unfold isCustom
  rw [List.isPrefixOf_iff_prefix]
  exact ⟨fun ⟨s, h⟩ => ⟨s, h.symm⟩, fun ⟨s, h⟩ => ⟨s, h.symm⟩⟩

theorem format_nonempty (f : List Char) (h : f ∈ supportedFormats ∨ isCustom f = true) : f ≠ [] := by
  rintro rfl
  rcases h with h | h
  · revert h; decide
  · revert h; decide

theorem readAttributes_iff (l : List (List (List Char × List Char))) (acc out : List Attribute) :
    (readAttributes l acc = .ok out ↔ (∀ a ∈ l, Valid a) ∧ ((l.map (get · "name")).Nodup) ∧
      (∀ a ∈ l, get a "name" ∉ acc.map (·.name)) ∧ out = acc ++ l.map attributeOf) ∧
      ∀ e, readAttributes l acc = .error e → e = .parseError := by
  induction l generalizing acc with
  | nil => simp [readAttributes, eq_comm]
  | cons a l ih =>
    rw [readAttributes]
    have hbad : ∀ (e : Err), e = .parseError →
        ((∀ b ∈ a :: l, Valid b) ∧ (((a :: l).map (get · "name")).Nodup) ∧
          (∀ b ∈ a :: l, get b "name" ∉ acc.map (·.name)) ∧ out = acc ++ (a :: l).map attributeOf → False) →
        (((Except.error e : Res (List Attribute)) = .ok out ↔ (∀ b ∈ a :: l, Valid b) ∧ (((a :: l).map (get · "name")).Nodup) ∧
          (∀ b ∈ a :: l, get b "name" ∉ acc.map (·.name)) ∧ out = acc ++ (a :: l).map attributeOf) ∧
          ∀ e', (Except.error e : Res (List Attribute)) = .error e' → e' = .parseError) := by
      intro e he hx
      exact ⟨⟨fun h => (by cases h), fun h => (hx h).elim⟩, fun e' h' => (by cases h'; exact he)⟩
    by_cases h1 : get a "name" = []
    · rw [if_pos h1]
      exact hbad _ rfl (fun h => (h.1 a List.mem_cons_self).1 h1)
    rw [if_neg h1]
    by_cases h2 : get a "name" ∈ acc.map (·.name)
    · rw [if_pos h2]
      exact hbad _ rfl (fun h => h.2.2.1 a List.mem_cons_self h2)
    rw [if_neg h2]
    by_cases h3 : get a "description" = []
    · rw [if_pos h3]
      exact hbad _ rfl (fun h => (h.1 a List.mem_cons_self).2.1 h3)
    rw [if_neg h3]
    have hcust : (∃ s, get a "format" = "custom:".toList ++ s) ↔ isCustom (get a "format") = true := (isCustom_iff _).symm
    by_cases h4 : get a "format" = []
    · rw [if_pos h4]
      refine hbad _ rfl (fun h => ?_)
      have := (h.1 a List.mem_cons_self).2.2
      rw [hcust] at this
      exact format_nonempty _ this h4
    rw [if_neg h4]
    by_cases h5 : get a "format" ∉ supportedFormats ∧ isCustom (get a "format") = false
    · rw [if_pos h5]
      refine hbad _ rfl (fun h => ?_)
      have := (h.1 a List.mem_cons_self).2.2
      rw [hcust] at this
      rcases this with h | h
      · exact h5.1 h
      · rw [h5.2] at h; cases h
    rw [if_neg h5]
    have hv : Valid a := by
      refine ⟨h1, h3, ?_⟩
      rw [hcust]
      by_cases hs : get a "format" ∈ supportedFormats
      · exact .inl hs
      · refine .inr ?_
        cases hc : isCustom (get a "format") with
        | true => rfl
        | false => exact absurd ⟨hs, hc⟩ h5
    obtain ⟨i1, i2⟩ := ih (acc ++ [⟨get a "name", get a "description", get a "format"⟩])
    refine ⟨?_, i2⟩
    rw [i1]
    simp only [List.mem_cons, forall_eq_or_imp, List.map_cons, List.nodup_cons, List.map_append, List.map_nil, List.mem_append,
      List.mem_singleton, not_or, List.append_assoc, List.cons_append, List.nil_append, List.not_mem_nil, or_false, not_false_eq_true]
    constructor
    · rintro ⟨k1, k2, k3, k4⟩
      refine ⟨⟨hv, k1⟩, ⟨?_, k2⟩, ⟨h2, fun b hb => (k3 b hb).1⟩, k4⟩
      intro hm
      obtain ⟨b, hb, he⟩ := List.mem_map.mp hm
      exact (k3 b hb).2 he
    · rintro ⟨⟨-, k1⟩, ⟨k0, k2⟩, ⟨-, k3⟩, k4⟩
      refine ⟨k1, k2, fun b hb => ⟨k3 b hb, fun he => k0 ?_⟩, k4⟩
      rw [← he]
      exact List.mem_map_of_mem hb

/-- C161.  A definition is read exactly if it has no other keys, a data type map and attributes of distinct names that each have a
description and a supported format or a custom one; its attributes are those of the file, in order.  Any other raises a parse
error. -/
theorem C161_definition (d : Document) (x : Definition) :
    (readDefinition d = .ok x ↔ d.others = [] ∧ d.dataTypeMap ≠ [] ∧ d.attributes ≠ [] ∧ (∀ a ∈ d.attributes, Valid a) ∧
      (d.attributes.map (get · "name")).Nodup ∧ x = ⟨d.dataTypeMap, d.attributes.map attributeOf⟩) ∧
      ∀ e, readDefinition d = .error e → e = .parseError := by
  unfold readDefinition
  by_cases h1 : d.others ≠ []
  · rw [if_pos h1]
    exact ⟨⟨fun h => (by cases h), fun h => absurd h.1 h1⟩, fun e h => (by cases h; rfl)⟩
  rw [if_neg h1]
  by_cases h2 : d.dataTypeMap = []
  · rw [if_pos h2]
    exact ⟨⟨fun h => (by cases h), fun h => absurd h2 h.2.1⟩, fun e h => (by cases h; rfl)⟩
  rw [if_neg h2]
  by_cases h3 : d.attributes = []
  · rw [if_pos h3]
    exact ⟨⟨fun h => (by cases h), fun h => absurd h3 h.2.2.1⟩, fun e h => (by cases h; rfl)⟩
  rw [if_neg h3]
  have hk := fun out => readAttributes_iff d.attributes [] out
  cases hr : readAttributes d.attributes [] with
  | error e =>
    dsimp only
    refine ⟨⟨fun h => (by cases h), fun h => ?_⟩, fun e' h' => ?_⟩
    · have := (hk _).1.mpr ⟨h.2.2.2.1, h.2.2.2.2.1, fun a _ => by simp, rfl⟩
      rw [hr] at this
      cases this
    · cases h'
      exact (hk []).2 e hr
  | ok l =>
    dsimp only
    have hl := (hk l).1.mp hr
    refine ⟨⟨fun h => ?_, fun h => ?_⟩, fun e h => (by cases h)⟩
    · simp only [Except.ok.injEq] at h
      refine ⟨not_not.mp h1, h2, h3, hl.1, hl.2.1, ?_⟩
      rw [← h, hl.2.2.2]
      rfl
    · rw [h.2.2.2.2.2, hl.2.2.2]
      rfl

theorem setInfo_lookup (table : Table) (name key : List Char) (value : List Info) :
    (setInfo table name value).lookup key = if key = name then some value else table.lookup key := by
  unfold setInfo
  rw [List.lookup_cons]
  by_cases h : key = name
  · simp [h]
  · rw [if_neg h]
    have : (key == name) = false := by simp [h]
    rw [this]
    dsimp only
    induction table with
    | nil => rfl
    | cons x table ih =>
      obtain ⟨k, v⟩ := x
      rw [List.filter_cons]
      by_cases hk : k = name
      · rw [if_neg (by simp [hk]), ih, List.lookup_cons]
        have : (key == k) = false := by simp [hk, h]
        rw [this]
      · rw [if_pos (by simp [hk]), List.lookup_cons, List.lookup_cons, ih]

/-- The last of the definitions of a name. -/
def lastOf (docs : List Document) (name : List Char) : Option Document := docs.reverse.find? (fun d => d.dataTypeMap = name)

/-- C161.  A file is read exactly if all its definitions are, and gives for each name the attributes of its last definition. -/
theorem C161_file (custom : List (List Char × List Char)) (docs : List Document) :
    (∀ t, readTable custom docs [] = .ok t → (∀ d ∈ docs, ∃ x, readDefinition d = .ok x) ∧ ∀ name,
      t.lookup name = (lastOf docs name).map (fun d => d.attributes.map (fun a => attributeInfo custom (attributeOf a)))) ∧
    ((∀ d ∈ docs, ∃ x, readDefinition d = .ok x) → ∃ t, readTable custom docs [] = .ok t) ∧
    (∀ e, readTable custom docs [] = .error e → e = .parseError) := by
  have key : ∀ (docs : List Document) (table : Table),
      (∀ t, readTable custom docs table = .ok t → (∀ d ∈ docs, ∃ x, readDefinition d = .ok x) ∧ ∀ name, t.lookup name =
        ((lastOf docs name).map (fun d => d.attributes.map (fun a => attributeInfo custom (attributeOf a)))).or
          (table.lookup name)) ∧
      ((∀ d ∈ docs, ∃ x, readDefinition d = .ok x) → ∃ t, readTable custom docs table = .ok t) ∧
      (∀ e, readTable custom docs table = .error e → e = .parseError) := by
    intro docs
    induction docs with
    | nil =>
      intro table
      refine ⟨fun t h => ⟨fun d hd => (by cases hd), fun name => ?_⟩, fun _ => ⟨table, rfl⟩, fun e h => (by cases h)⟩
      simp only [readTable, Except.ok.injEq] at h
      simp [lastOf, h]
    | cons d docs ih =>
      intro table
      rw [readTable]
      cases hr : readDefinition d with
      | error e =>
        dsimp only
        refine ⟨fun t h => (by cases h), fun h => ?_, fun e' h' => ?_⟩
        · obtain ⟨x, hx⟩ := h d List.mem_cons_self
          rw [hr] at hx
          cases hx
        · cases h'
          exact (C161_definition d ⟨[], []⟩).2 e hr
      | ok x =>
        dsimp only
        obtain ⟨i1, i2, i3⟩ := ih (setInfo table x.dataTypeMap (x.attributes.map (attributeInfo custom)))
        have hx := ((C161_definition d x).1.mp hr).2.2.2.2.2
        refine ⟨fun t h => ?_, fun h => i2 (fun d' hd => h d' (List.mem_cons_of_mem _ hd)), i3⟩
        obtain ⟨k1, k2⟩ := i1 t h
        refine ⟨fun d' hd => ?_, fun name => ?_⟩
        · rcases List.mem_cons.mp hd with rfl | hd
          · exact ⟨x, hr⟩
          · exact k1 d' hd
        · rw [k2, setInfo_lookup, hx]
          unfold lastOf
          rw [List.reverse_cons, List.find?_append, List.map_map]
          cases List.find? (fun d => decide (d.dataTypeMap = name)) docs.reverse with
          | some y => simp
          | none =>
            by_cases hn : d.dataTypeMap = name
            · simp [hn, Function.comp_def]
            · have hn' : ¬ name = d.dataTypeMap := fun h => hn h.symm
              simp [hn, hn']
  obtain ⟨h1, h2, h3⟩ := key docs []
  refine ⟨fun t h => ⟨(h1 t h).1, fun name => ?_⟩, h2, h3⟩
  rw [(h1 t h).2 name]
  simp

/-- C161, as a user reads it: the values of all definitions of a file that is read are shown. -/
def C161_all_claim : Prop :=
  ∀ (custom : List (List Char × List Char)) (docs : List Document) (t : Table), readTable custom docs [] = .ok t →
    ∀ d ∈ docs, ∃ l, t.lookup d.dataTypeMap = some l ∧ ∀ a ∈ d.attributes, ∃ i ∈ l, i.1 = get a "name"

def plain (name format : String) : List (List Char × List Char) :=
  [("name".toList, name.toList), ("description".toList, name.toList), ("format".toList, format.toList)]

/-- C161.  The claim is false: there is no error for a name that is defined twice, and only the last definition is used. -/
theorem C161_all_claim_false : ¬ C161_all_claim := by
  intro h
  obtain ⟨l, h1, h2⟩ := h [] [⟨[], ['x'], [plain "a" "decimal"]⟩, ⟨[], ['x'], [plain "b" "decimal"]⟩] _ rfl
    ⟨[], ['x'], [plain "a" "decimal"]⟩ (by simp)
  have e : l = [(['b'], ['b'], some "_FormatIntegerAsDecimal".toList)] := by
    have : (Option.some l) = some [(['b'], ['b'], some "_FormatIntegerAsDecimal".toList)] := h1.symm
    simpa using this
  obtain ⟨i, hi, hn⟩ := h2 _ List.mem_cons_self
  rw [e, List.mem_singleton] at hi
  rw [hi] at hn
  revert hn
  decide

/-- C161, as a user reads it: every format that is not custom and that a definition may have has a method that formats values. -/
def C161_formats_claim : Prop := ∀ f ∈ supportedFormats, ∃ m, formatCallbacks.lookup f = some m

/-- C161.  The claim is false of one: values of the format `hexadecimal` are shown as decimals. -/
theorem C161_formats_claim_false : ¬ C161_formats_claim := by
  intro h
  obtain ⟨m, hm⟩ := h "hexadecimal".toList (by decide)
  exact absurd hm (by rw [show formatCallbacks.lookup "hexadecimal".toList = none from by decide]; simp)

/-- C161.  It is the only one. -/
theorem C161_formats_partial (f : List Char) (h : f ∈ supportedFormats) :
    f = "hexadecimal".toList ∨ ∃ m, formatCallbacks.lookup f = some m := by
  have key : ∀ f ∈ supportedFormats, f = "hexadecimal".toList ∨ (formatCallbacks.lookup f).isSome = true := by decide
  rcases key f h with h | h
  · exact .inl h
  · exact .inr ⟨_, (Option.some_get h).symm⟩

/-- C161.  A custom format that the class does not have is not an error: the value is shown without formatting. -/
theorem C161_custom (custom : List (List Char × List Char)) (name description s : List Char) :
    attributeInfo custom ⟨name, description, "custom:".toList ++ s⟩ = (name, description, custom.lookup s) := by
  have h : isCustom ("custom:".toList ++ s) = true := (isCustom_iff _).mpr ⟨s, rfl⟩
  unfold attributeInfo
  dsimp only
  rw [if_pos h]
  rfl

/-! ## Model: the debug definitions of the Chrome cache -/

/-- The names of the attributes of the definitions of chrome_cache.debug.yaml (3-103), by the name of the data type map, in the order
of the file. -/
def chromeDefinitions : List (String × List String) :=
  [("chrome_cache_data_block_file_header", ["signature", "minor_format_version", "major_format_version", "file_number",
      "next_file_number", "block_size", "number_of_entries", "maximum_number_of_entries", "empty", "hints", "updating", "user"]),
    ("chrome_cache_data_block_file_header", ["hash", "next_address", "rankings_node_address", "reuse_count", "refetch_count",
      "state", "creation_time"]),
    ("chrome_cache_index_file_header", ["signature", "minor_format_version", "major_format_version", "number_of_entries",
      "stored_data_size", "last_created_file_number", "unknown1", "unknown2", "table_size", "unknown3", "unknown4",
      "creation_time"])]

/-- The members of a data block file header (chrome_cache.yaml 49-84). -/
def blockHeaderMembers : List String :=
  ["signature", "minor_format_version", "major_format_version", "file_number", "next_file_number", "block_size", "number_of_entries",
    "maximum_number_of_entries", "empty", "hints", "updating", "user", "allocation_bitmap"]

/-- The attributes that are shown of a structure: those of the last definition that it has. -/
def shownOf (defs : List (String × List String)) (name : String) (members : List String) : Option (List String) :=
  (defs.reverse.find? (fun d => d.1 = name)).map (fun d => d.2.filter (· ∈ members))

/-- `ReadCacheEntry` with debug mode (chrome_cache.py 409-410 and 286-295): iterating over the information that there is not is a
type error. -/
def readEntryDebug (data : Bytes) (off : Nat) : Res ChromeCache.Entry :=
  match ChromeCache.readEntry data off with
  | .error e => .error e
  | .ok e => if (shownOf chromeDefinitions "chrome_cache_entry" []).isNone then .error .typeError else .ok e

/-! ## Model: debug mode of BSM files -/

/-- `_DEBUG_INFO_NAME` (bsm.py 813-850). -/
def debugInfoName : List (Nat × String) :=
  [(0x11, "bsm_token_other_file32"), (0x13, "bsm_token_trailer"), (0x14, "bsm_token_header"), (0x15, "bsm_token_header_ex"),
    (0x21, "bsm_token_data"), (0x22, "bsm_token_ipc"), (0x23, "bsm_token_path"), (0x24, "bsm_token_subject"),
    (0x26, "bsm_token_subject"), (0x27, "bsm_token_exit"), (0x28, "bsm_token_text"), (0x29, "bsm_token_opaque"),
    (0x2a, "bsm_token_in_addr"), (0x2b, "bsm_token_ip"), (0x2c, "bsm_token_iport"), (0x2d, "bsm_token_arg"),
    (0x2f, "bsm_token_seq"), (0x3e, "bsm_token_attr"), (0x52, "bsm_token_exit"), (0x60, "bsm_token_zonename"),
    (0x71, "bsm_token_arg"), (0x72, "bsm_token_exit"), (0x73, "bsm_token_attr"), (0x74, "bsm_token_header"),
    (0x75, "bsm_token_subject"), (0x77, "bsm_token_subject"), (0x79, "bsm_token_header_ex"), (0x7a, "bsm_token_subject_ex"),
    (0x7b, "bsm_token_subject_ex"), (0x7c, "bsm_token_subject_ex"), (0x7d, "bsm_token_subject_ex"),
    (0x7e, "bsm_token_in_addr_ex"), (0x7f, "bsm_token_socket_ex"), (0x80, "bsm_token_sockinet32"),
    (0x81, "bsm_token_sockinet64"), (0x82, "bsm_token_sockunix")]

/-- The names of the definitions of bsm.debug.yaml, and whether these have an attribute `net_type`. -/
def bsmDefinitions : List (String × Bool) :=
  [("bsm_token_arg", false), ("bsm_token_attr", false), ("bsm_token_data", false), ("bsm_token_exit", false),
    ("bsm_token_header", false), ("bsm_token_header_ex", true), ("bsm_token_in_addr", false), ("bsm_token_in_addr_ex", true),
    ("bsm_token_ip", false), ("bsm_token_ipc", false), ("bsm_token_iport", false), ("bsm_token_opaque", false),
    ("bsm_token_other_file32", false), ("bsm_token_path", false), ("bsm_token_seq", false), ("bsm_token_socket_ex", true),
    ("bsm_token_sockinet32", false), ("bsm_token_sockinet64", false), ("bsm_token_sockunix", false), ("bsm_token_subject", false),
    ("bsm_token_subject_ex", true), ("bsm_token_text", false), ("bsm_token_trailer", false), ("bsm_token_zonename", false)]

/-- The member `net_type` of a token (bsm.yaml). -/
def netType (b : Bytes) : Nat :=
  match Bsm.be b 0 1 with
  | 0x15 => Bsm.be b 10 14
  | 0x79 => Bsm.be b 10 14
  | 0x7a => Bsm.be b 33 37
  | 0x7b => Bsm.be b 33 37
  | 0x7c => Bsm.be b 37 41
  | 0x7d => Bsm.be b 37 41
  | 0x7e => Bsm.be b 1 5
  | 0x7f => Bsm.be b 5 7
  | _ => 0

/-- What printing a token raises (bsm.py 968-971, 885-900): a type error without information, and a parse error for a net type other
than 4 and 16.  The other methods that format values raise nothing. -/
def printToken (b : Bytes) : Res Unit :=
  match (debugInfoName.lookup (Bsm.be b 0 1)).bind (fun n => bsmDefinitions.lookup n) with
  | none => .error .typeError
  | some false => .ok ()
  | some true => if netType b = 4 ∨ netType b = 16 then .ok () else .error .parseError

/-- `_ReadToken` with debug mode. -/
def readTokenDebug (text : Bytes → Bool) (data : Bytes) (off : Nat) : Res (Bsm.Token × Nat) :=
  match Bsm.readToken text data off with
  | .error e => .error e
  | .ok (t, next) =>
    match printToken (slice data off next) with
    | .error e => .error e
    | .ok _ => .ok (t, next)

/-- `Bsm.readTokens` with debug mode. -/
def readTokensDebug (text : Bytes → Bool) (data : Bytes) (stop : Nat) :
    Nat → Nat → Bsm.Token → List Bsm.Token → Option (Res (Bsm.Token × Nat × List Bsm.Token))
  | 0, _, _, _ => none
  | fuel + 1, off, last, acc =>
    if off < stop then
      match readTokenDebug text data off with
      | .error e => some (.error e)
      | .ok (t, next) =>
        if t.type = 0x13 then some (.ok (t, next, acc ++ [t])) else readTokensDebug text data stop fuel next t (acc ++ [t])
    else some (.ok (last, off, acc))

/-- `Bsm.readBody` with debug mode. -/
def readBodyDebug (text : Bytes → Bool) (data : Bytes) (fuel off : Nat) (header : Bsm.Token) (size next : Nat) :
    Option (Res (List Bsm.Token × Nat)) :=
  if size = 0 then some (.ok ([], next))
  else
    match readTokensDebug text data (off + size) fuel off header [] with
    | none => none
    | some (.error e) => some (.error e)
    | some (.ok (last, next, tokens)) =>
      match Bsm.checkLast last size with
      | .error e => some (.error e)
      | .ok _ => some (.ok (tokens, next))

/-- `Bsm.readRecord` with debug mode. -/
def readRecordDebug (text : Bytes → Bool) (data : Bytes) (fuel off : Nat) : Option (Res (List Bsm.Token × Nat)) :=
  match readTokenDebug text data off with
  | .error e => some (.error e)
  | .ok (h, next) =>
    if h.type ∈ Bsm.headerTypes ∧ h.formatVersion = some 11 then
      readBodyDebug text data fuel off h (h.recordSize.getD 0) next
    else some (.error .parseError)

/-- `Bsm.readFile` with debug mode. -/
def readFileDebug (text : Bytes → Bool) (data : Bytes) :
    Nat → Nat → List (List Bsm.Token) → Option (Res (List (List Bsm.Token)))
  | 0, _, _ => none
  | fuel + 1, off, acc =>
    if off < data.length then
      match readRecordDebug text data (data.length + 1) off with
      | none => none
      | some (.error e) => some (.error e)
      | some (.ok (tokens, next)) => readFileDebug text data fuel next (acc ++ [tokens])
    else some (.ok acc)

/-! ## C162: debug mode -/

/-- C162, as a user reads it: debug mode shows more, and does not change what can be read. -/
def C162_debug_claim : Prop :=
  (∀ data off e, ChromeCache.readEntry data off = .ok e → readEntryDebug data off = .ok e) ∧
    ∀ text data fuel l, Bsm.readFile text data fuel 0 [] = some (.ok l) → readFileDebug text data fuel 0 [] = some (.ok l)

/-- C162.  No entry of the Chrome cache can be read in debug mode. -/
theorem C162_chrome (data : Bytes) (off : Nat) (e : ChromeCache.Entry) : readEntryDebug data off ≠ .ok e ∧
    (ChromeCache.readEntry data off = .ok e → readEntryDebug data off = .error .typeError) := by
  have hn : (shownOf chromeDefinitions "chrome_cache_entry" []).isNone = true := by decide +kernel
  unfold readEntryDebug
  rw [hn]
  cases ChromeCache.readEntry data off with
  | error x => exact ⟨fun h => (by cases h), fun h => (by cases h)⟩
  | ok x => exact ⟨fun h => (by cases h), fun _ => rfl⟩

/-- C162.  Of the header of a data block file no value is shown: the second definition with its name is that of an entry. -/
theorem C162_chrome_header : shownOf chromeDefinitions "chrome_cache_data_block_file_header" blockHeaderMembers = some [] := by
  decide +kernel

/-- The tokens that can be shown, as a user sees them: those other than the types 0x32, 0x34, 0x3b, 0x3c and 0x3d, whose net type, if
they have one, is of an IP address. -/
def shown (b : Bytes) : Bool :=
  Bsm.be b 0 1 ∉ [0x32, 0x34, 0x3b, 0x3c, 0x3d] ∧
    (Bsm.be b 0 1 ∈ [0x15, 0x79, 0x7a, 0x7b, 0x7c, 0x7d, 0x7e, 0x7f] → netType b = 4 ∨ netType b = 16)

/-- The types of tokens that are read at all. -/
def readTypes : List Nat :=
  [0x11, 0x13, 0x14, 0x15, 0x21, 0x22, 0x23, 0x24, 0x26, 0x27, 0x28, 0x29, 0x2a, 0x2b, 0x2c, 0x2d, 0x2f, 0x32, 0x34, 0x3b, 0x3c,
    0x3d, 0x3e, 0x52, 0x60, 0x71, 0x72, 0x73, 0x74, 0x75, 0x77, 0x79, 0x7a, 0x7b, 0x7c, 0x7d, 0x7e, 0x7f, 0x80, 0x81, 0x82]

theorem tokenSize_type (b : Bytes) (n : Nat) (h : Bsm.tokenSize b = some n) : Bsm.be b 0 1 ∈ readTypes := by
  unfold Bsm.tokenSize at h
  split at h
  all_goals first
    | (rename_i he; rw [he]; decide)
    | cases h

theorem lookup_types : ∀ t ∈ readTypes, (debugInfoName.lookup t).bind (fun n => bsmDefinitions.lookup n) =
    if t ∈ [0x32, 0x34, 0x3b, 0x3c, 0x3d] then none
    else some (decide (t ∈ [0x15, 0x79, 0x7a, 0x7b, 0x7c, 0x7d, 0x7e, 0x7f])) := by
  decide +kernel

theorem printToken_iff (b : Bytes) (h : Bsm.be b 0 1 ∈ readTypes) : printToken b = .ok () ↔ shown b = true := by
  unfold printToken shown
  rw [lookup_types _ h]
  by_cases h1 : Bsm.be b 0 1 ∈ [0x32, 0x34, 0x3b, 0x3c, 0x3d]
  · rw [if_pos h1]
    refine ⟨fun h => (by cases h), fun h => ?_⟩
    rw [decide_eq_true_eq] at h
    exact absurd h1 h.1
  · rw [if_neg h1]
    by_cases h2 : Bsm.be b 0 1 ∈ [0x15, 0x79, 0x7a, 0x7b, 0x7c, 0x7d, 0x7e, 0x7f]
    · rw [show decide (Bsm.be b 0 1 ∈ [0x15, 0x79, 0x7a, 0x7b, 0x7c, 0x7d, 0x7e, 0x7f]) = true from decide_eq_true h2]
      dsimp only
      by_cases h3 : netType b = 4 ∨ netType b = 16
      · rw [if_pos h3]
        exact ⟨fun _ => decide_eq_true ⟨h1, fun _ => h3⟩, fun _ => rfl⟩
      · rw [if_neg h3]
        refine ⟨fun h => (by cases h), fun h => ?_⟩
        rw [decide_eq_true_eq] at h
        exact absurd (h.2 h2) h3
    · rw [show decide (Bsm.be b 0 1 ∈ [0x15, 0x79, 0x7a, 0x7b, 0x7c, 0x7d, 0x7e, 0x7f]) = false from decide_eq_false h2]
      exact ⟨fun _ => decide_eq_true ⟨h1, fun h => absurd h h2⟩, fun _ => rfl⟩

/-- What a token is read as with debug mode, where it can be read and shown. -/
theorem readTokenDebug_iff (text : Bytes → Bool) (data : Bytes) (off : Nat) (x : Bsm.Token × Nat) :
    readTokenDebug text data off = .ok x ↔ Bsm.readToken (fun b => text b && shown b) data off = .ok x := by
  unfold readTokenDebug Bsm.readToken
  by_cases h1 : data.length < off + 1
  · rw [if_pos h1, if_pos h1]
  rw [if_neg h1, if_neg h1]
  cases hs : Bsm.tokenSize (data.drop off) with
  | none => simp
  | some n =>
    dsimp only
    have ht := tokenSize_type _ _ hs
    have hpos := Bsm.tokenSize_pos _ _ hs
    have hbe : Bsm.be (slice data off (off + n)) 0 1 = Bsm.be (data.drop off) 0 1 := by
      unfold Bsm.be
      congr 1
      unfold slice
      simp only [List.drop_zero]
      rw [List.drop_take, List.take_take]
      congr 1
      omega
    have hp := printToken_iff (slice data off (off + n)) (by rw [hbe]; exact ht)
    by_cases h2 : off + n ≤ data.length ∧ text (slice data off (off + n)) = true
    · rw [if_pos h2]
      dsimp only
      by_cases h3 : shown (slice data off (off + n)) = true
      · rw [hp.mpr h3, if_pos ⟨h2.1, by rw [h2.2, h3]; rfl⟩]
      · rw [if_neg (by rintro ⟨-, h⟩; rw [Bool.and_eq_true] at h; exact h3 h.2)]
        refine ⟨fun h => ?_, fun h => (by cases h)⟩
        cases hpt : printToken (slice data off (off + n)) with
        | error e => rw [hpt] at h; cases h
        | ok u => exact absurd (hp.mp hpt) h3
    · rw [if_neg h2, if_neg (by rintro ⟨h, h'⟩; rw [Bool.and_eq_true] at h'; exact h2 ⟨h, h'.1⟩)]

theorem error_or {α : Type} (a b : Res α) (h : ∀ x, a = .ok x ↔ b = .ok x) :
    (∃ x, a = .ok x ∧ b = .ok x) ∨ (∃ e e', a = .error e ∧ b = .error e') := by
  cases a with
  | ok x => exact .inl ⟨x, rfl, (h x).mp rfl⟩
  | error e =>
    cases b with
    | ok x => exact absurd ((h x).mpr rfl) (by simp)
    | error e' => exact .inr ⟨e, e', rfl, rfl⟩

/-- Two results are the same, but for the kind of error. -/
def Same {α : Type} (a b : Option (Res α)) : Prop :=
  (a = none ∧ b = none) ∨ (∃ x, a = some (.ok x) ∧ b = some (.ok x)) ∨ (∃ e e', a = some (.error e) ∧ b = some (.error e'))

theorem same_refl {α : Type} (a : Option (Res α)) : Same a a := by
  cases a with
  | none => exact .inl ⟨rfl, rfl⟩
  | some r =>
    cases r with
    | ok x => exact .inr (.inl ⟨x, rfl, rfl⟩)
    | error e => exact .inr (.inr ⟨e, e, rfl, rfl⟩)

theorem readTokensDebug_same (text : Bytes → Bool) (data : Bytes) (stop fuel off : Nat) (last : Bsm.Token) (acc : List Bsm.Token) :
    Same (readTokensDebug text data stop fuel off last acc)
      (Bsm.readTokens (fun b => text b && shown b) data stop fuel off last acc) := by
  induction fuel generalizing off last acc with
  | zero => exact .inl ⟨rfl, rfl⟩
  | succ fuel ih =>
    rw [readTokensDebug, Bsm.readTokens]
    by_cases h : off < stop
    · rw [if_pos h, if_pos h]
      rcases error_or _ _ (readTokenDebug_iff text data off) with ⟨⟨t, next⟩, h1, h2⟩ | ⟨e, e', h1, h2⟩
      · rw [h1, h2]
        dsimp only
        by_cases ht : t.type = 0x13
        · rw [if_pos ht, if_pos ht]
          exact same_refl _
        · rw [if_neg ht, if_neg ht]
          exact ih _ _ _
      · rw [h1, h2]
        exact .inr (.inr ⟨e, e', rfl, rfl⟩)
    · rw [if_neg h, if_neg h]
      exact same_refl _

theorem readRecordDebug_same (text : Bytes → Bool) (data : Bytes) (fuel off : Nat) :
    Same (readRecordDebug text data fuel off) (Bsm.readRecord (fun b => text b && shown b) data fuel off) := by
  unfold readRecordDebug Bsm.readRecord
  rcases error_or _ _ (readTokenDebug_iff text data off) with ⟨⟨t, next⟩, h1, h2⟩ | ⟨e, e', h1, h2⟩
  · rw [h1, h2]
    dsimp only
    by_cases h : t.type ∈ Bsm.headerTypes ∧ t.formatVersion = some 11
    · rw [if_pos h, if_pos h]
      unfold readBodyDebug Bsm.readBody
      by_cases h0 : t.recordSize.getD 0 = 0
      · rw [if_pos h0, if_pos h0]
        exact same_refl _
      · rw [if_neg h0, if_neg h0]
        rcases readTokensDebug_same text data (off + t.recordSize.getD 0) fuel off t [] with ⟨k1, k2⟩ | ⟨x, k1, k2⟩ | ⟨e, e', k1, k2⟩
        · rw [k1, k2]
          exact same_refl _
        · rw [k1, k2]
          exact same_refl _
        · rw [k1, k2]
          exact .inr (.inr ⟨e, e', rfl, rfl⟩)
    · rw [if_neg h, if_neg h]
      exact same_refl _
  · rw [h1, h2]
    exact .inr (.inr ⟨e, e', rfl, rfl⟩)

/-- C162.  A BSM file is read in debug mode exactly if it could be read if tokens that cannot be shown were malformed, and with the
same tokens. -/
theorem C162_bsm (text : Bytes → Bool) (data : Bytes) (fuel off : Nat) (acc : List (List Bsm.Token)) :
    Same (readFileDebug text data fuel off acc) (Bsm.readFile (fun b => text b && shown b) data fuel off acc) := by
  induction fuel generalizing off acc with
  | zero => exact .inl ⟨rfl, rfl⟩
  | succ fuel ih =>
    rw [readFileDebug, Bsm.readFile]
    by_cases h : off < data.length
    · rw [if_pos h, if_pos h]
      rcases readRecordDebug_same text data (data.length + 1) off with ⟨k1, k2⟩ | ⟨x, k1, k2⟩ | ⟨e, e', k1, k2⟩
      · rw [k1, k2]
        exact same_refl _
      · rw [k1, k2]
        exact ih _ _
      · rw [k1, k2]
        exact .inr (.inr ⟨e, e', rfl, rfl⟩)
    · rw [if_neg h, if_neg h]
      exact same_refl _

/-- C162, the part that holds: debug mode changes nothing for records whose tokens can all be shown. -/
theorem C162_debug_partial (text : Bytes → Bool) (records : List Bsm.Record)
    (h : ∀ r ∈ records, r.Ok (fun b => text b && shown b)) (fuel : Nat) (hf : records.length < fuel) :
    readFileDebug text (records.flatMap (·.bytes)) fuel 0 [] = some (.ok (records.map (·.values))) := by
  have h1 := Bsm.C49_records _ records h fuel hf
  rcases C162_bsm text (records.flatMap (·.bytes)) fuel 0 [] with ⟨_, k2⟩ | ⟨x, k1, k2⟩ | ⟨e, e', _, k2⟩
  · rw [k2] at h1; cases h1
  · rw [k2] at h1
    rw [k1, ← h1]
  · rw [k2] at h1; cases h1

/-- C162.  In debug mode no record that has a token of one of the five types is read. -/
theorem C162_bsm_types (text : Bytes → Bool) (data : Bytes) (off : Nat) (x : Bsm.Token × Nat)
    (h : Bsm.readToken text data off = .ok x) (ht : x.1.type ∈ [0x32, 0x34, 0x3b, 0x3c, 0x3d]) :
    readTokenDebug text data off = .error .typeError := by
  obtain ⟨t, next⟩ := x
  have htype : t.type = Bsm.be (slice data off next) 0 1 := by
    unfold Bsm.readToken at h
    split at h
    · cases h
    · split at h
      · cases h
      · split at h
        · simp only [Except.ok.injEq, Prod.mk.injEq] at h
          rw [← h.1, ← h.2]
          unfold Bsm.mapToken
          dsimp only
          repeat' split
          all_goals rfl
        · cases h
  unfold readTokenDebug
  rw [h]
  dsimp only at ht ⊢
  have : printToken (slice data off next) = .error .typeError := by
    unfold printToken
    rw [← htype, lookup_types t.type (by revert ht; generalize t.type = n; revert n; decide), if_pos ht]
  rw [this]

/-- A record with a token of groups. -/
def groupsRecord : Bsm.Record := ⟨false, none, [0, 0, 0, 0], List.replicate 8 0, [.groups false [20, 80]]⟩

example : groupsRecord.Ok (fun _ => true) := by
  refine ⟨rfl, rfl, fun a h => (by cases h), by decide, fun t ht => ?_, rfl, rfl⟩
  simp only [groupsRecord, List.mem_singleton] at ht
  subst ht
  exact ⟨by show 2 < 2 ^ 32; decide, rfl⟩

/-- C162.  The claim is false, of both. -/
theorem C162_debug_claim_false : ¬ C162_debug_claim := by
  rintro ⟨h, -⟩
  have ok : (⟨1, 0, 0, List.replicate 12 0, 0, 0, 0, List.replicate 56 0, List.replicate 160 0⟩ : ChromeCache.StoredEntry).Ok :=
    ⟨by dsimp only; omega, by dsimp only; omega, by dsimp only; omega, List.length_replicate, by dsimp only; omega,
      by dsimp only; omega, by dsimp only; omega, List.length_replicate, List.length_replicate⟩
  exact (C162_chrome _ _ _).1 (h _ _ _ (ChromeCache.readEntry_bytes _ ok [] []))

/-- C162.  Also where there are only BSM files: a file with a record of groups is read, and raises a type error in debug mode. -/
theorem C162_bsm_false : ∃ data l, Bsm.readFile (fun _ => true) data 2 0 [] = some (.ok l) ∧
    readFileDebug (fun _ => true) data 2 0 [] = some (.error .typeError) := by
  refine ⟨groupsRecord.bytes, [groupsRecord.values], ?_, by decide +kernel⟩
  have hok : ∀ r ∈ [groupsRecord], r.Ok (fun _ => true) := by
    intro r hr
    simp only [List.mem_singleton] at hr
    subst hr
    refine ⟨rfl, rfl, fun a h => (by cases h), by decide, fun t ht => ?_, rfl, rfl⟩
    simp only [groupsRecord, List.mem_singleton] at ht
    subst ht
    exact ⟨by show 2 < 2 ^ 32; decide, rfl⟩
  simpa using Bsm.C49_records (fun _ => true) [groupsRecord] hok 2 (by decide)

/-! ## Which tokens can be shown, by what is stored -/

/-- Whether an address has the size of one. -/
def isAddress (n : Nat) : Bool := n = 4 ∨ n = 16

/-- The tokens that can be shown: the size of the address, if they have one, is 4 or 16, and they are no attributes of a file of type
0x32, groups or strings. -/
def canShow : Bsm.Stored → Bool
  | .fixed t body => if t = 0x7e then isAddress (beNat (body.take 4)) else t ≠ 0x32
  | .address _ _ s => isAddress s.length
  | .groups .. => false
  | .strings .. => false
  | .socket _ _ _ a _ _ => isAddress a.length
  | _ => true

/-- C162.  Of the tokens of C49 exactly those can be shown. -/
theorem C162_tokens (t : Bsm.Stored) (h : t.Ok) : shown t.bytes = canShow t := by
  have plain : ∀ (x : UInt8) (b : Bytes), x.toNat ∉ [0x32, 0x34, 0x3b, 0x3c, 0x3d] →
      x.toNat ∉ [0x15, 0x79, 0x7a, 0x7b, 0x7c, 0x7d, 0x7e, 0x7f] → shown (x :: b) = true := by
    intro x b h1 h2
    unfold shown
    rw [Bsm.be_type]
    simp only [h1, h2, not_false_eq_true, true_and, false_implies, decide_true]
  have never : ∀ (x : UInt8) (b : Bytes), x.toNat ∈ [0x32, 0x34, 0x3b, 0x3c, 0x3d] → shown (x :: b) = false := by
    intro x b h1
    unfold shown
    rw [Bsm.be_type]
    simp only [h1, not_true_eq_false, false_and, decide_false]
  have net : ∀ (x : UInt8) (b : Bytes) (n : Nat), x.toNat ∈ [0x15, 0x79, 0x7a, 0x7b, 0x7c, 0x7d, 0x7e, 0x7f] →
      netType (x :: b) = n → shown (x :: b) = isAddress n := by
    intro x b n h1 h2
    unfold shown isAddress
    rw [Bsm.be_type, h2]
    have : x.toNat ∉ [0x32, 0x34, 0x3b, 0x3c, 0x3d] := by
      revert h1
      generalize x.toNat = m
      revert m
      decide
    simp only [this, h1, not_false_eq_true, true_and, true_implies]
  cases t with
  | fixed t body =>
    simp only [Bsm.Stored.Ok, Bsm.fixedTokens, List.mem_cons, List.not_mem_nil, or_false, Prod.mk.injEq] at h
    show shown (t :: body) = _
    by_cases h7 : t = 0x7e
    · subst h7
      refine net _ _ _ (by decide) ?_
      unfold netType
      rw [Bsm.be_type]
      rfl
    · have hc : canShow (.fixed t body) = decide (t ≠ 0x32) := by
        unfold canShow
        simp only [h7, if_false]
      rw [hc]
      by_cases h3 : t = 0x32
      · subst h3
        exact never _ _ (by decide)
      · have hd : decide (t ≠ 0x32) = true := by simpa using h3
        rw [hd]
        have key : ∀ x : UInt8, x ∈ Bsm.fixedTokens.map (·.1) → x ≠ 0x7e → x ≠ 0x32 →
            x.toNat ∉ [0x32, 0x34, 0x3b, 0x3c, 0x3d] ∧ x.toNat ∉ [0x15, 0x79, 0x7a, 0x7b, 0x7c, 0x7d, 0x7e, 0x7f] := by decide
        have hm : t ∈ Bsm.fixedTokens.map (·.1) := by
          simp only [Bsm.fixedTokens, List.map_cons, List.map_nil, List.mem_cons, List.not_mem_nil, or_false]
          tauto
        exact plain _ _ (key t hm h7 h3).1 (key t hm h7 h3).2
  | text t before s =>
    have hm : t ∈ Bsm.stringTokens.map (·.1) := List.mem_map.mpr ⟨_, h.1, rfl⟩
    have key : ∀ x : UInt8, x ∈ Bsm.stringTokens.map (·.1) →
        x.toNat ∉ [0x32, 0x34, 0x3b, 0x3c, 0x3d] ∧ x.toNat ∉ [0x15, 0x79, 0x7a, 0x7b, 0x7c, 0x7d, 0x7e, 0x7f] := by decide
    exact plain _ _ (key t hm).1 (key t hm).2
  | address t before s =>
    obtain ⟨h1, h2⟩ := h
    show shown (t :: _) = isAddress s.length
    have field : ∀ a b, a = 1 + before.length → b = a + 4 →
        Bsm.be (t :: (before ++ (beBytes 4 s.length ++ (s ++ [])))) a b = s.length := by
      intro a b ha hb
      have := Bsm.be_field [[t], before] 4 s.length [s] [] a b (by rw [ha]; simp; omega) hb (by omega)
      simpa using this
    simp only [Bsm.addressTokens, List.mem_cons, List.not_mem_nil, or_false, Prod.mk.injEq] at h1
    refine net _ _ _ ?_ ?_
    · rcases h1 with ⟨rfl, -⟩ | ⟨rfl, -⟩ | ⟨rfl, -⟩ | ⟨rfl, -⟩ <;> decide
    · unfold netType
      rw [Bsm.be_type]
      rcases h1 with ⟨rfl, hl⟩ | ⟨rfl, hl⟩ | ⟨rfl, hl⟩ | ⟨rfl, hl⟩
      · exact field 33 37 (by omega) (by omega)
      · exact field 33 37 (by omega) (by omega)
      · exact field 37 41 (by omega) (by omega)
      · exact field 37 41 (by omega) (by omega)
  | data f values => exact plain _ _ (by decide) (by decide)
  | groups new ids => cases new <;> exact never _ _ (by decide)
  | strings env ss => cases env <;> exact never _ _ (by decide)
  | socket d ty p a q b =>
    refine net _ _ _ (by decide) ?_
    unfold netType
    rw [Bsm.be_type]
    have := Bsm.be_field [[0x7f], beBytes 2 d, beBytes 2 ty] 2 a.length [beBytes 2 p, a, beBytes 2 q, b] [] 5 7
      (by simp [beBytes_length]) (by omega) (by have := h.1; omega)
    refine Eq.trans ?_ this
    simp
  | unix f path => exact plain _ _ (by decide) (by decide)

/-- C162.  The header of a record can be shown exactly if it has no address, or one of 4 or 16 bytes; the trailer always can. -/
theorem C162_header (r : Bsm.Record) (he : r.event.length = 4) (ha : ∀ a, r.address = some a → a.length < 2 ^ 32) :
    shown r.header = (match r.address with | none => true | some a => isAddress a.length) ∧ shown (Bsm.trailer r.size) = true := by
  refine ⟨?_, ?_⟩
  · have ht : Bsm.be r.header 0 1 = r.headerType := by
      have : r.header = UInt8.ofNat r.headerType :: [beBytes 4 r.size, [11], r.event, Bsm.addressBytes r.address, r.times].flatten :=
        rfl
      rw [this, Bsm.be_type]
      unfold Bsm.Record.headerType
      repeat' split
      all_goals rfl
    unfold shown
    cases hr : r.address with
    | none =>
      have : r.headerType = 0x74 ∨ r.headerType = 0x14 := by
        unfold Bsm.Record.headerType
        rw [hr]
        cases r.wide
        · exact .inr rfl
        · exact .inl rfl
      rw [ht]
      rcases this with h | h <;> rw [h] <;> simp
    | some a =>
      have h1 : r.headerType = 0x79 ∨ r.headerType = 0x15 := by
        unfold Bsm.Record.headerType
        rw [hr]
        cases r.wide
        · exact .inr rfl
        · exact .inl rfl
      have hf : Bsm.be r.header 10 14 = a.length := by
        have := Bsm.be_field [[UInt8.ofNat r.headerType], beBytes 4 r.size, [11], r.event] 4 a.length [a, r.times] [] 10 14
          (by simp [beBytes_length, he]) (by omega) (ha a hr)
        refine Eq.trans ?_ this
        unfold Bsm.Record.header
        rw [hr]
        simp [Bsm.addressBytes]
      have hn : netType r.header = a.length := by
        unfold netType
        rw [ht]
        rcases h1 with h | h <;> rw [h] <;> exact hf
      rw [ht, hn]
      unfold isAddress
      rcases h1 with h | h <;> rw [h] <;> simp
  · show shown (0x13 :: _) = true
    unfold shown
    rw [Bsm.be_type]
    simp

/-- C162, the part that holds, in terms of what is stored: debug mode does not change what is read of records whose tokens can all be
shown and whose header has no address or one of 4 or 16 bytes. -/
theorem C162_records_partial (text : Bytes → Bool) (records : List Bsm.Record) (h : ∀ r ∈ records, r.Ok text)
    (hs : ∀ r ∈ records, (∀ t ∈ r.tokens, canShow t = true) ∧ ∀ a, r.address = some a → a.length = 4 ∨ a.length = 16)
    (fuel : Nat) (hf : records.length < fuel) :
    readFileDebug text (records.flatMap (·.bytes)) fuel 0 [] = Bsm.readFile text (records.flatMap (·.bytes)) fuel 0 [] := by
  rw [Bsm.C49_records text records h fuel hf]
  refine C162_debug_partial text records (fun r hr => ?_) fuel hf
  obtain ⟨h1, h2, h3, h4, h5, h6, h7⟩ := h r hr
  obtain ⟨k1, k2⟩ := C162_header r h1 h3
  obtain ⟨hs1, hs2⟩ := hs r hr
  refine ⟨h1, h2, h3, h4, fun t ht => ⟨(h5 t ht).1, ?_⟩, ?_, ?_⟩
  · simp only [Bool.and_eq_true]
    exact ⟨(h5 t ht).2, by rw [C162_tokens t (h5 t ht).1]; exact hs1 t ht⟩
  · simp only [Bool.and_eq_true]
    refine ⟨h6, ?_⟩
    rw [k1]
    cases ha : r.address with
    | none => rfl
    | some a => simpa [isAddress] using hs2 a ha
  · simp only [Bool.and_eq_true]
    exact ⟨h7, k2⟩

example : canShow (.socket 2 1 80 [127, 0, 0, 1] 1024 [127, 0, 0, 1]) = true ∧ canShow (.socket 1 1 80 [] 1024 []) = false := by decide

/-! ## The formats of the project -/

/-- The formats, other than custom ones, of all debug definitions files of the project (dtformats/*.debug.yaml). -/
def usedFormats : List String :=
  ["binary_data", "decimal", "floating_point", "hexadecimal_2digits", "hexadecimal_4digits", "hexadecimal_8digits", "string", "uuid"]

/-- C161.  All formats that the files use are supported and have a method, and different formats have different ones. -/
theorem C161_used : (∀ f ∈ usedFormats, f.toList ∈ supportedFormats ∧ (formatCallbacks.lookup f.toList).isSome) ∧
    ∀ f ∈ supportedFormats, ∀ g ∈ supportedFormats, formatCallbacks.lookup f = formatCallbacks.lookup g → f = g := by
  constructor <;> decide +kernel

end Dtf.DebugInfo
