import Verif.Unified.Tables

/-!
# State trackers of location services (C115)

`BaseLocationStructureFormatStringDecoder._FormatStructure` and the two decoders that use it, of
dtformats/unified_logging.py.  The formatting of floating-point numbers is a parameter.
-/

namespace Dtf.Unified
open Py Formats Text

/-- The types of the members of the structures of macos_core_location.yaml. -/
inductive Kind
  | bool (size : Nat)
  | unsigned (size : Nat)
  | signed (size : Nat)
  | float
deriving DecidableEq, Repr

structure Member where
  name : List Char
  kind : Kind
  offset : Nat
deriving DecidableEq, Repr

/-- `client_manager_state_tracker_state` (macos_core_location.yaml): 8 bytes. -/
def clientMembers : List Member :=
  [⟨chars "location_enabled_status", .unsigned 4, 0⟩, ⟨chars "location_restricted", .bool 4, 4⟩]

/-- `location_manager_state_tracker_state_v1` (macos_core_location.yaml), without the unknown bytes: 64 bytes. -/
def locationMembers1 : List Member :=
  [⟨chars "distance_filter", .float, 0⟩, ⟨chars "desired_accuracy", .float, 8⟩,
    ⟨chars "updating_location", .bool 1, 16⟩, ⟨chars "requesting_location", .bool 1, 17⟩,
    ⟨chars "requesting_ranging", .bool 1, 18⟩, ⟨chars "updating_ranging", .bool 1, 19⟩,
    ⟨chars "updating_heading", .bool 1, 20⟩, ⟨chars "heading_filter", .float, 24⟩,
    ⟨chars "allows_location_prompts", .bool 1, 32⟩, ⟨chars "allows_altered_accessory_location", .bool 1, 33⟩,
    ⟨chars "dynamic_accuracy_reduction_enabled", .bool 1, 34⟩,
    ⟨chars "previous_authorization_status_valid", .bool 1, 35⟩,
    ⟨chars "previous_authorization_status", .unsigned 4, 36⟩, ⟨chars "limits_precision", .bool 1, 40⟩,
    ⟨chars "activity_type", .signed 8, 48⟩, ⟨chars "pauses_location_updates_automatially", .signed 4, 56⟩,
    ⟨chars "paused", .bool 1, 60⟩, ⟨chars "allows_background_location_updates", .bool 1, 61⟩,
    ⟨chars "shows_background_location_indicator", .bool 1, 62⟩, ⟨chars "allows_map_correction", .bool 1, 63⟩]

/-- `location_manager_state_tracker_state_v2` (macos_core_location.yaml), without the unknown bytes: 72 bytes. -/
def locationMembers2 : List Member :=
  [⟨chars "distance_filter", .float, 0⟩, ⟨chars "desired_accuracy", .float, 8⟩,
    ⟨chars "updating_location", .bool 1, 16⟩, ⟨chars "requesting_location", .bool 1, 17⟩,
    ⟨chars "requesting_ranging", .bool 1, 18⟩, ⟨chars "updating_ranging", .bool 1, 19⟩,
    ⟨chars "updating_heading", .bool 1, 20⟩, ⟨chars "heading_filter", .float, 24⟩,
    ⟨chars "allows_location_prompts", .bool 1, 32⟩, ⟨chars "allows_altered_accessory_location", .bool 1, 33⟩,
    ⟨chars "dynamic_accuracy_reduction_enabled", .bool 1, 34⟩,
    ⟨chars "previous_authorization_status_valid", .bool 1, 35⟩,
    ⟨chars "previous_authorization_status", .unsigned 4, 36⟩, ⟨chars "limits_precision", .bool 1, 40⟩,
    ⟨chars "activity_type", .signed 8, 48⟩, ⟨chars "pauses_location_updates_automatially", .signed 4, 56⟩,
    ⟨chars "paused", .bool 1, 60⟩, ⟨chars "allows_background_location_updates", .bool 1, 61⟩,
    ⟨chars "shows_background_location_indicator", .bool 1, 62⟩, ⟨chars "allows_map_correction", .bool 1, 63⟩,
    ⟨chars "batching_location", .bool 1, 64⟩, ⟨chars "updating_vehicle_speed", .bool 1, 65⟩,
    ⟨chars "updating_vehicle_heading", .bool 1, 66⟩, ⟨chars "match_information_enabled", .bool 1, 67⟩,
    ⟨chars "ground_altitude_enabled", .bool 1, 68⟩, ⟨chars "fusion_information_enabled", .bool 1, 69⟩,
    ⟨chars "courtesy_prompt_needed", .bool 1, 70⟩, ⟨chars "is_authorized_for_widget_updates", .bool 1, 71⟩]

/-- `_VALUE_MAPPINGS` (unified_logging.py 801-804). -/
def clientMappings : List (List Char × List Char) :=
  [(chars "locationRestricted", chars "location_restricted"),
    (chars "locationServicesEnabledStatus", chars "location_enabled_status")]

/-- `_VALUE_MAPPINGS` (unified_logging.py 837-866). -/
def locationMappings : List (List Char × List Char) :=
  [(chars "previousAuthorizationStatusValid", chars "previous_authorization_status_valid"),
    (chars "paused", chars "paused"), (chars "requestingLocation", chars "requesting_location"),
    (chars "updatingVehicleSpeed", chars "updating_vehicle_speed"),
    (chars "desiredAccuracy", chars "desired_accuracy"),
    (chars "allowsBackgroundLocationUpdates", chars "allows_background_location_updates"),
    (chars "dynamicAccuracyReductionEnabled", chars "dynamic_accuracy_reduction_enabled"),
    (chars "distanceFilter", chars "distance_filter"),
    (chars "allowsLocationPrompts", chars "allows_location_prompts"),
    (chars "activityType", chars "activity_type"),
    (chars "groundAltitudeEnabled", chars "ground_altitude_enabled"),
    (chars "pausesLocationUpdatesAutomatially", chars "pauses_location_updates_automatially"),
    (chars "fusionInfoEnabled", chars "fusion_information_enabled"),
    (chars "isAuthorizedForWidgetUpdates", chars "is_authorized_for_widget_updates"),
    (chars "updatingVehicleHeading", chars "updating_vehicle_heading"),
    (chars "batchingLocation", chars "batching_location"),
    (chars "showsBackgroundLocationIndicator", chars "shows_background_location_indicator"),
    (chars "updatingLocation", chars "updating_location"),
    (chars "requestingRanging", chars "requesting_ranging"),
    (chars "updatingHeading", chars "updating_heading"),
    (chars "previousAuthorizationStatus", chars "previous_authorization_status"),
    (chars "allowsMapCorrection", chars "allows_map_correction"),
    (chars "matchInfoEnabled", chars "match_information_enabled"),
    (chars "allowsAlteredAccessoryLoctions", chars "allows_altered_accessory_location"),
    (chars "updatingRanging", chars "updating_ranging"), (chars "limitsPrecision", chars "limits_precision"),
    (chars "courtesyPromptNeeded", chars "courtesy_prompt_needed"),
    (chars "headingFilter", chars "heading_filter")]

/-- The text of a member: `_FormatStructure` (unified_logging.py 770-783).  dtfabric maps a boolean
with a false value of 0 and without a true value to true unless it is 0.  A Python `bool` is an `int`
but is tested first. -/
def memberText (fmt : Bytes → List Char) (v : Bytes) (m : Member) : List Char :=
  match m.kind with
  | .bool w => if leNat (slice v m.offset (m.offset + w)) ≠ 0 then chars "true" else chars "false"
  | .unsigned w => dec (leNat (slice v m.offset (m.offset + w)))
  | .signed w => decInt (signed w (leNat (slice v m.offset (m.offset + w))))
  | .float => fmt (slice v m.offset (m.offset + 8))

/-- `_FormatStructure` (unified_logging.py 755-789): a mapping whose attribute the structure does not
have is left out. -/
def structureText (fmt : Bytes → List Char) (members : List Member) (mappings : List (List Char × List Char))
    (v : Bytes) : List Char :=
  let values := mappings.filterMap (fun p =>
    (members.find? (fun m => decide (m.name = p.2))).map (fun m =>
      ['"'] ++ p.1 ++ ['"', ':'] ++ memberText fmt v m))
  ['{'] ++ join [','] values ++ ['}']

/-- `LocationClientManagerStateFormatStringDecoder.FormatValue` (unified_logging.py 806-826).  The size
is that of the structure, hence reading it cannot fail. -/
def clientStateText (fmt : Bytes → List Char) (v : Bytes) : List Char :=
  if v.length ≠ 8 then unsupported else structureText fmt clientMembers clientMappings v

/-- `LocationLocationManagerStateFormatStringDecoder.FormatValue` (unified_logging.py 868-892). -/
def locationStateText (fmt : Bytes → List Char) (v : Bytes) : List Char :=
  if v.length = 64 then structureText fmt locationMembers1 locationMappings v
  else if v.length = 72 then structureText fmt locationMembers2 locationMappings v
  else unsupported

/-! ## Specification -/

/-- What a member says: a truth value, a number or the text of a floating-point number. -/
inductive Said
  | truth (b : Bool)
  | number (i : Int)
  | text (t : List Char)
deriving DecidableEq

def said (fmt : Bytes → List Char) (v : Bytes) (m : Member) : Said :=
  match m.kind with
  | .bool w => .truth (decide (∃ b ∈ slice v m.offset (m.offset + w), b ≠ 0))
  | .unsigned w => .number (leNat (slice v m.offset (m.offset + w)))
  | .signed w => .number (signed w (leNat (slice v m.offset (m.offset + w))))
  | .float => .text (fmt (slice v m.offset (m.offset + 8)))

/-! ## Proofs -/

theorem dec_inj {m n : Nat} (h : dec m = dec n) : m = n := digits_injective 10 (by decide) (by decide) m n h

theorem not_mem_dec (c : Char) (hc : digitVal c = none) (n : Nat) : c ∉ dec n := by
  intro h
  obtain ⟨d, hd, he⟩ := mem_digits 10 n (by decide) _ h
  exact digitChar_ne d (by omega) c hc he.symm

theorem not_mem_decInt (c : Char) (hc : digitVal c = none) (hm : c ≠ '-') (i : Int) : c ∉ decInt i := by
  unfold decInt
  split
  · intro h
    rcases List.mem_cons.1 h with h | h
    · exact hm h
    · exact not_mem_dec c hc _ h
  · exact not_mem_dec c hc _

theorem decInt_inj {i j : Int} (h : decInt i = decInt j) : i = j := by
  have hm : ∀ n, '-' ∉ dec n := fun n => not_mem_dec '-' (by decide) n
  unfold decInt at h
  by_cases h1 : i < 0 <;> by_cases h2 : j < 0
  · rw [if_pos h1, if_pos h2] at h
    have := dec_inj (List.cons.inj h).2
    omega
  · rw [if_pos h1, if_neg h2] at h
    exact absurd (h ▸ List.mem_cons_self) (hm j.natAbs)
  · rw [if_neg h1, if_pos h2] at h
    exact absurd (h.symm ▸ List.mem_cons_self) (hm i.natAbs)
  · rw [if_neg h1, if_neg h2] at h
    have := dec_inj h
    omega

theorem memberText_comma (fmt : Bytes → List Char) (hf : ∀ b, ',' ∉ fmt b) (v : Bytes) (m : Member) :
    ',' ∉ memberText fmt v m := by
  unfold memberText
  cases m.kind with
  | bool w =>
    simp only
    split <;> decide
  | unsigned w => exact not_mem_dec ',' (by decide) _
  | signed w => exact not_mem_decInt ',' (by decide) (by decide) _
  | float => exact hf _

theorem leNat_zero (v : Bytes) : leNat v = 0 ↔ ∀ b ∈ v, b = 0 := by
  induction v with
  | nil => simp [leNat]
  | cons b v ih =>
    rw [leNat, List.forall_mem_cons, ← ih]
    have hb : b = 0 ↔ b.toNat = 0 := ⟨fun h => by rw [h]; rfl, fun h => UInt8.toNat_inj.1 h⟩
    rw [hb]
    omega

theorem exists_ne_zero (v : Bytes) : (∃ b ∈ v, b ≠ 0) ↔ leNat v ≠ 0 := by
  rw [ne_eq, leNat_zero]
  constructor
  · rintro ⟨b, hb, h⟩ ha
    exact h (ha b hb)
  · intro h
    apply Classical.byContradiction
    intro hn
    apply h
    intro b hb
    apply Classical.byContradiction
    intro hne
    exact hn ⟨b, hb, hne⟩

theorem memberText_said (fmt : Bytes → List Char) (v w : Bytes) (m : Member)
    (h : memberText fmt v m = memberText fmt w m) : said fmt v m = said fmt w m := by
  unfold memberText at h
  unfold said
  cases hk : m.kind with
  | bool n =>
    rw [hk] at h
    simp only at h ⊢
    have ht : (['t', 'r', 'u', 'e'] : List Char) ≠ ['f', 'a', 'l', 's', 'e'] := by decide
    congr 1
    rw [decide_eq_decide, exists_ne_zero, exists_ne_zero]
    by_cases h1 : leNat (slice v m.offset (m.offset + n)) = 0 <;>
      by_cases h2 : leNat (slice w m.offset (m.offset + n)) = 0
    · simp [h1, h2]
    · rw [if_neg (fun x => x h1), if_pos h2] at h
      exact absurd h.symm ht
    · rw [if_pos h1, if_neg (fun x => x h2)] at h
      exact absurd h ht
    · simp [h1, h2]
  | unsigned n =>
    rw [hk] at h
    exact congrArg (fun k : Nat => Said.number (k : Int)) (dec_inj h)
  | signed n =>
    rw [hk] at h
    exact congrArg Said.number (decInt_inj h)
  | float =>
    rw [hk] at h
    exact congrArg Said.text h

/-- The mappings with the members they show. -/
def shownMembers (members : List Member) (mappings : List (List Char × List Char)) : List (List Char × Member) :=
  mappings.filterMap (fun p => (members.find? (fun m => decide (m.name = p.2))).map (fun m => (p.1, m)))

theorem structureText_eq (fmt : Bytes → List Char) (members : List Member) (mappings : List (List Char × List Char))
    (v : Bytes) : structureText fmt members mappings v = ['{'] ++ join [','] ((shownMembers members mappings).map
      (fun p => ['"'] ++ p.1 ++ ['"', ':'] ++ memberText fmt v p.2)) ++ ['}'] := by
  unfold structureText shownMembers
  rw [List.map_filterMap]
  simp only [Option.map_map]
  rfl

/-- Two texts with the same members in the same order. -/
theorem structureText_said (fmt : Bytes → List Char) (hf : ∀ b, ',' ∉ fmt b) (l : List (List Char × Member))
    (hl : ∀ p ∈ l, ',' ∉ p.1) (hne : l ≠ []) (v w : Bytes)
    (h : ['{'] ++ join [','] (l.map (fun p => ['"'] ++ p.1 ++ ['"', ':'] ++ memberText fmt v p.2)) ++ ['}'] =
      ['{'] ++ join [','] (l.map (fun p => ['"'] ++ p.1 ++ ['"', ':'] ++ memberText fmt w p.2)) ++ ['}']) :
    ∀ p ∈ l, said fmt v p.2 = said fmt w p.2 := by
  rw [List.append_assoc, List.append_assoc] at h
  have h := congrArg (splitOn ',') (List.append_cancel_right (List.append_cancel_left h))
  have hc : ∀ (u : Bytes), ∀ q ∈ l.map (fun p => ['"'] ++ p.1 ++ ['"', ':'] ++ memberText fmt u p.2), ',' ∉ q := by
    intro u q hq
    obtain ⟨p, hp, rfl⟩ := List.mem_map.1 hq
    intro hm
    rcases List.mem_append.1 hm with hm | hm
    · rcases List.mem_append.1 hm with hm | hm
      · rcases List.mem_append.1 hm with hm | hm
        · revert hm
          decide
        · exact hl p hp hm
      · revert hm
        decide
    · exact memberText_comma fmt hf u p.2 hm
  rw [splitOn_join _ _ (by simpa using hne) (hc v), splitOn_join _ _ (by simpa using hne) (hc w)] at h
  intro p hp
  have := List.map_inj_left.1 h p hp
  exact memberText_said fmt v w p.2 (List.append_cancel_left this)

/-- C115.  Every known member of the structures is shown, each under its own name. -/
theorem C115_members :
    (∀ m ∈ clientMembers, m ∈ (shownMembers clientMembers clientMappings).map (·.2)) ∧
    (∀ m ∈ locationMembers1, m ∈ (shownMembers locationMembers1 locationMappings).map (·.2)) ∧
    (∀ m ∈ locationMembers2, m ∈ (shownMembers locationMembers2 locationMappings).map (·.2)) ∧
    (locationMappings.map (·.1)).Nodup ∧ (locationMappings.map (·.2)).Nodup ∧ (clientMappings.map (·.1)).Nodup := by
  decide +kernel

/-- C115.  Two states of the location manager with the same text, of the same size, agree in every
known member. -/
theorem C115_location (fmt : Bytes → List Char) (hf : ∀ b, ',' ∉ fmt b) (v w : Bytes) (hs : v.length = w.length)
    (h : locationStateText fmt v = locationStateText fmt w) :
    (v.length = 64 → ∀ m ∈ locationMembers1, said fmt v m = said fmt w m) ∧
      (v.length = 72 → ∀ m ∈ locationMembers2, said fmt v m = said fmt w m) := by
  obtain ⟨_, c1, c2, _⟩ := C115_members
  unfold locationStateText at h
  constructor
  · intro hl m hm
    rw [if_pos hl, if_pos (hs ▸ hl), structureText_eq, structureText_eq] at h
    obtain ⟨p, hp, rfl⟩ := List.mem_map.1 (c1 m hm)
    exact structureText_said fmt hf _ (by decide +kernel) (by decide +kernel) v w h p hp
  · intro hl m hm
    rw [if_neg (by omega), if_pos hl, if_neg (by omega), if_pos (hs ▸ hl), structureText_eq, structureText_eq] at h
    obtain ⟨p, hp, rfl⟩ := List.mem_map.1 (c2 m hm)
    exact structureText_said fmt hf _ (by decide +kernel) (by decide +kernel) v w h p hp

/-- C115.  Likewise for the states of the client manager. -/
theorem C115_client (fmt : Bytes → List Char) (hf : ∀ b, ',' ∉ fmt b) (v w : Bytes) (hv : v.length = 8)
    (hw : w.length = 8) (h : clientStateText fmt v = clientStateText fmt w) :
    ∀ m ∈ clientMembers, said fmt v m = said fmt w m := by
  unfold clientStateText at h
  rw [if_neg (by omega), if_neg (by omega), structureText_eq, structureText_eq] at h
  intro m hm
  obtain ⟨p, hp, rfl⟩ := List.mem_map.1 (C115_members.1 m hm)
  exact structureText_said fmt hf _ (by decide +kernel) (by decide +kernel) v w h p hp

/-- C115.  The client manager: the status is the first number and the restriction the second. -/
theorem C115_client_text (fmt : Bytes → List Char) (status restricted : Nat) (h1 : status < 256 ^ 4)
    (h2 : restricted < 256 ^ 4) : clientStateText fmt ([leBytes 4 status, leBytes 4 restricted].flatten) =
      "{\"locationRestricted\":".toList ++ (if restricted = 0 then "false".toList else "true".toList) ++
        ",\"locationServicesEnabledStatus\":".toList ++ dec status ++ "}".toList := by
  have hsh : shownMembers clientMembers clientMappings =
      [("locationRestricted".toList, ⟨"location_restricted".toList, .bool 4, 4⟩),
        ("locationServicesEnabledStatus".toList, ⟨"location_enabled_status".toList, .unsigned 4, 0⟩)] := by
    decide +kernel
  unfold clientStateText
  rw [if_neg (by simp), structureText_eq, hsh]
  generalize hB : [leBytes 4 status, leBytes 4 restricted].flatten = B
  have g0 : leNat (slice B 0 4) = status := hB ▸ leField [] 4 _ _ 0 4 (by simp) rfl h1
  have g1 : leNat (slice B 4 8) = restricted := hB ▸ leField [_] 4 _ _ 4 8 (by simp) rfl h2
  simp only [List.map_cons, List.map_nil, memberText, join, g0, g1]
  by_cases hz : restricted = 0
  · rw [if_neg (fun x => x hz), if_pos hz]
    simp
  · rw [if_pos hz, if_neg hz]
    simp

example : (fun b : Bytes => dec b.length) [] = ['0'] ∧ ∀ b : Bytes, ',' ∉ dec b.length :=
  ⟨by decide, fun _ => not_mem_dec ',' (by decide) _⟩

/-- C115.  A value of another size is shown as unsupported. -/
theorem C115_size (fmt : Bytes → List Char) (v : Bytes) :
    (v.length ≠ 8 → clientStateText fmt v = "<decode: unsupported value>".toList) ∧
      (v.length ≠ 64 → v.length ≠ 72 → locationStateText fmt v = "<decode: unsupported value>".toList) := by
  refine ⟨fun h => ?_, fun h1 h2 => ?_⟩
  · unfold clientStateText
    rw [if_pos h]
    rfl
  · unfold locationStateText
    rw [if_neg h1, if_neg h2]
    rfl

end Dtf.Unified
