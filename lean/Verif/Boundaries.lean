import Verif.Unified.Location
import Verif.Unified.Values
import Verif.Unified.Caches
import Verif.Unified.Signposts
import Verif.Wmi.Index
import Verif.Wmi.Definitions
import Verif.Keychain
import Verif.ChangeLog

/-!
# Boundary cases of properties proved elsewhere (C30, C37, C50, C94, C114, C115, C118, C130, C145)

Tables of constants have an independent description here, and readers with a check have the exact condition of it.
-/

namespace Dtf.Unified
open Py Formats Text

/-! ## C115: the layout of the states of location services -/

def Kind.size : Kind → Nat
  | .bool w => w
  | .unsigned w => w
  | .signed w => w
  | .float => 8

/-- The offsets that a C compiler gives members: each at the next multiple of its size. -/
def aligned : Nat → List Nat → List Nat
  | _, [] => []
  | off, size :: rest => ((off + size - 1) / size * size) :: aligned ((off + size - 1) / size * size + size) rest

/-- A name in camel case. -/
def camel : List Char → List Char
  | '_' :: c :: s => c.toUpper :: camel s
  | c :: s => c :: camel s
  | [] => []

/-- C115.  The members are where a C compiler has them, and the last ends with the structure. -/
theorem C115_layout :
    clientMembers.map (·.offset) = aligned 0 (clientMembers.map (·.kind.size)) ∧
    locationMembers1.map (·.offset) = aligned 0 (locationMembers1.map (·.kind.size)) ∧
    locationMembers2.map (·.offset) = aligned 0 (locationMembers2.map (·.kind.size)) ∧
    clientMembers.getLast?.map (fun m => m.offset + m.kind.size) = some 8 ∧
    locationMembers1.getLast?.map (fun m => m.offset + m.kind.size) = some 64 ∧
    locationMembers2.getLast?.map (fun m => m.offset + m.kind.size) = some 72 := by
  decide +kernel

/-- C115.  The second version has the members of the first, and more of them. -/
theorem C115_versions : ∃ more, locationMembers2 = locationMembers1 ++ more ∧ more.map (·.kind) = List.replicate 8 (.bool 1) :=
  ⟨locationMembers2.drop 20, by decide +kernel, by decide +kernel⟩

/-- The names that are not those of the members in camel case. -/
def otherNames : List (List Char × List Char) :=
  [("fusionInfoEnabled".toList, "fusion_information_enabled".toList), ("matchInfoEnabled".toList, "match_information_enabled".toList),
    ("allowsAlteredAccessoryLoctions".toList, "allows_altered_accessory_location".toList),
    ("locationServicesEnabledStatus".toList, "location_enabled_status".toList)]

/-- C115.  Every member is shown under its own name. -/
theorem C115_names : ∀ p ∈ clientMappings ++ locationMappings, p ∈ otherNames ∨ p.1 = camel p.2 := by
  decide +kernel

/-! ## C114: the codes with a name -/

/-- C114.  The codes that have a name: all errors of Darwin from 0 to 106 do. -/
theorem C114_codes :
    darwinErrors.map (·.1) = [-1, -2, -5, -6, -7, -8] ++ (List.range 107).map (fun (n : Nat) => (n : Int)) ∧
    authorizationStatus.map (·.1) = (List.range 5).map (fun (n : Nat) => (n : Int)) ∧
    sqliteResults.map (·.1) = (List.range 29).map (fun (n : Nat) => (n : Int)) ++ [100, 101, 266] ∧
    mdnsProtocols.map (·.1) = [1, 2, 4] := by
  decide +kernel

/-! ## C118: private data without a range -/

/-- C118.  Without a private data range the offsets of items are those in the private data. -/
theorem C118_no_range (private_ : Bytes) (virtual itemOffset itemSize t : Nat) (ht : t ∈ ItemKind.privateString.types)
    (h : itemOffset + itemSize ≤ private_.length) :
    itemData ⟨[], private_, privateOffset none virtual⟩ (.range t itemOffset itemSize) =
      .ok (some (slice private_ itemOffset (itemOffset + itemSize))) := by
  have e : itemData ⟨[], private_, privateOffset none virtual⟩ (.range t itemOffset itemSize) =
      .ok (some (sliceInt private_ (privateOffset none virtual + itemOffset)
        (privateOffset none virtual + itemOffset + itemSize))) := by
    simp only [ItemKind.types, List.mem_cons, List.not_mem_nil, or_false] at ht
    rcases ht with rfl | rfl <;> rfl
  rw [e]
  simp only [privateOffset]
  unfold sliceInt sliceIndex
  rw [if_neg (by omega), if_neg (by omega)]
  have e1 : min ((0 : Int) + itemOffset + itemSize).toNat private_.length = itemOffset + itemSize := by omega
  have e2 : min ((0 : Int) + itemOffset).toNat private_.length = itemOffset := by omega
  rw [e1, e2]

example : 0x21 ∈ ItemKind.privateString.types ∧ 1 + 2 ≤ [1, 2, 3, (4 : UInt8)].length := by decide

/-! ## C30: image values -/

/-- C30.  A string of a uuidtext file is given with the path of its image and the offset of its text. -/
theorem C30_uuidtext {S : Type} (percentS empty : S) (uuidtext : Bytes → Option (S × (Nat → Res (Option S))))
    (dsc : Bytes → Option (Nat → Bool → Res (Option (ImageValues S)))) (ident : Bytes) (reference : Nat) (x : Rest)
    (hx : x.isUuidtext = true) (path : S) (strings : Nat → Res (Option S)) (hu : uuidtext ident = some (path, strings)) :
    (x.isDynamic = true → computeValues percentS empty uuidtext dsc (ident, reference) x =
      .ok ⟨ident, some path, some percentS, x.imageTextOffset⟩) ∧
    (x.isDynamic = false → ∀ s, strings reference = .ok (some s) →
      computeValues percentS empty uuidtext dsc (ident, reference) x = .ok ⟨ident, some path, some s, x.imageTextOffset⟩) ∧
    (x.isDynamic = false → strings reference = .ok none →
      computeValues percentS empty uuidtext dsc (ident, reference) x =
        .ok ⟨ident, some path, none, x.largeOffsetData * 2 ^ 31⟩) ∧
    (x.isDynamic = false → ∀ e, strings reference = .error e →
      computeValues percentS empty uuidtext dsc (ident, reference) x = .error e) := by
  refine ⟨?_, ?_, ?_, ?_⟩
  · intro hd; simp [computeValues, hx, hu, hd]
  · intro hd s hs; simp [computeValues, hx, hu, hd, hs]
  · intro hd hs; simp [computeValues, hx, hu, hd, hs, Nat.shiftLeft_eq]
  · intro hd e hs; simp [computeValues, hx, hu, hd, hs]

/-- C30.  Values of a shared-cache strings file are given as they are, unless both the large offset and the large shared cache
are there and do not belong together: then the path is empty and the offset is 0. -/
theorem C30_shared_cache {S : Type} (percentS empty : S) (uuidtext : Bytes → Option (S × (Nat → Res (Option S))))
    (dsc : Bytes → Option (Nat → Bool → Res (Option (ImageValues S)))) (ident : Bytes) (reference : Nat) (x : Rest)
    (hx : x.isUuidtext = false) (values : Nat → Bool → Res (Option (ImageValues S))) (hu : dsc ident = some values)
    (v : ImageValues S) (hv : values reference x.isDynamic = .ok (some v)) :
    ((x.largeOffsetData = 0 ∨ x.largeSharedCacheData = 0 ∨ x.largeOffsetData = x.largeSharedCacheData / 2) →
      computeValues percentS empty uuidtext dsc (ident, reference) x = .ok v) ∧
    (x.largeOffsetData ≠ 0 → x.largeSharedCacheData ≠ 0 → x.largeOffsetData ≠ x.largeSharedCacheData / 2 →
      computeValues percentS empty uuidtext dsc (ident, reference) x =
        .ok { v with ident := ident, textOffset := 0, path := some empty }) := by
  have e : computeValues percentS empty uuidtext dsc (ident, reference) x =
      if x.largeOffsetData ≠ 0 ∧ x.largeSharedCacheData ≠ 0 ∧ x.largeOffsetData ≠ x.largeSharedCacheData >>> 1 then
        .ok { v with ident := ident, textOffset := 0, path := some empty }
      else .ok v := by
    simp [computeValues, hx, hu, hv]
  rw [e, Nat.shiftRight_eq_div_pow, Nat.pow_one]
  refine ⟨?_, ?_⟩
  · intro h
    rw [if_neg]
    rintro ⟨h1, h2, h3⟩
    rcases h with h | h | h
    · exact h1 h
    · exact h2 h
    · exact h3 h
  · intro h1 h2 h3
    rw [if_pos ⟨h1, h2, h3⟩]

/-- A large offset of 3 does not belong to a large shared cache of 4. -/
example : computeValues 0 1 (fun _ => none) (fun _ => some (fun _ _ => .ok (some ⟨[1], some 7, some 8, 9⟩))) ([1], 5)
    ⟨false, false, 0, 3, 4⟩ = .ok (⟨[1], some 1, some 8, 0⟩ : ImageValues Nat) := by decide +kernel

end Dtf.Unified

namespace Dtf.Signposts
open Py Formats Text Unified

/-! ## C145: the sizes of numbers in signposts -/

/-- C145.  A real number has 4 or 8 bytes, an integer 1, 2, 4 or 8; others are shown as unsupported. -/
theorem C145_sizes (utf8 : Bytes → Option (List Char)) (float : Nat → Nat → List Char) (o : Operator) (value : Bytes)
    (hv : value ≠ []) :
    (o.specifier ∈ ['a', 'A', 'e', 'E', 'f', 'F', 'g', 'G'] →
      (value.length = 4 ∨ value.length = 8 → stringValue utf8 float (some o) value = some (float value.length (leNat value))) ∧
      (value.length ≠ 4 → value.length ≠ 8 → stringValue utf8 float (some o) value = some unsupportedValue)) ∧
    (o.specifier ∈ ['c', 'C', 'd', 'D', 'i', 'm', 'o', 'O', 'p', 'u', 'U', 'x', 'X'] →
      value.length ≠ 1 → value.length ≠ 2 → value.length ≠ 4 → value.length ≠ 8 →
        stringValue utf8 float (some o) value = some unsupportedValue) := by
  unfold stringValue
  rw [if_neg hv]
  simp only [Option.map_some, Option.getD_some]
  generalize o.specifier = c
  refine ⟨?_, ?_⟩
  · intro hc
    rw [if_pos hc]
    refine ⟨?_, ?_⟩
    · intro h
      rw [if_neg (by simp only [List.mem_cons, List.not_mem_nil, or_false, not_not]; exact h)]
    · intro h4 h8
      rw [if_pos (by simp [h4, h8])]
  · intro hc h1 h2 h4 h8
    simp only [List.mem_cons, List.not_mem_nil, or_false] at hc
    have hl : value.length ∉ [1, 2, 4, 8] := by simp [h1, h2, h4, h8]
    rcases hc with rfl | rfl | rfl | rfl | rfl | rfl | rfl | rfl | rfl | rfl | rfl | rfl | rfl <;> simp [h1, h2, h4, h8]

end Dtf.Signposts

namespace Dtf.Wmi
open Py Formats

/-! ## C37: the values of keys are ASCII -/

/-- C37.  A value of a key ends with the first zero byte, and is refused if there is none or if a byte before it is not
ASCII. -/
theorem C37_value (b : Bytes) (v : List Char) :
    asciiString b = some v ↔ ∃ s rest, b = s ++ 0 :: rest ∧ (∀ c ∈ s, c.toNat ≠ 0 ∧ c.toNat < 128) ∧
      v.map Char.toNat = s.map UInt8.toNat := by
  constructor
  · intro h
    unfold asciiString at h
    dsimp only at h
    split at h
    · cases h
    · rename_i hlen
      split at h
      · cases h
      · rename_i hany
        injection h with h
        have hsplit := (List.takeWhile_append_dropWhile (p := (· ≠ (0 : UInt8))) (l := b)).symm
        generalize hs : b.takeWhile (· ≠ (0 : UInt8)) = s at *
        generalize hd : b.dropWhile (· ≠ (0 : UInt8)) = d at *
        cases d with
        | nil => rw [List.append_nil] at hsplit; rw [hsplit] at hlen; omega
        | cons x rest =>
          have hx : x = 0 := by
            have := List.head?_dropWhile_not (p := (· ≠ (0 : UInt8))) (l := b)
            rw [hd] at this
            simpa using this
          subst hx
          have hsmall : ∀ c ∈ s, c.toNat < 128 := by
            intro c hc
            have := hany
            simp only [List.any_eq_true, decide_eq_true_eq, not_exists, not_and] at this
            have := this c hc
            omega
          refine ⟨s, rest, hsplit, ?_, ?_⟩
          · intro c hc
            refine ⟨?_, hsmall c hc⟩
            rw [← hs] at hc
            have hall := List.all_takeWhile (p := (· ≠ (0 : UInt8))) (l := b)
            have := List.all_eq_true.mp hall c hc
            intro h0
            simp only [ne_eq, decide_not, Bool.not_eq_eq_eq_not, Bool.not_true, decide_eq_false_iff_not] at this
            exact this (UInt8.toNat_inj.mp (by rw [h0]; rfl))
          · rw [← h, List.map_map]
            apply List.map_congr_left
            intro c hc
            have := hsmall c hc
            simp only [Function.comp_apply]
            have hchars : ∀ n : Fin 128, (Char.ofNat n.val).toNat = n.val := by decide +kernel
            exact hchars ⟨c.toNat, this⟩
  · rintro ⟨s, rest, rfl, hs, hv⟩
    have hval : ∀ c ∈ v, c.toNat ≠ 0 ∧ c.toNat < 128 := by
      intro c hc
      have : c.toNat ∈ v.map Char.toNat := List.mem_map_of_mem hc
      rw [hv] at this
      obtain ⟨x, hx, hxc⟩ := List.mem_map.mp this
      rw [← hxc]
      exact hs x hx
    have e : s = v.map (fun c => UInt8.ofNat c.toNat) := by
      have h1 : s = (s.map UInt8.toNat).map UInt8.ofNat := by
        rw [List.map_map]
        conv => lhs; rw [← List.map_id s]
        apply List.map_congr_left
        intro c _
        simp
      rw [h1, ← hv, List.map_map]
      rfl
    have := asciiString_at (s ++ 0 :: rest) 0 v ⟨fun c hc => ⟨by have := hval c hc; omega, by have := hval c hc; omega⟩, [], rest, by rw [← e]; simp, rfl⟩
    simpa using this

example : asciiString [78, 83, 0, 9] = some ['N', 'S'] ∧ asciiString [78, 128, 0] = none ∧ asciiString [78] = none := by decide

/-! ## C130: the types of values with an offset -/

/-- C130.  The types with an offset are strings and arrays, which are the types of the values with a bit. -/
theorem C130_types (type : Nat) : type ∈ offsetTypes ↔
    type = 8 ∨ ∃ t ∈ [0x02, 0x03, 0x04, 0x05, 0x08, 0x0b, 0x10, 0x11, 0x12, 0x13, 0x14, 0x15], type = 0x2000 + t := by
  simp [offsetTypes]

end Dtf.Wmi

namespace Dtf.Keychain
open Py DataFormat

/-! ## C50: the sizes of records -/

/-- C50.  What is read of a record with so many offsets, by its size: a record that is not in the file is refused, one that is
smaller than its offsets too; but for one byte less, all the rest of the file is taken for its values. -/
theorem C50_parts (data : Bytes) (off n : Nat) (h : off + 24 ≤ data.length) :
    (data.length < off + 24 + 4 * n → readParts data off n = .error .parseError) ∧
    (off + 24 + 4 * n ≤ data.length →
      (beNat (slice data off (off + 4)) + 1 < 24 + 4 * n → readParts data off n = .error .valueError) ∧
      (beNat (slice data off (off + 4)) + 1 = 24 + 4 * n → readParts data off n =
        .ok (words n (slice data (off + 24) (off + 24 + 4 * n)), data.drop (off + 24 + 4 * n))) ∧
      (24 + 4 * n ≤ beNat (slice data off (off + 4)) → readParts data off n =
        .ok (words n (slice data (off + 24) (off + 24 + 4 * n)),
          slice data (off + 24 + 4 * n) (off + beNat (slice data off (off + 4)))))) := by
  have hh : structAt recordHeader data off = .ok (beNat (slice data off (off + 4)), (24 : Nat)) := by
    unfold recordHeader
    rw [structAt_refine, structAt_fixed _ _ _ _ (by omega), if_neg (by omega)]
    have e : slice ((data.drop off).take 24) 0 4 = slice data off (off + 4) := by
      unfold slice
      rw [List.drop_zero, List.take_take, List.drop_take]
      simp
    simp only [id, e]
  unfold readParts
  rw [hh]
  dsimp only
  unfold readOffsets
  refine ⟨?_, ?_⟩
  · intro hl
    rw [if_pos hl]
  · intro hl
    rw [if_neg (by omega)]
    dsimp only
    unfold readRest
    refine ⟨?_, ?_, ?_⟩
    · intro hs
      rw [if_pos (by omega)]
    · intro hs
      rw [if_neg (by omega)]
      dsimp only [File.read]
      rw [if_pos (by omega)]
    · intro hs
      rw [if_neg (by omega)]
      dsimp only [File.read]
      rw [if_neg (by omega)]
      have e : ((beNat (slice data off (off + 4)) : Int) - ((24 + 4 * n : Nat) : Int)).toNat =
          off + beNat (slice data off (off + 4)) - (off + 24 + 4 * n) := by omega
      rw [e]
      generalize beNat (slice data off (off + 4)) = size
      have e2 : slice data (off + 24 + 4 * n) (off + size) =
          (data.drop (off + 24 + 4 * n)).take (off + size - (off + 24 + 4 * n)) := by
        unfold slice
        rw [List.drop_take]
      rw [e2]

example : readParts (beBytes 4 27 ++ List.replicate 24 0) 0 1 = .ok ([0], []) := by decide +kernel

end Dtf.Keychain

namespace Dtf.ChangeLog
open Py DataFormat

/-! ## C94: the volume path of the header -/

/-- C94.  A change log is accepted only if its header has the signature, and the record of the volume path is of type 2 and is in
the header. -/
theorem C94_header (data : Bytes) (pos : Nat) (h : readHeader data = .ok pos) :
    leNat (slice data 8 12) = 0xABCDEF12 ∧ leNat (slice data 4 8) = 0 ∧ leNat (slice data 12 16) = 2 ∧
      leNat (slice data 20 24) = 2 ∧ 8 ≤ leNat (slice data 16 20) ∧ 16 + leNat (slice data 16 20) + 4 ≤ pos ∧
      pos ≤ data.length ∧ leNat (slice data (pos - 4) pos) = leNat (slice data 0 4) := by
  unfold readHeader at h
  cases hm : structAt headerMap data (0 : Nat) with
  | error e => rw [show (0 : Int) = ((0 : Nat) : Int) from rfl, hm] at h; cases h
  | ok r =>
    obtain ⟨size, k⟩ := r
    rw [show (0 : Int) = ((0 : Nat) : Int) from rfl, hm] at h
    dsimp only at h
    obtain ⟨hl, hp, -⟩ := structAt_fixed_ok 16 parseHeader data 0 size k (by omega) hm
    unfold parseHeader at hp
    split at hp
    · rename_i hc
      obtain ⟨c1, c2, c3⟩ := hc
      injection hp with hp
      simp only [Nat.zero_add] at c1 c2 c3 hp hl
      have hsub : ∀ a c, c ≤ 16 → slice (slice data 0 16) a c = slice data a c := by
        intro a c hc
        unfold slice
        rw [List.drop_zero, List.take_take, Nat.min_eq_left hc]
      rw [hsub _ _ (by omega)] at c1 c2 c3 hp
      cases hb : fileRead data 16 ((size : Int) - 16) with
      | error e => rw [hb] at h; cases h
      | ok b =>
        rw [hb] at h
        dsimp only at h
        split at h
        · rename_i hchk
          obtain ⟨hv, hcopy⟩ := hchk
          injection h with h
          have hbe : ∃ n, b = (data.drop 16).take n ∧ n ≤ data.length - 16 := by
            unfold fileRead File.read at hb
            split at hb
            · cases hb
            · injection hb with hb
              dsimp only at hb
              split at hb
              · exact ⟨data.length - 16, by rw [← hb, List.take_of_length_le (by simp)], Nat.le_refl _⟩
              · refine ⟨min ((size : Int) - 16).toNat (data.length - 16), ?_, by omega⟩
                rw [← hb]
                rcases Nat.le_total ((size : Int) - 16).toNat (data.length - 16) with hc | hc
                · rw [Nat.min_eq_left hc]
                · rw [Nat.min_eq_right hc, List.take_of_length_le (by simpa using hc), List.take_of_length_le (by simp)]
          obtain ⟨n, rfl, hn⟩ := hbe
          have hlen : ((data.drop 16).take n).length = n := by simp; omega
          rw [hlen] at h hv
          unfold checkVolumePath at hv
          simp only [decide_eq_true_eq] at hv
          obtain ⟨v1, v2, v3, v4⟩ := hv
          have hlen' : (((data.drop 16).take n).take (n - 4)).length = n - 4 := by
            rw [List.length_take, hlen]; omega
          rw [hlen'] at v1 v3
          have hsub' : ∀ a c, c ≤ n - 4 → slice (((data.drop 16).take n).take (n - 4)) a c = slice data (16 + a) (16 + c) := by
            intro a c hc
            unfold slice
            rw [List.take_take, List.take_take, Nat.min_eq_left hc, Nat.min_eq_left (by omega : c ≤ n), List.drop_take,
              List.drop_take, List.drop_drop]
            congr 1
            omega
          rw [hsub' _ _ (by omega)] at v2 v3 v4
          simp only [Nat.add_zero, Nat.reduceAdd] at v2 v3 v4
          unfold checkCopy at hcopy
          simp only [decide_eq_true_eq] at hcopy
          rw [hlen] at hcopy
          have hlast : ((data.drop 16).take n).drop (n - 4) = slice data (pos - 4) pos := by
            unfold slice
            rw [← h, List.take_drop, List.drop_drop]
            congr 1
            omega
          rw [hlast] at hcopy
          exact ⟨c1, c2, c3, v4, v2, by omega, by omega, by rw [hcopy.2, hp]⟩
        · cases h
    · cases hp

example : readHeader (headerBytes [67, 0, 58, 0, 0, 0]) = .ok 34 := by decide +kernel

end Dtf.ChangeLog
