import Verif.RpLogDebug
import Verif.Tzif
import Verif.LevelDB.IndexedDB

/-!
# What is shown of time zone information files (C185)
-/

namespace Dtf.Tzif.DebugMode
open Py DataFormat Formats Utmp.DebugMode RpLog.DebugMode

/-! ## Model -/

/-- The values of the header before they are checked: `tzif_file_header` (tzif.yaml 36-63). -/
structure Raw where
  signature : Bytes
  version : Nat
  unknown : Bytes
  utc : Nat
  standard : Nat
  leaps : Nat
  times : Nat
  types : Nat
  names : Nat

def parseRaw (b : Bytes) : Raw :=
  ⟨slice b 0 4, leNat (slice b 4 5), slice b 5 20, beNat (slice b 20 24), beNat (slice b 24 28), beNat (slice b 28 32),
    beNat (slice b 32 36), beNat (slice b 36 40), beNat (slice b 40 44)⟩

/-- `f"{value!s}"` of `bytes`. -/
def bytesText (b : Bytes) : List Char := 'b' :: IndexedDB.reprTail b

/-- `_DebugPrintFileHeader` (tzif.py 34-72). -/
def headerRun (h : Raw) : Run :=
  (line "Signature".toList (bytesText h.signature)).next <|
  (line "Format version".toList ("0x".toList ++ hexw 2 h.version)).next <|
  (dataRun "Unknown1".toList h.unknown).next <|
  (line "Number of UTC time indicators".toList (dec h.utc)).next <|
  (line "Number of standard time indicators".toList (dec h.standard)).next <|
  (line "Number of leap seconds".toList (dec h.leaps)).next <|
  (line "Number of transition times".toList (dec h.times)).next <|
  (line "Number of local time types".toList (dec h.types)).next <|
  (line "Time zone abbreviation strings size".toList (dec h.names)).next (['\n'], none)

/-- `_DebugPrintTransitionTimeIndex` and `_DebugPrintTransitionTimes` (tzif.py 74-97), from the number of the first
value. -/
def numbered (what : List Char) : Nat → List (List Char) → Run
  | _, [] => (['\n'], none)
  | i, t :: l => (line (what ++ ": ".toList ++ dec i) t).next (numbered what (i + 1) l)

/-- What follows when there is a value. -/
def after {α : Type} (r : Res α) (f : α → Run) : Run :=
  match r with
  | .error e => ([], some e)
  | .ok x => f x

/-- What follows a header in debug mode (tzif.py 268-274 and 287-293 with 130-253, 295-397). -/
def bodyRun (w : Nat) (data : Bytes) (h : Raw) (pos : Nat) : Run :=
  after (dataAt data pos (w * h.times)) fun b0 =>
  after (sequence b0 ((beNats w h.times b0).map (signed w))) fun times =>
  (numbered "Transition time".toList 0 (times.map decInt)).next <|
  after (dataAt data (pos + w * h.times) h.times) fun b1 =>
  after (sequence b1 (b1.map UInt8.toNat)) fun index =>
  (numbered "Type of local time".toList 0 (index.map dec)).next <|
  let p := pos + w * h.times + h.times
  after (dataAt data p (6 * h.types)) fun types =>
  (dataRun "Local time types table data".toList types).next <|
  after (dataAt data (p + 6 * h.types) h.names) fun names =>
  (dataRun "Timezeone abbreviation strings data".toList names).next <|
  after (dataAt data (p + 6 * h.types + h.names) (8 * h.leaps)) fun leaps =>
  (dataRun "Leap second records data".toList leaps).next <|
  after (dataAt data (p + 6 * h.types + h.names + 8 * h.leaps) h.standard) fun standard =>
  (dataRun "Standard time indicators data".toList standard).next <|
  after (dataAt data (p + 6 * h.types + h.names + 8 * h.leaps + h.standard) h.utc) fun utc =>
  dataRun "UTC time indicators data".toList utc

/-- The position after the body. -/
def bodyEnd (w : Nat) (h : Raw) (pos : Nat) : Nat :=
  pos + w * h.times + h.times + 6 * h.types + h.names + 8 * h.leaps + h.standard + h.utc

/-- The checks of `_ReadFileHeader` (tzif.py 120-126). -/
def check (h : Raw) : Res Unit :=
  if h.signature ≠ [84, 90, 105, 102] then .error .parseError
  else if h.version ∉ [0, 0x32, 0x33] then .error .parseError
  else .ok ()

/-- `_ReadFileHeader` (tzif.py 99-128) in debug mode, and what comes after it.  The header is shown before it is
checked. -/
def withHeader (data : Bytes) (f : Raw → Run) : Run :=
  (readingAt "file header".toList 0).next <|
  after (structAt (fixedMap 44 parseRaw) data 0) fun (h, _) =>
  (dataRun "File header data".toList (slice data 0 44)).next <|
  (headerRun h).next <|
  after (check h) fun _ => f h

/-- `ReadFileObject` (tzif.py 399-416) in debug mode. -/
def showFile (data : Bytes) : Run :=
  withHeader data fun h =>
    (bodyRun 4 data h 44).next <|
    if h.version = 0x32 ∨ h.version = 0x33 then
      withHeader data fun h' =>
        (bodyRun 8 data h' 44).next (dataRun "Time zone string".toList (data.drop (bodyEnd 8 h' 44)))
    else ([], none)

/-! ## The specification -/

/-- The lines of a list of values, each with its number. -/
def listText (what : String) (values : List (List Char)) : List Char :=
  (values.zipIdx.map fun p => formatValue (what.toList ++ ": ".toList ++ Text.digits 10 p.2) p.1).flatten ++ ['\n']

/-- What is to be shown of the header of a block. -/
def headerText (w version : Nat) (reserved : Bytes) (x : Block) : List Char :=
  [announcedAt "file header" 0, dumpOf "File header data" (x.header w version reserved),
    shownAs "Signature" "b'TZif'".toList, shownAs "Format version" ("0x".toList ++ Text.zpad 2 (Text.digits 16 version)),
    dumpOf "Unknown1" reserved,
    shownAs "Number of UTC time indicators" (Text.digits 10 x.utc.length),
    shownAs "Number of standard time indicators" (Text.digits 10 x.standard.length),
    shownAs "Number of leap seconds" (Text.digits 10 (x.leaps.length / (w + 4))),
    shownAs "Number of transition times" (Text.digits 10 x.times.length),
    shownAs "Number of local time types" (Text.digits 10 (x.types.length / 6)),
    shownAs "Time zone abbreviation strings size" (Text.digits 10 x.names.length), ['\n']].flatten

/-- What is to be shown of the rest of it. -/
def bodyText (x : Block) : List Char :=
  [listText "Transition time" (x.times.map decInt), listText "Type of local time" (x.index.map (Text.digits 10)),
    dumpOf "Local time types table data" x.types, dumpOf "Timezeone abbreviation strings data" x.names,
    dumpOf "Leap second records data" x.leaps, dumpOf "Standard time indicators data" x.standard,
    dumpOf "UTC time indicators data" x.utc].flatten

/-- The claim: a file of version 2 or 3 is shown, with the values of both of its blocks and its time zone string. -/
def C185_second_claim : Prop := ∀ (version : Nat) (reserved reserved' footer : Bytes) (x y : Block),
  version = 0x32 ∨ version = 0x33 → x.Ok 4 → y.Ok 8 → x.times ≠ [] → y.times ≠ [] → reserved.length = 15 →
  reserved'.length = 15 →
  ∃ mid, showFile (x.bytes 4 version reserved ++ y.bytes 8 version reserved' ++ footer) =
    (headerText 4 version reserved x ++ bodyText x ++ mid ++ bodyText y ++ dumpOf "Time zone string" footer, none)

/-! ## Proofs -/

theorem numbered_eq (what : String) (i : Nat) (l : List (List Char)) :
    numbered what.toList i l = (((l.zipIdx i).map fun p =>
      formatValue (what.toList ++ ": ".toList ++ Text.digits 10 p.2) p.1).flatten ++ ['\n'], none) := by
  induction l generalizing i with
  | nil => rfl
  | cons t l ih =>
    rw [numbered, ih]
    simp only [List.zipIdx_cons, List.map_cons, List.flatten_cons, List.append_assoc]
    rfl

theorem numbered_zero (what : String) (l : List (List Char)) :
    numbered what.toList 0 l = (listText what l, none) := numbered_eq what 0 l

theorem after_ok {α : Type} (x : α) (f : α → Run) : after (.ok x) f = f x := rfl

theorem after_error {α : Type} (e : Err) (f : α → Run) : after (.error e) f = ([], some e) := rfl

theorem next_error (t : List Char) (e : Err) : Run.next (t, none) ([], some e) = (t, some e) := by
  rw [next_ok, List.append_nil]

/-- The header as it is checked by the model of the reader. -/
def toHeader (h : Raw) : Header := ⟨h.version, h.utc, h.standard, h.leaps, h.times, h.types, h.names⟩

theorem sequence_error {α : Type} (b : Bytes) (v : List α) (e : Err) (h : sequence b v = .error e) : e = .parseError := by
  unfold sequence at h
  split at h
  · cases h; rfl
  · cases h

theorem sequence_ok {α : Type} (b : Bytes) (v w : List α) (h : sequence b v = .ok w) : w = v := by
  unfold sequence at h
  split at h
  · cases h
  · cases h; rfl

theorem dataAt_error {data : Bytes} {off size : Nat} {e : Err} (h : dataAt data off size = .error e) : e = .parseError := by
  by_cases hl : off + size ≤ data.length
  · rw [dataAt_ok _ _ _ hl] at h
    cases h
  · by_cases hz : 0 < size
    · rw [dataAt_short _ _ _ (by omega) hz] at h
      cases h
      rfl
    · obtain rfl : size = 0 := by omega
      unfold dataAt readData at h
      simp only [File.seekSet, File.read] at h
      rw [if_neg (by omega)] at h
      simp at h

/-- What is shown of a body that is read, and what is raised otherwise. -/
theorem body_eq (w : Nat) (data : Bytes) (h : Raw) (pos : Nat) :
    match readBody w data (toHeader h) pos with
    | .ok (x, p) => bodyRun w data h pos = (bodyText x, none) ∧ p = bodyEnd w h pos
    | .error e => (bodyRun w data h pos).2 = some e ∧ e = .parseError := by
  unfold readBody bodyRun bodyEnd
  simp only [toHeader, numbered_zero, dump_eq]
  cases h0 : dataAt data pos (w * h.times) with
  | error e => exact ⟨rfl, dataAt_error h0⟩
  | ok b0 =>
    simp only [after_ok]
    cases h1 : sequence b0 ((beNats w h.times b0).map (signed w)) with
    | error e => exact ⟨rfl, sequence_error _ _ _ h1⟩
    | ok times =>
      simp only [after_ok]
      cases h2 : dataAt data (pos + w * h.times) h.times with
      | error e => exact ⟨rfl, dataAt_error h2⟩
      | ok b1 =>
        simp only [after_ok]
        cases h3 : sequence b1 (b1.map UInt8.toNat) with
        | error e => exact ⟨rfl, sequence_error _ _ _ h3⟩
        | ok index =>
          simp only [after_ok]
          generalize pos + w * h.times + h.times = p
          cases h4 : dataAt data p (6 * h.types) with
          | error e => rw [dataAt_error h4]; exact ⟨rfl, rfl⟩
          | ok types =>
            cases h5 : dataAt data (p + 6 * h.types) h.names with
            | error e => rw [dataAt_error h5]; exact ⟨rfl, rfl⟩
            | ok names =>
              cases h6 : dataAt data (p + 6 * h.types + h.names) (8 * h.leaps) with
              | error e => rw [dataAt_error h6]; exact ⟨rfl, rfl⟩
              | ok leaps =>
                cases h7 : dataAt data (p + 6 * h.types + h.names + 8 * h.leaps) h.standard with
                | error e => rw [dataAt_error h7]; exact ⟨rfl, rfl⟩
                | ok standard =>
                  cases h8 : dataAt data (p + 6 * h.types + h.names + 8 * h.leaps + h.standard) h.utc with
                  | error e => rw [dataAt_error h8]; exact ⟨rfl, rfl⟩
                  | ok utc =>
                    refine ⟨?_, rfl⟩
                    simp only [after_ok, next_ok]
                    unfold bodyText
                    simp only [List.flatten_cons, List.flatten_nil, List.append_nil]
                    rfl

/-- The values of a header that is there. -/
def rawText (data : Bytes) (h : Raw) : List Char :=
  [announcedAt "file header" 0, dumpOf "File header data" (slice data 0 44),
    shownAs "Signature" (bytesText h.signature), shownAs "Format version" ("0x".toList ++ Text.zpad 2 (Text.digits 16 h.version)),
    dumpOf "Unknown1" h.unknown,
    shownAs "Number of UTC time indicators" (Text.digits 10 h.utc),
    shownAs "Number of standard time indicators" (Text.digits 10 h.standard),
    shownAs "Number of leap seconds" (Text.digits 10 h.leaps),
    shownAs "Number of transition times" (Text.digits 10 h.times),
    shownAs "Number of local time types" (Text.digits 10 h.types),
    shownAs "Time zone abbreviation strings size" (Text.digits 10 h.names), ['\n']].flatten

theorem header_eq (h : Raw) : headerRun h =
    ([shownAs "Signature" (bytesText h.signature), shownAs "Format version" ("0x".toList ++ Text.zpad 2 (Text.digits 16 h.version)),
    dumpOf "Unknown1" h.unknown,
    shownAs "Number of UTC time indicators" (Text.digits 10 h.utc),
    shownAs "Number of standard time indicators" (Text.digits 10 h.standard),
    shownAs "Number of leap seconds" (Text.digits 10 h.leaps),
    shownAs "Number of transition times" (Text.digits 10 h.times),
    shownAs "Number of local time types" (Text.digits 10 h.types),
    shownAs "Time zone abbreviation strings size" (Text.digits 10 h.names), ['\n']].flatten, none) := by
  unfold headerRun
  simp only [line_eq, dump_eq, next_ok, List.flatten_cons, List.flatten_nil, List.append_nil]
  rfl

theorem raw_struct (data : Bytes) : structAt (fixedMap 44 parseRaw) data 0 =
    if data.length < 44 then .error .parseError else .ok (parseRaw (slice data 0 44), 44) := by
  have h := structAt_fixed 44 parseRaw data 0 (by decide)
  simpa [slice] using h

theorem withHeader_short (data : Bytes) (f : Raw → Run) (h : data.length < 44) :
    withHeader data f = (announcedAt "file header" 0, some .parseError) := by
  unfold withHeader
  rw [raw_struct, if_pos h, readingAt_eq, after_error, next_error]

theorem withHeader_long (data : Bytes) (f : Raw → Run) (h : 44 ≤ data.length) :
    withHeader data f = Run.next (rawText data (parseRaw (slice data 0 44)), none)
      (after (check (parseRaw (slice data 0 44))) fun _ => f (parseRaw (slice data 0 44))) := by
  unfold withHeader
  rw [raw_struct, if_neg (by omega), readingAt_eq, after_ok]
  simp only [header_eq, dump_eq, next_ok, rawText]
  simp only [List.flatten_cons, List.append_assoc]

/-- The header of the reader. -/
theorem header_struct (data : Bytes) : structAt headerMap data 0 =
    if data.length < 44 then .error .parseError
    else
      match check (parseRaw (slice data 0 44)) with
      | .error e => .error e
      | .ok _ => .ok (toHeader (parseRaw (slice data 0 44)), 44) := by
  have h := structAt_fixed 44 id data 0 (by decide)
  unfold headerMap
  rw [structAt_refine]
  have h' : structAt (fixedMap 44 id) data 0 = if data.length < 44 then .error .parseError
      else .ok (slice data 0 44, 44) := by simpa [slice] using h
  rw [h']
  by_cases hl : data.length < 44
  · rw [if_pos hl, if_pos hl]
  rw [if_neg hl, if_neg hl]
  dsimp only
  generalize slice data 0 44 = b
  unfold parseHeader check parseRaw
  dsimp only
  by_cases h1 : slice b 0 4 = [84, 90, 105, 102]
  · by_cases h2 : leNat (slice b 4 5) ∈ [0, 0x32, 0x33]
    · rw [if_pos ⟨h1, h2⟩, if_neg (by simpa using h1), if_neg (not_not_intro h2)]
      rfl
    · rw [if_neg (fun h => h2 h.2), if_neg (by simpa using h1), if_pos h2]
  · rw [if_neg (fun h => h1 h.1), if_pos h1]

/-- What a block is shown as, given what is read of it. -/
theorem information_eq (w : Nat) (data : Bytes) (f : Raw → Run) :
    match readInformation w data with
    | .error e => (withHeader data fun h => (bodyRun w data h 44).next (f h)).2 = some e
    | .ok (h, x) => h.version = (parseRaw (slice data 0 44)).version ∧ (withHeader data fun h => (bodyRun w data h 44).next (f h)) =
        Run.next (rawText data (parseRaw (slice data 0 44)) ++ bodyText x, none) (f (parseRaw (slice data 0 44))) := by
  unfold readInformation
  rw [header_struct]
  by_cases hl : data.length < 44
  · rw [if_pos hl, withHeader_short _ _ hl]
  rw [if_neg hl, withHeader_long _ _ (by omega)]
  generalize parseRaw (slice data 0 44) = h
  cases hc : check h with
  | error e => rfl
  | ok u =>
    dsimp only [after_ok]
    have hb := body_eq w data h 44
    rw [show ((44 : Int)).toNat = 44 from rfl]
    cases hr : readBody w data (toHeader h) 44 with
    | error e =>
      rw [hr] at hb
      dsimp only at hb ⊢
      rw [next_ok]
      generalize hg : bodyRun w data h 44 = g at hb
      obtain ⟨g1, g2⟩ := g
      obtain ⟨rfl, _⟩ := hb
      rfl
    | ok q =>
      obtain ⟨x, p⟩ := q
      rw [hr] at hb
      dsimp only at hb ⊢
      refine ⟨rfl, ?_⟩
      rw [hb.1, next_ok, next_ok, next_ok]
      simp only [List.append_assoc]

/-- Debug mode raises what is raised without it, for every file. -/
theorem C185_same (data : Bytes) :
    (showFile data).2 = match readFile data with | .error e => some e | .ok _ => none := by
  unfold showFile readFile
  have h4 := information_eq 4 data fun h => if h.version = 0x32 ∨ h.version = 0x33 then
      withHeader data fun h' =>
        (bodyRun 8 data h' 44).next (dataRun "Time zone string".toList (data.drop (bodyEnd 8 h' 44)))
    else ([], none)
  have h8 := information_eq 8 data fun h' => dataRun "Time zone string".toList (data.drop (bodyEnd 8 h' 44))
  cases hr : readInformation 4 data with
  | error e =>
    rw [hr] at h4
    exact h4
  | ok q =>
    obtain ⟨h, x⟩ := q
    rw [hr] at h4
    dsimp only at h4 ⊢
    rw [h4.2, next_ok, h4.1]
    by_cases hv : (parseRaw (slice data 0 44)).version = 0x32 ∨ (parseRaw (slice data 0 44)).version = 0x33
    · rw [if_pos hv, if_pos hv]
      cases hr8 : readInformation 8 data with
      | error e =>
        rw [hr8] at h8
        exact h8
      | ok q8 =>
        obtain ⟨h', y⟩ := q8
        rw [hr8] at h8
        dsimp only at h8 ⊢
        rw [h8.2, dump_eq, next_ok]
    · rw [if_neg hv, if_neg hv]

/-- What is shown of a file that is read.  The header that is shown for the second block is that of the first. -/
theorem C185_shown (data : Bytes) (x : Block) (second : Option Block) (h : readFile data = .ok (x, second)) :
    (showFile data).1 = rawText data (parseRaw (slice data 0 44)) ++ bodyText x ++
      match second with
      | none => []
      | some y => rawText data (parseRaw (slice data 0 44)) ++ bodyText y ++
          dumpOf "Time zone string" (data.drop (bodyEnd 8 (parseRaw (slice data 0 44)) 44)) := by
  unfold showFile
  unfold readFile at h
  have h4 := information_eq 4 data fun h => if h.version = 0x32 ∨ h.version = 0x33 then
      withHeader data fun h' =>
        (bodyRun 8 data h' 44).next (dataRun "Time zone string".toList (data.drop (bodyEnd 8 h' 44)))
    else ([], none)
  have h8 := information_eq 8 data fun h' => dataRun "Time zone string".toList (data.drop (bodyEnd 8 h' 44))
  cases hr : readInformation 4 data with
  | error e =>
    rw [hr] at h
    cases h
  | ok q =>
    obtain ⟨hd, x'⟩ := q
    rw [hr] at h4 h
    dsimp only at h4 h
    rw [h4.2, next_ok]
    rw [h4.1] at h
    by_cases hv : (parseRaw (slice data 0 44)).version = 0x32 ∨ (parseRaw (slice data 0 44)).version = 0x33
    · rw [if_pos hv] at h ⊢
      cases hr8 : readInformation 8 data with
      | error e =>
        rw [hr8] at h
        cases h
      | ok q8 =>
        obtain ⟨h', y⟩ := q8
        rw [hr8] at h8 h
        dsimp only at h8 h
        cases h
        rw [h8.2, dump_eq, next_ok]
    · rw [if_neg hv] at h ⊢
      cases h
      rfl

theorem signature_text : bytesText [84, 90, 105, 102] = "b'TZif'".toList := by decide +kernel

theorem raw_header (version : Nat) (hv : version ∈ [0, 0x32, 0x33]) (reserved rest : Bytes) (hr : reserved.length = 15)
    (x : Block) (hx : x.Ok 4) :
    rawText (x.bytes 4 version reserved ++ rest) (parseRaw (slice (x.bytes 4 version reserved ++ rest) 0 44)) =
      headerText 4 version reserved x := by
  obtain ⟨h1, h2, h3, h4, ⟨n, h5, h5'⟩, h6, ⟨m, h7, h7'⟩, h8, h9⟩ := hx
  have hl : (x.header 4 version reserved).length = 44 := by simp [Block.header, hr]
  have hs : slice (x.bytes 4 version reserved ++ rest) 0 44 = x.header 4 version reserved := by
    unfold slice Block.bytes
    rw [List.append_assoc, List.take_left' hl]
    rfl
  have hv' : version < 256 := by
    simp only [List.mem_cons, List.not_mem_nil, or_false] at hv
    omega
  unfold rawText headerText
  rw [hs]
  generalize hB : x.header 4 version reserved = B at *
  unfold Block.header at hB
  have f0 : slice B 0 4 = [84, 90, 105, 102] := hB ▸ slice_fields [] [84, 90, 105, 102] _ 0 4 rfl rfl
  have f1 : leNat (slice B 4 5) = version := hB ▸ leField [[84, 90, 105, 102]] 1 version _ 4 5 rfl rfl (by omega)
  have f1' : slice B 5 20 = reserved := hB ▸ slice_fields [[84, 90, 105, 102], leBytes 1 version] reserved _ 5 20
    (by simp) (by simp [hr])
  have f2 : beNat (slice B 20 24) = x.utc.length := hB ▸ beField [[84, 90, 105, 102], leBytes 1 version, reserved] 4 _ _ 20 24
    (by simp [hr]) rfl (by omega)
  have f3 : beNat (slice B 24 28) = x.standard.length := hB ▸ beField [[84, 90, 105, 102], leBytes 1 version, reserved, _] 4 _ _
    24 28 (by simp [hr]) rfl (by omega)
  have f4 : beNat (slice B 28 32) = x.leaps.length / (4 + 4) := hB ▸ beField [[84, 90, 105, 102], leBytes 1 version, reserved, _,
    _] 4 _ _ 28 32 (by simp [hr]) rfl (by omega)
  have f5 : beNat (slice B 32 36) = x.times.length := hB ▸ beField [[84, 90, 105, 102], leBytes 1 version, reserved, _,
    _, _] 4 _ _ 32 36 (by simp [hr]) rfl (by omega)
  have f6 : beNat (slice B 36 40) = x.types.length / 6 := hB ▸ beField [[84, 90, 105, 102], leBytes 1 version, reserved, _,
    _, _, _] 4 _ _ 36 40 (by simp [hr]) rfl (by omega)
  have f7 : beNat (slice B 40 44) = x.names.length := hB ▸ beField [[84, 90, 105, 102], leBytes 1 version, reserved, _,
    _, _, _, _] 4 _ _ 40 44 (by simp [hr]) rfl (by omega)
  unfold parseRaw
  dsimp only
  rw [f0, f1, f1', f2, f3, f4, f5, f6, f7, signature_text]

/-- All values of a file of version 1 that has transitions are shown. -/
theorem C185_first (reserved rest : Bytes) (x : Block) (hx : x.Ok 4) (hn : x.times ≠ []) (hr : reserved.length = 15) :
    showFile (x.bytes 4 0 reserved ++ rest) = (headerText 4 0 reserved x ++ bodyText x, none) := by
  have hf := C97_first_partial reserved rest x hx hn hr
  have h1 := C185_shown _ _ _ hf
  have h2 := C185_same (x.bytes 4 0 reserved ++ rest)
  rw [hf] at h2
  rw [raw_header 0 (by simp) reserved rest hr x hx] at h1
  rw [List.append_nil] at h1
  exact Prod.ext h1 h2

/-- Of a file of version 2 or 3 the first block is shown first, when there is no error. -/
theorem C185_second_partial (version : Nat) (hv : version = 0x32 ∨ version = 0x33) (reserved rest : Bytes) (x : Block)
    (hx : x.Ok 4) (hn : x.times ≠ []) (hr : reserved.length = 15)
    (h : (showFile (x.bytes 4 version reserved ++ rest)).2 = none) :
    ∃ y post, readFile (x.bytes 4 version reserved ++ rest) = .ok (x, some y) ∧
      (showFile (x.bytes 4 version reserved ++ rest)).1 = headerText 4 version reserved x ++ bodyText x ++
        (headerText 4 version reserved x ++ bodyText y ++ dumpOf "Time zone string" post) := by
  rw [C185_same] at h
  cases hf : readFile (x.bytes 4 version reserved ++ rest) with
  | error e => rw [hf] at h; cases h
  | ok q =>
    obtain ⟨a, b⟩ := q
    obtain ⟨rfl, hb⟩ := C97_second_partial version hv reserved rest x hx hn hr a b hf
    obtain ⟨y, rfl⟩ := Option.isSome_iff_exists.1 hb
    have h1 := C185_shown _ _ _ hf
    rw [raw_header version (by rcases hv with rfl | rfl <;> simp) reserved rest hr a hx] at h1
    exact ⟨y, _, rfl, h1⟩

def manyBlock : Block := ⟨List.replicate 40 0, List.replicate 40 0, [0, 0, 14, 16, 0, 0], [67, 69, 84, 0], [], [0], [0]⟩

/-- The second block is looked for where the first is. -/
theorem C185_second_claim_false : ¬ C185_second_claim := by
  intro h
  obtain ⟨mid, hm⟩ := h 0x32 (List.replicate 15 0) (List.replicate 15 0) [10, 10] manyBlock (sampleBlock 6) (.inl rfl)
    ⟨by decide, rfl, by decide, by decide, ⟨1, rfl, by decide⟩, by decide, ⟨0, rfl, by decide⟩, by decide, by decide⟩
    ⟨by decide, rfl, by decide, by decide, ⟨1, rfl, by decide⟩, by decide, ⟨0, rfl, by decide⟩, by decide, by decide⟩
    (by decide) (by decide) rfl rfl
  have h2 := C185_same (manyBlock.bytes 4 0x32 (List.replicate 15 0) ++ (sampleBlock 6).bytes 8 0x32 (List.replicate 15 0) ++
    [10, 10])
  rw [hm, show readFile _ = .error .parseError by decide +kernel] at h2
  cases h2

example : showFile ((sampleBlock (-5)).bytes 4 0 (List.replicate 15 0)) =
    (headerText 4 0 (List.replicate 15 0) (sampleBlock (-5)) ++ bodyText (sampleBlock (-5)), none) := by
  have := C185_first (List.replicate 15 0) [] (sampleBlock (-5))
    ⟨by decide, rfl, by decide, by decide, ⟨1, rfl, by decide⟩, by decide, ⟨0, rfl, by decide⟩, by decide, by decide⟩
    (by decide) rfl
  rwa [List.append_nil] at this

/-- A file that is too small: only that it is read is shown.  A header that is refused is shown before that. -/
theorem C185_refused (data : Bytes) :
    (data.length < 44 → showFile data = (announcedAt "file header" 0, some .parseError)) ∧
      (44 ≤ data.length → check (parseRaw (slice data 0 44)) ≠ .ok () →
        showFile data = (rawText data (parseRaw (slice data 0 44)), some .parseError)) := by
  refine ⟨fun h => withHeader_short _ _ h, fun h hc => ?_⟩
  unfold showFile
  rw [withHeader_long _ _ h]
  unfold check at hc ⊢
  by_cases h1 : (parseRaw (slice data 0 44)).signature ≠ [84, 90, 105, 102]
  · rw [if_pos h1, after_error, next_error]
  · rw [if_neg h1] at hc ⊢
    by_cases h2 : (parseRaw (slice data 0 44)).version ∉ [0, 0x32, 0x33]
    · rw [if_pos h2, after_error, next_error]
    · rw [if_neg h2] at hc
      exact absurd rfl hc

end Dtf.Tzif.DebugMode
