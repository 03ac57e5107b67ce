import Verif.SystemdEntries
import Verif.Unified.Trace
import Verif.Uuid

/-!
# What is shown of timesync databases in debug mode (C206)
-/

namespace Dtf.TimesyncDebug
open Py DataFormat Formats Unified
open Job (number decimal hexadecimal custom)
open ChangeLogDebug (Out write raise loop)

abbrev Str := List Char

/-! ## Model -/

/-- A signed number in decimal digits. -/
def signedDecimal (d : String) (v : Int) : Option Attribute := some ⟨some d.toList, decInt v, false⟩

/-- The debug information of a boot record (aul_timesync.debug.yaml 3-31).  The bytes of the signature are not printable
(data_format.py 49-53 and 465-476). -/
def bootAttributes (b : Bytes) : List (Option Attribute) :=
  [custom "Signature" "\\xb0\\xbb".toList, decimal "Record size" (number b 2 4), hexadecimal 8 "Unknown1" (number b 4 8),
    custom "Boot identifier" (Analyzer.uuidString (slice b 8 24)), decimal "Timebase numerator" (number b 24 28),
    decimal "Timebase denominator" (number b 28 32), custom "Timestamp" (Dates.formatPosix Dates.nanos (signed 8 (number b 32 40))),
    signedDecimal "Time zone offset" (signed 4 (number b 40 44)), decimal "Daylight saving flag" (number b 44 48)]

/-- The debug information of a sync record (aul_timesync.debug.yaml 33-55). -/
def syncAttributes (b : Bytes) : List (Option Attribute) :=
  [custom "Signature" "Ts".toList, decimal "Record size" (number b 2 4), hexadecimal 8 "Unknown1" (number b 4 8),
    decimal "Kernel time" (number b 8 16), custom "Timestamp" (Dates.formatPosix Dates.nanos (signed 8 (number b 16 24))),
    signedDecimal "Time zone offset" (signed 4 (number b 24 28)), decimal "Daylight saving flag" (number b 28 32)]

/-- The values of a boot record that are used, as in C74. -/
def bootValue (b : Bytes) : TimeRecord := .boot ⟨number b 2 4, slice b 8 24, number b 24 28, number b 28 32, signed 8 (number b 32 40)⟩

/-- The values of a sync record that are used, as in C74. -/
def syncValue (b : Bytes) : TimeRecord := .sync ⟨number b 2 4, number b 8 16, signed 8 (number b 16 24)⟩

/-- A structure with a signature is read and shown (unified_logging.py 2363-2369). -/
def showStructure (what : Str) (size : Nat) (signature : Bytes) (attributes : Bytes → List (Option Attribute)) (value : Bytes → TimeRecord)
    (data : Bytes) (off : Nat) : Out TimeRecord :=
  write (readingText what off) <|
  match structAt ((fixedMap size id).refine fun b => if b.take 2 = signature then some b else none) data off with
  | .error e => raise e
  | .ok (b, _) =>
    write (structureText what b) <|
    match formatStructure (attributes b) with
    | .error e => raise e
    | .ok t => (t, .ok (value b))

/-- `TimesyncDatabaseFile._ReadRecord` (unified_logging.py 2333-2369) in debug mode. -/
def showRecord (data : Bytes) (off : Nat) : Out TimeRecord :=
  match dataAt data off 2 with
  | .error e => raise e
  | .ok signature =>
    if signature = [0xb0, 0xbb] then showStructure "boot record".toList 48 [0xb0, 0xbb] bootAttributes bootValue data off
    else if signature = [0x54, 0x73] then showStructure "sync record".toList 32 [0x54, 0x73] syncAttributes syncValue data off
    else raise .parseError

/-- One round of `ReadRecords` (unified_logging.py 2393-2397) in debug mode. -/
def showStep (data : Bytes) (off : Nat) : Out (TimeRecord × Nat) :=
  match showRecord data off with
  | (t, .error e) => (t, .error e)
  | (t, .ok r) => (t, .ok (r, off + r.recordSize))

/-- `TimesyncDatabaseFile.ReadRecords` (unified_logging.py 2382-2397) in debug mode, all of its values.  `none` is out of fuel. -/
def showRecords (data : Bytes) (fuel : Nat) : Option (Out (List TimeRecord)) := loop (showStep data) data.length fuel 0

/-! ## Specification -/

open RpLog.DebugMode (announcedAt dumpOf hexadecimalOf)
open Utmp.DebugMode (shownAs)
open FirefoxDebug (withSign)

/-- What the two kinds of records do not have in common. -/
inductive Body where
  | boot (ident : Bytes) (numerator denominator : Nat)
  | sync (kernelTime : Nat)

/-- A record. -/
structure Record where
  body : Body
  unknown : Nat
  time : Int
  zone : Int
  saving : Nat

def Record.Ok (r : Record) : Prop :=
  r.unknown < 2 ^ 32 ∧ (-2 ^ 63 ≤ r.time ∧ r.time < 2 ^ 63) ∧ (-2 ^ 31 ≤ r.zone ∧ r.zone < 2 ^ 31) ∧ r.saving < 2 ^ 32 ∧
  match r.body with
  | .boot i n d => i.length = 16 ∧ n < 2 ^ 32 ∧ d < 2 ^ 32
  | .sync k => k < 2 ^ 64

/-- The record as in C74. -/
def Record.stored (r : Record) : StoredRecord :=
  ⟨match r.body with
    | .boot i n d => .boot ⟨48, i, n, d, r.time⟩
    | .sync k => .sync ⟨32, k, r.time⟩, leBytes 4 r.unknown, leBytes 4 (unsigned 4 r.zone) ++ leBytes 4 r.saving⟩

/-- The text of a number of nanoseconds since 1970, or that it is not set. -/
def Moment (v : Int) (t : Str) : Prop :=
  (v = 0 ∧ t = "Not set (0)".toList) ∨ (v ≠ 0 ∧ ∃ c, Dates.IsTimeSince ⟨1970, 1, 1⟩ 9 c v ∧ t = c ++ " UTC".toList)

/-- Bytes as pairs of hexadecimal digits. -/
def pairs (b : Bytes) : Str := b.flatMap fun x => hexw 2 x.toNat

/-- The text of an identifier: its bytes in their order, in groups of 4, 2, 2, 2 and 6. -/
def identifierOf (i : Bytes) : Str :=
  pairs (slice i 0 4) ++ ['-'] ++ pairs (slice i 4 6) ++ ['-'] ++ pairs (slice i 6 8) ++ ['-'] ++ pairs (slice i 8 10) ++ ['-'] ++
    pairs (slice i 10 16)

/-- What is meant to be shown of a record at an offset, with the text of its time. -/
def Record.shown (moment : Int → Str) (off : Nat) (r : Record) : Str :=
  match r.body with
  | .boot i n d => [announcedAt "boot record" off, dumpOf "Boot record data" r.stored.bytes, shownAs "Signature" "\\xb0\\xbb".toList,
      shownAs "Record size" "48".toList, shownAs "Unknown1" (hexadecimalOf r.unknown), shownAs "Boot identifier" (identifierOf i),
      shownAs "Timebase numerator" (Text.digits 10 n), shownAs "Timebase denominator" (Text.digits 10 d), shownAs "Timestamp" (moment r.time),
      shownAs "Time zone offset" (withSign r.zone), shownAs "Daylight saving flag" (Text.digits 10 r.saving), ['\n']].flatten
  | .sync k => [announcedAt "sync record" off, dumpOf "Sync record data" r.stored.bytes, shownAs "Signature" "Ts".toList,
      shownAs "Record size" "32".toList, shownAs "Unknown1" (hexadecimalOf r.unknown), shownAs "Kernel time" (Text.digits 10 k),
      shownAs "Timestamp" (moment r.time), shownAs "Time zone offset" (withSign r.zone),
      shownAs "Daylight saving flag" (Text.digits 10 r.saving), ['\n']].flatten

/-- What is meant to be shown of records one after the other. -/
def allShown (moment : Int → Str) : Nat → List Record → Str
  | _, [] => []
  | off, r :: l => r.shown moment off ++ allShown moment (off + r.stored.bytes.length) l

/-! ## Proofs -/

theorem pair_length (x : UInt8) : (hexw 2 x.toNat).length = 2 :=
  Unified.hexw_length 2 _ (by decide) (by have := x.toNat_lt; omega)

theorem pairs_take (b : Bytes) (n : Nat) : (pairs b).take (2 * n) = pairs (b.take n) := by
  induction b generalizing n with
  | nil => simp [pairs]
  | cons x b ih =>
    cases n with
    | zero => simp [pairs]
    | succ n =>
      have e : pairs (x :: b) = hexw 2 x.toNat ++ pairs b := rfl
      rw [e, List.take_append, pair_length, List.take_of_length_le (by rw [pair_length]; omega), show 2 * (n + 1) - 2 = 2 * n by omega, ih]
      rfl

theorem pairs_drop (b : Bytes) (n : Nat) : (pairs b).drop (2 * n) = pairs (b.drop n) := by
  induction b generalizing n with
  | nil => simp [pairs]
  | cons x b ih =>
    cases n with
    | zero => simp [pairs]
    | succ n =>
      have e : pairs (x :: b) = hexw 2 x.toNat ++ pairs b := rfl
      rw [e, List.drop_append, pair_length, List.drop_of_length_le (by rw [pair_length]; omega), show 2 * (n + 1) - 2 = 2 * n by omega, ih]
      rfl

theorem pairs_slice (b : Bytes) (m n : Nat) : slice (pairs b) (2 * m) (2 * n) = pairs (slice b m n) := by
  unfold slice
  rw [pairs_take, pairs_drop]

theorem identifier_text (i : Bytes) (h : i.length = 16) : Analyzer.uuidString i = identifierOf i := by
  have hx := Uuid.hexw_bytes i (by intro hc; rw [hc] at h; simp at h)
  rw [h] at hx
  have hx : hexw 32 (beNat i) = pairs i := hx
  unfold Analyzer.uuidString identifierOf
  rw [← pairs_slice, ← pairs_slice, ← pairs_slice, ← pairs_slice, ← pairs_slice, ← hx]

theorem signed_range (n : Nat) (h : n < 2 ^ 64) : -(2 ^ 63 : Int) ≤ signed 8 n := by
  unfold signed
  split <;> omega

theorem moment_of (v : Int) (h : -(2 ^ 63 : Int) ≤ v) : Moment v (Dates.formatPosix Dates.nanos v) := by
  by_cases h0 : v = 0
  · subst h0; exact .inl ⟨rfl, rfl⟩
  · exact .inr ⟨h0, (Dates.C190_posix_units v h0).2.2 (by omega)⟩

theorem moment_line (v : Int) (t : Str) (h : Moment v t) : '\n' ∉ t := by
  rcases h with ⟨_, rfl⟩ | ⟨_, c, ⟨_, n, hh, m, s, f, _, _, _, _, _, _, rfl⟩, rfl⟩
  · decide
  · rw [List.mem_append]
    rintro (h | h)
    · exact UsnDebug.writtenAs_line _ _ _ _ _ _ h
    · revert h; decide

theorem number_lt (b : Bytes) (i j : Nat) (h : j = i + 8) : number b i j < 2 ^ 64 := by
  subst h
  unfold number
  have h1 := leNat_lt (slice b i (i + 8))
  have h2 : (slice b i (i + 8)).length ≤ 8 := by
    unfold slice
    rw [List.length_drop, List.length_take]
    omega
  calc leNat (slice b i (i + 8)) < 256 ^ (slice b i (i + 8)).length := h1
    _ ≤ 256 ^ 8 := Nat.pow_le_pow_right (by omega) h2
    _ = 2 ^ 64 := by norm_num

theorem boot_text (b : Bytes) : formatStructure (bootAttributes b) = .ok
    ([shownAs "Signature" "\\xb0\\xbb".toList, shownAs "Record size" (Text.digits 10 (number b 2 4)),
    shownAs "Unknown1" (hexadecimalOf (number b 4 8)), shownAs "Boot identifier" (Analyzer.uuidString (slice b 8 24)),
    shownAs "Timebase numerator" (Text.digits 10 (number b 24 28)), shownAs "Timebase denominator" (Text.digits 10 (number b 28 32)),
    shownAs "Timestamp" (Dates.formatPosix Dates.nanos (signed 8 (number b 32 40))),
    shownAs "Time zone offset" (withSign (signed 4 (number b 40 44))), shownAs "Daylight saving flag" (Text.digits 10 (number b 44 48)),
    ['\n']].flatten) := by
  have h1 := moment_line _ _ (moment_of _ (signed_range _ (number_lt b 32 40 rfl)))
  have h2 := Analyzer.uuid_line (slice b 8 24)
  unfold bootAttributes signedDecimal
  generalize Dates.formatPosix Dates.nanos (signed 8 (number b 32 40)) = t1 at *
  generalize Analyzer.uuidString (slice b 8 24) = t2 at *
  generalize hsig : "\\xb0\\xbb".toList = sig
  have h3 : '\n' ∉ sig := by rw [← hsig]; decide
  rw [Job.structure_fine]
  · simp only [List.filterMap_cons, List.filterMap_nil, UsnDebug.blockOf_decimal, GzipDebug.blockOf_hex, Job.blockOf_custom _ _ h1,
      Job.blockOf_custom _ _ h3, Job.blockOf_custom _ _ h2, UsnDebug.blockOf_line _ _ _ (GzipDebug.decInt_line _)]
    refine congrArg Except.ok (Eq.trans (Job.closed_line [_, _, _, _, _, _, _, _] "Daylight saving flag" _
      (Job.dec_line (number b 44 48))) ?_)
    simp only [UsnDebug.line_shownAs, List.flatten_cons, List.flatten_nil, List.append_assoc, List.append_nil, FirefoxDebug.decInt_sign]
    rfl
  · simp only [List.mem_cons, List.not_mem_nil, or_false]
    rintro a (rfl | rfl | rfl | rfl | rfl | rfl | rfl | rfl | rfl)
    all_goals first
      | exact Job.fine_decimal _ _
      | exact Job.fine_hexadecimal _ _ _
      | exact Job.fine_custom _ _
      | exact ⟨⟨_, rfl⟩, .inr (GzipDebug.decInt_line _)⟩

theorem sync_text (b : Bytes) : formatStructure (syncAttributes b) = .ok
    ([shownAs "Signature" "Ts".toList, shownAs "Record size" (Text.digits 10 (number b 2 4)),
    shownAs "Unknown1" (hexadecimalOf (number b 4 8)), shownAs "Kernel time" (Text.digits 10 (number b 8 16)),
    shownAs "Timestamp" (Dates.formatPosix Dates.nanos (signed 8 (number b 16 24))),
    shownAs "Time zone offset" (withSign (signed 4 (number b 24 28))), shownAs "Daylight saving flag" (Text.digits 10 (number b 28 32)),
    ['\n']].flatten) := by
  have h1 := moment_line _ _ (moment_of _ (signed_range _ (number_lt b 16 24 rfl)))
  unfold syncAttributes signedDecimal
  generalize Dates.formatPosix Dates.nanos (signed 8 (number b 16 24)) = t1 at *
  generalize hsig : "Ts".toList = sig
  have h3 : '\n' ∉ sig := by rw [← hsig]; decide
  rw [Job.structure_fine]
  · simp only [List.filterMap_cons, List.filterMap_nil, UsnDebug.blockOf_decimal, GzipDebug.blockOf_hex, Job.blockOf_custom _ _ h1,
      Job.blockOf_custom _ _ h3, UsnDebug.blockOf_line _ _ _ (GzipDebug.decInt_line _)]
    refine congrArg Except.ok (Eq.trans (Job.closed_line [_, _, _, _, _, _] "Daylight saving flag" _
      (Job.dec_line (number b 28 32))) ?_)
    simp only [UsnDebug.line_shownAs, List.flatten_cons, List.flatten_nil, List.append_assoc, List.append_nil, FirefoxDebug.decInt_sign]
    rfl
  · simp only [List.mem_cons, List.not_mem_nil, or_false]
    rintro a (rfl | rfl | rfl | rfl | rfl | rfl | rfl)
    all_goals first
      | exact Job.fine_decimal _ _
      | exact Job.fine_hexadecimal _ _ _
      | exact Job.fine_custom _ _
      | exact ⟨⟨_, rfl⟩, .inr (GzipDebug.decInt_line _)⟩

theorem structure_same (what : Str) (size : Nat) (signature : Bytes) (attributes : Bytes → List (Option Attribute))
    (value : Bytes → TimeRecord) (h : ∀ b, ∃ t, formatStructure (attributes b) = .ok t) (data : Bytes) (off : Nat) :
    (showStructure what size signature attributes value data off).2 =
      (structAt ((fixedMap size id).refine fun b => if b.take 2 = signature then some (value b) else none) data off).map (·.1) := by
  unfold showStructure write raise
  rw [structAt_refine, structAt_refine]
  rcases structAt (fixedMap size id) data off with e | ⟨b, n⟩
  · rfl
  · dsimp only
    by_cases hs : b.take 2 = signature
    · obtain ⟨t, ht⟩ := h b
      rw [if_pos hs, if_pos hs]
      dsimp only
      rw [ht]
      rfl
    · rw [if_neg hs, if_neg hs]
      rfl

theorem structure_shown (what : Str) (size : Nat) (signature : Bytes) (attributes : Bytes → List (Option Attribute))
    (value : Bytes → TimeRecord) (s : Bytes) (u : Str) (hz : 0 < size) (hs : s.length = size) (ht : s.take 2 = signature)
    (h : formatStructure (attributes s) = .ok u) (pre post : Bytes) :
    showStructure what size signature attributes value (pre ++ s ++ post) pre.length =
      (readingText what pre.length ++ (structureText what s ++ u), .ok (value s)) := by
  have he : Encodes ((fixedMap size id).refine fun b => if b.take 2 = signature then some b else none) s s := by
    refine encodes_refine _ _ _ s _ (encodes_fixed size id s hz hs) ?_
    show (if s.take 2 = signature then some s else none) = _
    rw [if_pos ht]
  unfold showStructure
  rw [he pre post]
  dsimp only
  rw [h]
  rfl

theorem record_same (data : Bytes) (off : Nat) : (showRecord data off).2 = readTimeRecord data off := by
  unfold showRecord readTimeRecord raise
  rcases dataAt data off 2 with e | s
  · rfl
  · dsimp only
    by_cases h1 : s = [0xb0, 0xbb]
    · rw [if_pos h1, if_pos h1, structure_same _ _ _ _ _ fun b => ⟨_, boot_text b⟩]
      rfl
    · rw [if_neg h1, if_neg h1]
      by_cases h2 : s = [0x54, 0x73]
      · rw [if_pos h2, if_pos h2, structure_same _ _ _ _ _ fun b => ⟨_, sync_text b⟩]
        rfl
      · rw [if_neg h2, if_neg h2]

theorem step_same (data : Bytes) (off : Nat) : (showStep data off).2 = timeStep data off := by
  unfold showStep timeStep
  rw [← record_same]
  rcases showRecord data off with ⟨t, e | r⟩ <;> rfl

theorem stored_ok (r : Record) (h : r.Ok) : r.stored.Ok := by
  obtain ⟨body, unknown, time, zone, saving⟩ := r
  obtain ⟨_, h2, _, _, h5⟩ := h
  refine ⟨?_, by simp [Record.stored], by simp [Record.stored]⟩
  cases body with
  | boot i n d => exact ⟨rfl, h5.1, h5.2.1, h5.2.2, h2.1, h2.2⟩
  | sync k => exact ⟨rfl, h5, h2.1, h2.2⟩

theorem record_shown (r : Record) (h : r.Ok) (pre post : Bytes) : (showStep (pre ++ r.stored.bytes ++ post) pre.length) =
    (r.shown (fun v => Dates.formatPosix Dates.nanos v) pre.length, .ok (r.stored.record, pre.length + r.stored.bytes.length)) := by
  have hk := stored_ok r h
  have hl := stored_length _ hk
  have hr := step_same (pre ++ r.stored.bytes ++ post) pre.length
  rw [timeStep_stored _ hk, List.length_append] at hr
  refine Prod.ext ?_ hr
  have hp : ∀ (data : Bytes) (off : Nat), (showStep data off).1 = (showRecord data off).1 := by
    intro data off
    unfold showStep
    rcases showRecord data off with ⟨t, e | r⟩ <;> rfl
  rw [hp]
  clear hr hp
  obtain ⟨body, unknown, time, zone, saving⟩ := r
  obtain ⟨h1, h2, h3, h4, h5⟩ := h
  dsimp only at *
  have hz := signed_unsigned 4 zone (by norm_num; omega) (by norm_num; omega)
  have ht := signed_unsigned 8 time (by norm_num; omega) (by norm_num; omega)
  have uz := unsigned_lt 4 zone
  have ut := unsigned_lt 8 time
  cases body with
  | boot i n d =>
    obtain ⟨h5, h6, h7⟩ := h5
    have hb : (Record.stored ⟨.boot i n d, unknown, time, zone, saving⟩).bytes = [[0xb0, 0xbb], leBytes 2 48, leBytes 4 unknown, i, leBytes 4 n,
        leBytes 4 d, leBytes 8 (unsigned 8 time), leBytes 4 (unsigned 4 zone), leBytes 4 saving].flatten := by
      simp [Record.stored, StoredRecord.bytes, TimeRecord.bytes]
    unfold Record.shown
    dsimp only
    rw [hb] at hl ⊢
    generalize hB : [[0xb0, 0xbb], leBytes 2 48, leBytes 4 unknown, i, leBytes 4 n,
        leBytes 4 d, leBytes 8 (unsigned 8 time), leBytes 4 (unsigned 4 zone), leBytes 4 saving].flatten = B at *
    have hl : B.length = 48 := hl
    have ht2 : B.take 2 = [0xb0, 0xbb] := by rw [← hB]; rfl
    have f1 : number B 2 4 = 48 := by rw [← hB]; exact leField [_] 2 _ _ 2 4 (by simp) rfl (by omega)
    have f2 : number B 4 8 = unknown := by rw [← hB]; exact leField [_, _] 4 _ _ 4 8 (by simp) rfl (by omega)
    have f3 : slice B 8 24 = i := by rw [← hB]; exact slice_fields [_, _, _] i _ 8 24 (by simp) (by rw [h5])
    have f4 : number B 24 28 = n := by rw [← hB]; exact leField [_, _, _, _] 4 _ _ 24 28 (by simp [h5]) rfl (by omega)
    have f5 : number B 28 32 = d := by rw [← hB]; exact leField [_, _, _, _, _] 4 _ _ 28 32 (by simp [h5]) rfl (by omega)
    have f6 : number B 32 40 = unsigned 8 time := by rw [← hB]; exact leField [_, _, _, _, _, _] 8 _ _ 32 40 (by simp [h5]) rfl ut
    have f7 : number B 40 44 = unsigned 4 zone := by rw [← hB]; exact leField [_, _, _, _, _, _, _] 4 _ _ 40 44 (by simp [h5]) rfl uz
    have f8 : number B 44 48 = saving := by rw [← hB]; exact leField [_, _, _, _, _, _, _, _] 4 _ [] 44 48 (by simp [h5]) rfl (by omega)
    have hd : dataAt (pre ++ B ++ post) pre.length 2 = .ok [0xb0, 0xbb] := by
      rw [dataAt_prefix _ _ _ 2 (by omega), ht2]
    unfold showRecord
    rw [hd]
    dsimp only
    rw [if_pos rfl, structure_shown _ 48 _ _ _ B _ (by omega) hl ht2 (boot_text B) pre post, f1, f2, f3, f4, f5, f6, f7, f8, hz, ht,
      identifier_text i h5]
    simp only [List.flatten_cons, List.flatten_nil, List.append_nil]
    rfl
  | sync k =>
    have hb : (Record.stored ⟨.sync k, unknown, time, zone, saving⟩).bytes = [[0x54, 0x73], leBytes 2 32, leBytes 4 unknown, leBytes 8 k,
        leBytes 8 (unsigned 8 time), leBytes 4 (unsigned 4 zone), leBytes 4 saving].flatten := by
      simp [Record.stored, StoredRecord.bytes, TimeRecord.bytes]
    unfold Record.shown
    dsimp only
    rw [hb] at hl ⊢
    generalize hB : [[0x54, 0x73], leBytes 2 32, leBytes 4 unknown, leBytes 8 k,
        leBytes 8 (unsigned 8 time), leBytes 4 (unsigned 4 zone), leBytes 4 saving].flatten = B at *
    have hl : B.length = 32 := hl
    have ht2 : B.take 2 = [0x54, 0x73] := by rw [← hB]; rfl
    have f1 : number B 2 4 = 32 := by rw [← hB]; exact leField [_] 2 _ _ 2 4 (by simp) rfl (by omega)
    have f2 : number B 4 8 = unknown := by rw [← hB]; exact leField [_, _] 4 _ _ 4 8 (by simp) rfl (by omega)
    have f4 : number B 8 16 = k := by rw [← hB]; exact leField [_, _, _] 8 _ _ 8 16 (by simp) rfl (by omega)
    have f6 : number B 16 24 = unsigned 8 time := by rw [← hB]; exact leField [_, _, _, _] 8 _ _ 16 24 (by simp) rfl ut
    have f7 : number B 24 28 = unsigned 4 zone := by rw [← hB]; exact leField [_, _, _, _, _] 4 _ _ 24 28 (by simp) rfl uz
    have f8 : number B 28 32 = saving := by rw [← hB]; exact leField [_, _, _, _, _, _] 4 _ [] 28 32 (by simp) rfl (by omega)
    have hd : dataAt (pre ++ B ++ post) pre.length 2 = .ok [0x54, 0x73] := by
      rw [dataAt_prefix _ _ _ 2 (by omega), ht2]
    unfold showRecord
    rw [hd]
    dsimp only
    rw [if_neg (by decide), if_pos rfl, structure_shown _ 32 _ _ _ B _ (by omega) hl ht2 (sync_text B) pre post, f1, f2, f4, f6, f7, f8,
      hz, ht]
    simp only [List.flatten_cons, List.flatten_nil, List.append_nil]
    rfl

/-! ## C206 -/

/-- In debug mode the same records are read as otherwise, and the same files are refused with the same exceptions. -/
theorem C206_same (data : Bytes) (fuel : Nat) : (showRecords data fuel).map (·.2) = readTimeRecords data fuel := by
  unfold showRecords readTimeRecords
  rw [FseventsDebug.loop_same (showStep data) (timeStep data) data.length (step_same data)]
  rcases loop (showStep data) data.length fuel 0 with _ | ⟨t, e | l⟩ <;> rfl

theorem values_records (l : List Record) (off : Nat) :
    valuesFrom off (l.map fun r => (r.stored.bytes, fun _ => r.stored.record)) = l.map fun r => r.stored.record := by
  induction l generalizing off with
  | nil => rfl
  | cons r l ih => rw [List.map_cons, valuesFrom, ih, List.map_cons]

/-- All records are shown in their order, each with the offset at which it is, its bytes and all its values, its time as one of the
calendar, and all are read. -/
theorem C206_shown (l : List Record) (h : ∀ r ∈ l, r.Ok) (fuel : Nat) (hf : l.length < fuel) :
    ∃ moment : Int → Str, (∀ v, -2 ^ 63 ≤ v → Moment v (moment v)) ∧ showRecords (l.flatMap (·.stored.bytes)) fuel =
      some (allShown moment 0 l, .ok (l.map fun r => r.stored.record)) := by
  refine ⟨fun v => Dates.formatPosix Dates.nanos v, fun v hv => moment_of v hv, ?_⟩
  have := FseventsDebug.loop_items showStep (fun r : Record => r.stored.bytes)
    (fun r off => r.shown (fun v => Dates.formatPosix Dates.nanos v) off) (fun r _ => r.stored.record)
    (allShown fun v => Dates.formatPosix Dates.nanos v) (fun _ => rfl) (fun _ _ _ => rfl) l (by
      intro r hr
      refine ⟨?_, record_shown r (h r hr)⟩
      have hl := stored_length _ (stored_ok r (h r hr))
      intro hc
      rw [hc] at hl
      obtain ⟨body, _, _, _, _⟩ := r
      cases body <;> simp [Record.stored, TimeRecord.recordSize] at hl) [] [] fuel hf
  rw [values_records] at this
  unfold showRecords
  simpa using this

/-- A boot record and a sync record. -/
def sample : List Record := [⟨.boot (List.replicate 16 7) 125 3, 0, 1700000000000000000, -60, 1⟩, ⟨.sync 5, 0, 1700000000000000001, -60, 1⟩]

theorem sample_ok : ∀ r ∈ sample, r.Ok := by
  simp only [sample, List.mem_cons, List.not_mem_nil, or_false]
  rintro r (rfl | rfl)
  · exact ⟨by decide, by decide, by decide, by decide, rfl, by decide, by decide⟩
  · exact ⟨by decide, by decide, by decide, by decide, (by decide : 5 < 2 ^ 64)⟩

example : ∃ moment : Int → Str, (∀ v, -2 ^ 63 ≤ v → Moment v (moment v)) ∧ showRecords (sample.flatMap (·.stored.bytes)) 3 =
    some (allShown moment 0 sample, .ok (sample.map fun r => r.stored.record)) := C206_shown sample sample_ok 3 (by decide)

end Dtf.TimesyncDebug
