import Verif.Dates
import Verif.Utf.Texts
import Verif.UtmpDebug

/-!
# Logins and restore points with their texts and times (C192)

The debug output of utmp, utmpx and rp.log files, with the decoders of `Utf.lean` and the times of `Dates.lean` in the place of
the parameters.
-/

namespace Dtf.Dates.Logins
open Py DataFormat Text Formats Calendar Utf Utmp.DebugMode

/-! ## Specification -/

/-- What a user looks for in a login. -/
structure Login where
  terminal : List Char
  user : List Char
  host : List Char
  time : Int

/-- A text in a member of a fixed size: UTF-8 and zeros after it. -/
def Stored (b : Bytes) (s : List Char) : Prop := ∃ z, b = encode8 s ++ List.replicate z 0

/-- The data is that of an entry of a utmp file with this login: the texts at 8, 44 and 76 and the time at 340. -/
def IsEntry (c : Bytes) (l : Login) : Prop :=
  c.length = 384 ∧ Stored ((c.drop 8).take 32) l.terminal ∧ Stored ((c.drop 44).take 32) l.user ∧ Stored ((c.drop 76).take 256) l.host ∧
    signed 4 (leNat ((c.drop 340).take 4)) = l.time

/-- The same of an entry of a utmpx file: the texts at 0, 260 and 308 and the time at 300. -/
def IsXEntry (c : Bytes) (l : Login) : Prop :=
  c.length = 628 ∧ Stored (c.take 256) l.user ∧ Stored ((c.drop 260).take 32) l.terminal ∧ Stored ((c.drop 308).take 256) l.host ∧
    signed 4 (leNat ((c.drop 300).take 4)) = l.time

def Login.NoNul (l : Login) : Prop := nul ∉ l.terminal ∧ nul ∉ l.user ∧ nul ∉ l.host

/-- The text of a time in seconds since 1970. -/
def IsTime (t : List Char) (v : Int) : Prop :=
  v = 0 ∧ t = "Not set (0)".toList ∨ v ≠ 0 ∧ ∃ s, IsTimeSince ⟨1970, 1, 1⟩ 0 s v ∧ t = s ++ " UTC".toList

/-- The text shows the login: its terminal, user, host and time are on lines of their own. -/
def Shows (text : List Char) (l : Login) : Prop :=
  ∃ a b c d t, IsTime t l.time ∧
    text = a ++ shownAs "Terminal" l.terminal ++ b ++ shownAs "Username" l.user ++ shownAs "Hostname" l.host ++ c ++ shownAs "Timestamp" t ++ d

/-- The same in the order of a utmpx file. -/
def XShows (text : List Char) (l : Login) : Prop :=
  ∃ a b c d e t, IsTime t l.time ∧
    text = a ++ shownAs "Username" l.user ++ b ++ shownAs "Terminal" l.terminal ++ c ++ shownAs "Timestamp" t ++ d ++
      shownAs "Hostname" l.host ++ e

/-- The texts show the logins, one after the other. -/
inductive All {α β : Type} (R : α → β → Prop) : List α → List β → Prop
  | nil : All R [] []
  | cons {x y xs ys} : R x y → All R xs ys → All R (x :: xs) (y :: ys)

/-- The claim: what is stored is shown, also when it has zero characters. -/
def C192_utmp_claim : Prop := ∀ (cs : List Bytes) (ls : List Login), All IsEntry cs ls →
  ∃ ts, showFile decode8 posix.text cs.flatten (cs.length + 1) = some (ts.flatten, none) ∧ All Shows ts ls

/-! ## Proofs -/

theorem filter_stored (b : Bytes) (s : List Char) (h : Stored b s) (hn : nul ∉ s) : decode8 (b.filter (· ≠ 0)) = some s := by
  obtain ⟨z, rfl⟩ := h
  have h1 : (encode8 s).filter (· ≠ 0) = encode8 s := List.filter_eq_self.mpr fun x hx => by simpa using bytes_ne_zero s hn x hx
  have h2 : (List.replicate z (0 : UInt8)).filter (· ≠ 0) = [] := List.filter_eq_nil_iff.mpr fun x hx => by
    simp [List.eq_of_mem_replicate hx]
  rw [List.filter_append, h1, h2, List.append_nil, C189_utf8]

theorem time_text (b : Bytes) (hb : b.length ≤ 4) : ∃ t, IsTime t (signed 4 (leNat b)) ∧ (time posix.text).2 b = some (shownAs "Timestamp" t) := by
  have hlt : leNat b < 256 ^ 4 := Nat.lt_of_lt_of_le (leNat_lt _) (Nat.pow_le_pow_right (by decide) hb)
  unfold time
  dsimp only
  by_cases h : leNat b = 0
  · rw [if_pos h]
    exact ⟨_, .inl ⟨(signed_zero _ _ hlt).mpr h, rfl⟩, rfl⟩
  · rw [if_neg h]
    have hs : -(2 ^ 31) ≤ signed 4 (leNat b) := by
      unfold signed
      split <;> omega
    obtain ⟨s, e, ht⟩ := text_some posix (signed 4 (leNat b)) (by
      show (0 : Int) ≤ _ + (719162 * 86400 * (10 ^ 0) : Nat)
      omega)
    rw [show posix.epoch = 719162 from rfl, start_posix] at ht
    refine ⟨s ++ " UTC".toList, .inr ⟨fun h' => h ((signed_zero _ _ hlt).mp h'), s, ht, rfl⟩, ?_⟩
    rw [e]
    rfl

theorem text_stored (d : String) (n : Nat) (b : Bytes) (s : List Char) (h : Stored b s) (hn : nul ∉ s) :
    (text decode8 d n).2 b = some (shownAs d s) := by
  unfold Utmp.DebugMode.text
  dsimp only
  rw [filter_stored b s h hn]
  rfl

/-- A member that is shown. -/
theorem run_at (m : Member) (l : List Member) (c : Bytes) (k : Nat) (t u : List Char) (h : m.2 ((c.drop k).take m.1) = some t)
    (hl : membersRun l (c.drop (k + m.1)) = (u, none)) : membersRun (m :: l) (c.drop k) = (t ++ u, none) := by
  obtain ⟨n, f⟩ := m
  rw [membersRun]
  dsimp only at h hl
  rw [h]
  dsimp only
  rw [List.drop_drop, hl]

/-- A member that is shown in some way. -/
theorem run_any (m : Member) (l : List Member) (c : Bytes) (k : Nat) (u : List Char) (h : ∃ t, m.2 ((c.drop k).take m.1) = some t)
    (hl : membersRun l (c.drop (k + m.1)) = (u, none)) : ∃ t, membersRun (m :: l) (c.drop k) = (t ++ u, none) := by
  obtain ⟨t, ht⟩ := h
  exact ⟨t, run_at m l c k t u ht hl⟩

theorem number_some' (d : String) (b : Bytes) : ∃ t, (number d).2 b = some t := ⟨_, rfl⟩

theorem signed_some' (d : String) (b : Bytes) : ∃ t, (signedNumber d).2 b = some t := ⟨_, rfl⟩

theorem hex_some' (d : String) (n w : Nat) (f : Int → List Char) (b : Bytes) : ∃ t, (hexadecimal d n w f).2 b = some t := ⟨_, rfl⟩

theorem rest_some' (d : String) (n : Nat) (b : Bytes) : ∃ t, (remaining d n).2 b = some t := ⟨_, rfl⟩

/-- The members of an entry. -/
theorem entry_shows (c : Bytes) (l : Login) (h : IsEntry c l) (hn : l.NoNul) :
    ∃ u, membersRun (members decode8 posix.text) c = (u, none) ∧ Shows u l := by
  obtain ⟨_, h1, h2, h3, h4⟩ := h
  obtain ⟨n1, n2, n3⟩ := hn
  obtain ⟨t, ht, et⟩ := time_text ((c.drop 340).take 4) (List.length_take_le _ _)
  rw [h4] at ht
  have e1 := text_stored "Terminal" 32 _ _ h1 n1
  have e2 := text_stored "Username" 32 _ _ h2 n2
  have e3 := text_stored "Hostname" 256 _ _ h3 n3
  obtain ⟨a13, r⟩ := run_any (remaining "Unknown1" 20) [] c 364 [] (rest_some' _ _ _) rfl
  obtain ⟨a12, r⟩ := run_any (16, fun b => some (shownAs "IP address" (Utmp.shownAddress b))) _ c 348 _ ⟨_, rfl⟩ r
  obtain ⟨a11, r⟩ := run_any (signedNumber "Microseconds") _ c 344 _ (signed_some' _ _) r
  have r := run_at (time posix.text) _ c 340 _ _ et r
  obtain ⟨a9, r⟩ := run_any (signedNumber "Session") _ c 336 _ (signed_some' _ _) r
  obtain ⟨a8, r⟩ := run_any (hexadecimal "Exit status" 2 4 (fun _ => [])) _ c 334 _ (hex_some' _ _ _ _ _) r
  obtain ⟨a7, r⟩ := run_any (hexadecimal "Termination status" 2 4 (fun _ => [])) _ c 332 _ (hex_some' _ _ _ _ _) r
  have r := run_at (Utmp.DebugMode.text decode8 "Hostname" 256) _ c 76 _ _ e3 r
  have r := run_at (Utmp.DebugMode.text decode8 "Username" 32) _ c 44 _ _ e2 r
  obtain ⟨a4, r⟩ := run_any (number "Terminal ID") _ c 40 _ (number_some' _ _) r
  have r := run_at (Utmp.DebugMode.text decode8 "Terminal" 32) _ c 8 _ _ e1 r
  obtain ⟨a2, r⟩ := run_any (number "PID") _ c 4 _ (number_some' _ _) r
  obtain ⟨a1, r⟩ := run_any (hexadecimal "Type of login" 4 8 (named linuxNames)) _ c 0 _ (hex_some' _ _ _ _ _) r
  rw [List.drop_zero] at r
  refine ⟨_, r, a1 ++ a2, a4, a7 ++ (a8 ++ a9), a11 ++ (a12 ++ (a13 ++ [])), t, ht, ?_⟩
  simp only [List.append_assoc]

/-- The members of an entry of a utmpx file. -/
theorem xentry_shows (c : Bytes) (l : Login) (h : IsXEntry c l) (hn : l.NoNul) :
    ∃ u, membersRun (xmembers decode8 posix.text) c = (u, none) ∧ XShows u l := by
  obtain ⟨_, h1, h2, h3, h4⟩ := h
  obtain ⟨n1, n2, n3⟩ := hn
  obtain ⟨t, ht, et⟩ := time_text ((c.drop 300).take 4) (List.length_take_le _ _)
  rw [h4] at ht
  rw [show c.take 256 = (c.drop 0).take 256 by rw [List.drop_zero]] at h1
  have e1 := text_stored "Username" 256 _ _ h1 n2
  have e2 := text_stored "Terminal" 32 _ _ h2 n1
  have e3 := text_stored "Hostname" 256 _ _ h3 n3
  obtain ⟨a10, r⟩ := run_any (remaining "Unknown2" 64) [] c 564 [] (rest_some' _ _ _) rfl
  have r := run_at (Utmp.DebugMode.text decode8 "Hostname" 256) _ c 308 _ _ e3 r
  obtain ⟨a8, r⟩ := run_any (signedNumber "Microseconds") _ c 304 _ (signed_some' _ _) r
  have r := run_at (time posix.text) _ c 300 _ _ et r
  obtain ⟨a6, r⟩ := run_any (hexadecimal "Unknown1" 2 4 (fun _ => [])) _ c 298 _ (hex_some' _ _ _ _ _) r
  obtain ⟨a5, r⟩ := run_any (hexadecimal "Type of login" 2 4 (named macNames)) _ c 296 _ (hex_some' _ _ _ _ _) r
  obtain ⟨a4, r⟩ := run_any (number "PID") _ c 292 _ (number_some' _ _) r
  have r := run_at (Utmp.DebugMode.text decode8 "Terminal" 32) _ c 260 _ _ e2 r
  obtain ⟨a2, r⟩ := run_any (number "Terminal ID") _ c 256 _ (number_some' _ _) r
  have r := run_at (Utmp.DebugMode.text decode8 "Username" 256) _ c 0 _ _ e1 r
  rw [List.drop_zero] at r
  refine ⟨_, r, [], a2, a4 ++ (a5 ++ a6), a8, a10 ++ [], t, ht, ?_⟩
  simp only [List.append_assoc, List.nil_append]

theorem all_lengths {cs : List Bytes} {ls : List Login} {R : Bytes → Login → Prop} {n : Nat} (h : All R cs ls)
    (hl : ∀ c l, R c l → c.length = n) : ∀ c ∈ cs, c.length = n := by
  induction h with
  | nil => exact fun c hc => by cases hc
  | cons h _ ih =>
    intro c hc
    rcases List.mem_cons.mp hc with rfl | hc
    · exact hl _ _ h
    · exact ih c hc

/-- The text of entries. -/
theorem entries_show (ms : List Member) {cs : List Bytes} {ls : List Login} {R : Bytes → Login → Prop}
    {S : List Char → Login → Prop} (hS : ∀ x y l, S x l → S (y ++ x) l) (h : All R cs ls) (hn : ∀ l ∈ ls, l.NoNul)
    (hm : ∀ c l, R c l → l.NoNul → ∃ u, membersRun ms c = (u, none) ∧ S u l) (off : Nat) :
    ∃ ts, entriesRun ms [] off cs = (ts.flatten, none) ∧ All S ts ls := by
  induction h generalizing off with
  | nil => exact ⟨[], rfl, .nil⟩
  | @cons c l cs ls h _ ih =>
    obtain ⟨u, e, hs⟩ := hm c l h (hn l (List.mem_cons_self ..))
    obtain ⟨ts, et, ht⟩ := ih (fun l hl => hn l (List.mem_cons_of_mem _ hl)) (off + c.length)
    rw [entriesRun]
    generalize "Entry data:\n".toList = x
    rw [e]
    dsimp only
    rw [et]
    refine ⟨(announced off ++ x ++ HexDump.dump c ++ u) :: ts, rfl, .cons ?_ ht⟩
    exact hS u _ l hs

theorem Shows.left (x y : List Char) (l : Login) (h : Shows x l) : Shows (y ++ x) l := by
  obtain ⟨a, b, c, d, t, ht, rfl⟩ := h
  exact ⟨y ++ a, b, c, d, t, ht, by simp only [List.append_assoc]⟩

/-- **C192** (partial): what is written of a utmp file shows the terminal, the user, the host and the time of each login, in
order, when the texts have no zero characters. -/
theorem C192_utmp_partial (cs : List Bytes) (ls : List Login) (h : All IsEntry cs ls) (hn : ∀ l ∈ ls, l.NoNul) :
    ∃ ts, showFile decode8 posix.text cs.flatten (cs.length + 1) = some (ts.flatten, none) ∧ All Shows ts ls := by
  obtain ⟨ts, e, ha⟩ := entries_show (members decode8 posix.text) Shows.left h hn entry_shows 0
  have := C181_file decode8 posix.text cs [] (all_lengths h fun _ _ h => h.1) (by decide) (cs.length + 1) (Nat.lt_succ_self _)
  rw [List.append_nil] at this
  exact ⟨ts, by rw [this, e], ha⟩

theorem XShows.left (x y : List Char) (l : Login) (h : XShows x l) : XShows (y ++ x) l := by
  obtain ⟨a, b, c, d, e, t, ht, rfl⟩ := h
  exact ⟨y ++ a, b, c, d, e, t, ht, by simp only [List.append_assoc]⟩

/-- **C192**: the same of a utmpx file, of which the first entry has the signature for a user and the type 10. -/
theorem C192_utmpx_partial (c : Bytes) (cs : List Bytes) (l : Login) (ls : List Login) (h : All IsXEntry (c :: cs) (l :: ls))
    (hn : ∀ x ∈ l :: ls, x.NoNul) (hs : l.user = "utmpx-1.00".toList) (ht : leNat ((c.drop 296).take 2) = 10) :
    ∃ ts, showXFile decode8 posix.text (c :: cs).flatten (cs.length + 1) = some (ts.flatten, none) ∧ All XShows ts (l :: ls) := by
  obtain ⟨ts, e, ha⟩ := entries_show (xmembers decode8 posix.text) XShows.left h hn xentry_shows 0
  have := C181_xfile decode8 posix.text c cs [] (all_lengths h fun _ _ h => h.1) (by decide) (cs.length + 1) (Nat.lt_succ_self _)
  have hsig : Utmp.signature <+: c := by
    cases h with
    | cons h _ =>
      obtain ⟨hl, ⟨z, hz⟩, _⟩ := h
      rw [hs, show encode8 "utmpx-1.00".toList = [117, 116, 109, 112, 120, 45, 49, 46, 48, 48] by decide +kernel] at hz
      have := congrArg List.length hz
      simp only [List.length_take, List.length_append, List.length_replicate, List.length_cons, List.length_nil] at this
      obtain ⟨z, rfl⟩ : ∃ k, z = k + 1 := ⟨z - 1, by omega⟩
      refine List.IsPrefix.trans ?_ (List.take_prefix 256 c)
      rw [hz]
      exact ⟨List.replicate z 0, rfl⟩
  rw [List.append_nil, if_neg fun h => h.2 ⟨hsig, ht⟩] at this
  exact ⟨ts, by rw [this, e], ha⟩

/-- A login with a zero character in the name of the user. -/
def split : Login := ⟨"tty1".toList, ['a', nul, 'b'], "host".toList, 0⟩

def splitEntry : Bytes := List.replicate 8 0 ++ encode8 split.terminal ++ List.replicate 32 0 ++ [97, 0, 98] ++ List.replicate 29 0 ++
  encode8 split.host ++ List.replicate 304 0

theorem splitEntry_is : IsEntry splitEntry split :=
  ⟨by decide +kernel, ⟨28, by decide +kernel⟩, ⟨29, by decide +kernel⟩, ⟨252, by decide +kernel⟩, by decide +kernel⟩

/-- **C192** is false for a text with a zero character: it is shown without it. -/
theorem C192_utmp_claim_false : ¬ C192_utmp_claim := by
  intro h
  obtain ⟨ts, e, ha⟩ := h [splitEntry] [split] (.cons splitEntry_is .nil)
  have hf := C181_file decode8 posix.text [splitEntry] [] (by decide +kernel) (by decide) 2 (by decide)
  rw [List.append_nil] at hf
  rw [show [splitEntry].length + 1 = 2 from rfl, hf] at e
  have hn : nul ∉ (entriesRun (members decode8 posix.text) [] 0 [splitEntry]).1 := by decide +kernel
  rw [Option.some.inj e] at hn
  cases ha with
  | cons hs _ =>
    obtain ⟨a, b, c, d, t, _, rfl⟩ := hs
    refine hn ?_
    have hu : nul ∈ shownAs "Username" split.user := by
      unfold shownAs
      exact List.mem_append_left _ (List.mem_append_right _ (by decide))
    rw [List.flatten_cons]
    exact List.mem_append_left _ (List.mem_append_left _ (List.mem_append_left _ (List.mem_append_left _ (List.mem_append_left _
      (List.mem_append_right _ hu)))))

/-! ## Restore points -/

/-- The text of a creation time. -/
def IsCreation (t : List Char) (v : Nat) : Prop :=
  v = 0 ∧ t = "Not set (0)".toList ∨ v = 2 ^ 63 - 1 ∧ t = "Never (0x7fffffffffffffff)".toList ∨
    v ≠ 0 ∧ v ≠ 2 ^ 63 - 1 ∧ ∃ s, IsTimeSince ⟨1601, 1, 1⟩ 7 s v ∧ t = s ++ " UTC".toList

theorem creation (v : Nat) : IsCreation (RpLog.DebugMode.creationText (fun t => filetime.text t) v) v := by
  unfold RpLog.DebugMode.creationText
  by_cases h : v = 0
  · rw [if_pos h]
    exact .inl ⟨h, rfl⟩
  · rw [if_neg h]
    by_cases h2 : v = 2 ^ 63 - 1
    · rw [if_pos h2]
      exact .inr (.inl ⟨h2, rfl⟩)
    · rw [if_neg h2]
      obtain ⟨s, e, ht⟩ := text_some filetime v (by omega)
      rw [start_filetime] at ht
      refine .inr (.inr ⟨h, h2, s, ht, ?_⟩)
      show (Option.map _ (filetime.text v)).getD _ = _
      rw [e]
      rfl

/-- **C192**: the description and the time of a restore point are shown. -/
theorem C192_restore_point (event restore sequence created : Nat) (description : List Char) (between : Bytes)
    (h1 : event < 2 ^ 32) (h2 : restore < 2 ^ 32) (h3 : sequence < 2 ^ 64) (h4 : nul ∉ description) (h5 : created < 2 ^ 64) :
    ∃ a b c t, IsCreation t created ∧
      RpLog.DebugMode.showFile true decode16 (fun t => filetime.text t)
        (leBytes 4 event ++ leBytes 4 restore ++ leBytes 8 sequence ++ (encode16 description ++ [0, 0]) ++ between ++ leBytes 8 created) =
        (a ++ shownAs "Description" description ++ b ++ shownAs "Creation time" t ++ c, none) := by
  have key := C189_restore_point (fun t => filetime.text t) ⟨event, restore, sequence, encode16 description, between, created⟩
    ⟨h1, h2, h3, encode16_utf16 _ h4, h5⟩ description rfl
  have hb : leBytes 4 event ++ leBytes 4 restore ++ leBytes 8 sequence ++ (encode16 description ++ [0, 0]) ++ between ++ leBytes 8 created =
      RpLog.Log.bytes ⟨event, restore, sequence, encode16 description, between, created⟩ := by
    unfold RpLog.Log.bytes
    simp only [List.flatten_cons, List.flatten_nil, List.append_nil, List.append_assoc]
  have hc := creation created
  rw [hb, key]
  unfold RpLog.DebugMode.report
  dsimp only
  generalize RpLog.DebugMode.creationText _ created = t at *
  generalize RpLog.DebugMode.announcedAt _ _ = x1
  generalize RpLog.DebugMode.dumpOf _ _ = x2
  generalize shownAs "Event type" _ = x3
  generalize shownAs "Restore point type" _ = x4
  generalize shownAs "Sequence number" _ = x5
  generalize RpLog.DebugMode.dumpOf _ _ = x6
  generalize RpLog.DebugMode.announcedAt _ _ = x7
  generalize RpLog.DebugMode.dumpOf _ _ = x8
  refine ⟨x1 ++ (x2 ++ (x3 ++ (x4 ++ x5))), ['\n'] ++ (x6 ++ (x7 ++ x8)), ['\n'], t, hc, ?_⟩
  simp only [List.flatten_cons, List.flatten_nil, List.append_nil, List.append_assoc]

/-! ## Witnesses -/

example : Login.NoNul ⟨"tty1".toList, "é".toList, "host".toList, 1700000000⟩ := by unfold Login.NoNul; decide +kernel

example : IsTime "2023-11-14 22:13:20 UTC".toList 1700000000 :=
  .inr ⟨by decide, "2023-11-14 22:13:20".toList,
    ((text_iff posix _ start_posix _ _).mp (show posix.text 1700000000 = some "2023-11-14 22:13:20".toList by decide +kernel)).2,
    by decide +kernel⟩

end Dtf.Dates.Logins
