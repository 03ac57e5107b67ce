import Verif.Dates
import Verif.Scripts.LogText

/-!
# The times of log entries (C191)

scripts/unified_logging.py cuts the ISO 8601 text of a time in nanoseconds to microseconds.  That text is here as dfdatetime
documents it.
-/

namespace Dtf.Dates.Logs
open Py Text Formats Calendar Dates

/-! ## Model -/

/-- dfdatetime `CopyToDateTimeStringISO8601` of `PosixTimeInNanoseconds`: a T between date and time and the time zone after
them.  Times before the year 1 have no text, see `Kind.text`. -/
def iso (v : Int) : Str :=
  match nanos.text v with
  | none => []
  | some t => t.take 10 ++ 'T' :: (t.drop 11 ++ "+00:00".toList)

/-- What the script uses, with `space` for the characters that are white space. -/
def env (space : Char → Bool) : LogJson.Env := ⟨space, iso⟩

/-! ## Specification -/

/-- The times that have a year of four digits, in nanoseconds. -/
def InCalendar (v : Int) : Prop := -62135596800000000000 ≤ v ∧ v < 253402300800000000000

/-- The claim: two times are shown differently. -/
def C191_distinct_claim : Prop := ∀ (space : Char → Bool) (v w : Int), InCalendar v → InCalendar w →
  LogJson.dateText (env space) v = LogJson.dateText (env space) w → v = w

/-! ## Proofs -/

theorem padded_lt (w n : Nat) (h : n < 10 ^ (w + 1)) : (padded (w + 1) n).length = w + 1 :=
  zpad_length (w + 1) _ (digits_length_le 10 n w (by decide) h)

/-- The first digits of a fraction. -/
theorem fraction (f : Nat) (h : f < 10 ^ 9) : ∃ a b c, padded 9 f = padded 6 (f / 1000) ++ [a, b, c] ∧ (padded 6 (f / 1000)).length = 6 := by
  have e : f / 10 / 10 / 10 = f / 1000 := by omega
  have e1 : padded 9 f = padded 6 (f / 1000) ++ [digitChar (f / 10 / 10 % 10), digitChar (f / 10 % 10), digitChar (f % 10)] := by
    rw [padded_succ, padded_succ, padded_succ, e]
    simp only [List.append_assoc, List.cons_append, List.nil_append]
  exact ⟨_, _, _, e1, padded_lt 5 _ (by omega)⟩

theorem year_lt (n : Nat) (h : n < 3652059) : (dayAfter n).year < 10000 := by
  rcases Nat.lt_or_ge n 3652058 with c | c
  · have := day_before n 3652058 c
    rw [year_max] at this
    unfold DayBefore at this
    dsimp only at this
    omega
  · have : n = 3652058 := by omega
    rw [this, year_max]
    decide

/-- What is left of the text when it is cut, by the lengths of its parts. -/
theorem cut_text (y mo d h m s g : Str) (a b c : Char) (e1 : y.length = 4) (e2 : mo.length = 2) (e3 : d.length = 2) (e4 : h.length = 2)
    (e5 : m.length = 2) (e6 : s.length = 2) (e7 : g.length = 6) :
    let t := y ++ '-' :: (mo ++ '-' :: (d ++ ' ' :: (h ++ ':' :: (m ++ ':' :: (s ++ '.' :: (g ++ [a, b, c]))))))
    let i := t.take 10 ++ 'T' :: (t.drop 11 ++ "+00:00".toList)
    i.take 10 ++ [' '] ++ Py.slice i 11 26 ++ Py.slice i 29 32 ++ Py.slice i 33 35 =
      y ++ '-' :: (mo ++ '-' :: (d ++ ' ' :: (h ++ ':' :: (m ++ ':' :: (s ++ '.' :: (g ++ "+0000".toList)))))) := by
  match y, mo, d, h, m, s, g, e1, e2, e3, e4, e5, e6, e7 with
  | [_, _, _, _], [_, _], [_, _], [_, _], [_, _], [_, _], [_, _, _, _, _, _], _, _, _, _, _, _, _ => rfl

theorem date_parts (n : Nat) (h : n < 3652059) : (padded 4 (dayAfter n).year).length = 4 ∧ (padded 2 (dayAfter n).month).length = 2 ∧
    (padded 2 (dayAfter n).day).length = 2 := by
  have hy := year_lt n h
  obtain ⟨_, _, hm, _, hd⟩ := (dayAfter_valid n).1
  refine ⟨padded_lt 3 _ (by omega), padded_lt 1 _ (by omega), padded_lt 1 _ ?_⟩
  have : lengthOf (dayAfter n).year (dayAfter n).month ≤ 31 := by
    unfold lengthOf
    repeat' split
    all_goals decide
  omega

/-- The parts of a time in nanoseconds are those of its microseconds but for the fraction. -/
theorem shown (v : Int) (hv : InCalendar v) : ∃ n h m s f : Nat, h < 24 ∧ m < 60 ∧ s < 60 ∧ f < 10 ^ 9 ∧ n < 3652059 ∧
    v = (((((n : Int) - 719162) * 24 + h) * 60 + m) * 60 + s) * 1000000000 + f ∧
    iso v = (writtenAs 9 (dayAfter n) h m s f).take 10 ++ 'T' :: ((writtenAs 9 (dayAfter n) h m s f).drop 11 ++ "+00:00".toList) := by
  obtain ⟨h1, h2⟩ := hv
  have hu : nanos.unit = 1000000000 := by decide
  have he : nanos.epoch = 719162 := rfl
  have hw : nanos.width = 9 := rfl
  have h0 : 0 ≤ v + (nanos.epoch * 86400 * nanos.unit : Nat) := by rw [hu, he]; omega
  obtain ⟨n, h, m, s, f, b1, b2, b3, b4, e⟩ := parts nanos v h0
  have ht := text_writtenAs nanos v n h m s f b1 b2 b3 b4 e
  rw [hu] at b4 e
  rw [he] at e
  have e' : v = (((((n : Int) - 719162) * 24 + h) * 60 + m) * 60 + s) * 1000000000 + f := by exact_mod_cast e
  refine ⟨n, h, m, s, f, b1, b2, b3, by omega, by omega, e', ?_⟩
  unfold iso
  rw [ht, hw]

/-- **C191**: a time is shown with its date, its time of day and six digits of the fraction: the time of the calendar that is
the whole number of microseconds before it. -/
theorem C191_time (space : Char → Bool) (v : Int) (hv : InCalendar v) :
    ∃ t, IsTimeSince ⟨1970, 1, 1⟩ 6 t (v / 1000) ∧ LogJson.dateText (env space) v = t ++ "+0000".toList := by
  obtain ⟨n, h, m, s, f, b1, b2, b3, b4, b5, e, hi⟩ := shown v hv
  obtain ⟨a, b, c, hf, h6⟩ := fraction f b4
  obtain ⟨l1, l2, l3⟩ := date_parts n b5
  refine ⟨writtenAs 6 (dayAfter n) h m s (f / 1000), ⟨719162, n, h, m, s, f / 1000, start_posix, b1, b2, b3, by omega, ?_, rfl⟩, ?_⟩
  · rw [e]
    push_cast
    omega
  have key := cut_text _ _ _ _ _ _ _ a b c l1 l2 l3 (padded_length h (by omega)) (padded_length m (by omega)) (padded_length s (by omega)) h6
  have hw : ∀ w g, w ≠ 0 → writtenAs w (dayAfter n) h m s g = padded 4 (dayAfter n).year ++ '-' :: (padded 2 (dayAfter n).month ++ '-' ::
      (padded 2 (dayAfter n).day ++ ' ' :: (padded 2 h ++ ':' :: (padded 2 m ++ ':' :: (padded 2 s ++ '.' :: padded w g))))) := by
    intro w g hw
    unfold writtenAs
    rw [if_neg hw]
    simp only [List.append_assoc]
    rfl
  unfold LogJson.dateText env
  dsimp only
  rw [hi, hw 9 f (by decide), hf, hw 6 _ (by decide)]
  simp only [List.append_assoc, List.cons_append] at key ⊢
  exact key

theorem micros_text (v : Int) (hv : InCalendar v) (t : Str) (ht : IsTimeSince ⟨1970, 1, 1⟩ 6 t (v / 1000)) :
    micros.text (v / 1000) = some t := by
  refine (text_iff micros ⟨1970, 1, 1⟩ start_posix (v / 1000) t).mpr ⟨?_, ht⟩
  have hu : micros.unit = 1000000 := by decide
  have he : micros.epoch = 719162 := rfl
  obtain ⟨h1, _⟩ := hv
  rw [hu, he]
  omega

/-- **C191** (partial): two times are shown alike exactly when they are in the same microsecond. -/
theorem C191_distinct_partial (space : Char → Bool) (v w : Int) (hv : InCalendar v) (hw : InCalendar w) :
    LogJson.dateText (env space) v = LogJson.dateText (env space) w ↔ v / 1000 = w / 1000 := by
  obtain ⟨s, hs, e1⟩ := C191_time space v hv
  obtain ⟨t, ht, e2⟩ := C191_time space w hw
  have h1 := micros_text v hv s hs
  have h2 := micros_text w hw t ht
  rw [e1, e2]
  constructor
  · intro h
    have := List.append_cancel_right h
    subst this
    exact text_injective micros _ _ s h1 h2
  · intro h
    rw [h, h2] at h1
    rw [Option.some.inj h1]

/-- **C191** is false for times that are less than a microsecond apart. -/
theorem C191_distinct_claim_false : ¬ C191_distinct_claim := by
  intro h
  have := h (fun _ => false) 1 2 (by unfold InCalendar; omega) (by unfold InCalendar; omega)
    ((C191_distinct_partial _ 1 2 (by unfold InCalendar; omega) (by unfold InCalendar; omega)).mpr (by decide))
  omega

/-- **C191**: the texts are sorted as the times are. -/
theorem C191_order (space : Char → Bool) (v w : Int) (hv : InCalendar v) (hw : InCalendar w) (lt : v / 1000 < w / 1000) :
    Before (LogJson.dateText (env space) v) (LogJson.dateText (env space) w) := by
  obtain ⟨s, hs, e1⟩ := C191_time space v hv
  obtain ⟨t, ht, e2⟩ := C191_time space w hw
  have h1 := micros_text v hv s hs
  have h2 := micros_text w hw t ht
  rw [e1, e2]
  have hu : micros.unit = 1000000 := by decide
  have he : micros.epoch = 719162 := rfl
  have hy := year_bound micros (w / 1000) t h2 (by
    obtain ⟨_, h⟩ := hw
    rw [hu, he]
    omega)
  exact (text_before micros _ _ s t h1 h2 hy lt).right _ _

/-! ## In the place of parameters -/

theorem iso_mem (v : Int) (c : Char) (hc : c ∈ iso v) : (∃ d < 10, c = digitChar d) ∨ c ∈ ['-', ' ', ':', '.', 'T', '+'] := by
  unfold iso at hc
  cases h : nanos.text v with
  | none => rw [h] at hc; cases hc
  | some t =>
    rw [h] at hc
    have key : c ∈ t → (∃ d < 10, c = digitChar d) ∨ c ∈ ['-', ' ', ':', '.', 'T', '+'] := by
      intro hm
      rcases text_mem nanos v t h c hm with ⟨d, hd⟩ | rfl | rfl | rfl | rfl
      · exact .inl ⟨d, hd⟩
      all_goals exact .inr (by decide)
    have hz : ∀ c ∈ "+00:00".toList, c ∈ ['-', ' ', ':', '.', 'T', '+'] ∨ c = digitChar 0 := by decide
    simp only [List.mem_append, List.mem_cons] at hc
    rcases hc with hc | rfl | hc | hc
    · exact key (List.mem_of_mem_take hc)
    · exact .inr (by decide)
    · exact key (List.mem_of_mem_drop hc)
    · rcases hz c hc with h | h
      · exact .inr h
      · exact .inl ⟨0, by decide, h⟩

theorem iso_plain (v : Int) : LogJson.Plain (iso v) := by
  intro c hc
  have h := iso_mem v c hc
  clear hc
  rcases h with ⟨d, hd, rfl⟩ | h
  · revert d
    decide
  · revert c
    decide

theorem iso_tab (v : Int) : '\t' ∉ iso v := fun h => by
  have := (iso_plain v _ h).2.2
  revert this
  decide

/-- **C191**: the document of entries with texts that can be written is JSON, whatever their times are. -/
theorem C191_document (space : Char → Bool) (other : LogJson.Env) (es : List LogJson.Entry) (hne : es ≠ [])
    (h : ∀ e ∈ es, LogJson.Entry.Clean other e) :
    Json.parse (LogJson.document (env space) es) = some (.arr (LogJson.objects (env space) [] es)) :=
  LogJson.C150_document_partial (env space) es hne fun e he => { h e he with times := iso_plain }

/-- **C191**: entries with the same line are in the same microsecond. -/
theorem C191_line (space : Char → Bool) (e e' : LogText.Entry) (h : e.Ok) (h' : e'.Ok) (hv : InCalendar e.time) (hw : InCalendar e'.time)
    (hs : LogText.entryLine (env space) e = LogText.entryLine (env space) e') : e.time / 1000 = e'.time / 1000 :=
  (C191_distinct_partial space _ _ hv hw).mp (LogText.C170_recovers (env space) e e' h h' (iso_tab _) (iso_tab _) hs).1

/-! ## Witnesses -/

example : iso 1673487391338000999 = "2023-01-12T01:36:31.338000999+00:00".toList := by decide +kernel

example : LogJson.dateText (env fun c => c = ' ') 1673487391338000999 = "2023-01-12 01:36:31.338000+0000".toList := by decide +kernel

example : LogJson.dateText (env fun c => c = ' ') (-1) = "1969-12-31 23:59:59.999999+0000".toList := by decide +kernel

/-- All times of 64 bits are in the calendar. -/
example (v : Int) (h : -(2 ^ 63) ≤ v) (h' : v < 2 ^ 64) : InCalendar v := by unfold InCalendar; omega

example : ([LogJson.sampleEntry] ≠ []) ∧ ∀ e ∈ [LogJson.sampleEntry], LogJson.Entry.Clean LogJson.sampleEnv e :=
  ⟨by simp, fun e he => by rw [List.mem_singleton.mp he]; exact LogJson.sampleEntry_clean⟩

end Dtf.Dates.Logs
