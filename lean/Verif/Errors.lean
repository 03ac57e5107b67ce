import Verif.Records
import Verif.Bsm
import Verif.Cookies
import Verif.Firefox
import Verif.Fsevents
import Verif.Gzip
import Verif.JumpList
import Verif.Keychain
import Verif.Systemd
import Verif.Tzif
import Verif.Wemf
import Verif.Usn
import Verif.Ipp
import Verif.Asl.Model
import Verif.LevelDB.Records
import Verif.LevelDB.Log
import Verif.Cpio.Model

/-!
# The errors that reading a damaged file can raise (C151)

The documentation of every `ReadFileObject` says that it raises `ParseError` if the file cannot be read.  For all bytes it
is shown here which errors can be raised, and where that is more than the one that is documented, that these are.
-/

namespace Dtf.Errors
open Py DataFormat

/-! ## What the parts do -/

theorem readData_error (f : File) (off size : Int) (ho : 0 ≤ off) (e : Err)
    (h : (readData (some f) off size).1 = .error e) : e = .parseError := by
  simp only [readData, File.seekSet, if_neg (show ¬ off < 0 by omega)] at h
  split at h
  · cases h; rfl
  · cases h

theorem loop_error {σ : Type} (m : DataTypeMap σ) (off : Nat) (fuel : Nat) (f : File) (data : Bytes) (last size : Int)
    (hl : 0 ≤ last) (e : Err) (f' : File) (h : readStructureLoop m off fuel f data last size = some (.error e, f')) :
    e = .parseError := by
  induction fuel generalizing f data last size with
  | zero => cases h
  | succ fuel ih =>
    rw [readStructureLoop] at h
    split at h
    · cases h; rfl
    · rename_i hne
      split at h
      · rename_i e' f'' hr
        cases h
        exact readData_error f (off + last) (size - last) (by omega) _ (by rw [hr])
      · rename_i seg f'' hr
        have hs : 0 ≤ size - last := by
          simp only [readData, File.seekSet, if_neg (show ¬ (off : Int) + last < 0 by omega)] at hr
          split at hr
          · cases hr
          · rename_i hx
            have := not_not.mp hx
            omega
        dsimp only at h
        split at h
        · cases h
        · cases h; rfl
        · exact ih _ _ _ _ (by omega) h

/-- Reading a structure fails with a parse error, whatever the structure is. -/
theorem structAt_error {σ : Type} {m : DataTypeMap σ} {data : Bytes} {off : Int} {e : Err}
    (h : structAt m data off = .error e) (ho : 0 ≤ off) : e = .parseError := by
  obtain ⟨off, rfl⟩ := Int.eq_ofNat_of_zero_le ho
  unfold structAt at h
  split at h
  · rename_i r f hr
    subst h
    exact loop_error m off _ _ _ _ _ (by omega) e f hr
  · rename_i hr
    exact absurd hr (C07_terminates m ⟨data, 0⟩ off)

theorem structAt_size {σ : Type} {m : DataTypeMap σ} {data : Bytes} {off : Nat} {x : σ} {n : Int}
    (h : structAt m data off = .ok (x, n)) : 0 ≤ n := by
  unfold structAt at h
  split at h
  · rename_i r f hr
    subst h
    obtain ⟨run, _, h2, _⟩ := C07_structure_is_contiguous m off _ _ x n f hr
    omega
  · cases h

theorem dataAt_error {data : Bytes} {off size : Nat} {e : Err} (h : dataAt data off size = .error e) : e = .parseError :=
  readData_error _ _ _ (by omega) e h

theorem walk_error {σ : Type} {step : Nat → Res (σ × Nat)} {stop fuel off : Nat} {acc : List σ} {e : Err} {P : Err → Prop}
    (h : walk step stop fuel off acc = some (.error e)) (hs : ∀ off e, step off = .error e → P e) : P e := by
  induction fuel generalizing off acc with
  | zero => cases h
  | succ fuel ih =>
    rw [walk] at h
    split at h
    · split at h
      · rename_i e' he
        cases h
        exact hs _ _ he
      · exact ih h
    · cases h

theorem readUntil_error' {σ : Type} {m : DataTypeMap σ} {data : Bytes} {stop fuel off : Nat} {acc : List σ} {e : Err}
    (h : readUntil m data stop fuel off acc = some (.error e)) : e = .parseError :=
  readUntil_error m (fun _ off _ hx => structAt_error hx (by omega)) data stop fuel off acc e h

/-- The cases of a reading: what is raised in one is a parse error, or raised by a part. -/
macro "errors" h:ident : tactic =>
  `(tactic| ((try dsimp only at $h:ident) <;> (repeat' split at $h:ident) <;>
    (try injections) <;> (try subst_vars) <;>
    (try first
    | rfl
    | contradiction
    | (solve_by_elim [structAt_error, dataAt_error, readUntil_error', Int.natCast_nonneg, Int.le_refl])
    | (simp; done)
    | (solve_by_elim [structAt_error, dataAt_error, Int.natCast_nonneg, Int.le_refl, Or.inl, Or.inr]))))

/-! ## utmp, Recycler, Recycle.Bin and restore point logs -/

theorem C151_utmp (data : Bytes) (fuel : Nat) (e : Err) (h : Utmp.readFile data fuel = some (.error e)) : e = .parseError :=
  readUntil_error' h

theorem C151_utmpx (data : Bytes) (fuel : Nat) (e : Err) (h : Utmp.readXFile data fuel = some (.error e)) :
    e = .parseError := by
  unfold Utmp.readXFile at h
  errors h

theorem C151_recycler (data : Bytes) (fuel : Nat) (e : Err) (h : Recycler.readFile data fuel = some (.error e)) :
    e = .parseError := by
  unfold Recycler.readFile at h
  split at h
  · errors h
  · refine walk_error (P := (· = .parseError)) h (fun off e h => ?_)
    unfold Recycler.entryStep at h
    errors h

theorem C151_recycle_bin (data : Bytes) (e : Err) (h : RecycleBin.readFile data = .error e) : e = .parseError := by
  unfold RecycleBin.readFile at h
  have name : ∀ {data v e}, RecycleBin.readName data v = .error e → e = .parseError := by
    intro data v e h
    unfold RecycleBin.readName at h
    errors h
  errors h

/-! ## Cookies, Firefox caches, Jump Lists, time zones, journals and metafiles -/

theorem cookies_records {page : Bytes} {l : List Nat} {e : Err} (h : Cookies.readRecords page l = .error e) :
    e = .parseError := by
  induction l generalizing e with
  | nil => cases h
  | cons o os ih =>
    unfold Cookies.readRecords at h
    have record : ∀ {page o e}, Cookies.readRecord page o = .error e → e = .parseError := by
      intro page o e h
      unfold Cookies.readRecord at h
      errors h
    errors h

theorem cookies_pages {data : Bytes} {pos : Nat} {l : List Nat} {e : Err} (h : Cookies.readPages data pos l = .error e) :
    e = .parseError := by
  induction l generalizing pos e with
  | nil => cases h
  | cons n ns ih =>
    unfold Cookies.readPages at h
    have h1 : ∀ page e, Cookies.readPage page = .error e → e = .parseError := by
      intro page e h
      unfold Cookies.readPage at h
      have := @cookies_records
      errors h
    errors h

theorem C151_cookies (data : Bytes) (e : Err) (h : Cookies.readFile data = .error e) : e = .parseError := by
  unfold Cookies.readFile at h
  have pages := @cookies_pages
  have sizes : ∀ {data n e}, Cookies.readSizes data n = .error e → e = .parseError := by
    intro data n e h
    unfold Cookies.readSizes at h
    errors h
  errors h

theorem C151_firefox_map (data : Bytes) (fuel : Nat) (e : Err) (h : Firefox.readMap data fuel = some (.error e)) :
    e = .parseError := by
  unfold Firefox.readMap at h
  errors h

/-- Only the name of a cache block file can be wrong. -/
theorem C151_firefox_blocks (name : List Char) (data : Bytes) (fuel : Nat) (e : Err)
    (h : Firefox.readBlocks name data fuel = some (.error e)) : e = .parseError ∧ Firefox.blockSize name = none := by
  unfold Firefox.readBlocks at h
  split at h
  · cases h
    exact ⟨rfl, ‹_›⟩
  · rename_i block hb
    split at h
    · cases h
    · rename_i e' hw
      cases h
      exact (walk_error (P := fun _ => False) hw (fun off e h => by
        unfold Firefox.readEntry at h
        split at h
        · cases h
        · rename_i hx hs
          exact hx (structAt_error hs (by omega)) 
        · cases h)).elim
    · cases h

theorem jump_entries {lnk : Bytes → Option Nat} {data : Bytes} {n off : Nat} {acc acc' : List JumpList.Entry} {e : Err}
    (h : JumpList.readEntries lnk data n off acc = (acc', .error e)) : e = .parseError := by
  have round : ∀ {off e}, JumpList.entryRound lnk data off = .error e → e = .parseError := by
    intro off e h
    unfold JumpList.entryRound at h
    errors h
  induction n generalizing off acc with
  | zero => cases h
  | succ n ih =>
    unfold JumpList.readEntries at h
    errors h

theorem jump_categories {lnk : Bytes → Option Nat} {data : Bytes} {n off : Nat} {acc acc' : List JumpList.Entry} {e : Err}
    (h : JumpList.readCategories lnk data n off acc = (acc', .error e)) : e = .parseError := by
  have header : ∀ {off e}, JumpList.readCategoryHeader data off = .error e → e = .parseError := by
    intro off e h
    unfold JumpList.readCategoryHeader at h
    errors h
  have entries := @jump_entries
  induction n generalizing off acc with
  | zero => cases h
  | succ n ih =>
    unfold JumpList.readCategories at h
    errors h

theorem C151_custom_destinations (lnk : Bytes → Option Nat) (before after : List JumpList.Entry) (data : Bytes) (e : Err)
    (h : JumpList.readCustom lnk before data = (after, .error e)) : e = .parseError := by
  unfold JumpList.readCustom at h
  have categories := @jump_categories
  errors h

theorem C151_dest_list (data : Bytes) (fuel : Nat) (e : Err) (h : JumpList.readDestList data fuel = some (.error e)) :
    e = .parseError := by
  unfold JumpList.readDestList at h
  errors h

theorem C151_tzif (data : Bytes) (e : Err) (h : Tzif.readFile data = .error e) : e = .parseError := by
  have seq : ∀ {α : Type} {b : Bytes} {values : List α} {e}, Tzif.sequence b values = .error e → e = .parseError := by
    intro α b values e h
    unfold Tzif.sequence at h
    errors h
  have body : ∀ {w data hd pos e}, Tzif.readBody w data hd pos = .error e → e = .parseError := by
    intro w data hd pos e h
    unfold Tzif.readBody at h
    errors h
  have info : ∀ {w data e}, Tzif.readInformation w data = .error e → e = .parseError := by
    intro w data e h
    unfold Tzif.readInformation at h
    errors h
  unfold Tzif.readFile at h
  errors h

theorem systemd_all {σ : Type} {f : Nat → Res σ} (hf : ∀ {off e}, f off = .error e → e = .parseError) {l : List Nat} {e : Err}
    (h : Systemd.readAll f l = .error e) : e = .parseError := by
  induction l generalizing e with
  | nil => cases h
  | cons off l ih =>
    unfold Systemd.readAll at h
    errors h

/-- A file can be made to be larger than any offset: that of an operating system with a limit on these raises another
error. -/
theorem C151_systemd (data : Bytes) (fuel : Nat) (e : Err) (h : Systemd.readFile data fuel = some (.error e)) :
    e = .parseError := by
  have at' : ∀ {σ : Type} {m : DataTypeMap σ} {off : Nat} {e}, Systemd.readAt m data off = .error e → e = .parseError := by
    intro σ m off e h
    unfold Systemd.readAt at h
    errors h
  have arrays : ∀ {fuel off acc e}, Systemd.readArrays data fuel off acc = some (.error e) → e = .parseError := by
    intro fuel off acc e h
    induction fuel generalizing off acc with
    | zero => cases h
    | succ fuel ih =>
      unfold Systemd.readArrays at h
      errors h
  have entry : ∀ {off e}, Systemd.readEntry data off = .error e → e = .parseError := by
    intro off e h
    unfold Systemd.readEntry at h
    have := @systemd_all
    errors h
  unfold Systemd.readFile at h
  have := @systemd_all
  errors h

theorem wemf_record {m : DataTypeMap (Nat × Nat)} {data : Bytes} {off : Nat} {e : Err}
    (h : Wemf.readRecord m data off = .error e) : e = .parseError := by
  unfold Wemf.readRecord at h
  errors h

theorem C151_emf (data : Bytes) (fuel : Nat) (e : Err) (h : Wemf.readEmf data fuel = some (.error e)) : e = .parseError := by
  unfold Wemf.readEmf at h
  split at h
  · errors h
  · exact walk_error (P := (· = .parseError)) h (fun _ _ => wemf_record)

theorem C151_wmf (data : Bytes) (fuel : Nat) (e : Err) (h : Wemf.readWmf data fuel = some (.error e)) : e = .parseError := by
  have placeable : ∀ {e}, Wemf.readPlaceable data = .error e → e = .parseError := by
    intro e h
    unfold Wemf.readPlaceable at h
    errors h
  unfold Wemf.readWmf at h
  split at h
  · errors h
  · split at h
    · errors h
    · exact walk_error (P := (· = .parseError)) h (fun _ _ => wemf_record)

theorem C151_fsevents (utf8 : Bytes → Bool) (data : Bytes) (fuel : Nat) (e : Err)
    (h : Fsevents.readFile utf8 data fuel = some (.error e)) : e = .parseError := by
  refine walk_error (P := (· = .parseError)) h (fun off e h => ?_)
  unfold Fsevents.readPage at h
  split at h
  · errors h
  · dsimp only at h
    split at h
    · rename_i hx
      exact absurd hx (Fsevents.records_end utf8 data _ _ _)
    · rename_i e' hx
      cases h
      refine walk_error (P := (· = .parseError)) hx (fun off e h => ?_)
      unfold Fsevents.readRecord at h
      errors h <;> cases h <;> rfl
    · cases h

/-! ## Audit trails -/

theorem bsm_token {text : Bytes → Bool} {data : Bytes} {off : Nat} {e : Err} (h : Bsm.readToken text data off = .error e) :
    e = .parseError := by
  unfold Bsm.readToken at h
  errors h

theorem bsm_record {text : Bytes → Bool} {data : Bytes} {fuel off : Nat} {e : Err}
    (h : Bsm.readRecord text data fuel off = some (.error e)) : e = .parseError ∨ e = .attributeError := by
  have token := @bsm_token
  have tokens : ∀ {stop fuel off last acc e}, Bsm.readTokens text data stop fuel off last acc = some (.error e) →
      e = .parseError := by
    intro stop fuel off last acc e h
    induction fuel generalizing off last acc with
    | zero => cases h
    | succ fuel ih =>
      unfold Bsm.readTokens at h
      errors h
  have check : ∀ {last size e}, Bsm.checkLast last size = .error e → e = .parseError ∨ e = .attributeError := by
    intro last size e h
    unfold Bsm.checkLast at h
    errors h
  have body : ∀ {fuel off header size next e}, Bsm.readBody text data fuel off header size next = some (.error e) →
      e = .parseError ∨ e = .attributeError := by
    intro fuel off header size next e h
    unfold Bsm.readBody at h
    errors h
  unfold Bsm.readRecord at h
  errors h

theorem C151_bsm_partial (text : Bytes → Bool) (data : Bytes) (fuel off : Nat) (acc : List (List Bsm.Token)) (e : Err)
    (h : Bsm.readFile text data fuel off acc = some (.error e)) : e = .parseError ∨ e = .attributeError := by
  have record := @bsm_record
  induction fuel generalizing off acc with
  | zero => cases h
  | succ fuel ih =>
    unfold Bsm.readFile at h
    errors h

/-! ## Restore point change logs -/

theorem changes_read {data : Bytes} {pos : Nat} {size : Int} {e : Err} (h : ChangeLog.fileRead data pos size = .error e) :
    e = .valueError := by
  unfold ChangeLog.fileRead at h
  errors h

theorem changes_entry {data : Bytes} {pos : Nat} {e : Err} (h : ChangeLog.readEntry data pos = .error e) :
    e = .parseError ∨ e = .valueError := by
  have read := @changes_read
  have record : ∀ {b stop off e}, ChangeLog.recordStep b stop off = .error e → e = .parseError := by
    intro b stop off e h
    unfold ChangeLog.recordStep at h
    have : ∀ {b e}, ChangeLog.readRecord b = .error e → e = .parseError := by
      intro b e h
      unfold ChangeLog.readRecord at h
      errors h
    errors h
  unfold ChangeLog.readEntry at h
  split at h
  · errors h
  · split at h
    · errors h
    · split at h
      · errors h
      · dsimp only at h
        split at h
        · rename_i hx
          exact absurd hx (ChangeLog.records_end _ _ _)
        · rename_i hx
          cases h
          exact .inl (walk_error (P := (· = .parseError)) hx (fun _ _ => record))
        · errors h

theorem C151_change_log_partial (data : Bytes) (fuel : Nat) (e : Err) (h : ChangeLog.readLog data fuel = some (.error e)) :
    e = .parseError ∨ e = .valueError := by
  have read := @changes_read
  have header : ∀ {e}, ChangeLog.readHeader data = .error e → e = .parseError ∨ e = .valueError := by
    intro e h
    unfold ChangeLog.readHeader at h
    errors h
  unfold ChangeLog.readLog at h
  split at h
  · errors h
  · exact walk_error (P := fun e => e = .parseError ∨ e = .valueError) h (fun _ _ => changes_entry)

/-! ## CUPS IPP files -/

/-- The errors are those of the library, too. -/
theorem C151_ipp_partial (lib : Ipp.Library) (data : Bytes) (fuel : Nat) (e : Err)
    (h : Ipp.readFile lib data fuel = some (.error e)) :
    e = .parseError ∨ e = .unicodeError ∨ (∃ charset b, lib.decode charset b = .error e) ∨
      ∃ fields, lib.dateTime fields = .error e := by
  have ascii : ∀ {b e}, Ipp.ascii b = .error e → e = .unicodeError := by
    intro b e h
    unfold Ipp.ascii at h
    errors h
  have value : ∀ {charset tag b e}, Ipp.readValue lib charset tag b = .error e →
      e = .parseError ∨ e = .unicodeError ∨ (∃ charset b, lib.decode charset b = .error e) ∨
        ∃ fields, lib.dateTime fields = .error e := by
    intro charset tag b e h
    unfold Ipp.readValue at h
    errors h
    · exact .inr (.inr (.inr ⟨_, ‹_›⟩))
    · exact .inr (.inr (.inl ⟨_, _, ‹_›⟩))
  have attr : ∀ {charset off e}, Ipp.readAttribute lib data charset off = .error e →
      e = .parseError ∨ e = .unicodeError ∨ (∃ charset b, lib.decode charset b = .error e) ∨
        ∃ fields, lib.dateTime fields = .error e := by
    intro charset off e h
    unfold Ipp.readAttribute at h
    have : ∀ {off e}, Ipp.attributeAt lib data off = .error e → e = .parseError := by
      intro off e h
      unfold Ipp.attributeAt at h
      errors h
    errors h
  have groups : ∀ {fuel off charset acc e}, Ipp.readGroups lib data fuel off charset acc = some (.error e) →
      e = .parseError ∨ e = .unicodeError ∨ (∃ charset b, lib.decode charset b = .error e) ∨
        ∃ fields, lib.dateTime fields = .error e := by
    intro fuel off charset acc e h
    induction fuel generalizing off charset acc with
    | zero => cases h
    | succ fuel ih =>
      unfold Ipp.readGroups at h
      errors h
  unfold Ipp.readFile at h
  errors h

/-! ## gzip files -/

/-- The errors are those of zlib, too. -/
theorem C151_gzip_partial (zl : Gzip.Zlib) (size : Nat) (data : Bytes) (fuel pos : Nat) (acc : List Gzip.Member) (e : Err)
    (h : Gzip.readFile zl size data fuel pos acc = some (.error e)) : e = .parseError ∨ ∃ z b, zl.step z b = .error e := by
  have infl : ∀ {fuel z b out e}, Gzip.inflate zl fuel z b out = some (.error e) → ∃ z b, zl.step z b = .error e := by
    intro fuel z b out e h
    induction fuel generalizing z b out with
    | zero => cases h
    | succ fuel ih =>
      unfold Gzip.inflate at h
      errors h
  have read : ∀ {fuel pos z out e}, Gzip.readData zl size data fuel pos z out = some (.error e) →
      ∃ z b, zl.step z b = .error e := by
    intro fuel pos z out e h
    induction fuel generalizing pos z out with
    | zero => cases h
    | succ fuel ih =>
      unfold Gzip.readData at h
      errors h
  have header : ∀ {pos e}, Gzip.readHeader data pos = .error e → e = .parseError := by
    intro pos e h
    have extra : ∀ {flags pos e}, Gzip.skipExtra data flags pos = .error e → e = .parseError := by
      intro flags pos e h
      unfold Gzip.skipExtra at h
      errors h
    have string : ∀ {pos e}, Gzip.readString data pos = .error e → e = .parseError := by
      intro pos e h
      unfold Gzip.readString at h
      errors h
    have optional : ∀ {set pos e}, Gzip.readOptional data set pos = .error e → e = .parseError := by
      intro set pos e h
      unfold Gzip.readOptional at h
      errors h
    unfold Gzip.readHeader at h
    errors h
  have member : ∀ {fuel pos e}, Gzip.readMember zl size data fuel pos = some (.error e) →
      e = .parseError ∨ ∃ z b, zl.step z b = .error e := by
    intro fuel pos e h
    unfold Gzip.readMember at h
    errors h
  induction fuel generalizing pos acc with
  | zero => cases h
  | succ fuel ih =>
    unfold Gzip.readFile at h
    errors h

/-! ## USN journals, system logs and archives -/

theorem usn_find {data : Bytes} {pos : Nat} {e : Err} (hl : 60 < data.length)
    (h : Usn.findRecord data pos = .failed e) : e = .parseError := by
  unfold Usn.findRecord at h
  dsimp only at h
  split at h
  · cases h
  · split at h
    · rename_i hx
      unfold slice at hx
      simp only [List.length_drop, List.length_take] at hx
      omega
    · errors h

theorem C151_usn (data : Bytes) (fuel : Nat) (records : List Usn.Record) (e : Err)
    (h : Usn.records data fuel = some (records, .error e)) : e = .parseError := by
  have all : ∀ {fuel pos offset} {block : Option Int} {acc records e}, (∀ n : Int, block = some n → n ≤ data.length) →
      Usn.readRecords data fuel pos offset block acc = some (records, .error e) → e = .parseError := by
    intro fuel pos offset block acc records e hb h
    induction fuel generalizing pos offset block acc with
    | zero => cases h
    | succ fuel ih =>
      cases block with
      | none =>
        rw [Usn.readRecords] at h
        split at h
        · refine ih ?_ h
          intro n hn
          cases hn
          omega
        · cases h
      | some block =>
        have hb := hb block rfl
        rw [Usn.readRecords] at h
        split at h
        · rename_i hlt
          split at h
          · exact ih (fun _ hn => by cases hn) h
          · rename_i hx
            cases h
            exact usn_find (by omega) hx
          · rename_i n hx
            refine ih ?_ h
            intro m hm
            cases hm
            omega
        · exact ih (fun _ hn => by cases hn) h
  exact all (fun _ hn => by cases hn) h

theorem asl_string {utf8 : Bytes → Bool} {data : Bytes} {pos off : Nat} {e : Err}
    (h : Asl.readString utf8 data pos off = .error e) : e = .parseError := by
  unfold Asl.readString at h
  errors h

theorem asl_record {utf8 : Bytes → Bool} {data : Bytes} {pos off : Nat} {e : Err}
    (h : Asl.readRecord utf8 data pos off = .error e) : e = .parseError := by
  have string := @asl_string
  have extra : ∀ {n additional pos acc e}, Asl.extraLoop utf8 data n additional pos acc = .error e → e = .parseError := by
    intro n additional pos acc e h
    induction n generalizing additional pos acc with
    | zero => cases h
    | succ n ih =>
      unfold Asl.extraLoop at h
      errors h
  have before : ∀ {f : File} {pos : Nat} {size e}, (readData (some f) pos size).1 = .error e → e = .parseError :=
    fun h => readData_error _ _ _ (by omega) _ h
  have after : ∀ {f : File} {σ : Type} {m : DataTypeMap σ} {data : Bytes} {off : Nat} {x : σ} {n size : Int} {e : Err},
      (readData (some f) (off + n) size).1 = .error e → structAt m data off = .ok (x, n) → e = .parseError :=
    fun h hs => readData_error _ _ _ (by have := structAt_size hs; omega) _ h
  unfold Asl.readRecord at h
  errors h

/-- This is for a file in memory, which can be read with any negative size. -/
theorem C151_asl_partial (utf8 : Bytes → Bool) (data : Bytes) (fuel : Nat) (e : Err)
    (h : Asl.readFile utf8 fuel data = some (.error e)) : e = .parseError := by
  have record := @asl_record
  have records : ∀ {fuel off pos acc e}, Asl.recordsLoop utf8 data fuel off pos acc = some (.error e) →
      e = .parseError := by
    intro fuel off pos acc e h
    induction fuel generalizing off pos acc with
    | zero => cases h
    | succ fuel ih =>
      unfold Asl.recordsLoop at h
      errors h
  unfold Asl.readFile at h
  errors h

theorem cpio_entry {fmt : Cpio.Format} {data : Bytes} {off : Int} {e : Err} (h : Cpio.readFileEntry fmt data off = .error e) :
    e = .parseError ∨ e = .unicodeError ∨ e = .osError ∧ off < 0 := by
  by_cases ho : off < 0
  · unfold Cpio.readFileEntry at h
    rw [structAt_negative _ _ _ ho (by cases fmt <;> decide)] at h
    cases h
    exact .inr (.inr ⟨rfl, ho⟩)
  · have ho : 0 ≤ off := by omega
    unfold Cpio.readFileEntry at h
    errors h

theorem C151_cpio_partial (data : Bytes) (fuel : Nat) (es : Cpio.Entries) (e : Err)
    (h : Cpio.readArchive data fuel = some ⟨es, .error e⟩) : e = .parseError ∨ e = .unicodeError ∨ e = .osError := by
  have loop : ∀ {fmt fuel off es es' e}, Cpio.entriesLoop fmt data fuel off es = some ⟨es', .error e⟩ →
      e = .parseError ∨ e = .unicodeError ∨ e = .osError := by
    intro fmt fuel off es es' e h
    induction fuel generalizing off es with
    | zero => cases h
    | succ fuel ih =>
      unfold Cpio.entriesLoop at h
      split at h
      · split at h
        · rename_i hx
          cases h
          rcases cpio_entry hx with h | h | h
          · exact .inl h
          · exact .inr (.inl h)
          · exact .inr (.inr h.1)
        · errors h
      · cases h
  unfold Cpio.readArchive at h
  errors h

/-! ## Keychains -/

/-- The errors that reading a keychain can raise. -/
def Keychains (e : Err) : Prop := e = .parseError ∨ e = .valueError ∨ e = .unicodeError ∨ e = .typeError

theorem kc_parse {e : Err} (h : e = .parseError) : Keychains e := .inl h

theorem kc_value {b : Bytes} {start off : Nat} {format : Option Nat} {e : Err}
    (h : Keychain.readValue format b start off = .error e) : e = .parseError := by
  have sized : ∀ {b e}, Keychain.sized b = .error e → e = .parseError := by
    intro b e h
    unfold Keychain.sized at h
    errors h
  have of : ∀ {α : Type} {f : α → Keychain.Value} {r e}, Keychain.ofOption f r = .error e → r = .error e := by
    intro α f r e h
    unfold Keychain.ofOption at h
    errors h
  have text : ∀ {b start off e}, Keychain.readText b start off = .error e → e = .parseError := by
    intro b start off e h
    unfold Keychain.readText at h
    errors h
  have int : ∀ {b start off e}, Keychain.readInt b start off = .error e → e = .parseError := by
    intro b start off e h
    unfold Keychain.readInt at h
    errors h
  have date : ∀ {b start off e}, Keychain.readDate b start off = .error e → e = .parseError := by
    intro b start off e h
    unfold Keychain.readDate at h
    errors h
  have blob : ∀ {b start off e}, Keychain.readBlob b start off = .error e → e = .parseError := by
    intro b start off e h
    unfold Keychain.readBlob at h
    errors h
  unfold Keychain.readValue at h
  errors h

theorem kc_offsets {data : Bytes} {off n : Nat} {e : Err} (h : Keychain.readOffsets data off n = .error e) :
    e = .parseError := by
  unfold Keychain.readOffsets at h
  errors h

theorem kc_parts {data : Bytes} {off n : Nat} {e : Err} (h : Keychain.readParts data off n = .error e) : Keychains e := by
  have offsets := @kc_offsets
  have kp := @kc_parse
  have rest : ∀ {data pos size e}, Keychain.readRest data pos size = .error e → Keychains e := by
    intro data pos size e h
    unfold Keychain.readRest at h
    split at h
    · cases h
      exact .inr (.inl rfl)
    · cases h
  unfold Keychain.readParts at h
  errors h

theorem kc_values {b : Bytes} {start : Nat} {l : List (Keychain.Column × Nat)} {acc : List (Option Bytes × Keychain.Value)}
    {e : Err} (h : Keychain.readValues b start l acc = .error e) : e = .parseError := by
  have value := @kc_value
  induction l generalizing acc with
  | nil => cases h
  | cons x l ih =>
    obtain ⟨c, o⟩ := x
    unfold Keychain.readValues at h
    errors h

theorem kc_record {data : Bytes} {type off : Nat} {tables : List Keychain.Table} {e : Err}
    (h : Keychain.readRecord data type off tables = .error e) : Keychains e := by
  have offsets := @kc_offsets
  have parts := @kc_parts
  have values := @kc_values
  have kp := @kc_parse
  have ku : Keychains .unicodeError := .inr (.inr (.inl rfl))
  have kt : Keychains .typeError := .inr (.inr (.inr rfl))
  have row : ∀ {data type off tables e}, Keychain.readRow data type off tables = .error e → Keychains e := by
    intro data type off tables e h
    unfold Keychain.readRow at h
    errors h
  have add : ∀ {id name tables e}, Keychain.addInfo id name tables = .error e → e = .parseError := by
    intro id name tables e h
    unfold Keychain.addInfo at h
    errors h
  have info : ∀ {data off tables e}, Keychain.readInfo data off tables = .error e → Keychains e := by
    intro data off tables e h
    unfold Keychain.readInfo at h
    errors h
  have index : ∀ {data off tables e}, Keychain.readIndex data off tables = .error e → Keychains e := by
    intro data off tables e h
    unfold Keychain.readIndex at h
    errors h
  have attr : ∀ {data off tables e}, Keychain.readAttribute data off tables = .error e → Keychains e := by
    intro data off tables e h
    have name : ∀ {b name off e}, Keychain.fallbackName b name off = .error e → Keychains e := by
      intro b name off e h
      unfold Keychain.fallbackName at h
      errors h
    have addAttr : ∀ {rel ident nameFormat} {name : Res (Option Bytes)} {format tables e},
        Keychain.addAttribute rel ident nameFormat name format tables = .error e →
        (∀ e, name = .error e → Keychains e) → Keychains e := by
      intro rel ident nameFormat name format tables e h hn
      unfold Keychain.addAttribute at h
      errors h
    unfold Keychain.readAttribute at h
    split at h
    · errors h
    · split at h
      · exact addAttr h (fun _ => name)
      · errors h
  unfold Keychain.readRecord at h
  errors h

theorem C151_keychain_partial (data : Bytes) (e : Err) (h : Keychain.readFile data = .error e) :
    e = .parseError ∨ e = .valueError ∨ e = .unicodeError ∨ e = .typeError := by
  change Keychains e
  have kp := @kc_parse
  have record := @kc_record
  have records : ∀ {type base os tables e}, Keychain.readRecords data type base os tables = .error e → Keychains e := by
    intro type base os tables e h
    induction os generalizing tables with
    | nil => cases h
    | cons o os ih =>
      unfold Keychain.readRecords at h
      errors h
  have table : ∀ {off tables e}, Keychain.readTable data off tables = .error e → Keychains e := by
    intro off tables e h
    unfold Keychain.readTable at h
    errors h
  have tables : ∀ {base os tables e}, Keychain.readTables data base os tables = .error e → Keychains e := by
    intro base os tables e h
    induction os generalizing tables with
    | nil => cases h
    | cons o os ih =>
      unfold Keychain.readTables at h
      errors h
  unfold Keychain.readFile at h
  errors h

/-! ## LevelDB logs and descriptors -/

theorem ldb_log {β : Type} {parse : Bytes → Res β} {P : Err → Prop} (hp : ∀ b e, parse b = .error e → P e)
    (h0 : P .parseError) {data : Bytes} {fuel : Nat} {off size : Int} {acc : Bytes} {run : LevelDB.LogRun β} {e : Err}
    (hi : LevelDB.LogInv off size) (h : LevelDB.logLoop parse data fuel off size acc = some run) (he : run.error = some e) :
    P e := by
  induction fuel generalizing off size acc run with
  | zero => cases h
  | succ fuel ih =>
    rw [LevelDB.logLoop] at h
    split at h
    · split at h
      · rename_i hs
        cases h
        cases he
        rw [structAt_error hs hi.1]
        exact h0
      · rename_i blk n hs
        have hn := LevelDB.logBlock_size data off hi.1 blk n hs
        obtain ⟨i1, i2⟩ := LevelDB.logInv_next off size n hi hn
        dsimp only at h
        split at h
        · rename_i hq
          cases h
          cases he
          split at hq
          · split at hq
            · cases hq
            · rename_i hx
              cases hq
              exact hp _ _ hx
          · cases hq
        · split at h
          · cases h
          · rename_i run' hr
            cases h
            exact ih i1 hr he
    · cases h
      cases he

theorem ldb_varint {b : Bytes} {e : Err} (h : LevelDB.readVarint b = .error e) : e = .indexError := by
  cases b with
  | nil => cases h; rfl
  | cons => cases h

theorem ldb_slice {b : Bytes} {e : Err} (h : LevelDB.readSlice b = .error e) : e = .indexError := by
  have := @ldb_varint
  unfold LevelDB.readSlice at h
  errors h

theorem ldb_batch {b : Bytes} {e : Err} (h : LevelDB.readBatch b = .error e) :
    e = .parseError ∨ e = .valueError ∨ e = .indexError := by
  have slice := @ldb_slice
  have puts : ∀ {fuel b e}, LevelDB.readPuts fuel b = some (.error e) → e = .parseError ∨ e = .indexError := by
    intro fuel b e h
    induction fuel generalizing b e with
    | zero => cases h
    | succ fuel ih =>
      cases b with
      | nil => cases h
      | cons t b =>
        have map : ∀ {x : LevelDB.Put} {r : Option (Res (List LevelDB.Put))} {e : Err},
            r.map (fun r => r.map (x :: ·)) = some (.error e) → r = some (.error e) := by
          intro x r e h
          match r, h with
          | some (.error _), h => cases h; rfl
        rw [LevelDB.readPuts] at h
        split at h
        · errors h
        · split at h
          · errors h
          · split at h
            · split at h
              · errors h
              · exact ih (map h)
            · exact ih (map h)
  have header : ∀ {b e}, readStructureFromByteStream (some LevelDB.valueHeaderMap) b = .error e →
      e = .parseError ∨ e = .valueError := by
    intro b e h
    unfold readStructureFromByteStream at h
    errors h
  unfold LevelDB.readBatch at h
  split at h
  · rename_i hx
    cases h
    rcases header hx with h | h <;> simp [h]
  · split at h
    · rename_i hx
      exact absurd hx (LevelDB.C55_terminates b)
    · rename_i hx
      cases h
      rcases puts hx with h | h <;> simp [h]
    · cases h

theorem ldb_edit {utf8 : Bytes → Bool} {b : Bytes} {e : Err} (h : LevelDB.readVersionEdit utf8 b = .error e) :
    e = .parseError ∨ e = .indexError ∨ e = .unicodeError := by
  have varint := @ldb_varint
  have slice := @ldb_slice
  have body : ∀ {tag b e}, LevelDB.readEditBody utf8 tag b = .error e →
      e = .parseError ∨ e = .indexError ∨ e = .unicodeError := by
    intro tag b e h
    unfold LevelDB.readEditBody at h
    errors h
  have edits : ∀ {fuel b e}, LevelDB.readEdits utf8 fuel b = some (.error e) →
      e = .parseError ∨ e = .indexError ∨ e = .unicodeError := by
    intro fuel b e h
    induction fuel generalizing b e with
    | zero => cases h
    | succ fuel ih =>
      cases b with
      | nil => cases h
      | cons t b =>
        have map : ∀ {x : LevelDB.Edit} {r : Option (Res (List LevelDB.Edit))} {e : Err},
            r.map (fun r => r.map (x :: ·)) = some (.error e) → r = some (.error e) := by
          intro x r e h
          match r, h with
          | some (.error _), h => cases h; rfl
        rw [LevelDB.readEdits_cons utf8 fuel _ (by simp)] at h
        split at h
        · errors h
        · split at h
          · errors h
          · exact ih (map h)
  unfold LevelDB.readVersionEdit at h
  split at h
  · rename_i hx
    exact absurd hx (LevelDB.C56_terminates utf8 b)
  · rename_i hx
    subst h
    exact edits hx

theorem C151_leveldb_log_partial (data : Bytes) (run : LevelDB.LogRun LevelDB.Batch) (e : Err)
    (h : LevelDB.readLog LevelDB.readBatch data = some run) (he : run.error = some e) :
    e = .parseError ∨ e = .valueError ∨ e = .indexError :=
  ldb_log (P := fun e => e = .parseError ∨ e = .valueError ∨ e = .indexError) (fun _ _ => ldb_batch) (.inl rfl)
    (by unfold LevelDB.LogInv; omega) h he

theorem C151_leveldb_descriptor_partial (utf8 : Bytes → Bool) (data : Bytes) (run : LevelDB.LogRun (List LevelDB.Edit))
    (e : Err) (h : LevelDB.readLog (LevelDB.readVersionEdit utf8) data = some run) (he : run.error = some e) :
    e = .parseError ∨ e = .indexError ∨ e = .unicodeError :=
  ldb_log (P := fun e => e = .parseError ∨ e = .indexError ∨ e = .unicodeError) (fun _ _ => ldb_edit) (.inl rfl)
    (by unfold LevelDB.LogInv; omega) h he

/-! ## The errors that are not documented -/

/-- A file that cannot be read is a parse error, for each of the formats for which more was shown to be possible. -/
def C151_bsm_claim : Prop := ∀ text data fuel e, Bsm.readFile text data fuel 0 [] = some (.error e) → e = .parseError
def C151_change_log_claim : Prop := ∀ data fuel e, ChangeLog.readLog data fuel = some (.error e) → e = .parseError
def C151_cpio_claim : Prop := ∀ data fuel es e, Cpio.readArchive data fuel = some ⟨es, .error e⟩ → e = .parseError
def C151_gzip_claim : Prop := ∀ zl size data fuel e, Gzip.readFile zl size data fuel 0 [] = some (.error e) → e = .parseError
def C151_ipp_claim : Prop := ∀ lib data fuel e, Ipp.readFile lib data fuel = some (.error e) → e = .parseError
def C151_keychain_claim : Prop := ∀ data e, Keychain.readFile data = .error e → e = .parseError
def C151_leveldb_claim : Prop := ∀ data run e, LevelDB.readLog LevelDB.readBatch data = some run → run.error = some e →
  e = .parseError

/-- A record of a header and a token for a return value without a trailer. -/
theorem C151_bsm_claim_false : ¬ C151_bsm_claim := by
  intro h
  exact absurd (h (fun _ => true) ([0x14, 0, 0, 0, 23, 11] ++ List.replicate 12 0 ++ [0x2f, 0, 0, 0, 0]) 2 .attributeError
    (by decide +kernel)) (by decide)

/-- A size of the header of 0 bytes. -/
theorem C151_change_log_claim_false : ¬ C151_change_log_claim := by
  intro h
  exact absurd (h [0, 0, 0, 0, 0, 0, 0, 0, 0x12, 0xEF, 0xCD, 0xAB, 2, 0, 0, 0] 1 .valueError (by decide +kernel)) (by decide)

/-- A size of -128 bytes, so that the next entry is before the start of the file. -/
def backwards : Bytes :=
  [48, 55, 48, 55, 48, 55] ++ List.replicate 59 48 ++ [45, 48, 48, 48, 48, 48, 48, 48, 50, 48, 48]

/-- A path of one byte that is not ASCII. -/
def strange : Bytes :=
  [48, 55, 48, 55, 48, 55] ++ List.replicate 58 48 ++ [49] ++ List.replicate 11 48 ++ [0x80]

theorem C151_cpio_claim_false : ¬ C151_cpio_claim := by
  intro h
  have hx : (Cpio.readArchive backwards 2).map (·.result) = some (.error .osError) := by decide +kernel
  cases hr : Cpio.readArchive backwards 2 with
  | none => rw [hr] at hx; cases hx
  | some o =>
    obtain ⟨es, r⟩ := o
    rw [hr] at hx
    cases hx
    exact absurd (h _ _ _ _ hr) (by decide)

/-- The other error is raised for such a path. -/
theorem C151_cpio_path : Cpio.readArchive strange 1 = some ⟨[], .error .unicodeError⟩ := by decide +kernel

/-- An error of the library is not changed. -/
theorem C151_gzip_claim_false : ¬ C151_gzip_claim := by
  intro h
  exact absurd (h ⟨Unit, (), fun _ _ => .error .libraryError, fun _ => []⟩ 16 [0x1f, 0x8b, 8, 0, 0, 0, 0, 0, 0, 0, 7] 2
    .libraryError (by decide +kernel)) (by decide)

/-- A keyword that is not ASCII. -/
theorem C151_ipp_claim_false : ¬ C151_ipp_claim := by
  intro h
  exact absurd (h ⟨fun _ => true, fun _ _ => .ok [], fun _ => .ok ()⟩ (List.replicate 8 0 ++ [0x44, 0, 0, 0, 1, 0x80]) 2
    .unicodeError (by decide +kernel)) (by decide)

/-- A keychain with a table of a type that has a record. -/
def keychainWith (type : Nat) (record : Bytes) : Bytes :=
  [[107, 121, 99, 104], List.replicate 8 0, beBytes 4 20, List.replicate 4 0,
    beBytes 4 0, beBytes 4 1, beBytes 4 12,
    beBytes 4 0, beBytes 4 type, List.replicate 16 0, beBytes 4 1, beBytes 4 32, record].flatten

/-- A record of a size of 0 bytes. -/
theorem C151_keychain_size : Keychain.readFile (keychainWith 2 (List.replicate 48 0)) = .error .valueError := by
  decide +kernel

/-- The name of a table that is not ASCII. -/
theorem C151_keychain_name : Keychain.readFile (keychainWith 0 (List.replicate 24 0 ++
    [beBytes 4 0x21, beBytes 4 0x25, beBytes 4 5, beBytes 4 1, [0x80]].flatten)) = .error .unicodeError := by
  decide +kernel

/-- An attribute without a relation. -/
theorem C151_keychain_relation : Keychain.readFile (keychainWith 2 (beBytes 4 48 ++ List.replicate 44 0)) =
    .error .typeError := by
  decide +kernel

theorem C151_keychain_claim_false : ¬ C151_keychain_claim :=
  fun h => absurd (h _ _ C151_keychain_size) (by decide)

/-- A write batch without any data, and one that ends where a key should be. -/
theorem C151_leveldb_claim_false : ¬ C151_leveldb_claim ∧
    (LevelDB.readLog LevelDB.readBatch ([0, 0, 0, 0, 13, 0, 1] ++ List.replicate 12 0 ++ [1])).map (·.error) =
      some (some .indexError) := by
  refine ⟨fun h => ?_, by decide +kernel⟩
  have hx : (LevelDB.readLog LevelDB.readBatch [0, 0, 0, 0, 0, 0, 1]).map (·.error) = some (some .valueError) := by
    decide +kernel
  cases hr : LevelDB.readLog LevelDB.readBatch [0, 0, 0, 0, 0, 0, 1] with
  | none => rw [hr] at hx; cases hx
  | some run =>
    rw [hr] at hx
    exact absurd (h _ _ _ hr (Option.some.inj hx)) (by decide)

/-- The first read of the records of a system log in a file on disk, which cannot be read with a size below -1
(asl.py 73-81): from the end of the header up to the record. -/
def aslFirst (data : Bytes) : Res Bytes :=
  match structAt (fixedMap 80 id) data 0 with
  | .error e => .error e
  | .ok (b, _) => ChangeLog.fileRead data 80 ((beNat (slice b 16 24) : Int) - 80)

def C151_asl_claim : Prop := ∀ data e, aslFirst data = .error e → e = .parseError

/-- The first record is at offset 16, which is in the header. -/
theorem C151_asl_claim_false : ¬ C151_asl_claim := by
  intro h
  exact absurd (h ([65, 83, 76, 32, 68, 66] ++ List.replicate 17 0 ++ [16] ++ List.replicate 56 0) .valueError
    (by decide +kernel)) (by decide)

/-! ## Cases -/

example : Utmp.readFile [1, 2, 3] 1 = some (.error .parseError) := by decide +kernel
example : Utmp.readXFile [1, 2, 3] 1 = some (.error .parseError) := by decide +kernel
example : Recycler.readFile [1, 2, 3] 1 = some (.error .parseError) := by decide +kernel
example : RecycleBin.readFile [1, 2, 3] = .error .parseError := by decide +kernel
example : Cookies.readFile [1, 2, 3] = .error .parseError := by decide +kernel
example : Firefox.readMap [1, 2, 3] 1 = some (.error .parseError) := by decide +kernel
example : JumpList.readCustom (fun _ => none) [] [1, 2, 3] = ([], .error .parseError) := by decide +kernel
example : JumpList.readDestList [1, 2, 3] 1 = some (.error .parseError) := by decide +kernel
example : Tzif.readFile [1, 2, 3] = .error .parseError := by decide +kernel
example : Systemd.readFile [1, 2, 3] 1 = some (.error .parseError) := by decide +kernel
example : Wemf.readEmf [1, 2, 3] 1 = some (.error .parseError) := by decide +kernel
example : Wemf.readWmf [1, 2, 3] 1 = some (.error .parseError) := by decide +kernel
example : Fsevents.readFile (fun _ => true) [1, 2, 3] 1 = some (.error .parseError) := by decide +kernel
example : Usn.records (List.replicate 70 1) 9 = some ([], .error .parseError) := by decide +kernel
example : Asl.readFile (fun _ => true) 1 [1, 2, 3] = some (.error .parseError) := by decide +kernel

end Dtf.Errors
