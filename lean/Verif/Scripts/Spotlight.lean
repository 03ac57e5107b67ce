import Mathlib.Data.List.Dedup
import Verif.Spotlight.Store
import Verif.Formats.Props

/-!
# The output of the script for Spotlight stores (C166)

scripts/spotlight_storedb.py.
-/

namespace Dtf.Spotlight
open Py DataFormat

/-! ## Model -/

/-- `TableView` (scripts/spotlight_storedb.py 88-101), with the values already made into text (131). -/
structure TableView where
  header : List Char
  count : Nat
  rows : List (List Str)
deriving DecidableEq

/-- `TableView.AddRow` (103-117). -/
def TableView.addRow (t : TableView) (values : List Str) : Res TableView :=
  if t.count = 0 then .ok ⟨t.header, values.length, t.rows ++ [values]⟩
  else if t.count ≠ values.length then .error .valueError
  else .ok ⟨t.header, t.count, t.rows ++ [values]⟩

/-- Successive calls of `AddRow`. -/
def TableView.addRows (t : TableView) : List (List Str) → Res TableView
  | [] => .ok t
  | r :: rs =>
    match t.addRow r with
    | .error e => .error e
    | .ok t => t.addRows rs

/-- The width of a value (135-139). -/
def roundUp (n : Nat) : Nat := (if n % 8 > 0 then n / 8 + 1 else n / 8) * 8

/-- `column_widths` after one row (134-143).  A row does not have more values than there are widths. -/
def widen : List Nat → List Str → List Nat
  | w :: ws, v :: vs => max w (roundUp v.length) :: widen ws vs
  | ws, _ => ws

/-- `while column_width > 0` (152-155). -/
def tabsLoop : Nat → Int → List Char
  | 0, _ => []
  | fuel + 1, width => if width > 0 then '\t' :: tabsLoop fuel (width - 8) else []

/-- The text of a row (146-157), from the value with index `i` on. -/
def rowText (count : Nat) : Nat → List Nat → List Str → List Char
  | i, w :: ws, v :: vs =>
    v ++ (if i + 1 < count then tabsLoop w ((w : Int) - v.length) else []) ++ rowText count (i + 1) ws vs
  | _, _, _ => ['\n']

def TableView.widths (t : TableView) : List Nat := t.rows.foldl widen (List.replicate t.count 0)

/-- `TableView.Write` (119-162). -/
def TableView.write (t : TableView) : List Char :=
  (if t.header ≠ [] then t.header ++ ['\n'] else []) ++
    t.rows.flatMap (rowText t.count 0 t.widths) ++ ['\n']

/-- `ATTRIBUTE_NAMES` (20-51). -/
def attributeNames : List String :=
  ["_kMDItemDisplayNameWithExtensions", "kMDItemContentCreationDate", "kMDItemContentCreationDate_Ranking",
    "kMDItemContentModificationDate", "kMDItemContentModificationDate_Ranking", "kMDItemContentType",
    "kMDItemContentTypeTree", "kMDItemDateAdded", "kMDItemDateAdded_Ranking", "kMDItemDisplayName",
    "kMDItemDocumentIdentifier", "kMDItemFSContentChangeDate", "kMDItemFSCreationDate",
    "kMDItemFSCreatorCode", "kMDItemFSFinderFlags", "kMDItemFSHasCustomIcon", "kMDItemFSInvisible",
    "kMDItemFSIsExtensionHidden", "kMDItemFSIsStationery", "kMDItemFSLabel", "kMDItemFSName",
    "kMDItemFSNodeCount", "kMDItemFSOwnerGroupID", "kMDItemFSOwnerUserID", "kMDItemFSSize",
    "kMDItemFSTypeCode", "kMDItemInterestingDate_Ranking", "kMDItemKind", "kMDItemLogicalSize",
    "kMDItemPhysicalSize"]

/-- `LOOKUP_ATTRIBUTE_NAMES` (54-65). -/
def lookupNames : List (String × String) :=
  [("kMDItemFSContentChangeDate", "_kMDItemContentChangeDate"),
    ("kMDItemFSCreationDate", "_kMDItemCreationDate"),
    ("kMDItemFSCreatorCode", "_kMDItemCreatorCode"),
    ("kMDItemFSFinderFlags", "_kMDItemFinderFlags"),
    ("kMDItemFSIsExtensionHidden", "_kMDItemIsExtensionHidden"),
    ("kMDItemFSLabel", "_kMDItemFinderLabel"),
    ("kMDItemFSName", "_kMDItemFileName"),
    ("kMDItemFSNodeCount", "_kMDItemNodeCount"),
    ("kMDItemFSOwnerGroupID", "_kMDItemOwnerGroupID"),
    ("kMDItemFSOwnerUserID", "_kMDItemOwnerUserID")]

/-- `LOOKUP_ATTRIBUTE_NAMES.get(name, name)` (332). -/
def lookupName (name : String) : String :=
  match lookupNames.find? (fun p => p.1 == name) with
  | some p => p.2
  | none => name

/-- `metadata_item.attributes.get(name)`: the attributes are put in a dictionary in their order
(spotlight_storedb.py 1653). -/
def attr (attributes : List Attr) (name : String) : Option Attr :=
  attributes.reverse.find? (fun a => a.key == name)

/-- The parts of libraries the script uses: `str()` of a value that is no text and no integer, the text of a
Cocoa timestamp (which dfdatetime makes or refuses) and UTF-8. -/
structure View where
  str : Val → Str
  iso : Val → Res Str
  utf8 : Bytes → Option Str

/-- `f"{value!s}"`. -/
def View.text (env : View) : Val → Str
  | .int n => Formats.dec n
  | .text s => s
  | v => env.str v

/-- `f'"{value:s}"'` (338): only a text has the format. -/
def quoted : Val → Res Str
  | .text s => .ok ('"' :: (s ++ ['"']))
  | .int _ => .error .valueError
  | .float _ => .error .valueError
  | _ => .error .typeError

/-- `GetDateTimeString` (68-85). -/
def dateTimeString (env : View) : Val → Res Str
  | .absent => .ok "YYYY-MM-DD hh:ss:mm +####".toList
  | v =>
    match env.iso v with
    | .error e => .error e
    | .ok s => .ok (s.take 10 ++ [' '] ++ (s.drop 11).take 15 ++ [' '] ++ (s.drop 33).take 2)

/-- The text of an attribute (331-344). -/
def valueString (env : View) (attributes : List Attr) (name : String) : Res Str :=
  match attr attributes (lookupName name) with
  | none => .ok "(null)".toList
  | some a =>
    if a.valueType = 0x0B then quoted a.value
    else if a.valueType = 0x0C then dateTimeString env a.value
    else .ok (env.text a.value)

/-- The loop over the names (331-346). -/
def itemRows (env : View) (attributes : List Attr) : List String → TableView → Res TableView
  | [], t => .ok t
  | name :: names, t =>
    match valueString env attributes name with
    | .error e => .error e
    | .ok s =>
      match t.addRow [name.toList, '=' :: ' ' :: s] with
      | .error e => .error e
      | .ok t => itemRows env attributes names t

/-- What is written and the exception that ends the script, if any. -/
abbrev Written := List Char × Option Err

/-- The script with an item (315-348): `found` is the result of `GetMetadataItemByIdentifier`. -/
def showItem (env : View) (identifier : Int) (found : Res (Option Item)) : Written :=
  match found with
  | .error e => ([], some e)
  -- `table_view` is not assigned in this case (348).
  | .ok none => ("No such metadata item: ".toList ++ Formats.decInt identifier ++ ['\n'], some .unboundLocalError)
  | .ok (some item) =>
    match itemRows env item.2 attributeNames ⟨[], 0, []⟩ with
    | .error e => ([], some e)
    | .ok t => (t.write, none)

/-- The text of the version (293-299): the shift is only there for integers. -/
def versionText : Option Attr → Res Str
  | none => .ok []
  | some a =>
    match a.value with
    | .int n => .ok (Formats.dec (n >>> 16) ++ ['.'] ++ Formats.dec (n &&& 0xFFFF))
    | _ => .error .typeError

/-- The text of the properties (286-291): only bytes can be decoded. -/
def plistText (env : View) : Option Attr → Res Str
  | none => .ok []
  | some a =>
    match a.value with
    | .data b =>
      match env.utf8 b with
      | none => .error .unicodeError
      | some s => .ok s
    | _ => .error .attributeError

/-- The script without an item (278-313): `found` is the item with identifier 1, `count` is
`number_of_metadata_items`. -/
def showStore (env : View) (count : Nat) (found : Res (Option Item)) : Written :=
  match found with
  | .error e => ([], some e)
  | .ok item =>
    match plistText env (item.bind fun i => attr i.2 "kMDStoreProperties") with
    | .error e => ([], some e)
    | .ok plist =>
      match versionText (item.bind fun i => attr i.2 "_kStoreMetadataVersion") with
      | .error e => ([], some e)
      | .ok version =>
        match (TableView.mk "Apple Spotlight database information:".toList 0 []).addRows
            [["Metadata version:".toList, version], ["Number of metadata items:".toList, Formats.dec count]] with
        | .error e => ([], some e)
        | .ok t =>
          (t.write ++ if plist ≠ [] then "Properties:\n".toList ++ plist ++ ['\n'] else [], none)

/-- `number_of_metadata_items` (spotlight_storedb.py 441-444). -/
def StoreState.count (s : StoreState) : Nat := (s.descriptors.map (·.identifier)).dedup.length

/-- The script on a store that was opened: `--item` or not. -/
def storeScript (env : View) (readPage : Nat → Res Bytes) (other : Nat → Nat → Bytes → Res (Val × Nat))
    (types : Nat → Option MetaType) (s : StoreState) : Option Int → Written
  | none => showStore env s.count (getItem readPage other types s 1).1
  | some (.ofNat n) => showItem env n (getItem readPage other types s n).1
  | some (.negSucc n) => showItem env (.negSucc n) (.ok none)

/-! ## Specification -/

/-- The width of a column: the least multiple of eight that no value is longer than. -/
def Width (rows : List (List Str)) (i w : Nat) : Prop :=
  8 ∣ w ∧ (∀ r ∈ rows, ∀ v, r[i]? = some v → v.length ≤ w) ∧
    ∀ w', 8 ∣ w' → (∀ r ∈ rows, ∀ v, r[i]? = some v → v.length ≤ w') → w ≤ w'

/-! ## Proofs -/

theorem addRows_ok (t : TableView) (n : Nat) (hn : 0 < n) (ht : t.count = 0 ∧ t.rows = [] ∨ t.count = n)
    (rows : List (List Str)) (h : ∀ r ∈ rows, r.length = n) :
    t.addRows rows = .ok ⟨t.header, if rows = [] then t.count else n, t.rows ++ rows⟩ := by
  induction rows generalizing t with
  | nil => simp [TableView.addRows]
  | cons r rs ih =>
    have hr := h r (List.mem_cons_self ..)
    have hrs := fun x hx => h x (List.mem_cons_of_mem _ hx)
    have step : t.addRow r = .ok ⟨t.header, n, t.rows ++ [r]⟩ := by
      unfold TableView.addRow
      rcases ht with ⟨h0, _⟩ | h0
      · rw [if_pos h0, hr]
      · rw [if_neg (by omega), if_neg (by omega), h0]
    rw [TableView.addRows, step]
    dsimp only
    rw [ih ⟨t.header, n, t.rows ++ [r]⟩ (.inr rfl) hrs]
    simp

/-- C166.  Rows of one length make a table of these rows, in their order. -/
theorem C166_rows (header : List Char) (n : Nat) (hn : 0 < n) (rows : List (List Str)) (h : ∀ r ∈ rows, r.length = n)
    (hne : rows ≠ []) : (TableView.mk header 0 []).addRows rows = .ok ⟨header, n, rows⟩ := by
  rw [addRows_ok _ n hn (.inl ⟨rfl, rfl⟩) rows h]
  simp [hne]

/-- C166.  A row of another length is refused. -/
theorem C166_mismatch (header : List Char) (n : Nat) (hn : 0 < n) (rows rest : List (List Str)) (bad : List Str)
    (h : ∀ r ∈ rows, r.length = n) (hne : rows ≠ []) (hb : bad.length ≠ n) :
    (TableView.mk header 0 []).addRows (rows ++ bad :: rest) = .error .valueError := by
  have key : ∀ (t : TableView) (a b : List (List Str)) (u : TableView), t.addRows a = .ok u →
      t.addRows (a ++ b) = u.addRows b := by
    intro t a
    induction a generalizing t with
    | nil =>
      intro b u hu
      simp only [TableView.addRows, Except.ok.injEq] at hu
      rw [List.nil_append, hu]
    | cons r rs ih =>
      intro b u hu
      rw [TableView.addRows] at hu
      rw [List.cons_append, TableView.addRows]
      cases hr : t.addRow r with
      | error e => rw [hr] at hu; cases hu
      | ok t' =>
        rw [hr] at hu
        exact ih t' b u hu
  rw [key _ rows _ _ (C166_rows header n hn rows h hne), TableView.addRows, TableView.addRow,
    if_neg (by dsimp only; omega), if_pos (fun e => hb e.symm)]

theorem tabsLoop_eq (fuel : Nat) (k : Int) (h : k ≤ fuel) :
    tabsLoop fuel k = List.replicate ((k + 7) / 8).toNat '\t' := by
  induction fuel generalizing k with
  | zero =>
    have : ((k + 7) / 8).toNat = 0 := by omega
    rw [this]; rfl
  | succ fuel ih =>
    rw [tabsLoop]
    split
    · rw [ih _ (by omega)]
      have : ((k + 7) / 8).toNat = ((k - 8 + 7) / 8).toNat + 1 := by omega
      rw [this, List.replicate_succ]
    · have : ((k + 7) / 8).toNat = 0 := by omega
      rw [this]; rfl

/-- A value and the tabs after it take the width of the column. -/
theorem column_value (S w : Nat) (v : Str) (hS : 8 ∣ S) (hw : 8 ∣ w) (hv : v.length ≤ w) (ht : '\t' ∉ v) :
    Formats.column S (v ++ tabsLoop w ((w : Int) - v.length)) = S + w := by
  rw [tabsLoop_eq _ _ (by omega), Formats.column_append, Formats.column_plain _ _ ht]
  by_cases h : v.length = w
  · have : (((w : Int) - v.length + 7) / 8).toNat = 0 := by omega
    rw [this, h]; rfl
  · rw [Formats.column_tabs _ _ (by omega)]
    omega

theorem rowText_column (count : Nat) (ws : List Nat) (vs : List Str) (i S : Nat) (hS : 8 ∣ S)
    (hi : i + vs.length = count) (hl : ws.length = vs.length) (hw : ∀ w ∈ ws, 8 ∣ w)
    (hv : ∀ (j w : Nat) (v : Str), ws[j]? = some w → vs[j]? = some v → v.length ≤ w) (ht : ∀ v ∈ vs, '\t' ∉ v)
    (j : Nat) (v : Str) (hj : vs[j]? = some v) :
    ∃ before after, rowText count i ws vs = before ++ v ++ after ∧
      Formats.column S before = S + (ws.take j).sum := by
  induction ws generalizing vs i S j with
  | nil =>
    have : vs = [] := List.length_eq_zero_iff.mp hl.symm
    subst this
    simp at hj
  | cons w ws ih =>
    cases vs with
    | nil => simp at hl
    | cons u us =>
      simp only [List.length_cons] at hi hl
      cases j with
      | zero =>
        simp only [List.getElem?_cons_zero, Option.some.injEq] at hj
        subst hj
        exact ⟨[], (if i + 1 < count then tabsLoop w ((w : Int) - u.length) else []) ++
          rowText count (i + 1) ws us, by simp [rowText], rfl⟩
      | succ j =>
        simp only [List.getElem?_cons_succ] at hj
        have hus : us ≠ [] := by
          intro e
          rw [e] at hj
          simp at hj
        have hpos := List.length_pos_iff.mpr hus
        obtain ⟨b, a, h1, h2⟩ := ih us (i + 1) (S + w)
          (Nat.dvd_add hS (hw w (List.mem_cons_self ..))) (by omega) (by omega)
          (fun x hx => hw x (List.mem_cons_of_mem _ hx))
          (fun j x y h1 h2 => hv (j + 1) x y (by rw [List.getElem?_cons_succ]; exact h1) (by rw [List.getElem?_cons_succ]; exact h2))
          (fun x hx => ht x (List.mem_cons_of_mem _ hx)) j hj
        refine ⟨u ++ tabsLoop w ((w : Int) - u.length) ++ b, a, ?_, ?_⟩
        · rw [rowText, if_pos (by omega), h1]
          simp only [List.append_assoc]
        · rw [Formats.column_append, column_value S w u hS (hw w (List.mem_cons_self ..))
            (hv 0 w u rfl rfl) (ht u (List.mem_cons_self ..)), h2, List.take_succ_cons, List.sum_cons,
            Nat.add_assoc]

theorem rowText_values (count : Nat) (ws : List Nat) (vs : List Str) (i : Nat) (hl : ws.length = vs.length)
    (ht : ∀ v ∈ vs, '\t' ∉ v) :
    (rowText count i ws vs).filter (fun c => c ≠ '\t') = vs.flatten ++ ['\n'] := by
  have htabs : ∀ fuel k, (tabsLoop fuel k).filter (fun c => c ≠ '\t') = [] := by
    intro fuel
    induction fuel with
    | zero => intro k; rfl
    | succ n ih =>
      intro k
      rw [tabsLoop]
      split
      · rw [List.filter_cons_of_neg (by simp), ih]
      · rfl
  induction ws generalizing vs i with
  | nil =>
    have : vs = [] := List.length_eq_zero_iff.mp hl.symm
    subst this
    rfl
  | cons w ws ih =>
    cases vs with
    | nil => simp at hl
    | cons u us =>
      have hu := ht u (List.mem_cons_self ..)
      have hf : u.filter (fun c => c ≠ '\t') = u := by
        rw [List.filter_eq_self]
        intro c hc
        simp only [ne_eq, decide_not, Bool.not_eq_eq_eq_not, Bool.not_true, decide_eq_false_iff_not]
        exact fun e => hu (e ▸ hc)
      rw [rowText, List.filter_append, List.filter_append, hf,
        ih us (i + 1) (by simpa using hl) (fun x hx => ht x (List.mem_cons_of_mem _ hx))]
      have : (if i + 1 < count then tabsLoop w ((w : Int) - u.length) else []).filter (fun c => c ≠ '\t') = [] := by
        split
        · exact htabs _ _
        · rfl
      rw [this, List.append_nil, List.flatten_cons, List.append_assoc]

theorem widen_length (ws : List Nat) (r : List Str) : (widen ws r).length = ws.length := by
  induction ws generalizing r with
  | nil => cases r <;> rfl
  | cons w ws ih =>
    cases r with
    | nil => rfl
    | cons v vs => rw [widen, List.length_cons, ih, List.length_cons]

theorem widen_get (ws : List Nat) (r : List Str) (h : r.length = ws.length) (i : Nat) (hi : i < ws.length) :
    (widen ws r)[i]? = some (max (ws[i]?.getD 0) (roundUp (r[i]?.getD []).length)) := by
  induction ws generalizing r i with
  | nil => simp at hi
  | cons w ws ih =>
    cases r with
    | nil => simp at h
    | cons v vs =>
      rw [widen]
      cases i with
      | zero => simp
      | succ i =>
        simp only [List.getElem?_cons_succ]
        exact ih vs (by simpa using h) i (by simpa using hi)

theorem roundUp_spec (n : Nat) : 8 ∣ roundUp n ∧ n ≤ roundUp n ∧ ∀ w, 8 ∣ w → n ≤ w → roundUp n ≤ w := by
  unfold roundUp
  split <;> refine ⟨by omega, by omega, fun w h1 h2 => by omega⟩

theorem widths_spec (n : Nat) (rows : List (List Str)) (h : ∀ r ∈ rows, r.length = n) (ws : List Nat)
    (hl : ws.length = n) (done : List (List Str)) (hw : ∀ i < n, Width done i (ws[i]?.getD 0)) :
    (rows.foldl widen ws).length = n ∧ ∀ i < n, Width (done ++ rows) i ((rows.foldl widen ws)[i]?.getD 0) := by
  induction rows generalizing ws done with
  | nil => exact ⟨hl, by simpa using hw⟩
  | cons r rs ih =>
    have hr := h r (List.mem_cons_self ..)
    have := ih (fun x hx => h x (List.mem_cons_of_mem _ hx)) (widen ws r) (by rw [widen_length, hl])
      (done ++ [r]) (by
        intro i hi
        rw [widen_get ws r (by omega) i (by omega)]
        obtain ⟨h1, h2, h3⟩ := hw i hi
        obtain ⟨r1, r2, r3⟩ := roundUp_spec (r[i]?.getD []).length
        simp only [Option.getD_some]
        refine ⟨?_, ?_, ?_⟩
        · rcases Nat.le_total (ws[i]?.getD 0) (roundUp (r[i]?.getD []).length) with h | h
          · rw [Nat.max_eq_right h]; exact r1
          · rw [Nat.max_eq_left h]; exact h1
        · intro x hx v hv
          rcases List.mem_append.mp hx with hx | hx
          · exact Nat.le_trans (h2 x hx v hv) (Nat.le_max_left ..)
          · rw [List.mem_singleton.mp hx] at hv
            rw [hv] at r2
            refine Nat.le_trans r2 ?_
            rw [hv]
            exact Nat.le_max_right ..
        · intro w' hw' hall
          refine Nat.max_le.mpr ⟨h3 w' hw' (fun x hx => hall x (List.mem_append_left _ hx)), ?_⟩
          refine r3 w' hw' ?_
          cases hri : r[i]? with
          | none => simp
          | some v => exact hall r (by simp) v hri)
    simpa using this

/-- C166.  In a table whose rows have one length, and whose values have no tab in them, the values of a column
begin below each other: in every row the value with index `i` begins at the sum of the widths before it. -/
theorem C166_aligned (header : List Char) (n : Nat) (rows : List (List Str)) (h : ∀ r ∈ rows, r.length = n)
    (ht : ∀ r ∈ rows, ∀ v ∈ r, '\t' ∉ v) :
    ∃ (start : Nat → Nat) (lines : List (List Char)),
      (TableView.mk header n rows).write =
        (if header = [] then [] else header ++ ['\n']) ++ lines.flatten ++ ['\n'] ∧
      start 0 = 0 ∧ (∀ i < n, ∃ w, Width rows i w ∧ start (i + 1) = start i + w) ∧
      lines.length = rows.length ∧
      ∀ (k : Nat) (r : List Str) (line : List Char), rows[k]? = some r → lines[k]? = some line →
        line.filter (fun c => c ≠ '\t') = r.flatten ++ ['\n'] ∧
        ∀ i v, r[i]? = some v → ∃ before after, line = before ++ v ++ after ∧
          Formats.column 0 before = start i := by
  let ws := (TableView.mk header n rows).widths
  obtain ⟨hl, hws⟩ := widths_spec n rows h (List.replicate n 0) (by simp) [] (by
    intro i hi
    refine ⟨?_, by simp, ?_⟩
    · simp [hi]
    · intro w' _ _
      simp [hi])
  change ws.length = n at hl
  change ∀ i < n, Width ([] ++ rows) i (ws[i]?.getD 0) at hws
  simp only [List.nil_append] at hws
  refine ⟨fun i => (ws.take i).sum, rows.map (rowText n 0 ws), ?_, rfl, ?_, by simp, ?_⟩
  · rw [TableView.write, List.flatMap_def]
    dsimp only
    by_cases hh : header = []
    · rw [if_neg (by simp [hh]), if_pos hh]
    · rw [if_pos hh, if_neg hh]
  · intro i hi
    refine ⟨ws[i]?.getD 0, hws i hi, ?_⟩
    show (ws.take (i + 1)).sum = (ws.take i).sum + _
    rw [List.take_add_one, List.sum_append]
    have : i < ws.length := by omega
    simp [this]
  · intro k r line hk hline
    simp only [List.getElem?_map, hk, Option.map_some, Option.some.injEq] at hline
    subst hline
    have hr : r ∈ rows := List.mem_of_getElem? hk
    have hrl := h r hr
    refine ⟨rowText_values n ws r 0 (by omega) (ht r hr), ?_⟩
    intro i v hv
    obtain ⟨b, a, h1, h2⟩ := rowText_column n ws r 0 0 (by omega) (by omega) (by omega)
      (by
        intro w hw
        obtain ⟨j, hj, rfl⟩ := List.mem_iff_getElem.mp hw
        have := (hws j (by omega)).1
        simpa [hj] using this)
      (by
        intro j w v h1 h2
        have hj : j < ws.length := by
          have := List.getElem?_eq_some_iff.mp h1
          exact this.1
        have := (hws j (by omega)).2.1 r hr v h2
        rw [h1] at this
        exact this)
      (ht r hr) i v hv
    exact ⟨b, a, h1, by simpa using h2⟩

/-- C166.  It would be nice if the values of a row were apart. -/
def C166_apart_claim : Prop :=
  ∀ (a b c d : Str), '\t' ∉ a → '\t' ∉ b → '\t' ∉ c → '\t' ∉ d →
    (TableView.mk [] 2 [[a, b]]).write = (TableView.mk [] 2 [[c, d]]).write → a = c ∧ b = d

/-- A longest value of eight characters has no tab after it. -/
theorem C166_apart_claim_false : ¬ C166_apart_claim := fun h => by
  have := h "abcdefgh".toList "ijklmnopq".toList "abcdefghijklmnop".toList "q".toList
    (by decide) (by decide) (by decide) (by decide)
  revert this
  decide +kernel

/-! ### An item -/

theorem itemRows_eq (env : View) (attributes : List Attr) (names : List String) (t : TableView)
    (ht : t.count = 0 ∧ t.rows = [] ∨ t.count = 2) (texts : List Str)
    (h : names.map (valueString env attributes) = texts.map .ok) (hne : names ≠ []) :
    itemRows env attributes names t =
      .ok ⟨t.header, 2, t.rows ++ (names.zip texts).map (fun p => [p.1.toList, "= ".toList ++ p.2])⟩ := by
  induction names generalizing t texts with
  | nil => exact (hne rfl).elim
  | cons name names ih =>
    cases texts with
    | nil => simp at h
    | cons s texts =>
      simp only [List.map_cons, List.cons.injEq] at h
      rw [itemRows, h.1]
      dsimp only
      have step : t.addRow [name.toList, '=' :: ' ' :: s] = .ok ⟨t.header, 2, t.rows ++ [[name.toList, "= ".toList ++ s]]⟩ := by
        unfold TableView.addRow
        rcases ht with ⟨h0, _⟩ | h0
        · rw [if_pos h0]; rfl
        · rw [if_neg (by omega), if_neg (by simp [h0]), h0]; rfl
      rw [step]
      dsimp only
      by_cases hn : names = []
      · subst hn
        simp [itemRows]
      · rw [ih ⟨t.header, 2, t.rows ++ [[name.toList, "= ".toList ++ s]]⟩ (.inr rfl) texts h.2 hn]
        simp [List.append_assoc]

/-- The lines of a table with the names of the attributes in the first column. -/
theorem names_width (texts : List Str) (hl : texts.length = attributeNames.length) :
    ∃ w, (TableView.mk [] 2 ((attributeNames.zip texts).map (fun p => [p.1.toList, "= ".toList ++ p.2]))).widths =
      [40, w] := by
  let rows := (attributeNames.zip texts).map (fun p => [p.1.toList, "= ".toList ++ p.2])
  obtain ⟨h1, h2⟩ := widths_spec 2 rows (by
    intro r hr
    obtain ⟨p, _, rfl⟩ := List.mem_map.mp hr
    rfl) [0, 0] rfl [] (by
    intro i hi
    refine ⟨?_, by simp, ?_⟩
    · match i, hi with
      | 0, _ => simp
      | 1, _ => simp
    · intro w' _ _
      match i, hi with
      | 0, _ => simp
      | 1, _ => simp)
  generalize hws : rows.foldl widen [0, 0] = ws at h1 h2
  match ws, h1 with
  | [a, b], _ =>
    refine ⟨b, ?_⟩
    show rows.foldl widen [0, 0] = _
    rw [hws]
    obtain ⟨g1, g2, g3⟩ := h2 0 (by omega)
    simp only [List.nil_append, List.getElem?_cons_zero, Option.getD_some] at g1 g2 g3
    have hlen : ∀ name ∈ attributeNames, name.toList.length ≤ 38 := by decide +kernel
    have ha : a ≤ 40 := g3 40 (by omega) (by
      intro r hr v hv
      obtain ⟨p, hp, rfl⟩ := List.mem_map.mp hr
      simp only [List.getElem?_cons_zero, Option.some.injEq] at hv
      subst hv
      have := hlen p.1 (List.of_mem_zip hp).1
      omega)
    have hb : 38 ≤ a := by
      obtain ⟨name, hn, e⟩ : ∃ name ∈ attributeNames, name.toList.length = 38 := by decide +kernel
      obtain ⟨j, hj, rfl⟩ := List.mem_iff_getElem.mp hn
      have hj' : j < texts.length := by omega
      have hz : (attributeNames.zip texts)[j]? = some (attributeNames[j], texts[j]) := by
        rw [List.getElem?_zip_eq_some]
        exact ⟨by simp [hj], by simp [hj']⟩
      have := g2 _ (List.mem_map.mpr ⟨_, List.mem_of_getElem? hz, rfl⟩) attributeNames[j].toList rfl
      omega
    have : a = 40 := by omega
    rw [this]

theorem showItem_some (env : View) (identifier : Int) (item : Item) :
    showItem env identifier (.ok (some item)) =
      match itemRows env item.2 attributeNames ⟨[], 0, []⟩ with
      | .error e => ([], some e)
      | .ok t => (t.write, none) := by
  delta showItem
  rfl

theorem showItem_none (env : View) (identifier : Int) :
    showItem env identifier (.ok none) = ("No such metadata item: ".toList ++ Formats.decInt identifier ++ ['\n'],
      some .unboundLocalError) := by
  delta showItem
  rfl

/-- C166.  For every item whose attributes have a text, the script writes one line for each of the thirty names
in their order: the name, tabs up to column 40, an equals sign and the text. -/
theorem C166_item (env : View) (identifier : Int) (item : Item) (texts : List Str)
    (h : attributeNames.map (valueString env item.2) = texts.map .ok) :
    showItem env identifier (.ok (some item)) =
      ((attributeNames.zip texts).flatMap (fun p =>
        p.1.toList ++ List.replicate (5 - p.1.toList.length / 8) '\t' ++ "= ".toList ++ p.2 ++ ['\n']) ++ ['\n'],
        none) := by
  have hl : texts.length = attributeNames.length := by
    have := congrArg List.length h
    simpa using this.symm
  rw [showItem_some]
  rw [itemRows_eq env item.2 attributeNames ⟨[], 0, []⟩ (.inl ⟨rfl, rfl⟩) texts h (by decide)]
  dsimp only
  rw [List.nil_append]
  obtain ⟨w, hw⟩ := names_width texts hl
  rw [TableView.write, hw]
  dsimp only
  rw [if_neg (by simp), List.nil_append, List.flatMap_map]
  have hlen : ∀ name ∈ attributeNames, name.toList.length ≤ 38 ∧ 0 < name.toList.length := by decide +kernel
  have key : ∀ p ∈ attributeNames.zip texts, rowText 2 0 [40, w] [p.1.toList, "= ".toList ++ p.2] =
      p.1.toList ++ List.replicate (5 - p.1.toList.length / 8) '\t' ++ "= ".toList ++ p.2 ++ ['\n'] := by
    intro p hp
    have hn := hlen p.1 (List.of_mem_zip hp).1
    rw [rowText, rowText, rowText, if_pos (by omega), if_neg (by omega), tabsLoop_eq _ _ (by omega)]
    have : ((((40 : Nat) : Int) - p.1.toList.length + 7) / 8).toNat = 5 - p.1.toList.length / 8 := by omega
    rw [this]
    simp only [List.append_assoc, List.nil_append]
    · simp
  rw [List.flatMap_congr key]

/-- C166.  It would be nice if the script could tell that there is no such item. -/
def C166_missing_claim : Prop :=
  ∀ (env : View) (identifier : Int), (showItem env identifier (.ok none)).2 = none

/-- C166.  It writes that there is none and then always raises. -/
theorem C166_missing (env : View) (readPage : Nat → Res Bytes) (other : Nat → Nat → Bytes → Res (Val × Nat))
    (types : Nat → Option MetaType) (s : StoreState) (identifier : Nat)
    (h : ∀ d ∈ s.descriptors, d.identifier ≠ identifier) :
    storeScript env readPage other types s (some identifier) =
      ("No such metadata item: ".toList ++ Text.digits 10 identifier ++ ['\n'], some .unboundLocalError) := by
  have hf : s.find identifier = none := by
    rw [StoreState.find, List.find?_eq_none]
    intro d hd
    simpa using h d (List.mem_reverse.mp hd)
  have hg : (getItem readPage other types s identifier).1 = .ok none := by
    rw [getItem, hf]
  have hs : storeScript env readPage other types s (some identifier) =
      showItem env identifier (getItem readPage other types s identifier).1 := rfl
  have hd : Formats.decInt identifier = Text.digits 10 identifier := by
    rw [Formats.decInt, if_neg (by omega)]
    rfl
  rw [hs, hg, showItem_none, hd]

theorem C166_missing_claim_false : ¬ C166_missing_claim := fun h => by
  have := h ⟨fun _ => [], fun _ => .ok [], fun _ => none⟩ 5
  rw [showItem_none] at this
  cases this

/-- The attribute under a name is the last one with the key. -/
theorem attribute_last (before after : List Attr) (a : Attr) (h : ∀ x ∈ after, x.key ≠ a.key) :
    attr (before ++ a :: after) a.key = some a := by
  rw [attr, List.reverse_append, List.reverse_cons, List.append_assoc, List.find?_append]
  have : after.reverse.find? (fun x => x.key == a.key) = none := by
    rw [List.find?_eq_none]
    intro x hx
    simpa using h x (List.mem_reverse.mp hx)
  rw [this]
  simp

/-- C166.  The text of an attribute that is an integer, a string or is not there.  The ten names of the table
are looked up under another key. -/
theorem C166_values (env : View) (name : String) (before after : List Attr) (a : Attr)
    (hk : a.key = lookupName name) (h : ∀ x ∈ after, x.key ≠ a.key) :
    (∀ s, a.valueType = 0x0B → a.value = .text s →
      valueString env (before ++ a :: after) name = .ok ("\"".toList ++ s ++ "\"".toList)) ∧
    (∀ n, a.valueType ≠ 0x0B → a.valueType ≠ 0x0C → a.value = .int n →
      valueString env (before ++ a :: after) name = .ok (Text.digits 10 n)) ∧
    (∀ s, a.valueType ≠ 0x0B → a.valueType ≠ 0x0C → a.value = .text s →
      valueString env (before ++ a :: after) name = .ok s) ∧
    ∀ attributes : List Attr, (∀ x ∈ attributes, x.key ≠ lookupName name) →
      valueString env attributes name = .ok "(null)".toList := by
  have hf := attribute_last before after a h
  rw [hk] at hf
  refine ⟨?_, ?_, ?_, ?_⟩
  · intro s h1 h2
    rw [valueString, hf]
    dsimp only
    rw [if_pos h1, h2]
    rfl
  · intro n h1 h2 h3
    rw [valueString, hf]
    dsimp only
    rw [if_neg h1, if_neg h2, h3]
    rfl
  · intro n h1 h2 h3
    rw [valueString, hf]
    dsimp only
    rw [if_neg h1, if_neg h2, h3]
    rfl
  · intro l hl
    have : attr l (lookupName name) = none := by
      rw [attr, List.find?_eq_none]
      intro x hx
      simpa using hl x (List.mem_reverse.mp hx)
    rw [valueString, this]

/-- C166.  No key is shown twice, and no name is. -/
theorem C166_names : attributeNames.Nodup ∧ (attributeNames.map lookupName).Nodup := by
  decide +kernel

/-- C166.  It would be nice if every attribute that can be read could be shown. -/
def C166_every_item_claim : Prop :=
  ∀ (decode : Bytes → Option Str) (tb : Tables) (env : View) (t : MetaType) (data : Bytes) (v : Val) (n : Nat)
    (h : RecordHeader), otherValue decode tb t.valueType t.propertyType data = .ok (v, n) →
    (∀ v, ∃ s, env.iso v = .ok s) →
    (showItem env 1 (.ok (some (h, [⟨t.keyName, t.valueType, t.propertyType, v⟩])))).2 = none

/-- C166.  An item is not shown at all if one of the thirty attributes has no text: a list of strings. -/
theorem C166_list_of_strings (env : View) (identifier : Int) (h : RecordHeader) (attributes : List Attr)
    (hn : ∃ name ∈ attributeNames, ∃ a l, attr attributes (lookupName name) = some a ∧ a.valueType = 0x0B ∧
      a.value = .texts l)
    (hiso : ∀ v, ∃ s, env.iso v = .ok s) :
    ∃ e, showItem env identifier (.ok (some (h, attributes))) = ([], some e) := by
  rw [showItem_some]
  have key : ∀ (names : List String) (t : TableView), (∃ name ∈ names, ∃ e, valueString env attributes name = .error e) →
      ∃ e, itemRows env attributes names t = .error e := by
    intro names
    induction names with
    | nil => rintro t ⟨_, hm, _⟩; cases hm
    | cons x xs ih =>
      rintro t ⟨name, hm, e, he⟩
      rw [itemRows]
      cases hx : valueString env attributes x with
      | error e' => exact ⟨e', rfl⟩
      | ok s =>
        dsimp only
        cases hr : t.addRow [x.toList, '=' :: ' ' :: s] with
        | error e' => exact ⟨e', rfl⟩
        | ok t' =>
          dsimp only
          rcases List.mem_cons.mp hm with rfl | hm
          · rw [hx] at he; cases he
          · exact ih t' ⟨name, hm, e, he⟩
  obtain ⟨name, hm, a, l, h1, h2, h3⟩ := hn
  obtain ⟨e, he⟩ := key attributeNames ⟨[], 0, []⟩ ⟨name, hm, .typeError, by
    rw [valueString, h1]
    dsimp only
    rw [if_pos h2, h3]
    rfl⟩
  rw [he]
  exact ⟨e, rfl⟩

def noView : View := ⟨fun _ => [], fun _ => .ok [], fun _ => none⟩

theorem C166_every_item_claim_false : ¬ C166_every_item_claim := fun h => by
  have h1 := h (fun _ => some []) ⟨[], [], [], []⟩ noView ⟨"kMDItemDisplayName", 0x0B, 2⟩ [2, 65, 0] (.texts [[]]) 3
    ⟨0, 0, 1, 0, 0, 0⟩ (by decide +kernel) (fun _ => ⟨[], rfl⟩)
  obtain ⟨e, he⟩ := C166_list_of_strings noView 1 ⟨0, 0, 1, 0, 0, 0⟩ [⟨"kMDItemDisplayName", 0x0B, 2, .texts [[]]⟩]
    ⟨"kMDItemDisplayName", by decide +kernel, ⟨"kMDItemDisplayName", 0x0B, 2, .texts [[]]⟩, [[]],
      by decide +kernel, rfl, rfl⟩ (fun _ => ⟨[], rfl⟩)
  rw [he] at h1
  cases h1

/-- C166.  It would be nice if the line told an attribute from none. -/
def C166_null_claim : Prop :=
  ∀ (env : View) (a : Attr) (name : String), a.key = lookupName name →
    valueString env [a] name ≠ valueString env [] name

theorem C166_null_claim_false : ¬ C166_null_claim := fun h =>
  h noView ⟨"kMDItemKind", 0x0F, 0, .text null⟩ "kMDItemKind" (by decide +kernel) (by decide +kernel)

/-! ### Dates -/

/-- C166.  A date of the form that dfdatetime makes, `YYYY-MM-DDThh:mm:ss.######` and a time zone of six
characters, is shown without the time zone. -/
theorem C166_date (env : View) (v : Val) (date time zone : Str) (hv : v ≠ .absent)
    (h : env.iso v = .ok (date ++ ['T'] ++ time ++ zone)) (hd : date.length = 10) (ht : time.length = 15)
    (hz : zone.length ≤ 6) : dateTimeString env v = .ok (date ++ " ".toList ++ time ++ " ".toList) := by
  have h1 : (date ++ ['T'] ++ time ++ zone).take 10 = date := by
    rw [List.append_assoc, List.append_assoc, ← hd, List.take_left]
  have h2 : (date ++ ['T'] ++ time ++ zone).drop 11 = time ++ zone := by
    have : (date ++ ['T']).length = 11 := by simp [hd]
    rw [List.append_assoc, ← this, List.drop_left]
  have h3 : (date ++ ['T'] ++ time ++ zone).drop 33 = [] := by
    rw [List.drop_eq_nil_iff]
    simp only [List.length_append, List.length_singleton]
    omega
  unfold dateTimeString
  cases v <;> first
    | exact (hv rfl).elim
    | (dsimp only
       rw [h]
       dsimp only
       rw [h1, h2, h3, ← ht, List.take_left]
       simp)

/-- C166.  It would be nice if dates in different time zones could be told apart. -/
def C166_zone_claim : Prop :=
  ∀ (env env' : View) (v : Val) (date time zone zone' : Str), v ≠ .absent →
    env.iso v = .ok (date ++ ['T'] ++ time ++ zone) → env'.iso v = .ok (date ++ ['T'] ++ time ++ zone') →
    date.length = 10 → time.length = 15 → zone.length = 6 → zone'.length = 6 →
    dateTimeString env v = dateTimeString env' v → zone = zone'

theorem C166_zone_claim_false : ¬ C166_zone_claim := fun h => by
  have := h ⟨fun _ => [], fun _ => .ok "2020-01-02T03:04:05.000000+00:00".toList, fun _ => none⟩
    ⟨fun _ => [], fun _ => .ok "2020-01-02T03:04:05.000000+02:00".toList, fun _ => none⟩ (.float 0)
    "2020-01-02".toList "03:04:05.000000".toList "+00:00".toList "+02:00".toList
    (by decide) (by decide +kernel) (by decide +kernel) (by decide +kernel) (by decide +kernel) (by decide +kernel)
    (by decide +kernel) (by decide +kernel)
  revert this
  decide +kernel

/-- C166.  Dates of one time zone are told apart. -/
theorem C166_zone_partial (env : View) (v w : Val) (date time date' time' zone : Str) (hv : v ≠ .absent) (hw : w ≠ .absent)
    (h : env.iso v = .ok (date ++ ['T'] ++ time ++ zone)) (h' : env.iso w = .ok (date' ++ ['T'] ++ time' ++ zone))
    (hd : date.length = 10) (hd' : date'.length = 10) (ht : time.length = 15) (ht' : time'.length = 15)
    (hz : zone.length ≤ 6) (he : dateTimeString env v = dateTimeString env w) : env.iso v = env.iso w := by
  rw [C166_date env v date time zone hv h hd ht hz, C166_date env w date' time' zone hw h' hd' ht' hz] at he
  simp only [Except.ok.injEq, List.append_assoc] at he
  obtain ⟨e1, e2⟩ := List.append_inj he (by omega)
  obtain ⟨e3, _⟩ := List.append_inj (List.append_cancel_left e2) (by omega)
  rw [h, h', e1, e3]

/-! ### The store -/

/-- C166.  The version of the metadata is lossless for a 32-bit value and larger ones. -/
theorem C166_version (a b : Attr) (m n : Nat) (ha : a.value = .int m) (hb : b.value = .int n)
    (h : versionText (some a) = versionText (some b)) : m = n := by
  unfold versionText at h
  dsimp only at h
  rw [ha, hb] at h
  simp only [Except.ok.injEq] at h
  have hdot : ∀ n, '.' ∉ Formats.dec n := fun n => Formats.dec_notMem n '.' (by decide)
  have key : ∀ a b c d : Str, '.' ∉ a → '.' ∉ b → a ++ ['.'] ++ c = b ++ ['.'] ++ d → a = b ∧ c = d := by
    intro a
    induction a with
    | nil =>
      intro b c d _ hb hab
      cases b with
      | nil => simpa using hab
      | cons y b =>
        simp only [List.nil_append, List.cons_append, List.cons.injEq] at hab
        exact (hb (hab.1 ▸ List.mem_cons_self ..)).elim
    | cons x a ih =>
      intro b c d ha hb hab
      cases b with
      | nil =>
        simp only [List.nil_append, List.cons_append, List.cons.injEq] at hab
        exact (ha (by simp [hab.1])).elim
      | cons y b =>
        simp only [List.cons_append, List.cons.injEq] at hab
        obtain ⟨h1, h2⟩ := ih b c d (fun h => ha (List.mem_cons_of_mem _ h))
          (fun h => hb (List.mem_cons_of_mem _ h)) hab.2
        exact ⟨by rw [hab.1, h1], h2⟩
  obtain ⟨h1, h2⟩ := key _ _ _ _ (hdot _) (hdot _) h
  have e1 := Formats.dec_injective _ _ h1
  have e2 := Formats.dec_injective _ _ h2
  rw [Nat.shiftRight_eq_div_pow, Nat.shiftRight_eq_div_pow] at e1
  have hmask : ∀ k : Nat, k &&& 0xFFFF = k % 65536 := fun k => Nat.and_two_pow_sub_one_eq_mod k 16
  rw [hmask, hmask] at e2
  omega

theorem showStore_some (env : View) (count : Nat) (item : Item) :
    showStore env count (.ok (some item)) =
      match plistText env ((some item).bind fun i => attr i.2 "kMDStoreProperties") with
      | .error e => ([], some e)
      | .ok plist =>
        match versionText ((some item).bind fun i => attr i.2 "_kStoreMetadataVersion") with
        | .error e => ([], some e)
        | .ok version =>
          match (TableView.mk "Apple Spotlight database information:".toList 0 []).addRows
              [["Metadata version:".toList, version], ["Number of metadata items:".toList, Formats.dec count]] with
          | .error e => ([], some e)
          | .ok t =>
            (t.write ++ if plist ≠ [] then "Properties:\n".toList ++ plist ++ ['\n'] else [], none) := by
  delta showStore
  rfl

theorem twoRows (x y z v number : Str) (hx : x ≠ []) (hy : y.length = 17) (hz : z.length = 25) :
    (TableView.mk x 2 [[y, v], [z, number]]).write =
      x ++ ['\n'] ++ (y ++ ['\t', '\t'] ++ v ++ ['\n']) ++ (z ++ ['\t'] ++ number ++ ['\n']) ++ ['\n'] := by
  have hw : (TableView.mk x 2 [[y, v], [z, number]]).widths =
      [32, max (max 0 (roundUp v.length)) (roundUp number.length)] := by
    show [max (max 0 (roundUp y.length)) (roundUp z.length), _] = _
    rw [hy, hz]
    rfl
  generalize max (max 0 (roundUp v.length)) (roundUp number.length) = w at hw
  have hrow : ∀ (name v : Str) (k : Nat), name.length = k →
      rowText 2 0 [32, w] [name, v] = name ++ tabsLoop 32 (((32 : Nat) : Int) - k) ++ v ++ ['\n'] := by
    intro name v k hk
    rw [rowText, rowText, rowText, if_pos (by omega), if_neg (by omega), hk]
    · simp
    · simp
  rw [TableView.write, hw]
  dsimp only
  rw [List.flatMap_cons, List.flatMap_cons, List.flatMap_nil, hrow y v 17 hy, hrow z number 25 hz, if_pos hx]
  have t1 : tabsLoop 32 (((32 : Nat) : Int) - (17 : Nat)) = ['\t', '\t'] := by decide +kernel
  have t2 : tabsLoop 32 (((32 : Nat) : Int) - (25 : Nat)) = ['\t'] := by decide +kernel
  rw [t1, t2]
  simp only [List.append_assoc, List.append_nil]

/-- C166.  What the script writes about a store whose item 1 has a version and properties: both are below each
other in column 32. -/
theorem C166_store (env : View) (count : Nat) (item : Item) (p v : Attr) (b : Bytes) (plist : Str) (n : Nat)
    (hp : attr item.2 "kMDStoreProperties" = some p) (hpb : p.value = .data b) (hu : env.utf8 b = some plist)
    (hv : attr item.2 "_kStoreMetadataVersion" = some v) (hvn : v.value = .int n) (hne : plist ≠ []) :
    showStore env count (.ok (some item)) =
      ("Apple Spotlight database information:\n".toList ++
        "Metadata version:\t\t".toList ++ Text.digits 10 (n / 65536) ++ ".".toList ++ Text.digits 10 (n % 65536) ++
        "\nNumber of metadata items:\t".toList ++ Text.digits 10 count ++ "\n\nProperties:\n".toList ++
        plist ++ "\n".toList, none) := by
  have h1 : plistText env ((some item).bind fun i => attr i.2 "kMDStoreProperties") = .ok plist := by
    rw [Option.bind_some, hp, plistText, hpb]
    dsimp only
    rw [hu]
  have h2 : versionText ((some item).bind fun i => attr i.2 "_kStoreMetadataVersion") =
      .ok (Text.digits 10 (n / 65536) ++ ".".toList ++ Text.digits 10 (n % 65536)) := by
    have hmask : n &&& 0xFFFF = n % 65536 := Nat.and_two_pow_sub_one_eq_mod n 16
    rw [Option.bind_some, hv, versionText, hvn]
    dsimp only
    rw [hmask, Nat.shiftRight_eq_div_pow]
    rfl
  have l1 : "Apple Spotlight database information:\n".toList =
      "Apple Spotlight database information:".toList ++ ['\n'] := by decide +kernel
  have l2 : "Metadata version:\t\t".toList = "Metadata version:".toList ++ ['\t', '\t'] := by decide +kernel
  have l3 : "\nNumber of metadata items:\t".toList = ['\n'] ++ "Number of metadata items:".toList ++ ['\t'] := by
    decide +kernel
  have l5 : "\n\nProperties:\n".toList = ['\n'] ++ ['\n'] ++ "Properties:\n".toList := by decide +kernel
  have hx : "Apple Spotlight database information:".toList ≠ [] := by decide +kernel
  have hy : "Metadata version:".toList.length = 17 := by decide +kernel
  have hz : "Number of metadata items:".toList.length = 25 := by decide +kernel
  have hm := showStore_some env count item
  rw [h1, h2] at hm
  rw [hm, l1, l2, l3, l5]
  generalize "Apple Spotlight database information:".toList = x at hx
  generalize "Metadata version:".toList = y at hy
  generalize "Number of metadata items:".toList = z at hz
  generalize "Properties:\n".toList = u
  have ht := twoRows x y z (Text.digits 10 (n / 65536) ++ ".".toList ++ Text.digits 10 (n % 65536))
    (Formats.dec count) hx hy hz
  dsimp only
  rw [C166_rows x 2 (by omega) _ (by intro r hr; fin_cases hr <;> rfl) (by simp)]
  dsimp only
  rw [ht, if_pos hne]
  have ln : "\n".toList = ['\n'] := rfl
  rw [ln]
  generalize ".".toList = d
  simp only [List.append_assoc]
  rfl

/-- C166.  Properties that are not UTF-8, or not data, are an error, and nothing is written about the store. -/
theorem C166_properties (env : View) (count : Nat) (item : Item) (p : Attr) (hp : attr item.2 "kMDStoreProperties" = some p)
    (h : ∀ b, p.value = .data b → env.utf8 b = none) :
    ∃ e, showStore env count (.ok (some item)) = ([], some e) ∧
      ((∃ b, p.value = .data b) → e = .unicodeError) ∧ ((∀ b, p.value ≠ .data b) → e = .attributeError) := by
  have key : ∃ e, plistText env (some p) = .error e ∧
      ((∃ b, p.value = .data b) → e = .unicodeError) ∧ ((∀ b, p.value ≠ .data b) → e = .attributeError) := by
    obtain ⟨k, ty, l, v⟩ := p
    cases v with
    | data b =>
      unfold plistText
      dsimp only
      rw [h b rfl]
      exact ⟨_, rfl, fun _ => rfl, fun n => (n b rfl).elim⟩
    | _ => exact ⟨_, rfl, fun ⟨b, hb⟩ => (by cases hb), fun _ => rfl⟩
  obtain ⟨e, he, h1, h2⟩ := key
  refine ⟨e, ?_, h1, h2⟩
  have hm := showStore_some env count item
  have hb : plistText env ((some item).bind fun i => attr i.2 "kMDStoreProperties") = .error e := by
    rw [Option.bind_some, hp, he]
  rw [hm, hb]

/-- C166.  The number of items is that of different identifiers. -/
theorem C166_count (s : StoreState) : ∃ identifiers : List Nat, identifiers.Nodup ∧ s.count = identifiers.length ∧
    ∀ n, n ∈ identifiers ↔ ∃ d ∈ s.descriptors, d.identifier = n := by
  refine ⟨(s.descriptors.map (·.identifier)).dedup, List.nodup_dedup _, rfl, fun n => ?_⟩
  rw [List.mem_dedup, List.mem_map]

/-- C166.  The information on a store is that of its item 1: without one, only the number of items is known. -/
theorem C166_no_store_item (env : View) (readPage : Nat → Res Bytes) (other : Nat → Nat → Bytes → Res (Val × Nat))
    (types : Nat → Option MetaType) (s : StoreState) :
    (∀ e, (getItem readPage other types s 1).1 = .error e → storeScript env readPage other types s none = ([], some e)) ∧
    (∀ item, (getItem readPage other types s 1).1 = .ok (some item) →
      storeScript env readPage other types s none = showStore env s.count (.ok (some item))) ∧
    ((∀ d ∈ s.descriptors, d.identifier ≠ 1) → storeScript env readPage other types s none =
      showStore env s.count (.ok none)) := by
  have hs : storeScript env readPage other types s none = showStore env s.count (getItem readPage other types s 1).1 := rfl
  refine ⟨fun e h => ?_, fun item h => by rw [hs, h], fun h => ?_⟩
  · rw [hs, h]
    delta showStore
    rfl
  · have hf : s.find 1 = none := by
      rw [StoreState.find, List.find?_eq_none]
      intro d hd
      simpa using h d (List.mem_reverse.mp hd)
    have hg : (getItem readPage other types s 1).1 = .ok none := by rw [getItem, hf]
    rw [hs, hg]

/-- C166.  An empty item: thirty lines. -/
example : ∃ texts : List Str, attributeNames.map (valueString noView []) = texts.map .ok :=
  ⟨attributeNames.map fun _ => "(null)".toList, by decide +kernel⟩

example : (showItem noView 7 (.ok (some (⟨0, 7, 1, 0, 0, 0⟩,
    [⟨"_kMDItemFileName", 0x0B, 0, .text "a.txt".toList⟩, ⟨"kMDItemLogicalSize", 0, 0, .int 12⟩])))).1.take 50 =
    "_kMDItemDisplayNameWithExtensions\t= (null)\nkMDItem".toList := by decide +kernel

example : (TableView.mk "h".toList 2 [["a".toList, "b".toList], ["abcdefghi".toList, "c".toList]]).write =
    "h\na\t\tb\nabcdefghi\tc\n\n".toList := by decide +kernel

example : attr [⟨"kMDStoreProperties", 0x0E, 0, .data [65]⟩, ⟨"_kStoreMetadataVersion", 0, 0, .int 65538⟩]
    "_kStoreMetadataVersion" = some ⟨"_kStoreMetadataVersion", 0, 0, .int 65538⟩ := by decide +kernel

end Dtf.Spotlight
