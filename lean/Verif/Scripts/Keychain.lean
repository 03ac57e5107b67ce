import Verif.Keychain
import Verif.LevelDB.IndexedDB
import Verif.Formats.Props

/-!
# The output of the script for keychains (C167)

scripts/keychain.py.
-/

namespace Dtf.Keychain
open Py DataFormat

abbrev Str := List Char

/-! ## Model -/

/-- The text of ASCII bytes. -/
def chars (b : Bytes) : Str := b.map (fun x => Char.ofNat x.toNat)

/-- `ATTRIBUTE_DATA_TYPES` (scripts/keychain.py 11-21). -/
def dataTypes : List (Nat × String) :=
  [(0, "String with size"), (1, "Integer 32-bit signed"), (2, "Integer 32-bit unsigned"),
    (3, "CSSM_DB_ATTRIBUTE_FORMAT_BIG_NUM"), (4, "Floating-point 64-bit"), (5, "Date and time"),
    (6, "Binary data"), (7, "CSSM_DB_ATTRIBUTE_FORMAT_MULTI_UINT32"), (8, "CSSM_DB_ATTRIBUTE_FORMAT_COMPLEX")]

/-- `ATTRIBUTE_DATA_TYPES.get(…, f"0x{…:08x}")` (scripts/keychain.py 110-112). -/
def typeText (f : Nat) : Str :=
  match dataTypes.find? (fun p => p.1 == f) with
  | some p => p.2.toList
  | none => "0x".toList ++ Formats.hexw 8 f

/-- The line of a column (scripts/keychain.py 104-120): without an identifier the comparison, and without a data
type the format, is an error. -/
def columnLine (count index : Nat) (c : Column) : Res Str :=
  match c.ident, c.format with
  | some ident, some f =>
    .ok ('\t' :: Formats.dec index ++ ['\t'] ++ (if ident ≥ count then [] else Formats.dec ident) ++ ['\t'] ++
      (match c.name with
        | none => "NULL".toList
        | some [] => "NULL".toList
        | some b => chars b) ++ ['\t'] ++ typeText f)
  | _, _ => .error .typeError

/-- The lines printed and the exception that ends the script, if any. -/
abbrev Printed := List Str × Option Err

def Printed.andThen (p q : Printed) : Printed :=
  match p.2 with
  | some e => (p.1, some e)
  | none => (p.1 ++ q.1, q.2)

def line (s : Str) : Printed := ([s], none)

/-- The columns, from an index on. -/
def columnLines (count : Nat) : Nat → List Column → Printed
  | _, [] => ([], none)
  | i, c :: cs =>
    match columnLine count i c with
    | .error e => ([], some e)
    | .ok s => (line s).andThen (columnLines count (i + 1) cs)

/-- `Table: …` (scripts/keychain.py 91-96 and 128-133). -/
def tableLine (t : Table) : Str :=
  "Table: ".toList ++ chars t.name ++ " (0x".toList ++ Formats.hexw 8 t.ident ++ ")".toList

/-- A table in the mode for the schema (scripts/keychain.py 90-122). -/
def schemaTable (t : Table) : Printed :=
  (line (tableLine t)).andThen <|
    (line ("\tNumber of columns:\t".toList ++ Formats.dec t.columns.length)).andThen <|
      (line "\tColumn\tIdentifier\tName\tType".toList).andThen <|
        (columnLines t.columns.length 0 t.columns).andThen (line [])

/-- The text of a value (scripts/keychain.py 139-143).  A blob is read as `repr` of its bytes (keychain.py 234). -/
def showValue : Value → Str
  | .null => "NULL".toList
  | .int n => Formats.dec n
  | .text s => chars s
  | .date s => chars s
  | .blob s => 'b' :: IndexedDB.reprTail s

/-- `record.values()`. -/
def Record.shown : Record → List Str
  | .schema values => values.map showValue
  | .row values => values.map (fun v => showValue v.2)

/-- The names of the columns joined (scripts/keychain.py 135): no name is an error. -/
def namesLine : List Column → Res (List Str)
  | [] => .ok []
  | c :: cs =>
    match c.name with
    | none => .error .typeError
    | some b => (namesLine cs).map (chars b :: ·)

/-- A table in the mode for the content (scripts/keychain.py 127-147). -/
def contentTable (t : Table) : Printed :=
  (line (tableLine t)).andThen <|
    match namesLine t.columns with
    | .error e => ([], some e)
    | .ok names =>
      (Text.join ['\t'] names :: t.records.map (fun r => Text.join ['\t'] r.shown) ++ [[]], none)

/-- The tables in order. -/
def eachTable (f : Table → Printed) : List Table → Printed
  | [] => ([], none)
  | t :: ts => (f t).andThen (eachTable f ts)

/-- `Main` (scripts/keychain.py 85-151) after the arguments: `--content` or not. -/
def script (content : Bool) (data : Bytes) : Printed :=
  match readFile data with
  | .error e => ([], some e)
  | .ok tables =>
    if content then eachTable contentTable tables
    else (line "Keychain database file schema:".toList).andThen ((eachTable schemaTable tables).andThen (line []))

/-! ## Specification -/

/-- The fields of the line of an attribute. -/
def attrFields (count index : Nat) (a : Attr) : List Str :=
  [[], Text.digits 10 index, if a.ident < count then Text.digits 10 a.ident else [],
    if a.shownName = [] then "NULL".toList else chars a.shownName, typeText a.format]

/-- The lines of a table of a database, in the mode for the schema. -/
def schemaLines (d : Database) (i : Nat × Bytes) : List Str :=
  let attrs := d.attrs.filter (·.rel = i.1)
  ["Table: ".toList ++ chars i.2 ++ " (0x".toList ++ Formats.hexw 8 i.1 ++ ")".toList,
    "\tNumber of columns:\t".toList ++ Text.digits 10 attrs.length, "\tColumn\tIdentifier\tName\tType".toList] ++
    attrs.zipIdx.map (fun a => Text.join ['\t'] (attrFields attrs.length a.2 a.1)) ++ [[]]

/-- The lines of a table, in the mode for the content. -/
def contentLines (d : Database) (i : Nat × Bytes) : List Str :=
  ["Table: ".toList ++ chars i.2 ++ " (0x".toList ++ Formats.hexw 8 i.1 ++ ")".toList,
    Text.join ['\t'] ((d.attrs.filter (·.rel = i.1)).map (fun a => chars a.shownName))] ++
    (d.records i.1).map (fun r => Text.join ['\t'] r.shown) ++ [[]]

/-! ## Proofs -/

theorem andThen_ok (a b : List Str) (e : Option Err) : Printed.andThen (a, none) (b, e) = (a ++ b, e) := rfl

theorem columnLine_attr (count index : Nat) (a : Attr) :
    columnLine count index a.column = .ok (Text.join ['\t'] (attrFields count index a)) := by
  unfold columnLine Attr.column attrFields
  dsimp only
  have h1 : (if a.ident ≥ count then [] else Formats.dec a.ident) =
      (if a.ident < count then Text.digits 10 a.ident else []) := by
    by_cases h : a.ident < count
    · rw [if_neg (by omega), if_pos h]; rfl
    · rw [if_pos (by omega), if_neg h]
  have h2 : (match some a.shownName with
        | none => "NULL".toList
        | some [] => "NULL".toList
        | some b => chars b) = if a.shownName = [] then "NULL".toList else chars a.shownName := by
    cases a.shownName with
    | nil => rfl
    | cons x xs => rw [if_neg (by simp)]
  rw [h1, h2]
  simp only [Text.join, List.nil_append, List.append_assoc, List.cons_append]
  rfl

theorem columnLines_attrs (count : Nat) (as : List Attr) (i : Nat) :
    columnLines count i (as.map (·.column)) =
      ((as.zipIdx i).map (fun a => Text.join ['\t'] (attrFields count a.2 a.1)), none) := by
  induction as generalizing i with
  | nil => rfl
  | cons a as ih =>
    rw [List.map_cons, columnLines, columnLine_attr]
    dsimp only
    rw [ih]
    rfl

theorem namesLine_attrs (as : List Attr) :
    namesLine (as.map (·.column)) = .ok (as.map (fun a => chars a.shownName)) := by
  induction as with
  | nil => rfl
  | cons a as ih =>
    rw [List.map_cons, namesLine]
    show (namesLine (as.map (·.column))).map (chars a.shownName :: ·) = _
    rw [ih]
    rfl

theorem eachTable_ok {α : Type} (f : Table → Printed) (g : α → Table) (lines : α → List Str) (l : List α)
    (h : ∀ x ∈ l, f (g x) = (lines x, none)) : eachTable f (l.map g) = (l.flatMap lines, none) := by
  induction l with
  | nil => rfl
  | cons x xs ih =>
    rw [List.map_cons, eachTable, h x (List.mem_cons_self ..),
      ih (fun y hy => h y (List.mem_cons_of_mem _ hy))]
    rfl

/-- C167.  Of every database whose parts are in a file the script shows the tables in order, each with its columns
in order. -/
theorem C167_schema (data : Bytes) (d : Database) (hd : d.Ok) (h : FileOf data d) :
    script false data =
      (["Keychain database file schema:".toList] ++ d.infos.flatMap (schemaLines d) ++ [[]], none) := by
  have hk : ∀ i ∈ d.infos, schemaTable ⟨i.1, i.2, d.columns i.1, d.records i.1⟩ = (schemaLines d i, none) := by
    intro i _
    unfold schemaTable
    dsimp only
    rw [Database.columns, columnLines_attrs, List.length_map]
    rfl
  rw [script, C50_database_partial data d hd h]
  dsimp only
  rw [if_neg (by simp), Database.tables, eachTable_ok schemaTable _ (schemaLines d) d.infos hk]
  generalize "Keychain database file schema:".toList = x
  rfl

/-- C167.  With the content: the tables in order, each with the names of its columns and its records in order. -/
theorem C167_content (data : Bytes) (d : Database) (hd : d.Ok) (h : FileOf data d) :
    script true data = (d.infos.flatMap (contentLines d), none) := by
  have hk : ∀ i ∈ d.infos, contentTable ⟨i.1, i.2, d.columns i.1, d.records i.1⟩ = (contentLines d i, none) := by
    intro i _
    unfold contentTable
    dsimp only
    rw [Database.columns, namesLine_attrs]
    rfl
  rw [script, C50_database_partial data d hd h]
  dsimp only
  rw [if_pos rfl, Database.tables, eachTable_ok contentTable _ (contentLines d) d.infos hk]

theorem typeText_noTab (f : Nat) : '\t' ∉ typeText f := by
  unfold typeText
  have hall : ∀ p ∈ dataTypes, '\t' ∉ p.2.toList := by decide +kernel
  split
  · rename_i p hp
    exact hall p (List.mem_of_find?_eq_some hp)
  · rw [List.mem_append, not_or]
    exact ⟨by decide +kernel, Formats.hexw_notMem _ _ _ (by decide)⟩

/-- C167.  The fields of the line of a column are found by its tabs, if its name has none. -/
theorem C167_fields (count index : Nat) (a : Attr) (h : (9 : UInt8) ∉ a.shownName) (hl : ∀ x ∈ a.shownName, x.toNat < 128) :
    Text.splitOn '\t' (Text.join ['\t'] (attrFields count index a)) = attrFields count index a := by
  apply Text.splitOn_join
  · simp [attrFields]
  · have hd : ∀ n, '\t' ∉ Text.digits 10 n := fun n => Formats.dec_notMem n '\t' (by decide)
    have hc : '\t' ∉ chars a.shownName := by
      intro hm
      obtain ⟨x, hx, he⟩ := List.mem_map.mp hm
      have key : ∀ n : Fin 128, Char.ofNat n.val = '\t' → n.val = 9 := by decide +kernel
      have := key ⟨x.toNat, hl x hx⟩ he
      exact h (by rw [← UInt8.toNat_inj.mp (show x.toNat = (9 : UInt8).toNat from this)]; exact hx)
    intro p hp
    simp only [attrFields, List.mem_cons, List.not_mem_nil, or_false] at hp
    rcases hp with rfl | rfl | rfl | rfl | rfl
    · simp
    · exact hd _
    · split
      · exact hd _
      · simp
    · split
      · decide +kernel
      · exact hc
    · exact typeText_noTab _

/-- C167.  The text of a data type tells the data type. -/
theorem C167_types (f g : Nat) (h : typeText f = typeText g) : f = g := by
  have hname : ∀ p ∈ dataTypes, p.2.toList.take 2 ≠ "0x".toList := by decide +kernel
  have hinj : ∀ p ∈ dataTypes, ∀ q ∈ dataTypes, p.2.toList = q.2.toList → p = q := by decide +kernel
  have hx : ∀ n, ("0x".toList ++ Formats.hexw 8 n).take 2 = "0x".toList := fun n => rfl
  unfold typeText at h
  cases hf : dataTypes.find? (fun p => p.1 == f) with
  | none =>
    cases hg : dataTypes.find? (fun p => p.1 == g) with
    | none =>
      rw [hf, hg] at h
      exact Formats.hexw_injective 8 _ _ (List.append_cancel_left h)
    | some q =>
      rw [hf, hg] at h
      dsimp only at h
      exact (hname q (List.mem_of_find?_eq_some hg) (by rw [← h, hx])).elim
  | some p =>
    have hp := List.mem_of_find?_eq_some hf
    have hpf := List.find?_some hf
    cases hg : dataTypes.find? (fun p => p.1 == g) with
    | none =>
      rw [hf, hg] at h
      dsimp only at h
      exact (hname p hp (by rw [h, hx])).elim
    | some q =>
      rw [hf, hg] at h
      dsimp only at h
      have hqg := List.find?_some hg
      have := hinj p hp q (List.mem_of_find?_eq_some hg) h
      rw [this] at hpf
      simp only [beq_iff_eq] at hpf hqg
      omega

/-- C167.  The text of a data type tells how the values of a column are read. -/
theorem C167_kinds (f : Nat) (b : Bytes) (start off : Nat) (v : Value) (h : readValue (some f) b start off = .ok v) (hv : v ≠ .null) :
    (typeText f = "String with size".toList ∧ ∃ s, v = .text s) ∨
    ((typeText f = "Integer 32-bit signed".toList ∨ typeText f = "Integer 32-bit unsigned".toList) ∧ ∃ n, v = .int n) ∨
    (typeText f = "Date and time".toList ∧ ∃ s, v = .date s) ∨
    (typeText f = "Binary data".toList ∧ ∃ s, v = .blob s) := by
  have hof : ∀ {β : Type} (g : β → Value) (r : Res (Option β)), ofOption g r = .ok v → ∃ x, v = g x := by
    intro β g r hr
    cases r with
    | error e => cases hr
    | ok o =>
      cases o with
      | none => exact (hv (Except.ok.inj hr).symm).elim
      | some x => exact ⟨x, (Except.ok.inj hr).symm⟩
  unfold readValue at h
  split at h
  · rename_i e; cases e; exact .inl ⟨by decide +kernel, hof _ _ h⟩
  · rename_i e; cases e; exact .inr (.inl ⟨.inl (by decide +kernel), hof _ _ h⟩)
  · rename_i e; cases e; exact .inr (.inl ⟨.inr (by decide +kernel), hof _ _ h⟩)
  · rename_i e; cases e; exact .inr (.inr (.inl ⟨by decide +kernel, hof _ _ h⟩))
  · rename_i e; cases e; exact .inr (.inr (.inr ⟨by decide +kernel, hof _ _ h⟩))
  · exact (hv (Except.ok.inj h).symm).elim

/-- C167.  Values of columns of other data types, such as floating-point, are always shown as no value. -/
theorem C167_unread (f : Nat) (hf : f ∉ [0, 1, 2, 5, 6]) (b : Bytes) (start off : Nat) :
    ∃ v, readValue (some f) b start off = .ok v ∧ showValue v = "NULL".toList := by
  refine ⟨.null, ?_, rfl⟩
  simp only [List.mem_cons, List.not_mem_nil, or_false, not_or] at hf
  unfold readValue
  split
  all_goals first | rfl | (rename_i e; cases e; omega)

/-- The texts of the data types that are not read but have one. -/
example : typeText 3 = "CSSM_DB_ATTRIBUTE_FORMAT_BIG_NUM".toList ∧ typeText 4 = "Floating-point 64-bit".toList ∧
    typeText 7 = "CSSM_DB_ATTRIBUTE_FORMAT_MULTI_UINT32".toList ∧ typeText 8 = "CSSM_DB_ATTRIBUTE_FORMAT_COMPLEX".toList ∧
    typeText 9 = "0x00000009".toList := by decide +kernel

/-- C167.  It would be nice if the identifiers of all columns were shown. -/
def C167_identifiers_claim : Prop :=
  ∀ (count index : Nat) (a b : Attr), attrFields count index a = attrFields count index b → a.ident = b.ident

/-- An identifier of four characters is not shown. -/
theorem C167_identifiers_claim_false : ¬ C167_identifiers_claim := fun h => by
  have := h 1 0 ⟨9, 0x6e616d65, 0, some [110], 2⟩ ⟨9, 0x6e616d66, 0, some [110], 2⟩ (by decide +kernel)
  revert this
  decide

/-- C167.  Those below the number of columns are. -/
theorem C167_identifiers_partial (count index : Nat) (a b : Attr) (ha : a.ident < count) (hb : b.ident < count)
    (h : attrFields count index a = attrFields count index b) : a.ident = b.ident := by
  unfold attrFields at h
  simp only [List.cons.injEq] at h
  obtain ⟨_, _, h, _⟩ := h
  rw [if_pos ha, if_pos hb] at h
  exact Formats.dec_injective _ _ h

/-- C167.  It would be nice if the values of a record were below the names of their columns. -/
def C167_below_claim : Prop :=
  ∀ (data : Bytes) (d : Database), d.Ok → FileOf data d → ∀ i ∈ d.infos, ∀ r ∈ d.records i.1,
    r.shown.length = (d.columns i.1).length

/-- C167.  For tables that are not those of the schema they are: in every record the value with an index is that of
the column with the index. -/
theorem C167_below_partial (d : Database) (id : Nat) (hid : 2 < id) (r : Nat × List (List Stored))
    (hr : r ∈ d.rows) (he : r.1 = id) (values : List Stored) (hv : values ∈ r.2)
    (hlen : values.length = (d.columns id).length) :
    ∃ rec ∈ d.records id, rec.shown.length = (d.columns id).length ∧
      rec.shown = values.map (fun v => showValue v.value) := by
  refine ⟨rowOf (d.columns id) values, ?_, ?_, ?_⟩
  · rw [Database.records, if_neg (by omega), if_neg (by omega)]
    refine List.mem_flatMap.mpr ⟨r, List.mem_filter.mpr ⟨hr, by simp [he]⟩, List.mem_map.mpr ⟨values, hv, rfl⟩⟩
  · simp [rowOf, Record.shown, hlen]
  · rw [rowOf, Record.shown]
    have : ∀ (l : List (Option Bytes)) (vs : List Stored), vs.length = l.length →
        (l.zip (vs.map (·.value))).map (fun v => showValue v.2) = vs.map (fun v => showValue v.value) := by
      intro l
      induction l with
      | nil =>
        intro vs h
        have : vs = [] := List.length_eq_zero_iff.mp h
        subst this
        rfl
      | cons x l ih =>
        intro vs h
        cases vs with
        | nil => rfl
        | cons v vs =>
          simp only [List.map_cons, List.zip_cons_cons, List.cons.injEq, true_and]
          exact ih vs (by simpa using h)
    exact this _ values (by simpa using hlen)

/-- C167.  The records of the attributes are shown with five values, though six are stored: that of the other kind
of name is left out, so that the data type is below its name. -/
theorem C167_attributes (d : Database) (r : Record) (hr : r ∈ d.records 2) : r.shown.length = 5 := by
  rw [Database.records, if_neg (by omega), if_pos rfl] at hr
  obtain ⟨a, _, rfl⟩ := List.mem_map.mp hr
  rfl

/-- The columns of the table of attributes, as they are in a keychain. -/
def attributesSchema : List Attr :=
  [⟨2, 0, 0, some "RelationID".toUTF8.toList, 2⟩, ⟨2, 1, 0, some "AttributeID".toUTF8.toList, 2⟩,
    ⟨2, 2, 0, some "AttributeNameFormat".toUTF8.toList, 2⟩, ⟨2, 3, 0, some "AttributeName".toUTF8.toList, 0⟩,
    ⟨2, 4, 0, some "AttributeNameID".toUTF8.toList, 6⟩, ⟨2, 5, 0, some "AttributeFormat".toUTF8.toList, 2⟩]

example : (Database.columns ⟨[(0, [97]), (2, [98])], attributesSchema, []⟩ 2).length = 6 ∧
    (Database.records ⟨[(0, [97]), (2, [98])], attributesSchema, []⟩ 2).length = 6 := by decide

/-- C167.  It would be nice if the text told no value from a value. -/
def C167_null_claim : Prop := ∀ v : Value, showValue v = showValue .null → v = .null

theorem C167_null_claim_false : ¬ C167_null_claim := fun h =>
  absurd (h (.text [78, 85, 76, 76]) (by decide +kernel)) (by decide)

/-- C167.  Numbers and binary data are told from each other and from no value. -/
theorem C167_null_partial (v w : Value) (hv : ∀ s, v ≠ .text s ∧ v ≠ .date s) (hw : ∀ s, w ≠ .text s ∧ w ≠ .date s)
    (h : showValue v = showValue w) : v = w := by
  have hN : ∀ n, Formats.dec n ≠ "NULL".toList := by
    intro n e
    exact Formats.dec_notMem n 'N' (by decide) (by rw [e]; decide)
  have hb : ∀ n s, Formats.dec n ≠ 'b' :: s := by
    intro n s e
    exact Formats.dec_notMem n 'b' (by decide) (by rw [e]; simp)
  cases v with
  | text s => exact ((hv s).1 rfl).elim
  | date s => exact ((hv s).2 rfl).elim
  | null =>
    cases w with
    | text s => exact ((hw s).1 rfl).elim
    | date s => exact ((hw s).2 rfl).elim
    | null => rfl
    | int n => exact (hN n h.symm).elim
    | blob s => simp [showValue] at h
  | int n =>
    cases w with
    | text s => exact ((hw s).1 rfl).elim
    | date s => exact ((hw s).2 rfl).elim
    | null => exact (hN n h).elim
    | int m => rw [Formats.dec_injective n m h]
    | blob s => exact (hb n _ h).elim
  | blob s =>
    cases w with
    | text s => exact ((hw s).1 rfl).elim
    | date s => exact ((hw s).2 rfl).elim
    | null => simp [showValue] at h
    | int m => exact (hb m _ h.symm).elim
    | blob t =>
      simp only [showValue, List.cons.injEq, true_and] at h
      rw [IndexedDB.C19_repr_injective _ _ h]

/-- C167.  A column without name ends the mode for the content after the line of its table. -/
theorem C167_no_name (before after : List Column) (format ident : Option Nat) (t : Table)
    (ht : t.columns = before ++ ⟨format, ident, none⟩ :: after) (data : Bytes) (done rest : List Table)
    (hf : readFile data = .ok (done ++ t :: rest)) (lines : List Str)
    (hd : eachTable contentTable done = (lines, none)) :
    script true data = (lines ++ [tableLine t], some .typeError) := by
  have hn : ∀ cs : List Column, namesLine (cs ++ ⟨format, ident, none⟩ :: after) = .error .typeError := by
    intro cs
    induction cs with
    | nil => rfl
    | cons c cs ih =>
      rw [List.cons_append, namesLine]
      split
      · rfl
      · rw [ih]; rfl
  have hc : contentTable t = ([tableLine t], some .typeError) := by
    unfold contentTable
    rw [ht, hn]
    rfl
  have key : ∀ (l : List Table) (ls : List Str), eachTable contentTable l = (ls, none) →
      eachTable contentTable (l ++ t :: rest) = (ls ++ [tableLine t], some .typeError) := by
    intro l
    induction l with
    | nil =>
      intro ls hl
      simp only [eachTable, Prod.mk.injEq, and_true] at hl
      subst hl
      rw [List.nil_append, eachTable, hc]
      rfl
    | cons x xs ih =>
      intro ls hl
      rw [List.cons_append, eachTable]
      rw [eachTable] at hl
      generalize contentTable x = p at hl
      obtain ⟨a, e⟩ := p
      cases e with
      | some e =>
        simp [Printed.andThen] at hl
      | none =>
        generalize hq : eachTable contentTable xs = q at hl
        obtain ⟨b, e⟩ := q
        rw [andThen_ok] at hl
        simp only [Prod.mk.injEq] at hl
        obtain ⟨rfl, rfl⟩ := hl
        rw [ih b hq, andThen_ok, List.append_assoc]
  rw [script, hf]
  dsimp only
  rw [if_pos rfl, key done lines hd]

/-- C167.  Such a column comes from a record of an attribute that has neither a name nor an identifier; it is in
the way of both modes. -/
theorem C167_no_identifier (count index : Nat) (c : Column) (h : c.ident = none) :
    columnLine count index c = .error .typeError := by
  unfold columnLine
  rw [h]

theorem C167_below_claim_false : ¬ C167_below_claim := fun h => by
  have hs := sample_fileOf
  have := h _ _ hs.2 hs.1 (2, [98]) (by decide) ((sampleDatabase.records 2).head (by decide)) (List.head_mem _)
  revert this
  decide

/-- The output for the sample: a table of two columns, one of which has no name but its identifier. -/
example : ((script true (sampleFile [20, 187, 356])).1.map String.ofList).drop 11 =
    ["Table: c (0x00000009)", "name\tn", "hi\t7", ""] := by
  rw [C167_content _ _ sample_fileOf.2 sample_fileOf.1]
  decide +kernel
example : ((script false (sampleFile [20, 187, 356])).1.map String.ofList).drop 11 =
    ["\tColumn\tIdentifier\tName\tType", "\t0\t\tname\tString with size", "\t1\t\tn\tInteger 32-bit unsigned", "", ""] := by
  rw [C167_schema _ _ sample_fileOf.2 sample_fileOf.1]
  decide +kernel


end Dtf.Keychain
