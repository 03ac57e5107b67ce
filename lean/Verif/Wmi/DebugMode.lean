import Verif.Wmi.Mapping
import Verif.Wmi.Classes
import Verif.Formats.Props

/-!
# Debug mode of the files of the WMI repository (C176)

The readers of index pages, mapping files and repository files with the formatting of page numbers and offsets that debug mode
adds.  Simplified: of the text that is written only the page numbers are here.  The structures that are shown without raising
are those of C175.
-/

namespace Dtf.Wmi
open Py DataFormat Text

/-! ## Model -/

/-- `_FormatIntegerAsPageNumber` (wmi_repository.py 375-387 and 705-717). -/
def pageNumberText (unavailable : List Nat) (n : Nat) : List Char :=
  if n ∈ unavailable then "0x".toList ++ Formats.hexw 8 n ++ " (unavailable)".toList else Formats.dec n

/-- `value_string, _ = text`, of which the first is shown. -/
def firstOf (text : List Char) : Res Char :=
  match unpack2 text with
  | .error e => .error e
  | .ok (a, _) => .ok a

/-- The unavailable page numbers of index files (wmi_repository.py 333). -/
def indexUnavailable : List Nat := [0, 0xFFFFFFFF]

/-- The unavailable page numbers of mapping files (wmi_repository.py 665). -/
def mapUnavailable : List Nat := [0xFFFFFFFF]

/-- `_DebugPrintPageBody` (wmi_repository.py 335-373): what is shown as the numbers of the sub pages. -/
def debugBody (body : Body) : Res (List Char) :=
  match mapOk (fun n => firstOf (pageNumberText indexUnavailable n)) body.subPages with
  | .error e => .error e
  | .ok shown =>
    match mapOk (fun o : Nat => firstOf (Formats.offset (o : Int))) body.keyOffsets with
    | .error e => .error e
    | .ok _ =>
      match mapOk (fun o : Nat => firstOf (Formats.offset (o : Int))) body.valueOffsets with
      | .error e => .error e
      | .ok _ => .ok shown

/-- A key (wmi_repository.py 529-550), which is shown with its offset in bytes. -/
def debugKey (debug : Bool) (keyData : Bytes) (o : Nat) : Res (List Nat) :=
  match (if debug then (firstOf (Formats.offset ((o * 2 : Nat) : Int))).map (fun _ => ()) else .ok () : Res Unit) with
  | .error e => .error e
  | .ok _ => orParseError (parseKey (keyData.drop (o * 2)))

/-- `_ReadPage` (wmi_repository.py 401-486) with debug mode, and the numbers of sub pages that are shown. -/
def readPageWith (debug : Bool) (page : Bytes) : Res (IndexPage × List Char) :=
  let pageType := leNat (slice page 0 4)
  let rootPage := leNat (slice page 12 16)
  if pageType = 0xACCC then
    match parseBody (page.drop 16) with
    | none => .error .parseError
    | some body =>
      match (if debug then debugBody body else .ok [] : Res (List Char)) with
      | .error e => .error e
      | .ok shown =>
        match mapOk (debugKey debug body.keyData) body.keyOffsets with
        | .error e => .error e
        | .ok segments =>
          match mapOk (fun o => orParseError (asciiString (body.valueData.drop o))) body.valueOffsets with
          | .error e => .error e
          | .ok values =>
            match mapOk (keyPath values) segments with
            | .error e => .error e
            | .ok keys =>
              .ok (⟨pageType, rootPage, keys, body.subPages.filter (fun n => n ≠ 0 ∧ n ≠ 0xFFFFFFFF)⟩, shown)
  else .ok (⟨pageType, rootPage, [], []⟩, [])

/-- `_ReadUnknownTable` and `_DebugPrintUnknownTable` (wmi_repository.py 690-703 and 819-841). -/
def readUnknownTableWith (debug : Bool) (b : Bytes) : Res Bytes :=
  match takeInt 4 b with
  | none => .error .parseError
  | some (n, b) =>
    match takeInts 4 n b with
    | none => .error .parseError
    | some (entries, b) =>
      match (if debug then mapOk (fun n => firstOf (pageNumberText mapUnavailable n)) entries else .ok [] : Res (List Char)) with
      | .error e => .error e
      | .ok _ => .ok b

/-- The tables after a header (wmi_repository.py 877-880 and 897-900). -/
def readMapTablesWith (debug : Bool) (version : Nat) (b : Bytes) : Res (List Nat × Bytes) :=
  match readMapTable version b with
  | .error e => .error e
  | .ok (table, b) =>
    match readUnknownTableWith debug b with
    | .error e => .error e
    | .ok b =>
      match readMapFooter b with
      | .error e => .error e
      | .ok b => .ok (table, b)

/-- `ReadFileObject` of the mapping file (wmi_repository.py 859-900) with debug mode. -/
def readMappingFileWith (debug : Bool) (data : Bytes) : Res MappingFile :=
  match mapVersion data with
  | .error e => .error e
  | .ok version =>
    match readMapHeader version data with
    | .error e => .error e
    | .ok (header, b) =>
      match readMapTablesWith debug version b with
      | .error e => .error e
      | .ok (table1, b) =>
        if version = 2 ∨ b ≠ [] then
          match readMapHeader version b with
          | .error e =>
            if version = 2 then .error e else .ok ⟨version, header.sequence, table1, none⟩
          | .ok (_, b) =>
            match readMapTablesWith debug version b with
            | .error e => .error e
            | .ok (table2, _) => .ok ⟨version, header.sequence, table1, some table2⟩
        else .ok ⟨version, header.sequence, table1, none⟩

/-- `_ReadNodeCell` (wmi_repository.py 1679-1713) with debug mode. -/
def cellSizeWith (debug : Bool) (data : Bytes) (offset : Nat) : Res Nat :=
  match cellSize data offset with
  | .error e => .error e
  | .ok size =>
    if debug then
      match firstOf (Formats.offset (offset : Int)) with
      | .error e => .error e
      | .ok _ =>
        match firstOf (Formats.offset ((offset + 4 : Nat) : Int)) with
        | .error e => .error e
        | .ok _ => .ok size
    else .ok size

/-- The loop of `ReadFileObject` of the repository file (wmi_repository.py 2107-2137) with debug mode, in which it goes on
when both nodes are found. -/
def cellLoopWith (debug : Bool) (data : Bytes) (rootCell systemCell : Nat) : Nat → Nat → Nat → Nat → Nodes → Option (Res Nodes)
  | 0, _, _, _, _ => none
  | fuel + 1, offset, nextBin, number, nodes =>
    if offset < data.length then
      let bin : Res (Nat × Nat) :=
        if offset = nextBin then
          match dataAt data offset 4 with
          | .error e => .error e
          | .ok b => .ok (offset + 4, nextBin + leNat b)
        else .ok (offset, nextBin)
      match bin with
      | .error e => some (.error e)
      | .ok (offset, nextBin) =>
        match cellSizeWith debug data offset with
        | .error e => some (.error e)
        | .ok size =>
          if size = 0 then some (.ok nodes)
          else
            let nodes : Nodes :=
              if rootCell = number then { nodes with root := some (offset + 4) }
              else if systemCell = number then { nodes with system := some (offset + 4) }
              else nodes
            if debug = false ∧ nodes.root.isSome ∧ nodes.system.isSome then some (.ok nodes)
            else cellLoopWith debug data rootCell systemCell fuel (offset + size % 2 ^ 27) nextBin (number + 1) nodes
    else some (.ok nodes)

def readCellsWith (debug : Bool) (data : Bytes) (fuel : Nat) : Option (Res Nodes) :=
  match dataAt data 0 40 with
  | .error e => some (.error e)
  | .ok h => cellLoopWith debug data (leNat (slice h 4 8)) (leNat (slice h 0 4)) fuel 40 (leNat (slice h 36 40)) 0 ⟨none, none⟩

/-! ## Without debug mode -/

/-- C176.  Without debug mode these are the readers of C37, C86, C87 and C92. -/
theorem C176_plain (data : Bytes) (fuel : Nat) :
    (readPageWith false data).map (·.1) = readIndexPage data ∧ readMappingFileWith false data = readMappingFile data ∧
      readCellsWith false data fuel = readCells data fuel := by
  have hk : ∀ k, debugKey false k = fun o => orParseError (parseKey (k.drop (o * 2))) := fun k => rfl
  have hu : readUnknownTableWith false = readUnknownTable := by
    funext b
    unfold readUnknownTableWith readUnknownTable
    rfl
  have ht : readMapTablesWith false = readMapTables := by
    funext v b
    unfold readMapTablesWith readMapTables
    rw [hu]
    rfl
  have hc : cellSizeWith false data = cellSize data := by
    funext o
    unfold cellSizeWith
    cases cellSize data o <;> rfl
  have hl : ∀ r s fuel o n k nodes, cellLoopWith false data r s fuel o n k nodes = cellLoop data r s fuel o n k nodes := by
    intro r s fuel
    induction fuel with
    | zero => intros; rfl
    | succ fuel ih =>
      intro o n k nodes
      unfold cellLoopWith cellLoop
      rw [hc]
      simp only [ih, true_and]
      rfl
  refine ⟨?_, ?_, ?_⟩
  · unfold readPageWith readIndexPage
    dsimp only
    split
    · cases parseBody (data.drop 16) with
      | none => rfl
      | some body =>
        dsimp only
        rw [if_neg (by decide)]
        dsimp only
        rw [hk]
        cases mapOk (fun o => orParseError (parseKey (body.keyData.drop (o * 2)))) body.keyOffsets with
        | error e => rfl
        | ok segments =>
          dsimp only
          cases mapOk (fun o => orParseError (asciiString (body.valueData.drop o))) body.valueOffsets with
          | error e => rfl
          | ok values =>
            dsimp only
            cases mapOk (keyPath values) segments <;> rfl
    · rfl
  · unfold readMappingFileWith readMappingFile
    rw [ht]
    rfl
  · unfold readCellsWith readCells
    simp only [hl]
    rfl

/-! ## Lengths of texts -/

theorem digits_two (n : Nat) : (digits 10 n).length = 2 ↔ 10 ≤ n ∧ n ≤ 99 := by
  have h1 : ∀ n, n < 10 → (digits 10 n).length = 1 := by
    intro n h
    rw [digits_eq, if_neg (by omega)]
    rfl
  have h2 : ∀ n, 10 ≤ n → (digits 10 n).length = (digits 10 (n / 10)).length + 1 := by
    intro n h
    rw [digits_eq, if_pos (by omega)]
    simp
  constructor
  · intro h
    by_cases ha : n < 10
    · rw [h1 n ha] at h
      omega
    · refine ⟨by omega, ?_⟩
      by_contra hb
      rw [h2 n (by omega), h2 (n / 10) (by omega)] at h
      have := List.length_pos_iff.mpr (digits_ne_nil 10 (n / 10 / 10))
      omega
  · rintro ⟨ha, hb⟩
    rw [h2 n ha, h1 _ (by omega)]

theorem firstOf_ok (s : List Char) (c : Char) : firstOf s = .ok c ↔ s.length = 2 ∧ s.head? = some c := by
  unfold firstOf unpack2
  match s with
  | [] => simp
  | [a] => simp
  | [a, b] => simp
  | a :: b :: d :: r => simp

theorem firstOf_error (s : List Char) (h : s.length ≠ 2) : firstOf s = .error .valueError := by
  unfold firstOf unpack2
  match s with
  | [] => rfl
  | [a] => rfl
  | [a, b] => exact absurd rfl h
  | a :: b :: d :: r => rfl

theorem offset_long (o : Nat) : firstOf (Formats.offset (o : Int)) = .error .valueError := by
  refine firstOf_error _ ?_
  unfold Formats.offset
  simp only [List.length_append, List.length_cons, List.length_nil]
  omega

theorem pageNumber_first (u : List Nat) (n : Nat) (hu : ∀ k ∈ u, ¬ (10 ≤ k ∧ k ≤ 99)) :
    firstOf (pageNumberText u n) = if 10 ≤ n ∧ n ≤ 99 then .ok (digitChar (n / 10)) else .error .valueError := by
  by_cases h : 10 ≤ n ∧ n ≤ 99
  · rw [if_pos h]
    unfold pageNumberText
    rw [if_neg fun hm => hu n hm h, firstOf_ok]
    refine ⟨(digits_two n).mpr h, ?_⟩
    unfold Formats.dec
    rw [digits_eq, if_pos (by omega), digits_eq, if_neg (by omega)]
    rfl
  · rw [if_neg h]
    refine firstOf_error _ ?_
    unfold pageNumberText
    split
    · simp only [List.length_append, String.length_toList]
      intro hl
      have : (" (unavailable)".length) = 14 := by decide
      have : ("0x".length) = 2 := by decide
      omega
    · exact fun hl => h ((digits_two n).mp hl)

theorem mapOk_cons_error {α β : Type} (f : α → Res β) (a : α) (l : List α) (e : Err) (h : f a = .error e) :
    mapOk f (a :: l) = .error e := by
  rw [mapOk, h]

/-- Page numbers can be shown if all have two digits, of which the first is shown. -/
theorem pageNumbers (u : List Nat) (hu : ∀ k ∈ u, ¬ (10 ≤ k ∧ k ≤ 99)) (l : List Nat) :
    mapOk (fun n => firstOf (pageNumberText u n)) l =
      if ∀ n ∈ l, 10 ≤ n ∧ n ≤ 99 then .ok (l.map fun n => digitChar (n / 10)) else .error .valueError := by
  induction l with
  | nil => rfl
  | cons n l ih =>
    rw [mapOk, pageNumber_first u n hu, ih]
    by_cases h : 10 ≤ n ∧ n ≤ 99
    · rw [if_pos h]
      dsimp only
      by_cases hl : ∀ n ∈ l, 10 ≤ n ∧ n ≤ 99
      · rw [if_pos hl, if_pos (by simpa using ⟨h, hl⟩)]
        rfl
      · rw [if_neg hl, if_neg fun h' => hl fun k hk => h' k (List.mem_cons_of_mem _ hk)]
    · have hn : ¬ ∀ k ∈ n :: l, 10 ≤ k ∧ k ≤ 99 := fun h' => h (h' n List.mem_cons_self)
      rw [if_neg h, if_neg hn]

theorem offsets_shown (l : List Nat) :
    mapOk (fun o : Nat => firstOf (Formats.offset (o : Int))) l = if l = [] then .ok [] else .error .valueError := by
  cases l with
  | nil => rfl
  | cons o l =>
    rw [if_neg (by simp)]
    exact mapOk_cons_error (fun o : Nat => firstOf (Formats.offset (o : Int))) o l _ (offset_long o)

/-- The page bodies that can be shown. -/
def Showable (body : Body) : Prop :=
  body.keyOffsets = [] ∧ body.valueOffsets = [] ∧ ∀ n ∈ body.subPages, 10 ≤ n ∧ n ≤ 99

instance (body : Body) : Decidable (Showable body) := by unfold Showable; infer_instance

theorem debugBody_eq (body : Body) :
    debugBody body = if Showable body then .ok (body.subPages.map fun n => digitChar (n / 10)) else .error .valueError := by
  unfold debugBody
  rw [pageNumbers _ (by decide), offsets_shown body.keyOffsets, offsets_shown body.valueOffsets]
  by_cases h1 : ∀ n ∈ body.subPages, 10 ≤ n ∧ n ≤ 99
  · rw [if_pos h1]
    dsimp only
    by_cases h2 : body.keyOffsets = []
    · rw [if_pos h2]
      dsimp only
      by_cases h3 : body.valueOffsets = []
      · rw [if_pos h3, if_pos ⟨h2, h3, h1⟩]
      · have hs : ¬ Showable body := fun h => h3 h.2.1
        rw [if_neg h3, if_neg hs]
    · have hs : ¬ Showable body := fun h => h2 h.1
      rw [if_neg h2, if_neg hs]
  · have hs : ¬ Showable body := fun h => h1 h.2.2
    rw [if_neg h1, if_neg hs]

/-! ## C176: index pages -/

/-- C176.  Debug mode does not change what is read of an index page. -/
def C176_index_claim : Prop := ∀ page, (readPageWith true page).map (·.1) = readIndexPage page

/-- C176.  With debug mode a page that can be read raises a ValueError unless it is not active or has no keys, no values and
only sub pages whose numbers have two digits.  Missing: all others, see `C176_index_keys`. -/
theorem C176_index_partial (page : Bytes) (p : IndexPage) (h : readIndexPage page = .ok p) :
    (leNat (slice page 0 4) ≠ 0xACCC ∧ readPageWith true page = .ok (p, [])) ∨
    ∃ body, leNat (slice page 0 4) = 0xACCC ∧ parseBody (page.drop 16) = some body ∧
      readPageWith true page = if Showable body then .ok (p, body.subPages.map fun n => digitChar (n / 10))
        else .error .valueError := by
  unfold readIndexPage at h
  dsimp only at h
  by_cases ht : leNat (slice page 0 4) = 0xACCC
  · rw [if_pos ht] at h
    refine .inr ?_
    cases hb : parseBody (page.drop 16) with
    | none =>
      rw [hb] at h
      cases h
    | some body =>
      refine ⟨body, ht, rfl, ?_⟩
      rw [hb] at h
      dsimp only at h
      unfold readPageWith
      dsimp only
      rw [if_pos ht, hb]
      dsimp only
      rw [if_pos rfl, debugBody_eq]
      by_cases hs : Showable body
      · rw [if_pos hs, if_pos hs]
        dsimp only
        rw [hs.1, hs.2.1] at h ⊢
        cases h
        rfl
      · rw [if_neg hs, if_neg hs]
  · rw [if_neg ht] at h
    cases h
    refine .inl ⟨ht, ?_⟩
    unfold readPageWith
    dsimp only
    rw [if_neg ht]

/-- C176.  No page with keys can be read in debug mode. -/
theorem C176_index_keys (page : Bytes) (p : IndexPage) (h : readIndexPage page = .ok p) (hk : p.keys ≠ []) :
    readPageWith true page = .error .valueError := by
  rcases C176_index_partial page p h with ⟨ht, _⟩ | ⟨body, ht, hb, he⟩
  · unfold readIndexPage at h
    dsimp only at h
    rw [if_neg ht] at h
    cases h
    exact absurd rfl hk
  · rw [he]
    by_cases hs : Showable body
    · unfold readIndexPage at h
      dsimp only at h
      rw [if_pos ht, hb] at h
      dsimp only at h
      rw [hs.1, hs.2.1] at h
      cases h
      exact absurd rfl hk
    · rw [if_neg hs]

/-- C176.  The text of a sub page that is shown is the first digit of its number, which is not its number. -/
theorem C176_sub_pages (page : Bytes) (p : IndexPage) (shown : List Char) (h : readPageWith true page = .ok (p, shown)) :
    shown = p.subPages.map (fun n => digitChar (n / 10)) ∧
      ∀ (i n : Nat) (c : Char), p.subPages[i]? = some n → shown[i]? = some c → [c] ≠ Formats.dec n := by
  have key : shown = p.subPages.map (fun n => digitChar (n / 10)) ∧ ∀ n ∈ p.subPages, 10 ≤ n ∧ n ≤ 99 := by
    unfold readPageWith at h
    dsimp only at h
    by_cases ht : leNat (slice page 0 4) = 0xACCC
    · rw [if_pos ht] at h
      cases hb : parseBody (page.drop 16) with
      | none =>
        rw [hb] at h
        cases h
      | some body =>
        rw [hb] at h
        dsimp only at h
        rw [if_pos rfl, debugBody_eq] at h
        by_cases hs : Showable body
        · rw [if_pos hs] at h
          dsimp only at h
          rw [hs.1, hs.2.1] at h
          cases h
          have hf : body.subPages.filter (fun n => n ≠ 0 ∧ n ≠ 0xFFFFFFFF) = body.subPages := by
            refine List.filter_eq_self.mpr fun n hn => ?_
            have := hs.2.2 n hn
            simp only [decide_eq_true_eq]
            omega
          dsimp only
          rw [hf]
          exact ⟨rfl, hs.2.2⟩
        · rw [if_neg hs] at h
          cases h
    · rw [if_neg ht] at h
      cases h
      exact ⟨rfl, by simp⟩
  refine ⟨key.1, fun i n c hn _ he => ?_⟩
  have h2 := key.2 n (List.mem_of_getElem? hn)
  have := (digits_two n).mpr h2
  have h1 := congrArg List.length he
  unfold Formats.dec at h1
  rw [this] at h1
  cases h1

/-- A page without keys or values whose only sub page is not set. -/
def emptyPage : Bytes := leBytes 4 0xACCC ++ List.replicate 12 0 ++ List.replicate 14 0

theorem C176_index_claim_false : ¬ C176_index_claim := by
  intro h
  have h' := h emptyPage
  have e1 : readIndexPage emptyPage = .ok ⟨0xACCC, 0, [], []⟩ := by rfl
  have e2 : readPageWith true emptyPage = .error .valueError := by rfl
  rw [e1, e2] at h'
  cases h'

/-- A page with a key, see `C86_keys`. -/
example : ∃ page p, readIndexPage page = .ok p ∧ p.keys ≠ [] :=
  ⟨leBytes 4 0xACCC ++ List.replicate 12 0 ++ (leBytes 4 1 ++ leBytes 4 0 ++ leBytes 4 0 ++ leBytes 4 0 ++ leBytes 2 0 ++
    leBytes 2 2 ++ leBytes 2 1 ++ leBytes 2 0 ++ leBytes 2 1 ++ leBytes 2 0 ++ leBytes 2 2 ++ [0x61, 0]),
    ⟨0xACCC, 0, ["\\a".toList], []⟩, by rfl, by simp⟩

/-- A page that is shown, whose sub page 42 is shown as page 4. -/
example : readPageWith true (leBytes 4 0xACCC ++ List.replicate 12 0 ++ (leBytes 4 0 ++ leBytes 4 42 ++ List.replicate 6 0)) =
    .ok (⟨0xACCC, 0, [], [42]⟩, ['4']) := by rfl

/-! ## C176: mapping files -/

theorem readUnknownTableWith_cases (b : Bytes) :
    readUnknownTableWith true b = readUnknownTable b ∨ readUnknownTableWith true b = .error .valueError := by
  unfold readUnknownTableWith readUnknownTable
  cases takeInt 4 b with
  | none => exact .inl rfl
  | some x =>
    dsimp only
    cases takeInts 4 x.1 x.2 with
    | none => exact .inl rfl
    | some y =>
      dsimp only
      rw [if_pos rfl, pageNumbers _ (by decide)]
      by_cases h : ∀ n ∈ y.1, 10 ≤ n ∧ n ≤ 99
      · rw [if_pos h]
        exact .inl rfl
      · rw [if_neg h]
        exact .inr rfl

theorem readMapTablesWith_cases (version : Nat) (b : Bytes) :
    readMapTablesWith true version b = readMapTables version b ∨ readMapTablesWith true version b = .error .valueError := by
  unfold readMapTablesWith readMapTables
  cases readMapTable version b with
  | error e => exact .inl rfl
  | ok x =>
    dsimp only
    rcases readUnknownTableWith_cases x.2 with h | h
    · rw [h]
      exact .inl rfl
    · rw [h]
      exact .inr rfl

/-- C176.  Debug mode does not change what is read of a mapping file. -/
def C176_mapping_claim : Prop := ∀ data, readMappingFileWith true data = readMappingFile data

/-- C176.  What is read of a mapping file is the same in debug mode unless a ValueError is raised.  Missing: when it is, see
`C176_mapping_tables`. -/
theorem C176_mapping_partial (data : Bytes) :
    readMappingFileWith true data = readMappingFile data ∨ readMappingFileWith true data = .error .valueError := by
  unfold readMappingFileWith readMappingFile
  cases mapVersion data with
  | error e => exact .inl rfl
  | ok version =>
    dsimp only
    cases readMapHeader version data with
    | error e => exact .inl rfl
    | ok x =>
      dsimp only
      rcases readMapTablesWith_cases version x.2 with h | h
      · rw [h]
        cases readMapTables version x.2 with
        | error e => exact .inl rfl
        | ok y =>
          dsimp only
          split
          · cases readMapHeader version y.2 with
            | error e => exact .inl rfl
            | ok z =>
              dsimp only
              rcases readMapTablesWith_cases version z.2 with h | h
              · rw [h]
                exact .inl rfl
              · rw [h]
                exact .inr rfl
          · exact .inl rfl
      · rw [h]
        exact .inr rfl

theorem readMapTablesWith_bytes (version : Nat) (entries : List (Nat × Bytes)) (unknown : List Nat) (rest : Bytes)
    (h1 : entries.length < 2 ^ 32) (h2 : unknown.length < 2 ^ 32)
    (h3 : ∀ e ∈ entries, e.1 < 2 ^ 32 ∧ e.2.length = (if version = 1 then 0 else 20)) (h4 : ∀ k ∈ unknown, k < 2 ^ 32) :
    readMapTablesWith true version (tablesBytes entries unknown ++ rest) =
      if ∀ k ∈ unknown, 10 ≤ k ∧ k ≤ 99 then .ok (entries.map (·.1), rest) else .error .valueError := by
  have hp := readMapTables_bytes version entries unknown rest h1 h2 h3 h4
  unfold readMapTables at hp
  unfold readMapTablesWith
  have hr : ∃ m, readMapTable version (tablesBytes entries unknown ++ rest) =
      .ok (m, leBytes 4 unknown.length ++ (unknown.flatMap (leBytes 4) ++ (leBytes 4 0xDCBA ++ rest))) := by
    unfold readMapTable tablesBytes
    simp only [List.append_assoc]
    rw [takeInt_append 4 _ _ h1]
    dsimp only
    have hc := takeInts_chunks (if version = 1 then 4 else 24) (entries.map (fun e => leBytes 4 e.1 ++ e.2))
      (leBytes 4 unknown.length ++ (unknown.flatMap (leBytes 4) ++ (leBytes 4 0xDCBA ++ rest))) (by
        intro c hc
        rw [List.mem_map] at hc
        obtain ⟨e, hm, rfl⟩ := hc
        have := (h3 e hm).2
        split <;> simp_all)
    rw [List.length_map, List.flatMap_map] at hc
    simp only [id] at hc
    rw [hc]
    exact ⟨_, rfl⟩
  obtain ⟨m, hm⟩ := hr
  rw [hm] at hp ⊢
  dsimp only at hp ⊢
  have hu : readUnknownTableWith true (leBytes 4 unknown.length ++ (unknown.flatMap (leBytes 4) ++ (leBytes 4 0xDCBA ++ rest))) =
      if ∀ k ∈ unknown, 10 ≤ k ∧ k ≤ 99 then
        readUnknownTable (leBytes 4 unknown.length ++ (unknown.flatMap (leBytes 4) ++ (leBytes 4 0xDCBA ++ rest)))
      else .error .valueError := by
    unfold readUnknownTableWith readUnknownTable
    rw [takeInt_append 4 _ _ h2]
    dsimp only
    rw [takeInts_append 4 _ _ h4]
    dsimp only
    rw [if_pos rfl, pageNumbers _ (by decide)]
    by_cases hk : ∀ k ∈ unknown, 10 ≤ k ∧ k ≤ 99
    · rw [if_pos hk, if_pos hk]
    · rw [if_neg hk, if_neg hk]
  rw [hu]
  by_cases hk : ∀ k ∈ unknown, 10 ≤ k ∧ k ≤ 99
  · rw [if_pos hk, if_pos hk]
    exact hp
  · rw [if_neg hk, if_neg hk]

/-- C176.  The mapping files of version 2 that can be read in debug mode are those whose unknown tables only have page numbers
of two digits. -/
theorem C176_mapping_tables (q u n q' u' v' n' : Nat) (e1 e2 : List (Nat × Bytes)) (k1 k2 : List Nat) (rest : Bytes)
    (hq : q < 2 ^ 32) (hu : u + 1 < 2 ^ 32) (hn : n < 2 ^ 32)
    (hq' : q' < 2 ^ 32) (hu' : u' < 2 ^ 32) (hv' : v' < 2 ^ 32) (hn' : n' < 2 ^ 32)
    (h1 : e1.length < 2 ^ 32) (h2 : e2.length < 2 ^ 32) (h3 : k1.length < 2 ^ 32) (h4 : k2.length < 2 ^ 32)
    (h5 : ∀ e ∈ e1, e.1 < 2 ^ 32 ∧ e.2.length = 20) (h6 : ∀ e ∈ e2, e.1 < 2 ^ 32 ∧ e.2.length = 20)
    (h7 : ∀ k ∈ k1, k < 2 ^ 32) (h8 : ∀ k ∈ k2, k < 2 ^ 32) :
    readMappingFileWith true (headerV2 q (u + 1) u n ++ (tablesBytes e1 k1 ++ (headerV2 q' u' v' n' ++
      (tablesBytes e2 k2 ++ rest)))) =
      if ∀ k ∈ k1 ++ k2, 10 ≤ k ∧ k ≤ 99 then .ok ⟨2, q, e1.map (·.1), some (e2.map (·.1))⟩ else .error .valueError := by
  unfold readMappingFileWith mapVersion
  rw [readMapHeader_v2 2 q (u + 1) u n _ (by omega) hq hu (by omega) hn]
  dsimp only
  rw [if_pos rfl, readMapHeader_v2 2 q (u + 1) u n _ (by omega) hq hu (by omega) hn]
  dsimp only
  rw [readMapTablesWith_bytes 2 e1 k1 _ h1 h3 h5 h7]
  by_cases ha : ∀ k ∈ k1, 10 ≤ k ∧ k ≤ 99
  · rw [if_pos ha]
    dsimp only
    rw [if_pos (.inl rfl), readMapHeader_v2 2 q' u' v' n' _ (by omega) hq' hu' hv' hn']
    dsimp only
    rw [readMapTablesWith_bytes 2 e2 k2 _ h2 h4 h6 h8]
    by_cases hb : ∀ k ∈ k2, 10 ≤ k ∧ k ≤ 99
    · rw [if_pos hb, if_pos fun k hk => (List.mem_append.mp hk).elim (ha k) (hb k)]
    · have hc : ¬ ∀ k ∈ k1 ++ k2, 10 ≤ k ∧ k ≤ 99 := fun h => hb fun k hk => h k (List.mem_append_right _ hk)
      rw [if_neg hb, if_neg hc]
  · have hc : ¬ ∀ k ∈ k1 ++ k2, 10 ≤ k ∧ k ≤ 99 := fun h => ha fun k hk => h k (List.mem_append_left _ hk)
    rw [if_neg ha, if_neg hc]

theorem C176_mapping_claim_false : ¬ C176_mapping_claim := by
  intro h
  have h1 := C176_mapping_tables 1 0 0 1 1 0 0 [] [] [5] [] [] (by omega) (by omega) (by omega) (by omega) (by omega) (by omega)
    (by omega) (by simp) (by simp) (by simp) (by simp) (by simp) (by simp) (by simp) (by simp)
  have h2 := C87_version2 1 0 0 1 1 0 0 [] [] [5] [] [] (by omega) (by omega) (by omega) (by omega) (by omega) (by omega)
    (by omega) (by simp) (by simp) (by simp) (by simp) (by simp) (by simp) (by simp) (by simp)
  rw [h, h2, if_neg (by decide)] at h1
  cases h1

/-- A mapping file that can be read in debug mode. -/
example : readMappingFileWith true (headerV2 7 1 0 3 ++ (tablesBytes [(5, List.replicate 20 0)] [42] ++ (headerV2 7 1 0 3 ++
    (tablesBytes [] [] ++ [])))) = .ok ⟨2, 7, [5], some []⟩ := by
  rw [C176_mapping_tables 7 0 3 7 1 0 3 [(5, List.replicate 20 0)] [] [42] [] [] (by omega) (by omega) (by omega) (by omega)
    (by omega) (by omega) (by omega) (by simp) (by simp) (by simp) (by simp) (by simp) (by simp) (by simp) (by simp),
    if_pos (by decide)]
  rfl

/-! ## C176: node cells -/

theorem cellSizeWith_never (data : Bytes) (offset : Nat) :
    cellSizeWith true data offset = match cellSize data offset with
      | .error e => .error e
      | .ok _ => .error .valueError := by
  unfold cellSizeWith
  cases cellSize data offset with
  | error e => rfl
  | ok size =>
    dsimp only
    rw [if_pos rfl, offset_long]

/-- C176.  Debug mode does not change which node cells are found. -/
def C176_cells_claim : Prop := ∀ data fuel nodes, readCells data fuel = some (.ok nodes) → readCellsWith true data fuel = some (.ok nodes)

/-- C176.  With debug mode the only repository that can be read is one of a header without node cells.  Missing: all others, see
`C176_cells_raise`. -/
theorem C176_cells_partial (data : Bytes) (fuel : Nat) (nodes : Nodes) :
    readCellsWith true data (fuel + 1) = some (.ok nodes) ↔ data.length = 40 ∧ nodes = ⟨none, none⟩ := by
  unfold readCellsWith
  by_cases hs : data.length < 40
  · rw [dataAt_short data 0 40 (by omega) (by omega)]
    simp only [Option.some.injEq, reduceCtorEq, false_iff, not_and]
    omega
  rw [dataAt_ok data 0 40 (by omega)]
  dsimp only
  unfold cellLoopWith
  by_cases hl : 40 < data.length
  · rw [if_pos hl]
    generalize (if 40 = leNat (slice (slice data 0 (0 + 40)) 36 40) then
        match dataAt data 40 4 with
        | .error e => .error e
        | .ok b => .ok (40 + 4, leNat (slice (slice data 0 (0 + 40)) 36 40) + leNat b)
      else .ok (40, leNat (slice (slice data 0 (0 + 40)) 36 40)) : Res (Nat × Nat)) = bin
    have hn : ¬ (data.length = 40 ∧ nodes = ⟨none, none⟩) := by omega
    cases bin with
    | error e => simp [hn]
    | ok x =>
      dsimp only
      rw [cellSizeWith_never]
      cases cellSize data x.1 <;> simp [hn]
  · rw [if_neg hl]
    simp only [Option.some.injEq, Except.ok.injEq]
    constructor
    · exact fun h => ⟨by omega, h.symm⟩
    · exact fun h => h.2.symm

/-- C176.  A repository with node cells that can be read raises a ValueError in debug mode. -/
theorem C176_cells_raise (data : Bytes) (fuel : Nat) (nodes : Nodes) (h : readCells data fuel = some (.ok nodes))
    (hl : 40 < data.length) : readCellsWith true data fuel = some (.error .valueError) := by
  unfold readCells at h
  unfold readCellsWith
  cases hd : dataAt data 0 40 with
  | error e =>
    rw [hd] at h
    cases h
  | ok b =>
    rw [hd] at h
    dsimp only at h ⊢
    cases fuel with
    | zero => cases h
    | succ fuel =>
      unfold cellLoop at h
      unfold cellLoopWith
      rw [if_pos hl] at h ⊢
      generalize hb : (if 40 = leNat (slice b 36 40) then
          match dataAt data 40 4 with
          | .error e => .error e
          | .ok b_1 => .ok (40 + 4, leNat (slice b 36 40) + leNat b_1)
        else .ok (40, leNat (slice b 36 40)) : Res (Nat × Nat)) = bin at h ⊢
      cases bin with
      | error e => cases h
      | ok x =>
        dsimp only at h ⊢
        rw [cellSizeWith_never]
        cases hc : cellSize data x.1 with
        | error e =>
          rw [hc] at h
          cases h
        | ok size => rfl

/-- A repository whose only node cell is empty. -/
theorem emptyCells : readCells (List.replicate 44 0) 1 = some (.ok ⟨none, none⟩) := by rfl

theorem C176_cells_claim_false : ¬ C176_cells_claim := by
  intro h
  have h1 := h (List.replicate 44 0) 1 _ emptyCells
  rw [C176_cells_raise _ _ _ emptyCells (by simp)] at h1
  cases h1

/-- The repository without node cells. -/
example : readCellsWith true (List.replicate 40 0) 1 = some (.ok ⟨none, none⟩) :=
  (C176_cells_partial _ 0 _).mpr ⟨by simp, rfl⟩

end Dtf.Wmi
