import Verif.Scripts.Analyzer
import Verif.Slices

/-!
# What the analyzer shows of VHDX images (C171)
-/

namespace Dtf.Analyzer
open Py Text DataFormat

/-! ## Specification -/

/-- A number in hexadecimal or decimal, of the bytes from `start` to `stop`. -/
def hexadecimal (b : Bytes) (start stop : Nat) : Str := ['0', 'x'] ++ Formats.hexw 8 (leNat (slice b start stop))

def decimal (b : Bytes) (start stop : Nat) : Str := digits 10 (leNat (slice b start stop))

/-- A name and the text of its value. -/
def line (name : String) (text : Str) : Str := Formats.formatValue name.toList text

/-- The text of the file information, of its bytes and the text of the creator. -/
def informationText (b : Bytes) (creator : Str) : Str :=
  "Signature:\n".toList ++ HexDump.dump (b.take 8) ++
  (if '\n' ∈ stripped creator then "Creator:\n".toList ++ stripped creator else line "Creator" (stripped creator)) ++
  "Unknown1:\n".toList ++ HexDump.dump (b.drop 520)

/-- The text of a header. -/
def headerText (b : Bytes) : Str :=
  "Signature:\n".toList ++ HexDump.dump (b.take 4) ++ line "Checksum" (hexadecimal b 4 8) ++
  line "Sequence number" (decimal b 8 16) ++ line "File write identifier" (uuidString (ordered (slice b 16 32))) ++
  line "Data write identifier" (uuidString (ordered (slice b 32 48))) ++
  line "Log identifier" (uuidString (ordered (slice b 48 64))) ++ line "Log size" (decimal b 64 68) ++
  line "Log offset" (hexadecimal b 68 76) ++ "Unknown1:\n".toList ++ HexDump.dump (b.drop 76)

/-- The text of an entry of a region table. -/
def entryText (b : Bytes) : Str :=
  line "Region type identifier" (uuidString (ordered (b.take 16))) ++ line "Region data offset" (hexadecimal b 16 24) ++
  line "Region data size" (decimal b 24 28) ++ line "Is required flag" (decimal b 28 32) ++ ['\n']

/-- The text of a region table, of the bytes from its start. -/
def regionText (b : Bytes) : Str :=
  "Signature:\n".toList ++ HexDump.dump (b.take 4) ++ line "Checksum" (hexadecimal b 4 8) ++
  line "Number of entries" (decimal b 8 12) ++ line "Unknown1" (decimal b 12 16) ++ "Entries:\n\n".toList ++
  ((List.range (leNat (slice b 8 12))).map (fun i =>
    "Entry: ".toList ++ digits 10 i ++ ['\n'] ++ entryText (slice b (16 + 32 * i) (16 + 32 * i + 32)))).flatten

/-- The headings and texts up to the first structure that cannot be read, and whether there is none. -/
def untilNone : List (Str × Option Str) → Str × Bool
  | [] => ([], true)
  | (h, none) :: _ => (h, false)
  | (h, some t) :: ts => (h ++ t ++ (untilNone ts).1, (untilNone ts).2)

/-- The bytes of a part of the file. -/
def part (data : Bytes) (off size : Nat) : Bytes := (data.drop off).take size

/-- The size of the region table at an offset. -/
def regionSize (data : Bytes) (off : Nat) : Nat := 16 + 32 * leNat (slice data (off + 8) (off + 12))

/-- What the file information is shown as, if the file has all of it, its signature is accepted and the creator can be
decoded. -/
def informationShown (env : Env) (data : Bytes) : Option Str :=
  if 65536 ≤ data.length ∧ env.accepts "vhdxfile".toUTF8.toList (data.take 8) then
    (env.decode (slice data 8 520)).map (fun s =>
      "File_information data:\n".toList ++ HexDump.dump (data.take 65536) ++ informationText (data.take 65536) s)
  else none

/-- What a header is shown as, if the file has all of it and its signature is accepted. -/
def headerShown (env : Env) (data : Bytes) (off : Nat) : Option Str :=
  if off + 4092 ≤ data.length ∧ env.accepts "head".toUTF8.toList (slice data off (off + 4)) then
    some ("Header data:\n".toList ++ HexDump.dump (part data off 4092) ++ headerText (part data off 4092))
  else none

/-- What a region table is shown as, if the file has all of it and its signature is accepted. -/
def regionShown (env : Env) (data : Bytes) (off : Nat) : Option Str :=
  if off + 16 ≤ data.length ∧ off + regionSize data off ≤ data.length ∧
      env.accepts "regi".toUTF8.toList (slice data off (off + 4)) then
    some ("Region_table data:\n".toList ++ HexDump.dump (part data off (regionSize data off)) ++
      regionText (part data off (regionSize data off)))
  else none

/-! ## Proofs -/

theorem dump_end (b : Bytes) (h : b ≠ []) : ['\n', '\n'] <:+ HexDump.dump b := by
  have hne : HexDump.dumpLoop b.length 0 b false none ≠ [] := by
    rw [HexDump.dumpLoop, dif_neg h]
    dsimp only
    rw [if_neg (fun hh => by cases hh.1)]
    exact fun hh => by cases hh
  unfold HexDump.dump
  generalize HexDump.dumpLoop b.length 0 b false none = l at hne
  induction l with
  | nil => exact absurd rfl hne
  | cons x l ih =>
    cases l with
    | nil => exact ⟨x, by simp [join]⟩
    | cons y l =>
      simp only [List.cons_append, join] at ih ⊢
      exact (ih (by simp)).trans (List.suffix_append _ _)

theorem hexInt_nat (n : Nat) : Formats.hexInt 8 (n : Int) = Formats.hexw 8 n := by
  unfold Formats.hexInt
  rw [if_neg (by omega)]
  rfl

theorem decInt_nat (n : Nat) : Formats.decInt (n : Int) = digits 10 n := by
  unfold Formats.decInt
  rw [if_neg (by omega)]
  rfl

/-- The value of a header. -/
def headerValue (b : Bytes) : Value :=
  .struct "header".toList
    [("signature".toList, .bytes (b.take 4)), ("checksum".toList, number b 4 8),
      ("sequence_number".toList, number b 8 16), ("file_write_identifier".toList, .uuid (ordered (slice b 16 32))),
      ("data_write_identifier".toList, .uuid (ordered (slice b 32 48))),
      ("log_identifier".toList, .uuid (ordered (slice b 48 64))), ("log_size".toList, number b 64 68),
      ("log_offset".toList, number b 68 76), ("unknown1".toList, .bytes (b.drop 76))]

theorem header_members : vhdxMembers "header".toList =
    [⟨"signature".toList, .stream⟩, ⟨"checksum".toList, .integer⟩, ⟨"sequence_number".toList, .integer⟩,
      ⟨"file_write_identifier".toList, .uuid⟩, ⟨"data_write_identifier".toList, .uuid⟩, ⟨"log_identifier".toList, .uuid⟩,
      ⟨"log_size".toList, .integer⟩, ⟨"log_offset".toList, .integer⟩, ⟨"unknown1".toList, .stream⟩] := by
  decide +kernel

theorem header_infos : determine (vhdxMembers "header".toList) =
    [("signature".toList, "Signature".toList, .dump), ("checksum".toList, "Checksum".toList, .hexadecimal8),
      ("sequence_number".toList, "Sequence number".toList, .decimal),
      ("file_write_identifier".toList, "File write identifier".toList, .uuid),
      ("data_write_identifier".toList, "Data write identifier".toList, .uuid),
      ("log_identifier".toList, "Log identifier".toList, .uuid), ("log_size".toList, "Log size".toList, .decimal),
      ("log_offset".toList, "Log offset".toList, .hexadecimal8), ("unknown1".toList, "Unknown1".toList, .dump)] := by
  decide +kernel

theorem attributes_cons (f : Cache → List Value → Res Str × Cache) (v x : Value) (n d : Str) (cb : Callback)
    (infos : List (Str × Str × Callback)) (c : Cache) (text : Str) (nl : Bool) (as : List (Option Formats.Attribute))
    (h : getAttr v n = some x) (h1 : formatted f cb x c = (.ok (text, nl), c)) (h2 : (attributes f v infos c).1 = .ok as) :
    (attributes f v ((n, d, cb) :: infos) c).1 = .ok (some ⟨some d, text, nl⟩ :: as) := by
  simp only [attributes]
  rw [h]
  dsimp only
  rw [h1]
  dsimp only
  generalize attributes f v infos c = r at h2
  obtain ⟨a, b⟩ := r
  dsimp only at h2
  subst h2
  rfl

theorem shownAs_of (members : Str → List Member) (depth : Nat) (name : Str) (v : Value)
    (as : List (Option Formats.Attribute)) (lines : List Str)
    (h : ∀ c, Good members c → (attributes (sequenceAt members depth) v (determine (members name)) c).1 = .ok as)
    (h1 : Formats.formatAttributes as = .ok lines) :
    ShownAs members (depth + 1) name v
      (lines.flatten ++ (if ['\n', '\n'] <:+ lines.getLastD [] then [] else ['\n'])) := by
  unfold ShownAs
  rw [formatMap_succ, (information_good members [] (good_nil members) name).1]
  have h := h _ (information_good members [] (good_nil members) name).2
  generalize attributes (sequenceAt members depth) v (determine (members name)) (information members [] name).2 = r at h
  obtain ⟨a, b⟩ := r
  dsimp only at h
  subst h
  dsimp only
  unfold Formats.formatStructure
  rw [h1]
  dsimp only
  by_cases hl : ['\n', '\n'] <:+ lines.getLastD []
  · have hne : lines.getLastD [] ≠ [] := fun hn => by
      rw [hn] at hl
      exact absurd hl (by decide)
    have hnb : lines ≠ [] := fun hn => hne (by rw [hn]; rfl)
    rw [if_neg (fun hh => hh.elim hnb (fun hh => hh.elim hne (fun hh => hh ((lastTwo_iff _).mpr hl)))), if_pos hl, List.append_nil]
  · rw [if_pos (.inr (.inr (fun hh => hl ((lastTwo_iff _).mp hh)))), if_neg hl]

theorem formatAttributes_cons (a : Formats.Attribute) (as : List (Option Formats.Attribute)) (t : Str) (ts : List Str)
    (h : Formats.formatAttribute a = .ok t) (hs : Formats.formatAttributes as = .ok ts) :
    Formats.formatAttributes (some a :: as) = .ok (t :: ts) := by
  rw [Formats.formatAttributes, h]
  dsimp only
  rw [hs]

theorem value_end (name : Str) (text : Str) : ∃ t, Formats.formatValue name text = t ++ ['\n'] := ⟨_, rfl⟩

theorem suffix_of_append (a b s : Str) (h : s <:+ b) : s <:+ a ++ b := h.trans (List.suffix_append _ _)

theorem header_shown (b : Bytes) (h : b.length = 4092) (depth : Nat) :
    ShownAs vhdxMembers (depth + 1) "header".toList (headerValue b) (headerText b) := by
  have := shownAs_of vhdxMembers depth "header".toList (headerValue b) _ _ (fun c _ => by
    rw [header_infos]
    exact attributes_cons _ _ _ _ _ _ _ _ _ _ _ rfl rfl
      (attributes_cons _ _ _ _ _ _ _ _ _ _ _ rfl rfl
      (attributes_cons _ _ _ _ _ _ _ _ _ _ _ rfl rfl
      (attributes_cons _ _ _ _ _ _ _ _ _ _ _ rfl rfl
      (attributes_cons _ _ _ _ _ _ _ _ _ _ _ rfl rfl
      (attributes_cons _ _ _ _ _ _ _ _ _ _ _ rfl rfl
      (attributes_cons _ _ _ _ _ _ _ _ _ _ _ rfl rfl
      (attributes_cons _ _ _ _ _ _ _ _ _ _ _ rfl rfl
      (attributes_cons _ _ _ _ _ _ _ _ _ _ _ rfl rfl rfl)))))))))
    (formatAttributes_cons _ _ _ _ (attribute_lines _ _ (dump_lines _))
      (formatAttributes_cons _ _ _ _ (attribute_line _ _ _ (hexInt_line _))
      (formatAttributes_cons _ _ _ _ (attribute_line _ _ _ (decInt_line _))
      (formatAttributes_cons _ _ _ _ (attribute_line _ _ _ (uuid_line _))
      (formatAttributes_cons _ _ _ _ (attribute_line _ _ _ (uuid_line _))
      (formatAttributes_cons _ _ _ _ (attribute_line _ _ _ (uuid_line _))
      (formatAttributes_cons _ _ _ _ (attribute_line _ _ _ (decInt_line _))
      (formatAttributes_cons _ _ _ _ (attribute_line _ _ _ (hexInt_line _))
      (formatAttributes_cons _ _ _ _ (attribute_lines _ _ (dump_lines _)) rfl)))))))))
  rw [if_pos (by exact suffix_of_append _ _ _ (dump_end _ (fun hn => by
    have := congrArg List.length hn
    simp at this
    omega))), List.append_nil] at this
  simp only [hexInt_nat, decInt_nat, List.flatten_cons, List.flatten_nil, List.append_nil] at this
  have e : ∀ t : Str, ∀ u : Str, "Signature".toList ++ [':', '\n'] ++ t ++ u = "Signature:\n".toList ++ t ++ u := fun _ _ => rfl
  have e' : ∀ t : Str, "Unknown1".toList ++ [':', '\n'] ++ t = "Unknown1:\n".toList ++ t := fun _ => rfl
  rw [e, e'] at this
  unfold headerText line hexadecimal decimal
  simp only [List.append_assoc] at this ⊢
  exact this

/-- The value of the file information. -/
def informationValue (b : Bytes) (s : Str) : Value :=
  .struct "file_information".toList
    [("signature".toList, .bytes (b.take 8)), ("creator".toList, .text s), ("unknown1".toList, .bytes (b.drop 520))]

theorem information_infos : determine (vhdxMembers "file_information".toList) =
    [("signature".toList, "Signature".toList, .dump), ("creator".toList, "Creator".toList, .string),
      ("unknown1".toList, "Unknown1".toList, .dump)] := by
  decide +kernel

theorem information_shown (b : Bytes) (s : Str) (h : b.length = 65536) (depth : Nat) :
    ShownAs vhdxMembers (depth + 1) "file_information".toList (informationValue b s) (informationText b s) := by
  have hc : Formats.formatAttribute ⟨some "Creator".toList, stripped s, true⟩ =
      .ok (if '\n' ∈ stripped s then "Creator:\n".toList ++ stripped s else line "Creator" (stripped s)) := by
    split
    · rename_i hn
      exact attribute_lines _ _ hn
    · rename_i hn
      exact attribute_line _ _ _ hn
  unfold informationText
  generalize (if '\n' ∈ stripped s then "Creator:\n".toList ++ stripped s else line "Creator" (stripped s)) = x at hc ⊢
  have := shownAs_of vhdxMembers depth "file_information".toList (informationValue b s) _ _ (fun c _ => by
    rw [information_infos]
    exact attributes_cons _ _ _ _ _ _ _ _ _ _ _ rfl rfl
      (attributes_cons _ _ _ _ _ _ _ _ _ _ _ rfl rfl
      (attributes_cons _ _ _ _ _ _ _ _ _ _ _ rfl rfl rfl)))
    (formatAttributes_cons _ _ _ _ (attribute_lines _ _ (dump_lines _))
      (formatAttributes_cons _ _ _ _ hc
      (formatAttributes_cons _ _ _ _ (attribute_lines _ _ (dump_lines _)) rfl)))
  rw [if_pos (by exact suffix_of_append _ _ _ (dump_end _ (fun hn => by
    have := congrArg List.length hn
    simp at this
    omega))), List.append_nil] at this
  simp only [List.flatten_cons, List.flatten_nil, List.append_nil] at this
  have e : ∀ t : Str, ∀ u : Str, "Signature".toList ++ [':', '\n'] ++ t ++ u = "Signature:\n".toList ++ t ++ u := fun _ _ => rfl
  have e' : ∀ t : Str, "Unknown1".toList ++ [':', '\n'] ++ t = "Unknown1:\n".toList ++ t := fun _ => rfl
  rw [e, e'] at this
  simp only [List.append_assoc] at this ⊢
  exact this

theorem entry_infos : determine (vhdxMembers "region_table_entry".toList) =
    [("region_type_identifier".toList, "Region type identifier".toList, .uuid),
      ("region_data_offset".toList, "Region data offset".toList, .hexadecimal8),
      ("region_data_size".toList, "Region data size".toList, .decimal),
      ("is_required_flag".toList, "Is required flag".toList, .decimal)] := by
  decide +kernel

theorem value_no_blank (name text : Str) (ht : text ≠ []) (hn : '\n' ∉ text) :
    ¬ ['\n', '\n'] <:+ Formats.formatValue name text := by
  rintro ⟨p, hp⟩
  obtain ⟨l, x, rfl⟩ : ∃ l x, text = l ++ [x] := ⟨_, _, (List.dropLast_concat_getLast ht).symm⟩
  unfold Formats.formatValue at hp
  have h1 : (p ++ ['\n']) ++ ['\n'] = (name ++ Formats.tabs name ++ [':', ' '] ++ (l ++ [x])) ++ ['\n'] := by
    rw [← hp, List.append_assoc]
    rfl
  have h2 := (List.append_inj' h1 rfl).1
  rw [← List.append_assoc] at h2
  have h3 := (List.append_inj' h2 rfl).2
  cases h3
  exact hn (by simp)

theorem entry_shown (b : Bytes) (depth : Nat) :
    ShownAs vhdxMembers (depth + 1) "region_table_entry".toList (entryOf b) (entryText b) := by
  have := shownAs_of vhdxMembers depth "region_table_entry".toList (entryOf b) _ _ (fun c _ => by
    rw [entry_infos]
    exact attributes_cons _ _ _ _ _ _ _ _ _ _ _ rfl rfl
      (attributes_cons _ _ _ _ _ _ _ _ _ _ _ rfl rfl
      (attributes_cons _ _ _ _ _ _ _ _ _ _ _ rfl rfl
      (attributes_cons _ _ _ _ _ _ _ _ _ _ _ rfl rfl rfl))))
    (formatAttributes_cons _ _ _ _ (attribute_line _ _ _ (uuid_line _))
      (formatAttributes_cons _ _ _ _ (attribute_line _ _ _ (hexInt_line _))
      (formatAttributes_cons _ _ _ _ (attribute_line _ _ _ (decInt_line _))
      (formatAttributes_cons _ _ _ _ (attribute_line _ _ _ (decInt_line _)) rfl))))
  rw [if_neg (by
    refine value_no_blank _ _ ?_ (decInt_line _)
    rw [decInt_nat]
    exact digits_ne_nil _ _)] at this
  simp only [hexInt_nat, decInt_nat, List.flatten_cons, List.flatten_nil, List.append_nil] at this
  unfold entryText line hexadecimal decimal
  simp only [List.append_assoc] at this ⊢
  exact this

theorem elements_texts (members : Str → List Member) (depth : Nat) (l : List (Value × Str))
    (h : ∀ e ∈ l, ShownAs members depth (className e.1) e.1 e.2) (i : Nat) (c : Cache) (hc : Good members c) :
    (elements (fun cache v => formatMap members depth cache (className v) v) i c (l.map Prod.fst)).1 =
      .ok (((l.map Prod.snd).zipIdx i).map (fun x => "Entry: ".toList ++ Formats.dec x.2 ++ ['\n'] ++ x.1)).flatten := by
  induction l generalizing i c with
  | nil => rfl
  | cons x l ih =>
    have ht := h x (List.mem_cons_self ..)
    obtain ⟨e1, g1⟩ := formatMap_good members depth c (className x.1) x.1 hc
    unfold ShownAs at ht
    rw [ht] at e1
    simp only [elements, List.map_cons, List.zipIdx_cons, List.flatten_cons]
    generalize formatMap members depth c (className x.1) x.1 = r at e1 g1
    obtain ⟨a, b⟩ := r
    dsimp only at e1 g1
    subst e1
    dsimp only
    have hs := ih (fun e he => h e (List.mem_cons_of_mem _ he)) (i + 1) b g1
    generalize elements (fun cache v => formatMap members depth cache (className v) v) (i + 1) b (l.map Prod.fst) = r at hs
    obtain ⟨a, b⟩ := r
    dsimp only at hs
    subst hs
    rfl

theorem entriesOf_eq (n : Nat) (b : Bytes) : entriesOf n b = (List.range n).map (fun i => entryOf (slice b (32 * i) (32 * i + 32))) := by
  induction n generalizing b with
  | zero => rfl
  | succ n ih =>
    rw [entriesOf, ih, List.range_succ_eq_map, List.map_cons, List.map_map]
    congr 1
    refine List.map_congr_left (fun i _ => ?_)
    dsimp only [Function.comp]
    congr 1
    simp only [slice_eq_take_drop, List.drop_drop]
    congr 1
    · omega
    · congr 1; omega

/-- The value of a region table. -/
def regionValue (b : Bytes) : Value :=
  .struct "region_table".toList
    [("signature".toList, .bytes (b.take 4)), ("checksum".toList, number b 4 8),
      ("number_of_entries".toList, number b 8 12), ("unknown1".toList, number b 12 16),
      ("entries".toList, .seq (entriesOf (leNat (slice b 8 12)) (b.drop 16)))]

theorem region_infos : determine (vhdxMembers "region_table".toList) =
    [("signature".toList, "Signature".toList, .dump), ("checksum".toList, "Checksum".toList, .hexadecimal8),
      ("number_of_entries".toList, "Number of entries".toList, .decimal), ("unknown1".toList, "Unknown1".toList, .decimal),
      ("entries".toList, "Entries".toList, .sequence)] := by
  decide +kernel

theorem attributes_last (f : Cache → List Value → Res Str × Cache) (v x : Value) (n d : Str) (cb : Callback) (c : Cache)
    (text : Str) (nl : Bool) (h : getAttr v n = some x) (h1 : (formatted f cb x c).1 = .ok (text, nl)) :
    (attributes f v [(n, d, cb)] c).1 = .ok [some ⟨some d, text, nl⟩] := by
  simp only [attributes]
  rw [h]
  dsimp only
  generalize formatted f cb x c = r at h1
  obtain ⟨a, b⟩ := r
  dsimp only at h1
  subst h1
  rfl

theorem sequence_formatted (f : Cache → List Value → Res Str × Cache) (l : List Value) (c : Cache) (s : Str)
    (h : (f c l).1 = .ok s) : (formatted f .sequence (.seq l) c).1 = .ok (s, true) := by
  simp only [formatted]
  generalize f c l = r at h
  obtain ⟨a, b⟩ := r
  dsimp only at h
  subst h
  rfl

theorem entries_shown (depth n : Nat) (b : Bytes) (c : Cache) (hc : Good vhdxMembers c) :
    (sequenceAt vhdxMembers (depth + 1) c (entriesOf n (b.drop 16))).1 = .ok ('\n' :: ((List.range n).map (fun i =>
      "Entry: ".toList ++ digits 10 i ++ ['\n'] ++ entryText (slice b (16 + 32 * i) (16 + 32 * i + 32)))).flatten) := by
  have h := elements_texts vhdxMembers (depth + 1) ((List.range n).map (fun i =>
    (entryOf (slice b (16 + 32 * i) (16 + 32 * i + 32)), entryText (slice b (16 + 32 * i) (16 + 32 * i + 32)))))
    (fun e he => by
      obtain ⟨i, _, rfl⟩ := List.mem_map.mp he
      exact entry_shown _ depth) 0 c hc
  have h1 : entriesOf n (b.drop 16) = ((List.range n).map (fun i =>
      (entryOf (slice b (16 + 32 * i) (16 + 32 * i + 32)), entryText (slice b (16 + 32 * i) (16 + 32 * i + 32))))).map Prod.fst := by
    rw [entriesOf_eq, List.map_map]
    refine List.map_congr_left (fun i _ => ?_)
    dsimp only [Function.comp]
    congr 1
    simp only [slice_eq_take_drop, List.drop_drop]
    congr 1
    omega
  rw [← h1] at h
  unfold sequenceAt
  generalize elements (fun cache v => formatMap vhdxMembers (depth + 1) cache (className v) v) 0 c (entriesOf n (b.drop 16)) = r at h
  obtain ⟨a, c'⟩ := r
  dsimp only at h
  subst h
  dsimp only
  congr 3
  refine List.ext_getElem (by simp) (fun i h1 h2 => ?_)
  simp [Formats.dec]

theorem entries_end (n : Nat) (b : Bytes) (p : Str) :
    ['\n', '\n'] <:+ p ++ ['\n', '\n'] ++ ((List.range n).map (fun i =>
      "Entry: ".toList ++ digits 10 i ++ ['\n'] ++ entryText (slice b (16 + 32 * i) (16 + 32 * i + 32)))).flatten := by
  cases n with
  | zero => exact ⟨p, by simp⟩
  | succ n =>
    rw [List.range_succ, List.map_append, List.flatten_append, List.map_cons, List.map_nil, List.flatten_cons, List.flatten_nil,
      List.append_nil]
    refine suffix_of_append _ _ _ (suffix_of_append _ _ _ (suffix_of_append _ _ _ ?_))
    unfold entryText
    rw [List.append_assoc]
    refine suffix_of_append _ _ _ ?_
    unfold line
    obtain ⟨t, ht⟩ := value_end "Is required flag".toList (decimal (slice b (16 + 32 * n) (16 + 32 * n + 32)) 28 32)
    rw [ht, List.append_assoc]
    exact List.suffix_append _ _

theorem region_shown (b : Bytes) (depth : Nat) :
    ShownAs vhdxMembers (depth + 2) "region_table".toList (regionValue b) (regionText b) := by
  have := shownAs_of vhdxMembers (depth + 1) "region_table".toList (regionValue b) _ _ (fun c hc => by
    rw [region_infos]
    exact attributes_cons _ _ _ _ _ _ _ _ _ _ _ rfl rfl
      (attributes_cons _ _ _ _ _ _ _ _ _ _ _ rfl rfl
      (attributes_cons _ _ _ _ _ _ _ _ _ _ _ rfl rfl
      (attributes_cons _ _ _ _ _ _ _ _ _ _ _ rfl rfl
      (attributes_last _ _ _ _ _ _ _ _ _ rfl (sequence_formatted _ _ _ _ (entries_shown depth _ b c hc)))))))
    (formatAttributes_cons _ _ _ _ (attribute_lines _ _ (dump_lines _))
      (formatAttributes_cons _ _ _ _ (attribute_line _ _ _ (hexInt_line _))
      (formatAttributes_cons _ _ _ _ (attribute_line _ _ _ (decInt_line _))
      (formatAttributes_cons _ _ _ _ (attribute_line _ _ _ (decInt_line _))
      (formatAttributes_cons _ _ _ _ (attribute_lines _ _ (List.mem_cons_self ..)) rfl)))))
  have hend := entries_end (leNat (slice b 8 12)) b "Entries:".toList
  rw [if_pos (by
    convert hend using 1
    simp), List.append_nil] at this
  simp only [hexInt_nat, decInt_nat, List.flatten_cons, List.flatten_nil, List.append_nil] at this
  have e : ∀ t : Str, ∀ u : Str, "Signature".toList ++ [':', '\n'] ++ t ++ u = "Signature:\n".toList ++ t ++ u := fun _ _ => rfl
  have e' : ∀ t : Str, "Entries".toList ++ [':', '\n'] ++ '\n' :: t = "Entries:\n\n".toList ++ t := fun _ => rfl
  rw [e, e'] at this
  unfold regionText line hexadecimal decimal
  simp only [List.append_assoc] at this ⊢
  exact this

/-! ## The file -/

theorem region_size (data : Bytes) (off : Nat) :
    leNat (slice (part data off 16) 8 12) = leNat (slice data (off + 8) (off + 12)) := by
  congr 1
  unfold part
  rw [slice_take _ _ _ _ (by decide)]
  simp only [slice_eq_take_drop, List.drop_drop]
  congr 1
  omega

theorem region_number (data : Bytes) (off : Nat) :
    leNat (slice (part data off (regionSize data off)) 8 12) = leNat (slice data (off + 8) (off + 12)) := by
  congr 1
  unfold part
  rw [slice_take _ _ _ _ (by unfold regionSize; omega)]
  simp only [slice_eq_take_drop, List.drop_drop]
  congr 1
  omega

theorem readInformation_eq (env : Env) (data : Bytes) (off : Nat) :
    readInformation env data off =
      if data.length < off + 65536 then .error .parseError
      else if env.accepts "vhdxfile".toUTF8.toList (slice data off (off + 8)) then
        match env.decode (slice data (off + 8) (off + 520)) with
        | none => .error .parseError
        | some s => .ok (informationValue (part data off 65536) s, part data off 65536)
      else .error .parseError := by
  unfold readInformation
  rw [structAt_fixed _ _ _ _ (by decide)]
  by_cases h : data.length < off + 65536
  · rw [if_pos h, if_pos h]
  · rw [if_neg h, if_neg h]
    dsimp only [id]
    have h1 : List.take 8 (List.take 65536 (List.drop off data)) = slice data off (off + 8) := by
      rw [List.take_take, slice_eq_take_drop]
      congr 1
      omega
    have h2 : slice (List.take 65536 (List.drop off data)) 8 520 = slice data (off + 8) (off + 520) := by
      rw [slice_take _ _ _ _ (by decide)]
      simp only [slice_eq_take_drop, List.drop_drop]
      congr 1
      omega
    rw [h2]
    unfold informationValue part
    rw [h1]
    rfl

theorem readHeader_eq (env : Env) (data : Bytes) (off : Nat) :
    readHeader env data off =
      if data.length < off + 4092 then .error .parseError
      else if env.accepts "head".toUTF8.toList (slice data off (off + 4)) then .ok (headerValue (part data off 4092), part data off 4092)
      else .error .parseError := by
  unfold readHeader
  rw [structAt_fixed _ _ _ _ (by decide)]
  by_cases h : data.length < off + 4092
  · rw [if_pos h, if_pos h]
  · rw [if_neg h, if_neg h]
    dsimp only [id]
    have h1 : List.take 4 (List.take 4092 (List.drop off data)) = slice data off (off + 4) := by
      rw [List.take_take, slice_eq_take_drop]
      congr 1
      omega
    unfold headerValue part
    rw [h1]

theorem readRegionTable_eq (env : Env) (data : Bytes) (off : Nat) :
    readRegionTable env data off =
      if data.length < off + 16 then .error .parseError
      else if data.length < off + regionSize data off then .error .parseError
      else if env.accepts "regi".toUTF8.toList (slice data off (off + 4)) then
        .ok (regionValue (part data off (regionSize data off)), part data off (regionSize data off))
      else .error .parseError := by
  unfold readRegionTable
  rw [structAt_sized _ _ _ _ _ (by decide)]
  have h0 := region_size data off
  unfold part at h0
  rw [h0]
  unfold regionSize
  by_cases h : data.length < off + 16
  · rw [if_pos h, if_pos h]
  · rw [if_neg h, if_neg h]
    by_cases h' : data.length < off + (16 + 32 * leNat (slice data (off + 8) (off + 12)))
    · rw [if_pos h', if_pos h']
    · rw [if_neg h', if_neg h']
      dsimp only [id]
      have h1 : List.take 4 (List.take (16 + 32 * leNat (slice data (off + 8) (off + 12))) (List.drop off data)) =
          slice data off (off + 4) := by
        rw [List.take_take, Nat.min_eq_left (by omega), slice_eq_take_drop, Nat.add_sub_cancel_left]
      unfold regionValue part
      rw [h1]

/-- A structure is shown as it should be, or there is an error in the file. -/
def Reads (data : Bytes) (name : Str) (off : Nat) (read : Bytes → Nat → Res (Value × Bytes)) : Option Str → Prop
  | none => read data off = .error .parseError
  | some t => ∃ v b u, read data off = .ok (v, b) ∧ ShownAs vhdxMembers 3 name v u ∧ t = Formats.structureText name b ++ u

theorem information_reads (env : Env) (data : Bytes) :
    Reads data "file_information".toList 0 (readInformation env) (informationShown env data) := by
  have h := readInformation_eq env data 0
  simp only [Nat.zero_add] at h
  have h0 : slice data 0 8 = data.take 8 := by simp [slice]
  have h1 : part data 0 65536 = data.take 65536 := by simp [part]
  rw [h0, h1] at h
  unfold informationShown
  by_cases hl : data.length < 65536
  · rw [if_pos hl] at h
    rw [if_neg (fun hh => absurd hh.1 (by omega))]
    exact h
  · rw [if_neg hl] at h
    by_cases ha : env.accepts "vhdxfile".toUTF8.toList (data.take 8) = true
    · rw [if_pos ha] at h
      rw [if_pos ⟨by omega, ha⟩]
      cases hd : env.decode (slice data 8 520) with
      | none =>
        rw [hd] at h
        exact h
      | some s =>
        rw [hd] at h
        exact ⟨_, _, _, h, information_shown _ s (by rw [List.length_take]; omega) 2, rfl⟩
    · rw [if_neg ha] at h
      rw [if_neg (fun hh => ha hh.2)]
      exact h

theorem header_reads (env : Env) (data : Bytes) (off : Nat) :
    Reads data "header".toList off (readHeader env) (headerShown env data off) := by
  have h := readHeader_eq env data off
  unfold headerShown
  by_cases hl : data.length < off + 4092
  · rw [if_pos hl] at h
    rw [if_neg (fun hh => absurd hh.1 (by omega))]
    exact h
  · rw [if_neg hl] at h
    by_cases ha : env.accepts "head".toUTF8.toList (slice data off (off + 4)) = true
    · rw [if_pos ha] at h
      rw [if_pos ⟨by omega, ha⟩]
      exact ⟨_, _, _, h, header_shown _ (by unfold part; rw [List.length_take, List.length_drop]; omega) 2, rfl⟩
    · rw [if_neg ha] at h
      rw [if_neg (fun hh => ha hh.2)]
      exact h

theorem region_reads (env : Env) (data : Bytes) (off : Nat) :
    Reads data "region_table".toList off (readRegionTable env) (regionShown env data off) := by
  have h := readRegionTable_eq env data off
  unfold regionShown
  by_cases hl : data.length < off + 16
  · rw [if_pos hl] at h
    rw [if_neg (fun hh => absurd hh.1 (by omega))]
    exact h
  · rw [if_neg hl] at h
    by_cases hl' : data.length < off + regionSize data off
    · rw [if_pos hl'] at h
      rw [if_neg (fun hh => absurd hh.2.1 (by omega))]
      exact h
    · rw [if_neg hl'] at h
      by_cases ha : env.accepts "regi".toUTF8.toList (slice data off (off + 4)) = true
      · rw [if_pos ha] at h
        rw [if_pos ⟨by omega, by omega, ha⟩]
        exact ⟨_, _, _, h, region_shown _ 1, rfl⟩
      · rw [if_neg ha] at h
        rw [if_neg (fun hh => ha hh.2.2)]
        exact h

theorem analyzeAll_step (data : Bytes) (name : Str) (off : Nat) (read : Bytes → Nat → Res (Value × Bytes)) (o : Option Str)
    (os : List (Str × Option Str)) (rest : List (Str × Nat × (Bytes → Nat → Res (Value × Bytes)))) (hr : Reads data name off read o)
    (hs : ∀ c, Good vhdxMembers c →
      analyzeAll data rest c = ((untilNone os).1, if (untilNone os).2 then none else some .parseError))
    (h : Str) (hh : h = Formats.readingText name off) (c : Cache) (hc : Good vhdxMembers c) :
    analyzeAll data ((name, off, read) :: rest) c =
      ((untilNone ((h, o) :: os)).1, if (untilNone ((h, o) :: os)).2 then none else some .parseError) := by
  subst hh
  rw [analyzeAll]
  cases o with
  | none =>
    unfold Reads at hr
    rw [hr]
    rfl
  | some t =>
    obtain ⟨v, x, u, hv, ht, rfl⟩ := hr
    rw [hv]
    obtain ⟨e, g⟩ := formatMap_good vhdxMembers 3 c name v hc
    unfold ShownAs at ht
    rw [ht] at e
    dsimp only
    generalize formatMap vhdxMembers 3 c name v = r at e g
    obtain ⟨a, b⟩ := r
    dsimp only at e g
    subst e
    dsimp only
    rw [hs b g]
    simp only [untilNone, List.append_assoc]

/-- The line before the structure with a name at an offset. -/
def heading (name : String) (off : Nat) : Str :=
  "Reading ".toList ++ name.toList ++ " at offset: ".toList ++ digits 10 off ++ " (0x".toList ++ Formats.hexw 8 off ++ [')', '\n']

/-- C171.  Of any file the file information at its start, the headers at 64 and 128 KiB and the region tables at 192 and 256
KiB are shown, with their data, up to the first that is not all in the file, has another signature or whose creator cannot be
decoded; at that there is an error. -/
theorem C171_vhdx (env : Env) (data : Bytes) :
    analyze env data =
      let shown := untilNone [(heading "file_information" 0, informationShown env data),
        (heading "header" 65536, headerShown env data 65536), (heading "header" 131072, headerShown env data 131072),
        (heading "region_table" 196608, regionShown env data 196608),
        (heading "region_table" 262144, regionShown env data 262144)]
      (shown.1, if shown.2 then none else some .parseError) :=
  analyzeAll_step _ _ _ _ _ _ _ (information_reads env data)
    (analyzeAll_step _ _ _ _ _ _ _ (header_reads env data _)
    (analyzeAll_step _ _ _ _ _ _ _ (header_reads env data _)
    (analyzeAll_step _ _ _ _ _ _ _ (region_reads env data _)
    (analyzeAll_step _ _ _ _ _ [] [] (region_reads env data _) (fun _ _ => rfl) _ rfl) _ rfl) _ rfl) _ rfl) _ rfl [] (good_nil _)

/-- All five structures are shown of a file of zeros, if the signatures were accepted; without the last byte there is an
error. -/
example (env : Env) (he : env.accepts = fun _ _ => true) (hd : env.decode = fun _ => some []) :
    (analyze env (List.replicate 262160 0)).2 = none ∧ (analyze env (List.replicate 262159 0)).2 = some .parseError := by
  have hr : ∀ n off, off + 16 ≤ n → regionSize (List.replicate n 0) off = 16 := by
    intro n off h
    unfold regionSize
    rw [slice_eq_take_drop, List.drop_replicate, List.take_replicate, Nat.min_eq_left (by omega),
      show off + 12 - (off + 8) = 4 by omega]
    rfl
  rw [C171_vhdx, C171_vhdx]
  constructor
  · unfold informationShown headerShown regionShown
    rw [he, hd, hr _ _ (by decide), hr _ _ (by decide), List.length_replicate]
    rfl
  · unfold informationShown headerShown regionShown
    rw [he, hd, hr _ _ (by decide), List.length_replicate]
    rfl

/-- C171.  A file that is shorter than its file information shows nothing of it; one that ends before the end of its second
header is an error. -/
theorem C171_short (env : Env) (data : Bytes) :
    (data.length < 65536 → analyze env data = (heading "file_information" 0, some .parseError)) ∧
    (data.length < 131072 + 4092 → (analyze env data).2 = some .parseError) := by
  rw [C171_vhdx]
  constructor
  · intro h
    have : informationShown env data = none := by
      unfold informationShown
      rw [if_neg (fun hh => absurd hh.1 (by omega))]
    rw [this]
    rfl
  · intro h
    have : headerShown env data 131072 = none := by
      unfold headerShown
      rw [if_neg (fun hh => absurd hh.1 (by omega))]
    rw [this]
    cases informationShown env data <;> cases headerShown env data 65536 <;> rfl

/-! ## The log of the header -/

/-- A header as it is stored in the file, according to [MS-VHDX] 2.2.2: after the identifiers there are a version of the log,
a version of the format, the size and the offset of the log. -/
structure Header where
  checksum : Nat
  sequence : Nat
  fileWrite : Bytes
  dataWrite : Bytes
  log : Bytes
  logVersion : Nat
  version : Nat
  logSize : Nat
  logOffset : Nat
  reserved : Bytes

structure Header.Valid (h : Header) : Prop where
  checksum : h.checksum < 2 ^ 32
  sequence : h.sequence < 2 ^ 64
  fileWrite : h.fileWrite.length = 16
  dataWrite : h.dataWrite.length = 16
  log : h.log.length = 16
  logVersion : h.logVersion < 2 ^ 16
  version : h.version < 2 ^ 16
  logSize : h.logSize < 2 ^ 32
  logOffset : h.logOffset < 2 ^ 64
  reserved : h.reserved.length = 4016

def Header.write (h : Header) : Bytes :=
  ["head".toUTF8.toList, leBytes 4 h.checksum, leBytes 8 h.sequence, h.fileWrite, h.dataWrite, h.log, leBytes 2 h.logVersion,
    leBytes 2 h.version, leBytes 4 h.logSize, leBytes 8 h.logOffset, h.reserved].flatten

/-- The text of the header with a size and an offset of the log, and the remaining bytes. -/
def Header.text (h : Header) (size offset : Nat) (rest : Bytes) : Str :=
  "Signature:\n".toList ++ HexDump.dump "head".toUTF8.toList ++ line "Checksum" (['0', 'x'] ++ Formats.hexw 8 h.checksum) ++
  line "Sequence number" (digits 10 h.sequence) ++ line "File write identifier" (uuidString (ordered h.fileWrite)) ++
  line "Data write identifier" (uuidString (ordered h.dataWrite)) ++
  line "Log identifier" (uuidString (ordered h.log)) ++ line "Log size" (digits 10 size) ++
  line "Log offset" (['0', 'x'] ++ Formats.hexw 8 offset) ++ "Unknown1:\n".toList ++ HexDump.dump rest

theorem leBytes_add (a b n : Nat) : leBytes (a + b) n = leBytes a n ++ leBytes b (n / 256 ^ a) := by
  induction a generalizing n with
  | zero => simp [leBytes]
  | succ a ih =>
    rw [Nat.add_right_comm, leBytes, ih, leBytes, List.cons_append, Nat.div_div_eq_div_mul, Nat.pow_succ, Nat.mul_comm 256]

/-- C171.  The size of the log that is shown is made of the two versions, its offset of the size and the lower half of the
offset. -/
theorem C171_log (h : Header) (hv : h.Valid) :
    headerText (part h.write 0 4092) =
      h.text (h.logVersion + 65536 * h.version) (h.logSize + 2 ^ 32 * (h.logOffset % 2 ^ 32))
        (leBytes 4 (h.logOffset / 2 ^ 32) ++ h.reserved.take 4012) := by
  obtain ⟨h1, h2, h3, h4, h5, h6, h7, h8, h9, h10⟩ := hv
  have hsig : ("head".toUTF8.toList : Bytes).length = 4 := by decide +kernel
  have hw : h.write = ["head".toUTF8.toList, leBytes 4 h.checksum, leBytes 8 h.sequence, h.fileWrite, h.dataWrite, h.log,
      leBytes 2 h.logVersion ++ leBytes 2 h.version, leBytes 4 h.logSize ++ leBytes 4 h.logOffset,
      leBytes 4 (h.logOffset / 2 ^ 32) ++ h.reserved].flatten := by
    unfold Header.write
    rw [leBytes_add 4 4 h.logOffset, show (256 : Nat) ^ 4 = 2 ^ 32 from rfl]
    simp only [List.flatten_cons, List.flatten_nil, List.append_assoc]
  generalize hsg : ("head".toUTF8.toList : Bytes) = sig at hsig hw
  have hp : part h.write 0 4092 = h.write.take 4092 := by simp [part]
  rw [hp]
  have hl : ∀ (a : List Bytes) (x : Bytes) (b : List Bytes) (n m : Nat), h.write = (a ++ x :: b).flatten →
      (a.map List.length).sum = n → n + x.length = m → m ≤ 4092 → slice (h.write.take 4092) n m = x := by
    intro a x b n m e e1 e2 e3
    rw [slice_take _ _ _ _ e3, e]
    exact slice_fields a x b n m e1 e2
  have s0 : (h.write.take 4092).take 4 = sig := by
    have := hl [] sig _ 0 4 hw rfl (by simp [hsig]) (by decide)
    rw [← this]
    simp [slice]
  have s1 := hl [_] (leBytes 4 h.checksum) _ 4 8 hw (by simp [hsig]) (by simp) (by decide)
  have s2 := hl [_, _] (leBytes 8 h.sequence) _ 8 16 hw (by simp [hsig]) (by simp) (by decide)
  have s3 := hl [_, _, _] h.fileWrite _ 16 32 hw (by simp [hsig]) (by simp [h3]) (by decide)
  have s4 := hl [_, _, _, _] h.dataWrite _ 32 48 hw (by simp [hsig, h3]) (by simp [h4]) (by decide)
  have s5 := hl [_, _, _, _, _] h.log _ 48 64 hw (by simp [hsig, h3, h4]) (by simp [h5]) (by decide)
  have s6 := hl [_, _, _, _, _, _] _ _ 64 68 hw (by simp [hsig, h3, h4, h5]) (by simp) (by decide)
  have s7 := hl [_, _, _, _, _, _, _] _ _ 68 76 hw (by simp [hsig, h3, h4, h5]) (by simp) (by decide)
  have s8 : (h.write.take 4092).drop 76 = leBytes 4 (h.logOffset / 2 ^ 32) ++ h.reserved.take 4012 := by
    have e : h.write = [sig, leBytes 4 h.checksum, leBytes 8 h.sequence, h.fileWrite, h.dataWrite, h.log,
        leBytes 2 h.logVersion ++ leBytes 2 h.version, leBytes 4 h.logSize ++ leBytes 4 h.logOffset].flatten ++
        (leBytes 4 (h.logOffset / 2 ^ 32) ++ h.reserved) := by
      rw [hw]
      simp only [List.flatten_cons, List.flatten_nil, List.append_assoc, List.append_nil]
    rw [List.drop_take, e, List.drop_left' (by simp [hsig, h3, h4, h5]), List.take_append, leBytes_length,
      List.take_of_length_le (by rw [leBytes_length]; decide)]
  unfold headerText hexadecimal decimal Header.text
  rw [s0, s1, s2, s3, s4, s5, s6, s7, s8, hsg, leNat_append, leNat_append, leNat_leBytes, leNat_leBytes, leNat_leBytes, leNat_leBytes,
    leNat_leBytes, leNat_leBytes]
  simp only [leBytes_length]
  rw [Nat.mod_eq_of_lt (show h.checksum < 256 ^ 4 by omega), Nat.mod_eq_of_lt (show h.sequence < 256 ^ 8 by omega),
    Nat.mod_eq_of_lt (show h.logVersion < 256 ^ 2 by omega), Nat.mod_eq_of_lt (show h.version < 256 ^ 2 by omega),
    Nat.mod_eq_of_lt (show h.logSize < 256 ^ 4 by omega)]
  rfl

/-- Spoken: the size and the offset of the log that are shown are those of the header. -/
def C171_log_claim : Prop := ∀ h : Header, h.Valid →
  ∃ rest, headerText (part h.write 0 4092) = h.text h.logSize h.logOffset rest

theorem line_injective (name : String) (x y r r' : Str) (hx : '\n' ∉ x) (hy : '\n' ∉ y)
    (h : line name x ++ r = line name y ++ r') : x = y ∧ r = r' := by
  unfold line Formats.formatValue at h
  simp only [List.append_assoc] at h
  have h := List.append_cancel_left (List.append_cancel_left (List.append_cancel_left h))
  clear * - h hx hy
  induction x generalizing y with
  | nil =>
    cases y with
    | nil => exact ⟨rfl, by simpa using h⟩
    | cons d y => simp at h; exact absurd h.1 (by simp at hy; exact fun e => hy.1 e)
  | cons c x ih =>
    cases y with
    | nil => simp at h; exact absurd h.1 (by simp at hx; exact fun e => hx.1 e.symm)
    | cons d y =>
      simp only [List.cons_append, List.cons.injEq] at h
      simp only [List.mem_cons, not_or] at hx hy
      obtain ⟨e1, e2⟩ := ih y hx.2 hy.2 h.2
      exact ⟨by rw [h.1, e1], e2⟩

theorem text_injective (h : Header) (a b a' b' : Nat) (r r' : Bytes) (e : h.text a b r = h.text a' b' r') : a = a' ∧ b = b' := by
  unfold Header.text at e
  simp only [List.append_assoc] at e
  have e := List.append_cancel_left (List.append_cancel_left (List.append_cancel_left (List.append_cancel_left
    (List.append_cancel_left (List.append_cancel_left (List.append_cancel_left e))))))
  obtain ⟨e1, e2⟩ := line_injective _ _ _ _ _ (digits_line 10 a (by decide) (by decide)) (digits_line 10 a' (by decide) (by decide)) e
  obtain ⟨e3, _⟩ := line_injective _ _ _ _ _ (by have := hexInt_line b; rwa [hexInt_nat] at this)
    (by have := hexInt_line b'; rwa [hexInt_nat] at this) e2
  exact ⟨digits_injective 10 (by decide) (by decide) _ _ e1, Formats.hexw_injective 8 _ _ (List.append_cancel_left e3)⟩

/-- C171.  The size and the offset of the log are right of no header but those of which the versions make the size and the
size and lower half of the offset make the offset. -/
theorem C171_log_partial (h : Header) (hv : h.Valid) :
    (∃ rest, headerText (part h.write 0 4092) = h.text h.logSize h.logOffset rest) ↔
      h.logSize = h.logVersion + 65536 * h.version ∧ h.logOffset = h.logSize + 2 ^ 32 * (h.logOffset % 2 ^ 32) := by
  rw [C171_log h hv]
  constructor
  · rintro ⟨rest, hr⟩
    obtain ⟨e1, e2⟩ := text_injective h _ _ _ _ _ _ hr
    exact ⟨e1.symm, e2.symm⟩
  · rintro ⟨e1, e2⟩
    exact ⟨_, by rw [← e1, ← e2]⟩

/-- A header of a new image, with version 1 and a log of 1 MiB at 1 MiB. -/
def sampleHeader : Header :=
  ⟨0, 1, List.replicate 16 1, List.replicate 16 2, List.replicate 16 0, 0, 1, 2 ^ 20, 2 ^ 20, List.replicate 4016 0⟩

theorem sampleHeader_valid : sampleHeader.Valid := by
  constructor <;> first | exact List.length_replicate | decide

theorem C171_log_claim_false : ¬ C171_log_claim := fun h =>
  absurd ((C171_log_partial _ sampleHeader_valid).mp (h _ sampleHeader_valid)).1 (by decide)

/-- The size of the log that is shown of the header is 65536. -/
example : headerText (part sampleHeader.write 0 4092) =
    sampleHeader.text 65536 (2 ^ 20 + 2 ^ 32 * 2 ^ 20) (leBytes 4 0 ++ (List.replicate 4016 0).take 4012) :=
  C171_log _ sampleHeader_valid

end Dtf.Analyzer
