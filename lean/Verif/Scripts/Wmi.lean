import Verif.Wmi.Repository
import Verif.Wmi.Mapping
import Verif.Formats.Props

/-!
# The output of the script for WMI repositories (C168)

scripts/wmi_repository.py.
-/

namespace Dtf.Wmi
open Py DataFormat Text

/-! ## Model -/

/-- The texts of floats and of lists of texts, as Python makes them. -/
structure Texts where
  real : Bytes → Str
  list : List Str → Str

/-- `bool(…)` of a value. -/
def truthy : Value → Bool
  | .none => false
  | .boolean b => b
  | .integer i => decide (i ≠ 0)
  | .real b => !realZero b
  | .text s => decide (s ≠ [])
  | .texts l => decide (l ≠ [])

/-- `f"{…!s}"`, with nothing for no value (scripts/wmi_repository.py 53-57). -/
def valueText (t : Texts) : Value → Str
  | .none => []
  | .boolean b => if b then "True".toList else "False".toList
  | .integer i => Formats.decInt i
  | .real b => t.real b
  | .text s => s
  | .texts l => t.list l

/-- `instance.properties.get("Name")` (scripts/wmi_repository.py 19). -/
def nameProperty (i : Inst) : Value := ((i.properties.find? (fun p => p.1 == "Name".toList)).map (·.2)).getD .none

/-- The relative path (scripts/wmi_repository.py 25-28): `:s` is for texts only. -/
def relpath (i : Inst) : Res Str :=
  if truthy (nameProperty i) then
    match nameProperty i with
    | .text s => .ok (i.className ++ ".Name=\"".toList ++ s ++ "\"".toList)
    | .texts _ => .error .typeError
    | _ => .error .valueError
  else .ok (i.className ++ "=@".toList)

/-- The order of texts. -/
def strLe : Str → Str → Bool
  | [], _ => true
  | _ :: _, [] => false
  | a :: as, b :: bs => if a.toNat < b.toNat then true else if a.toNat = b.toNat then strLe as bs else false

/-- `sorted(instance.properties.items())` (scripts/wmi_repository.py 50): the names differ. -/
def sortProperties (l : List (Str × Value)) : List (Str × Value) := l.mergeSort (fun a b => strLe a.1 b.1)

/-- The pairs of names and values (scripts/wmi_repository.py 21-57). -/
def pairs (t : Texts) (ns : Option Str) (i : Inst) : Res (List (Str × Str)) :=
  (relpath i).map fun rel =>
    let namespc := if (ns.getD []) = [] then "ROOT".toList else ns.getD []
    [("__GENUS".toList, "2".toList), ("__CLASS".toList, i.className), ("__SUPERCLASS".toList, i.super.getD []),
      ("__DYNASTY".toList, i.dynasty.getD []), ("__RELPATH".toList, rel),
      ("__PROPERTY_COUNT".toList, Formats.dec i.properties.length),
      ("__DERIVATION".toList, '{' :: join ", ".toList i.derivation ++ ['}']), ("__SERVER".toList, ".".toList),
      ("__NAMESPACE".toList, namespc), ("__PATH".toList, "\\\\.\\".toList ++ namespc ++ [':'] ++ rel)] ++
      (sortProperties i.properties).map (fun p => (p.1, valueText t p.2))

/-- `max(len(name) for …)` (scripts/wmi_repository.py 59). -/
def largest (ps : List (Str × Str)) : Nat := ps.foldl (fun m p => max m p.1.length) 0

/-- The line of a pair (scripts/wmi_repository.py 61-63). -/
def pairLine (width : Nat) (p : Str × Str) : Str :=
  p.1 ++ List.replicate (width - p.1.length) ' ' ++ " : ".toList ++ p.2

/-- `PrintInstance` (scripts/wmi_repository.py 13-65). -/
def printInstance (t : Texts) (ns : Option Str) (i : Inst) : Res (List Str) :=
  (pairs t ns i).map (fun ps => ps.map (pairLine (largest ps)) ++ [[]])

/-- What a generator yields, and the exception that ends it, if any. -/
abbrev Yielded (α : Type) := List α × Option Err

/-- What an open repository yields.  The instances have no namespace: it is set only for namespaces
(wmi_repository.py 2029, 4176). -/
structure Opened where
  keys : Yielded Str
  instances : Yielded (Option Inst)
  namespaces : Yielded (Str × Inst)

/-- The modes of output; the mode for debugging is left out. -/
inductive Mode
  | index
  | instances
  | namespaces
  | other
deriving DecidableEq, Repr

/-- The loop over instances (scripts/wmi_repository.py 142-143). -/
def instancesMode (t : Texts) : List (Option Inst) → Option Err → List Str × Option Err
  | [], e => ([], e)
  | none :: _, _ => ([], some .attributeError)
  | some i :: is, e =>
    match printInstance t none i with
    | .error e => ([], some e)
    | .ok lines => let rest := instancesMode t is e; (lines ++ rest.1, rest.2)

/-- The modes (scripts/wmi_repository.py 137-149). -/
def showOpened (t : Texts) (r : Opened) : Mode → List Str × Option Err
  | .index => r.keys
  | .instances => instancesMode t r.instances.1 r.instances.2
  | .namespaces =>
    match r.namespaces.2 with
    | some e => ([], some e)
    | none => ((r.namespaces.1.mergeSort (fun a b => strLe a.1 b.1)).map (·.1), none)
  | .other => ([], none)

/-- `Main` (scripts/wmi_repository.py 127-170) after the arguments: the path as for `Open`, and what an open
repository yields. -/
def wmiScript (t : Texts) (w : World) (opened : Repository → Opened) (path dirname basename : Str) (mode : Mode) :
    List Str × Option Err :=
  match openRepository w path dirname basename with
  | .error e => ([], some e)
  | .ok r => showOpened t (opened r) (if basename = "index.btr".toList then .index else mode)

/-! ## Specification -/

/-- The names of what every instance is shown with, in order. -/
def fixedNames : List Str :=
  ["__GENUS".toList, "__CLASS".toList, "__SUPERCLASS".toList, "__DYNASTY".toList, "__RELPATH".toList,
    "__PROPERTY_COUNT".toList, "__DERIVATION".toList, "__SERVER".toList, "__NAMESPACE".toList, "__PATH".toList]

/-- The values of them. -/
def fixedValues (i : Inst) (rel n : Str) : List Str :=
  [['2'], i.className, i.super.getD [], i.dynasty.getD [], rel, digits 10 i.properties.length,
    ['{'] ++ join [',', ' '] i.derivation ++ ['}'], ['.'], n, ['\\', '\\', '.', '\\'] ++ n ++ [':'] ++ rel]

/-- Lexicographic order by code points: `a` is a prefix of `b`, or less at the first place they differ. -/
def Before (a b : Str) : Prop :=
  a <+: b ∨ ∃ p x y r s, a = p ++ x :: r ∧ b = p ++ y :: s ∧ x.toNat < y.toNat

/-- A line with the name in the first columns and the value after them. -/
def Aligned (width : Nat) (name value line : Str) : Prop :=
  name.length ≤ width ∧ ∃ blanks : Str, (∀ c ∈ blanks, c = ' ') ∧ line = name ++ blanks ++ [' ', ':', ' '] ++ value ∧
    (name ++ blanks).length = width

/-! ## Proofs -/

theorem strLe_iff (a b : Str) : strLe a b = true ↔ Before a b := by
  induction a generalizing b with
  | nil => simp [strLe, Before]
  | cons x xs ih =>
    cases b with
    | nil => simp [strLe, Before]
    | cons y ys =>
      rw [strLe]
      constructor
      · intro h
        split at h
        · exact .inr ⟨[], x, y, xs, ys, rfl, rfl, by assumption⟩
        · split at h
          · rename_i e
            have hxy : x = y := Char.ext (UInt32.toNat_inj.mp e)
            subst hxy
            rcases (ih ys).mp h with h | ⟨p, u, v, r, s, h1, h2, h3⟩
            · exact .inl (List.cons_prefix_cons.mpr ⟨rfl, h⟩)
            · exact .inr ⟨x :: p, u, v, r, s, by rw [h1]; rfl, by rw [h2]; rfl, h3⟩
          · exact (Bool.false_ne_true h).elim
      · rintro (h | ⟨p, u, v, r, s, h1, h2, h3⟩)
        · have h' := List.cons_prefix_cons.mp h
          rw [h'.1, if_neg (by omega), if_pos rfl]
          exact (ih ys).mpr (.inl h'.2)
        · cases p with
          | nil =>
            simp only [List.nil_append, List.cons.injEq] at h1 h2
            rw [h1.1, h2.1, if_pos h3]
          | cons q p =>
            simp only [List.cons_append, List.cons.injEq] at h1 h2
            rw [h1.1, h2.1, if_neg (by omega), if_pos rfl]
            exact (ih ys).mpr (.inr ⟨p, u, v, r, s, h1.2, h2.2, h3⟩)

theorem strLe_trans (a b c : Str) (h : strLe a b = true) (g : strLe b c = true) : strLe a c = true := by
  induction a generalizing b c with
  | nil => rfl
  | cons x xs ih =>
    cases b with
    | nil => simp [strLe] at h
    | cons y ys =>
      cases c with
      | nil => simp [strLe] at g
      | cons z zs =>
        rw [strLe] at h g ⊢
        by_cases h1 : x.toNat < z.toNat
        · rw [if_pos h1]
        · rw [if_neg h1]
          by_cases h2 : x.toNat < y.toNat
          · rw [if_neg (by omega), if_neg (by omega)] at g
            exact (Bool.false_ne_true g).elim
          · rw [if_neg h2] at h
            split at h
            · rename_i e
              rw [if_neg (by omega)] at g
              split at g
              · rw [if_pos (by omega)]
                exact ih ys zs h g
              · exact (Bool.false_ne_true g).elim
            · exact (Bool.false_ne_true h).elim

theorem strLe_total (a b : Str) : (strLe a b || strLe b a) = true := by
  induction a generalizing b with
  | nil => rfl
  | cons x xs ih =>
    cases b with
    | nil => simp [strLe]
    | cons y ys =>
      rw [strLe, strLe]
      by_cases h : x.toNat < y.toNat
      · rw [if_pos h]; rfl
      · by_cases g : y.toNat < x.toNat
        · rw [if_pos g]; simp
        · have e : x.toNat = y.toNat := by omega
          rw [if_neg h, if_pos e, if_neg g, if_pos e.symm]
          exact ih ys

theorem largest_aux (ps : List (Str × Str)) (m : Nat) :
    m ≤ ps.foldl (fun m p => max m p.1.length) m ∧
      (∀ p ∈ ps, p.1.length ≤ ps.foldl (fun m p => max m p.1.length) m) ∧
      (ps.foldl (fun m p => max m p.1.length) m = m ∨ ∃ p ∈ ps, p.1.length = ps.foldl (fun m p => max m p.1.length) m) := by
  induction ps generalizing m with
  | nil => exact ⟨Nat.le_refl _, by simp, .inl rfl⟩
  | cons q ps ih =>
    rw [List.foldl_cons]
    obtain ⟨h1, h2, h3⟩ := ih (max m q.1.length)
    refine ⟨by omega, ?_, ?_⟩
    · intro p hp
      rcases List.mem_cons.mp hp with rfl | hp
      · omega
      · exact h2 p hp
    · rcases h3 with h3 | ⟨p, hp, h3⟩
      · by_cases hm : q.1.length ≤ m
        · exact .inl (by omega)
        · exact .inr ⟨q, List.mem_cons_self .., by omega⟩
      · exact .inr ⟨p, List.mem_cons_of_mem _ hp, h3⟩

theorem pairLine_aligned (width : Nat) (p : Str × Str) (h : p.1.length ≤ width) :
    Aligned width p.1 p.2 (pairLine width p) :=
  ⟨h, List.replicate (width - p.1.length) ' ', fun _ hc => (List.mem_replicate.mp hc).2, rfl,
    by rw [List.length_append, List.length_replicate]; omega⟩

/-- C168.  An instance is shown by a line for each of the ten fixed names and for each of its properties, these by
their names, all with their values in one column, and then an empty line.  The column is right after the longest
name. -/
theorem C168_instance (t : Texts) (ns : Option Str) (i : Inst) (rel : Str) (hrel : relpath i = .ok rel) :
    ∃ (fixed : List Str) (ps : List (Str × Value)) (width : Nat) (lines : List Str),
      printInstance t ns i = .ok (lines ++ [[]]) ∧ fixed.length = 10 ∧
      ps.Perm i.properties ∧ ps.Pairwise (fun a b => Before a.1 b.1) ∧
      lines.length = 10 + i.properties.length ∧
      (∀ x ∈ (((fixedNames.zip fixed) ++ ps.map (fun p => (p.1, valueText t p.2))).zip lines),
        Aligned width x.1.1 x.1.2 x.2) ∧
      (∃ n ∈ fixedNames ++ i.properties.map (·.1), n.length = width) ∧
      fixed[0]? = some ['2'] ∧ fixed[1]? = some i.className ∧ fixed[2]? = some (i.super.getD []) ∧
      fixed[3]? = some (i.dynasty.getD []) ∧ fixed[4]? = some rel ∧
      fixed[5]? = some (digits 10 i.properties.length) ∧
      fixed[6]? = some (['{'] ++ join [',', ' '] i.derivation ++ ['}']) ∧ fixed[7]? = some ['.'] ∧
      ∃ n, fixed[8]? = some n ∧ fixed[9]? = some (['\\', '\\', '.', '\\'] ++ n ++ [':'] ++ rel) ∧
        (ns = none → n = ['R', 'O', 'O', 'T']) ∧ (∀ s, ns = some s → s ≠ [] → n = s) := by
  generalize hn : (if (ns.getD []) = [] then "ROOT".toList else ns.getD []) = n
  have hp : pairs t ns i = .ok ((fixedNames.zip (fixedValues i rel n)) ++
      (sortProperties i.properties).map (fun p => (p.1, valueText t p.2))) := by
    rw [pairs, hrel, ← hn]
    rfl
  have hperm : (sortProperties i.properties).Perm i.properties := List.mergeSort_perm _ _
  generalize hps : (fixedNames.zip (fixedValues i rel n)) ++
      (sortProperties i.properties).map (fun p => (p.1, valueText t p.2)) = ps at hp
  have haux := largest_aux ps 0
  refine ⟨fixedValues i rel n, sortProperties i.properties, largest ps, ps.map (pairLine (largest ps)), ?_, rfl,
    hperm, ?_, ?_, ?_, ?_, rfl, rfl, rfl, rfl, rfl, rfl, rfl, rfl, n, rfl, rfl, ?_, ?_⟩
  · rw [printInstance, hp]
    rfl
  · have := List.pairwise_mergeSort (le := fun a b : Str × Value => strLe a.1 b.1)
      (fun a b c => strLe_trans a.1 b.1 c.1) (fun a b => strLe_total a.1 b.1) i.properties
    exact this.imp (fun h => (strLe_iff _ _).mp h)
  · rw [List.length_map, ← hps, List.length_append, List.length_map, hperm.length_eq]
    rfl
  · rw [hps]
    intro x hx
    rw [List.zip_map_right] at hx
    obtain ⟨y, hy, rfl⟩ := List.mem_map.mp hx
    have : ∀ (l : List (Str × Str)), ∀ y ∈ l.zip l, y.1 = y.2 ∧ y.1 ∈ l := by
      intro l
      induction l with
      | nil => simp
      | cons a l ih =>
        intro y hy
        rw [List.zip_cons_cons] at hy
        rcases List.mem_cons.mp hy with rfl | hy
        · exact ⟨rfl, List.mem_cons_self ..⟩
        · exact ⟨(ih y hy).1, List.mem_cons_of_mem _ (ih y hy).2⟩
    obtain ⟨e, hm⟩ := this ps y hy
    show Aligned _ y.1.1 y.1.2 (pairLine _ y.2)
    rw [← e]
    exact pairLine_aligned _ _ (haux.2.1 _ hm)
  · rcases haux.2.2 with h | ⟨p, hm, h⟩
    · have : ("__GENUS".toList, ['2']) ∈ ps := by rw [← hps]; exact List.mem_append_left _ (List.mem_cons_self ..)
      have h' := haux.2.1 _ this
      rw [h] at h'
      exact absurd h' (by decide)
    · refine ⟨p.1, ?_, h⟩
      rw [← hps] at hm
      rcases List.mem_append.mp hm with hm | hm
      · exact List.mem_append_left _ (List.of_mem_zip (a := p.1) (b := p.2) hm).1
      · obtain ⟨q, hq, rfl⟩ := List.mem_map.mp hm
        exact List.mem_append_right _ (List.mem_map.mpr ⟨q, hperm.mem_iff.mp hq, rfl⟩)
  · rintro rfl
    exact hn.symm
  · rintro s rfl hs
    rw [← hn]
    exact if_neg hs

/-- C168.  The value is found at the column, and the name before it, if it does not end in a blank. -/
theorem C168_recovers (width : Nat) (name value name' value' line : Str) (h : Aligned width name value line)
    (h' : Aligned width name' value' line) : value = value' ∧ (name.getLast? ≠ some ' ' → name'.getLast? ≠ some ' ' →
      name = name') := by
  obtain ⟨_, b, hb, e, hw⟩ := h
  obtain ⟨_, c, hc, e', hw'⟩ := h'
  rw [e, List.append_assoc, List.append_assoc (name' ++ c)] at e'
  obtain ⟨h1, h2⟩ := List.append_inj e' (by omega)
  refine ⟨List.append_cancel_left h2, ?_⟩
  have key : ∀ (m n b c : Str), m ++ b = n ++ c → (∀ x ∈ b, x = ' ') → (∀ x ∈ c, x = ' ') →
      m.getLast? ≠ some ' ' → n.getLast? ≠ some ' ' → m.length ≤ n.length → m = n := by
    intro m n b c h hb hc hm hn hl
    obtain ⟨d, rfl⟩ : ∃ d, n = m ++ d := by
      have : m <+: n := List.prefix_of_prefix_length_le (List.prefix_append m b) (h ▸ List.prefix_append n c) hl
      exact ⟨_, this.choose_spec.symm⟩
    rw [List.append_assoc] at h
    have hd := List.append_cancel_left h
    cases hde : d.getLast? with
    | none =>
      rw [List.getLast?_eq_none_iff] at hde
      rw [hde, List.append_nil]
    | some x =>
      exfalso
      have hx : x = ' ' := hb x (by rw [hd]; exact List.mem_append_left _ (List.mem_of_getLast? hde))
      apply hn
      rw [List.getLast?_append, hde, hx]
      rfl
  intro g1 g2
  rcases Nat.le_total name.length name'.length with hl | hl
  · exact key _ _ _ _ h1 hb hc g1 g2 hl
  · exact (key _ _ _ _ h1.symm hc hb g2 g1 hl).symm

/-- C168.  It would be nice if the relative path told the instances of a class from each other. -/
def C168_relpath_claim : Prop :=
  ∀ i j : Inst, i.className = j.className → relpath i = relpath j → i.properties = j.properties

/-- Only the key that is called `Name` is shown. -/
theorem C168_relpath_claim_false : ¬ C168_relpath_claim := fun h => by
  have := h ⟨"A".toList, [], none, none, [("Id".toList, .integer 1)]⟩ ⟨"A".toList, [], none, none, [("Id".toList, .integer 2)]⟩
    rfl rfl
  revert this
  decide

/-- The value of the property that is called `Name`; no two properties have one name. -/
def NameOf (i : Inst) (v : Value) : Prop := (i.properties.map (·.1)).Nodup ∧ ("Name".toList, v) ∈ i.properties

theorem nameProperty_of (i : Inst) (v : Value) (h : NameOf i v) : nameProperty i = v := by
  obtain ⟨hd, hm⟩ := h
  unfold nameProperty
  generalize "Name".toList = n at hm
  induction hp : i.properties generalizing i with
  | nil => rw [hp] at hm; cases hm
  | cons p ps ih =>
    rw [hp] at hd hm
    rw [List.map_cons, List.nodup_cons] at hd
    rcases List.mem_cons.mp hm with rfl | hm
    · rw [List.find?_cons_of_pos (by simp)]
      rfl
    · rw [List.find?_cons_of_neg]
      · exact ih ⟨i.className, i.derivation, i.super, i.dynasty, ps⟩ hd.2 hm rfl
      · intro e
        exact hd.1 (List.mem_map.mpr ⟨_, hm, (beq_iff_eq.mp e).symm⟩)

/-- C168.  Instances of a class whose names are texts are told from each other by their names. -/
theorem C168_relpath_partial (i j : Inst) (s t : Str) (hi : NameOf i (.text s)) (hj : NameOf j (.text t))
    (hc : i.className = j.className) (h : relpath i = relpath j) : s = t := by
  have hi := nameProperty_of i _ hi
  have hj := nameProperty_of j _ hj
  have hr : ∀ (i : Inst) (s : Str), nameProperty i = .text s →
      relpath i = .ok (i.className ++ (if s = [] then "=@".toList else ".Name=\"".toList ++ s ++ "\"".toList)) := by
    intro i s hi
    rw [relpath, hi]
    by_cases hs : s = []
    · rw [if_pos hs, if_neg (by simp [truthy, hs])]
    · rw [if_neg hs, if_pos (by simp [truthy, hs])]
      dsimp only
      simp only [List.append_assoc]
  rw [hr i s hi, hr j t hj, hc] at h
  have h := List.append_cancel_left (Except.ok.inj h)
  by_cases hs : s = []
  · by_cases ht : t = []
    · rw [hs, ht]
    · rw [if_pos hs, if_neg ht] at h
      have := congrArg List.head? h
      simp at this
  · by_cases ht : t = []
    · rw [if_neg hs, if_pos ht] at h
      have := congrArg List.head? h
      simp at this
    · rw [if_neg hs, if_neg ht, List.append_assoc, List.append_assoc] at h
      exact List.append_cancel_right (List.append_cancel_left h)

/-- A value that is not taken for one: zero, false or empty. -/
def Blank (v : Value) : Prop :=
  v = .none ∨ v = .boolean false ∨ v = .integer 0 ∨ (∃ b, v = .real b ∧ realZero b = true) ∨ v = .text [] ∨ v = .texts []

theorem truthy_iff (v : Value) : truthy v = true ↔ ¬ Blank v := by
  unfold Blank
  cases v <;> simp [truthy]

/-- C168.  A name that is not a text and not empty is an error, after which nothing is shown. -/
theorem C168_name (t : Texts) (i : Inst) (v : Value) (hv : NameOf i v) (he : ¬ Blank v) (hs : ∀ s, v ≠ .text s)
    (before after : List (Option Inst)) (e : Option Err) (lines : List Str)
    (hb : instancesMode t before none = (lines, none)) :
    ∃ x : Err, instancesMode t (before ++ some i :: after) e = (lines, some x) ∧
      ((∃ l, v = .texts l) ∧ x = .typeError ∨ (∀ l, v ≠ .texts l) ∧ x = .valueError) := by
  have hname := nameProperty_of i v hv
  subst hname
  have h := (truthy_iff _).mpr he
  have hn := hs
  obtain ⟨x, hr, hx⟩ : ∃ x, printInstance t none i = .error x ∧
      ((∃ l, nameProperty i = .texts l) ∧ x = .typeError ∨ (∀ l, nameProperty i ≠ .texts l) ∧ x = .valueError) := by
    rw [printInstance, pairs, relpath, if_pos h]
    cases hv : nameProperty i with
    | none => rw [hv] at h; exact (Bool.false_ne_true h).elim
    | boolean b => exact ⟨_, rfl, .inr ⟨fun l hl => (by cases hl), rfl⟩⟩
    | integer b => exact ⟨_, rfl, .inr ⟨fun l hl => (by cases hl), rfl⟩⟩
    | real b => exact ⟨_, rfl, .inr ⟨fun l hl => (by cases hl), rfl⟩⟩
    | text s => exact (hn s hv).elim
    | texts l => exact ⟨_, rfl, .inl ⟨⟨l, rfl⟩, rfl⟩⟩
  refine ⟨x, ?_, hx⟩
  induction before generalizing lines with
  | nil =>
    simp only [instancesMode, Prod.mk.injEq, and_true] at hb
    subst hb
    rw [List.nil_append, instancesMode, hr]
  | cons j js ih =>
    cases j with
    | none => simp [instancesMode] at hb
    | some j =>
      rw [List.cons_append, instancesMode]
      rw [instancesMode] at hb
      cases hj : printInstance t none j with
      | error e => rw [hj] at hb; simp at hb
      | ok ls =>
        rw [hj] at hb
        dsimp only at hb ⊢
        simp only [Prod.mk.injEq] at hb
        rw [ih (instancesMode t js none).1 (Prod.ext rfl hb.2)]
        rw [← hb.1]

/-- C168.  It would be nice if the namespace of an instance were shown. -/
def C168_namespace_claim : Prop :=
  ∀ (t : Texts) (r : Opened) (ns : Str) (i : Inst), r.instances = ([some i], none) → r.namespaces = ([(ns, i)], none) →
    (showOpened t r .instances).1 = (printInstance t (some ns) i).toOption.getD []

theorem C168_namespace_claim_false : ¬ C168_namespace_claim := fun h => by
  have := h ⟨fun _ => [], fun _ => []⟩ ⟨([], none), ([some (namespaceInst ['a'])], none), ([(['b'], namespaceInst ['a'])], none)⟩
    ['b'] (namespaceInst ['a']) rfl rfl
  revert this
  decide +kernel

/-- C168.  All instances are shown in order, and as if they were in the root. -/
theorem C168_instances (t : Texts) (is : List Inst) (e : Option Err) (shown : Inst → List Str)
    (h : ∀ i ∈ is, printInstance t none i = .ok (shown i)) (r : Opened) (hr : r.instances = (is.map some, e)) :
    showOpened t r .instances = (is.flatMap shown, e) := by
  rw [showOpened, hr]
  dsimp only
  clear hr
  induction is with
  | nil => rfl
  | cons i is ih =>
    rw [List.map_cons, instancesMode, h i (List.mem_cons_self ..)]
    dsimp only
    rw [ih (fun j hj => h j (List.mem_cons_of_mem _ hj))]
    rfl

/-- C168.  The namespaces are shown in order, those that are equal as often as they are there. -/
theorem C168_namespaces (t : Texts) (r : Opened) (h : r.namespaces.2 = none) :
    ∃ lines : List Str, showOpened t r .namespaces = (lines, none) ∧ lines.Perm (r.namespaces.1.map (·.1)) ∧
      lines.Pairwise Before := by
  refine ⟨(r.namespaces.1.mergeSort (fun a b => strLe a.1 b.1)).map (·.1), by rw [showOpened, h],
    (List.mergeSort_perm _ _).map _, ?_⟩
  rw [List.pairwise_map]
  have := List.pairwise_mergeSort (le := fun a b : Str × Inst => strLe a.1 b.1)
    (fun a b c => strLe_trans a.1 b.1 c.1) (fun a b => strLe_total a.1 b.1) r.namespaces.1
  exact this.imp (fun h => (strLe_iff _ _).mp h)

/-- C168.  The keys of the index are shown as they are yielded; if the namespaces cannot all be read, none is shown. -/
theorem C168_yielded (t : Texts) (r : Opened) :
    showOpened t r .index = (r.keys.1, r.keys.2) ∧
      (∀ e, r.namespaces.2 = some e → showOpened t r .namespaces = ([], some e)) := by
  refine ⟨rfl, fun e h => ?_⟩
  rw [showOpened, h]

/-- C168.  The texts of the values of properties: numbers are told from each other, and truth values by their names. -/
theorem C168_values (t : Texts) :
    (∀ i j, valueText t (.integer i) = valueText t (.integer j) → i = j) ∧
    (∀ b, valueText t (.boolean b) = ['T', 'r', 'u', 'e'] ↔ b = true) ∧
    (∀ b, valueText t (.boolean b) = ['F', 'a', 'l', 's', 'e'] ↔ b = false) ∧
    (∀ s, valueText t (.text s) = s) ∧ valueText t .none = [] := by
  refine ⟨fun i j h => Formats.decInt_injective i j h, ?_, ?_, fun s => rfl, rfl⟩ <;> intro b <;> cases b <;> simp [valueText]

/-- C168.  The path of the index shows the keys of the index, whatever the mode. -/
theorem C168_index (t : Texts) (w : World) (opened : Repository → Opened) (path dirname : Str) (mode mode' : Mode) :
    wmiScript t w opened path dirname "index.btr".toList mode = wmiScript t w opened path dirname "index.btr".toList mode' := by
  rw [wmiScript, wmiScript, if_pos rfl, if_pos rfl]

/-- C168.  It would be nice if the script showed the instances of a repository. -/
def C168_shown_claim : Prop :=
  ∃ (t : Texts) (w : World) (opened : Repository → Opened) (path dirname basename : Str) (mode : Mode),
    (wmiScript t w opened path dirname basename mode).1 ≠ []

/-- C168.  No repository can be opened, so that the script shows nothing of any and ends with an error. -/
theorem C168_nothing (t : Texts) (w : World) (opened : Repository → Opened) (path dirname basename : Str) (mode : Mode) :
    wmiScript t w opened path dirname basename mode = ([], some .valueError) := by
  rw [wmiScript, C39_open_fails]

theorem C168_shown_claim_false : ¬ C168_shown_claim := by
  rintro ⟨t, w, opened, path, dirname, basename, mode, h⟩
  rw [C168_nothing] at h
  exact h rfl

example : (printInstance ⟨fun _ => [], fun _ => []⟩ none
    ⟨"C".toList, ["B".toList, "A".toList], some "B".toList, some "A".toList,
      [("Size".toList, .integer 5), ("Name".toList, .text "x".toList)]⟩).map (·.map String.ofList) =
    .ok ["__GENUS          : 2", "__CLASS          : C", "__SUPERCLASS     : B", "__DYNASTY        : A",
      "__RELPATH        : C.Name=\"x\"", "__PROPERTY_COUNT : 2", "__DERIVATION     : {B, A}", "__SERVER         : .",
      "__NAMESPACE      : ROOT", "__PATH           : \\\\.\\ROOT:C.Name=\"x\"", "Name             : x",
      "Size             : 5", ""] := by
  have h : sortProperties [("Size".toList, .integer 5), ("Name".toList, .text "x".toList)] =
      [("Name".toList, .text "x".toList), ("Size".toList, .integer 5)] := by
    simp [sortProperties, List.mergeSort, strLe, List.MergeSort.Internal.splitInTwo]
  rw [printInstance, pairs, h]
  decide +kernel

end Dtf.Wmi
