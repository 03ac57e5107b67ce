import Verif.Slices

/-!
# CUPS IPP files (C46)
-/

namespace Dtf.Ipp
open Py DataFormat

/-! ## Model -/

inductive Value where
  | none
  | integer (i : Int)
  | boolean (b : Bool)
  | dateTime (fields : List Nat)
  | text (s : List Char)
deriving DecidableEq, Repr

/-- What the libraries do: whether a name can be decoded, the text of bytes in a character set, and whether there
is a date and time of the fields. -/
structure Library where
  utf8 : Bytes → Bool
  decode : List Char → Bytes → Res (List Char)
  dateTime : List Nat → Res Unit

/-- `bytes.decode("ascii")`. -/
def ascii (b : Bytes) : Res (List Char) :=
  if b.all (· < 128) then .ok (b.map (fun c => Char.ofNat c.toNat)) else .error .unicodeError

/-- The value of an attribute and the character set from there on (cups_ipp.py 142-180, 220-305). -/
def readValue (lib : Library) (charset : List Char) (tag : Nat) (b : Bytes) : Res (Value × List Char) :=
  if tag = 0x21 ∨ tag = 0x23 then
    if b.length < 4 then .error .parseError else .ok (.integer (signed 4 (beNat (b.take 4))), charset)
  else if tag = 0x22 then
    if b = [0] then .ok (.boolean false, charset)
    else if b = [1] then .ok (.boolean true, charset)
    else .error .parseError
  else if tag = 0x31 then
    if b.length < 11 then .error .parseError
    else
      let fields := beNat (slice b 0 2) :: (slice b 2 11).map UInt8.toNat
      match lib.dateTime fields with
      | .error e => .error e
      | .ok _ => .ok (.dateTime fields, charset)
  else if tag = 0x32 then .ok (.none, charset)
  else if tag = 0x41 ∨ tag = 0x42 then
    match lib.decode charset b with
    | .error e => .error e
    | .ok s => .ok (.text s, charset)
  else if tag = 0x44 ∨ tag = 0x45 ∨ tag = 0x46 ∨ tag = 0x47 ∨ tag = 0x48 ∨ tag = 0x49 then
    match ascii b with
    | .error e => .error e
    | .ok s => .ok (.text s, if tag = 0x47 then s else charset)
  else .ok (.none, charset)

/-- A group starts or an attribute of it. -/
inductive Item where
  | group (tag : Nat)
  | attr (tag : Nat) (name : Bytes) (value : Value)
deriving DecidableEq, Repr

/-- `cups_ipp_attribute` (cups_ipp.yaml 66-88): the tag, the name, the value and the size.  The sizes are signed
integers. -/
def attributeAt (lib : Library) (data : Bytes) (off : Nat) : Res (Nat × Bytes × Bytes × Nat) :=
  if data.length < off + 3 then .error .parseError
  else
    let n := signed 2 (beNat (slice data (off + 1) (off + 3)))
    if n < 0 then .error .parseError
    else if data.length < off + 5 + n.toNat then .error .parseError
    else
      let v := signed 2 (beNat (slice data (off + 3 + n.toNat) (off + 5 + n.toNat)))
      if v < 0 then .error .parseError
      else if data.length < off + 5 + n.toNat + v.toNat then .error .parseError
      else
        let name := slice data (off + 3) (off + 3 + n.toNat)
        if lib.utf8 name then
          .ok (beNat (slice data off (off + 1)), name,
            slice data (off + 5 + n.toNat) (off + 5 + n.toNat + v.toNat), 5 + n.toNat + v.toNat)
        else .error .parseError

/-- `_ReadAttribute` (cups_ipp.py 122-183). -/
def readAttribute (lib : Library) (data : Bytes) (charset : List Char) (off : Nat) :
    Res (Item × List Char × Nat) :=
  match attributeAt lib data off with
  | .error e => .error e
  | .ok (tag, name, b, size) =>
    match readValue lib charset tag b with
    | .error e => .error e
    | .ok (value, charset) => .ok (.attr tag name value, charset, off + size)

/-- `_ReadAttributesGroup` (cups_ipp.py 185-218); `none` is out of fuel. -/
def readGroups (lib : Library) (data : Bytes) : Nat → Nat → List Char → List Item → Option (Res (List Item))
  | 0, _, _, _ => none
  | fuel + 1, off, charset, acc =>
    match data[off]? with
    | none => some (.error .parseError)
    | some b =>
      let tag := signed 1 b.toNat
      if tag ≥ 0x10 then
        match readAttribute lib data charset off with
        | .error e => some (.error e)
        | .ok (item, charset, next) => readGroups lib data fuel next charset (acc ++ [item])
      else if tag = 3 then some (.ok acc)
      else if tag = 1 ∨ tag = 2 ∨ tag = 4 ∨ tag = 5 then
        readGroups lib data fuel (off + 1) charset (acc ++ [.group tag.toNat])
      else some (.error .parseError)

/-- `ReadFileObject` (cups_ipp.py 327-339) with `_ReadHeader` (307-325), which has 8 bytes. -/
def readFile (lib : Library) (data : Bytes) (fuel : Nat) : Option (Res (List Item)) :=
  if data.length < 8 then some (.error .parseError)
  else readGroups lib data fuel 8 "ascii".toList []

/-! ## The specification -/

/-- What the bytes of an attribute mean, given the character set of the last charset attribute, and the character
set after it. -/
inductive Means (lib : Library) (charset : List Char) : Nat → Bytes → Value → List Char → Prop where
  | integer (tag : Nat) (i : Int) (rest : Bytes) : tag = 0x21 ∨ tag = 0x23 → -(2 ^ 31) ≤ i → i < 2 ^ 31 →
      Means lib charset tag (beBytes 4 (unsigned 4 i) ++ rest) (.integer i) charset
  | boolean (b : Bool) : Means lib charset 0x22 [if b then 1 else 0] (.boolean b) charset
  | dateTime (year : Nat) (fields rest : Bytes) : year < 2 ^ 16 → fields.length = 9 →
      lib.dateTime (year :: fields.map UInt8.toNat) = .ok () →
      Means lib charset 0x31 (beBytes 2 year ++ fields ++ rest) (.dateTime (year :: fields.map UInt8.toNat)) charset
  | text (tag : Nat) (b : Bytes) (s : List Char) : tag = 0x41 ∨ tag = 0x42 → lib.decode charset b = .ok s →
      Means lib charset tag b (.text s) charset
  | keyword (tag : Nat) (s : List Char) : tag = 0x44 ∨ tag = 0x45 ∨ tag = 0x46 ∨ tag = 0x48 ∨ tag = 0x49 →
      (∀ c ∈ s, c.toNat < 128) → Means lib charset tag (s.map (fun c => UInt8.ofNat c.toNat)) (.text s) charset
  | switch (s : List Char) : (∀ c ∈ s, c.toNat < 128) →
      Means lib charset 0x47 (s.map (fun c => UInt8.ofNat c.toNat)) (.text s) s
  | other (tag : Nat) (b : Bytes) : tag ∉ [0x21, 0x22, 0x23, 0x31, 0x41, 0x42, 0x44, 0x45, 0x46, 0x47, 0x48, 0x49] →
      Means lib charset tag b .none charset

/-- What is stored of an item and what is read of it. -/
inductive Stores (lib : Library) : List Char → Bytes → Item → List Char → Prop where
  | group (charset : List Char) (tag : Nat) : tag = 1 ∨ tag = 2 ∨ tag = 4 ∨ tag = 5 →
      Stores lib charset [UInt8.ofNat tag] (.group tag) charset
  | attr (charset charset' : List Char) (tag : Nat) (name b : Bytes) (value : Value) :
      0x10 ≤ tag → tag < 0x80 → name.length < 2 ^ 15 → lib.utf8 name = true → b.length < 2 ^ 15 →
      Means lib charset tag b value charset' →
      Stores lib charset
        [[UInt8.ofNat tag], beBytes 2 name.length, name, beBytes 2 b.length, b].flatten
        (.attr tag name value) charset'

/-- The items of a file one after the other. -/
inductive StoresAll (lib : Library) : List Char → Bytes → List Item → Prop where
  | nil (charset : List Char) : StoresAll lib charset [] []
  | cons (charset charset' : List Char) (b bs : Bytes) (i : Item) (is : List Item) :
      Stores lib charset b i charset' → StoresAll lib charset' bs is → StoresAll lib charset (b ++ bs) (i :: is)

/-! ## Proofs -/

theorem ascii_chars (s : List Char) (h : ∀ c ∈ s, c.toNat < 128) :
    ascii (s.map (fun c => UInt8.ofNat c.toNat)) = .ok s := by
  have e : ∀ c ∈ s, (UInt8.ofNat c.toNat).toNat = c.toNat := by
    intro c hc
    have := h c hc
    rw [UInt8.toNat_ofNat']
    omega
  unfold ascii
  rw [if_pos, List.map_map]
  · congr 1
    induction s with
    | nil => rfl
    | cons c s ih =>
      rw [List.map_cons, ih (fun d hd => h d (by simp [hd])) (fun d hd => e d (by simp [hd]))]
      congr 1
      simp only [Function.comp]
      rw [e c (by simp), Char.ofNat_toNat]
  · rw [List.all_eq_true]
    intro b hb
    simp only [List.mem_map] at hb
    obtain ⟨c, hc, rfl⟩ := hb
    have h1 := e c hc
    have h2 := h c hc
    rw [decide_eq_true_eq, UInt8.lt_iff_toNat_lt, h1]
    simpa using h2

theorem readValue_means (lib : Library) (charset charset' : List Char) (tag : Nat) (b : Bytes) (v : Value)
    (h : Means lib charset tag b v charset') : readValue lib charset tag b = .ok (v, charset') := by
  unfold readValue
  cases h with
  | integer _ i rest ht h1 h2 =>
    rw [if_pos ht, if_neg (by simp), List.take_left' (by simp),
      beNat_beBytes_of_lt _ _ (unsigned_lt 4 i), signed_unsigned 4 i (by simp; omega) (by simp; omega)]
  | boolean b => cases b <;> simp
  | dateTime year fields rest h1 h2 h3 =>
    have e1 : slice (beBytes 2 year ++ fields ++ rest) 0 2 = beBytes 2 year := by
      rw [slice_eq_take_drop, List.drop_zero, List.append_assoc]
      exact List.take_left' (by simp)
    have e2 : slice (beBytes 2 year ++ fields ++ rest) 2 11 = fields := by
      rw [slice_eq_take_drop, List.append_assoc, List.drop_left' (by simp)]
      exact List.take_left' (by omega)
    rw [if_neg (by decide), if_neg (by decide), if_pos rfl, if_neg (by simp; omega)]
    dsimp only
    rw [e1, e2, beNat_beBytes_of_lt _ _ (by omega), h3]
  | text _ _ s ht hd =>
    rw [if_neg (by omega), if_neg (by omega), if_neg (by omega), if_neg (by omega), if_pos ht, hd]
  | keyword _ s ht hs =>
    rw [if_neg (by omega), if_neg (by omega), if_neg (by omega), if_neg (by omega), if_neg (by omega),
      if_pos (by omega), ascii_chars s hs]
    dsimp only
    rw [if_neg (by omega)]
  | switch _ hs =>
    rw [if_neg (by omega), if_neg (by omega), if_neg (by omega), if_neg (by omega), if_neg (by omega),
      if_pos (by omega), ascii_chars _ hs]
    rfl
  | other _ _ ht =>
    simp only [List.mem_cons, List.not_mem_nil, or_false, not_or] at ht
    rw [if_neg (by omega), if_neg (by omega), if_neg (by omega)]
    split
    · rfl
    · rw [if_neg (by omega), if_neg (by omega)]

theorem signed_small (w n : Nat) (h : 2 * n < 256 ^ w) : signed w n = n := by
  unfold signed
  rw [if_pos h]

theorem slice_mid (pre : Bytes) (a : List Bytes) (x : Bytes) (b : List Bytes) (n m : Nat)
    (hn : (a.map List.length).sum = n) (hm : n + x.length = m) (post : Bytes) :
    slice (pre ++ (a ++ x :: b).flatten ++ post) (pre.length + n) (pre.length + m) = x := by
  have := slice_fields (pre :: a) x (b ++ [post]) (pre.length + n) (pre.length + m) (by simp [hn]) (by omega)
  have e : pre ++ (a ++ x :: b).flatten ++ post = (pre :: a ++ x :: (b ++ [post])).flatten := by simp
  rw [e, this]

theorem attributeAt_bytes (lib : Library) (tag : Nat) (name b pre post : Bytes) (h2 : tag < 0x80)
    (h3 : name.length < 2 ^ 15) (h4 : lib.utf8 name = true) (h5 : b.length < 2 ^ 15) :
    attributeAt lib (pre ++ [[UInt8.ofNat tag], beBytes 2 name.length, name, beBytes 2 b.length, b].flatten ++ post)
      pre.length = .ok (tag, name, b, 5 + name.length + b.length) := by
  have s1 := slice_mid pre [] [UInt8.ofNat tag] [beBytes 2 name.length, name, beBytes 2 b.length, b] 0 1 rfl rfl post
  have s2 := slice_mid pre [[UInt8.ofNat tag]] (beBytes 2 name.length) [name, beBytes 2 b.length, b] 1 3 rfl (by simp)
    post
  have s3 := slice_mid pre [[UInt8.ofNat tag], beBytes 2 name.length] name [beBytes 2 b.length, b] 3 (3 + name.length)
    (by simp) rfl post
  have s4 := slice_mid pre [[UInt8.ofNat tag], beBytes 2 name.length, name] (beBytes 2 b.length) [b]
    (3 + name.length) (5 + name.length) (by simp; omega) (by simp; omega) post
  have s5 := slice_mid pre [[UInt8.ofNat tag], beBytes 2 name.length, name, beBytes 2 b.length] b []
    (5 + name.length) (5 + name.length + b.length) (by simp; omega) rfl post
  simp only [List.nil_append, List.cons_append, Nat.add_zero] at s1 s2 s3 s4 s5
  generalize hd : pre ++ [[UInt8.ofNat tag], beBytes 2 name.length, name, beBytes 2 b.length, b].flatten ++ post =
    data at *
  have hl : data.length = pre.length + 5 + name.length + b.length + post.length := by
    rw [← hd]; simp; omega
  unfold attributeAt
  rw [if_neg (by omega)]
  dsimp only
  rw [s2, beNat_beBytes_of_lt _ _ (by omega), signed_small _ _ (by omega), if_neg (by omega), Int.toNat_natCast,
    if_neg (by omega), Nat.add_assoc pre.length 3, Nat.add_assoc pre.length 5, s4, beNat_beBytes_of_lt _ _ (by omega),
    signed_small _ _ (by omega), if_neg (by omega), Int.toNat_natCast, if_neg (by omega), s1, s3,
    Nat.add_assoc pre.length (5 + name.length), s5, if_pos h4]
  simp only [beNat, List.foldl_cons, List.foldl_nil, Nat.zero_mul, Nat.zero_add]
  rw [UInt8.toNat_ofNat', Nat.mod_eq_of_lt (by omega)]

theorem readGroups_step (lib : Library) (charset charset' : List Char) (b : Bytes) (i : Item)
    (h : Stores lib charset b i charset') (pre post : Bytes) (fuel : Nat) (acc : List Item) :
    readGroups lib (pre ++ b ++ post) (fuel + 1) pre.length charset acc =
      readGroups lib (pre ++ b ++ post) fuel (pre ++ b).length charset' (acc ++ [i]) := by
  rw [readGroups]
  cases h with
  | group tag ht =>
    have e : (pre ++ [UInt8.ofNat tag] ++ post)[pre.length]? = some (UInt8.ofNat tag) := by simp
    rw [e]
    dsimp only
    rw [UInt8.toNat_ofNat', Nat.mod_eq_of_lt (by omega), signed_small _ _ (by omega), if_neg (by omega),
      if_neg (by omega), if_pos (by omega)]
    simp
  | attr _ tag name b value h1 h2 h3 h4 h5 h6 =>
    have ha := attributeAt_bytes lib tag name b pre post h2 h3 h4 h5
    have e : (pre ++ [[UInt8.ofNat tag], beBytes 2 name.length, name, beBytes 2 b.length, b].flatten ++
        post)[pre.length]? = some (UInt8.ofNat tag) := by simp
    rw [e]
    dsimp only
    rw [UInt8.toNat_ofNat', Nat.mod_eq_of_lt (by omega), signed_small _ _ (by omega), if_pos (by omega), readAttribute,
      ha]
    dsimp only
    rw [readValue_means _ _ _ _ _ _ h6]
    dsimp only
    congr 1
    simp
    omega

theorem readGroups_all (lib : Library) (charset : List Char) (b : Bytes) (is : List Item)
    (h : StoresAll lib charset b is) : ∀ (pre post : Bytes) (fuel : Nat) (acc : List Item), is.length < fuel →
    readGroups lib (pre ++ b ++ 3 :: post) fuel pre.length charset acc = some (.ok (acc ++ is)) := by
  induction h with
  | nil charset =>
    intro pre post fuel acc hf
    obtain ⟨k, rfl⟩ : ∃ k, fuel = k + 1 := ⟨fuel - 1, by simp at hf; omega⟩
    rw [readGroups]
    have e : (pre ++ [] ++ 3 :: post)[pre.length]? = some 3 := by simp
    rw [e]
    simp [signed]
  | cons charset charset' b bs i is hi _ ih =>
    intro pre post fuel acc hf
    obtain ⟨k, rfl⟩ : ∃ k, fuel = k + 1 := ⟨fuel - 1, by simp at hf; omega⟩
    have e : pre ++ (b ++ bs) ++ 3 :: post = pre ++ b ++ (bs ++ 3 :: post) := by simp
    rw [e, readGroups_step _ _ _ _ _ hi, show pre ++ b ++ (bs ++ 3 :: post) = (pre ++ b) ++ bs ++ 3 :: post by simp,
      ih _ _ _ _ (by simp at hf; omega)]
    simp

/-! ## C46 -/

/-- All groups and attributes before the end tag are read, in order, with their values. -/
theorem C46_items (lib : Library) (header b post : Bytes) (items : List Item) (hh : header.length = 8)
    (h : StoresAll lib "ascii".toList b items) (fuel : Nat) (hf : items.length < fuel) :
    readFile lib (header ++ b ++ 3 :: post) fuel = some (.ok items) := by
  unfold readFile
  rw [if_neg (by simp; omega), ← hh, readGroups_all lib _ b items h header post fuel [] hf]
  simp

theorem readGroups_ends (lib : Library) (data : Bytes) (fuel : Nat) : ∀ off charset acc, data.length - off < fuel →
    readGroups lib data fuel off charset acc ≠ none := by
  induction fuel with
  | zero => intro off charset acc h; omega
  | succ fuel ih =>
    intro off charset acc h
    rw [readGroups]
    cases hb : data[off]? with
    | none => simp
    | some b =>
      have hlt : off < data.length := by
        rcases Nat.lt_or_ge off data.length with hc | hc
        · exact hc
        · rw [List.getElem?_eq_none hc] at hb
          cases hb
      dsimp only
      split
      · unfold readAttribute attributeAt
        dsimp only
        split
        · simp
        · rename_i item charset' next hs
          refine ih _ _ _ ?_
          split at hs
          · cases hs
          · rename_i tag name v size ha
            have hsize : 5 ≤ size := by
              split at ha
              · cases ha
              · split at ha
                · cases ha
                · split at ha
                  · cases ha
                  · split at ha
                    · cases ha
                    · split at ha
                      · cases ha
                      · split at ha
                        · cases ha
                          omega
                        · cases ha
            split at hs
            · cases hs
            · cases hs
              omega
      · split
        · simp
        · split
          · exact ih _ _ _ (by omega)
          · simp

/-- Reading ends for every file. -/
theorem C46_terminates (lib : Library) (data : Bytes) : readFile lib data (data.length + 1) ≠ none := by
  unfold readFile
  split
  · simp
  · exact readGroups_ends lib data _ _ _ _ (by omega)

/-- A file without an end tag is refused. -/
theorem C46_end_tag (lib : Library) (data : Bytes) (fuel : Nat) (items : List Item)
    (h : readFile lib data fuel = some (.ok items)) : (3 : UInt8) ∈ data := by
  have key : ∀ fuel off charset acc, readGroups lib data fuel off charset acc = some (.ok items) →
      (3 : UInt8) ∈ data := by
    intro fuel
    induction fuel with
    | zero => intro off charset acc h; simp [readGroups] at h
    | succ fuel ih =>
      intro off charset acc h
      rw [readGroups] at h
      cases hb : data[off]? with
      | none => rw [hb] at h; simp at h
      | some b =>
        rw [hb] at h
        dsimp only at h
        split at h
        · split at h
          · simp at h
          · exact ih _ _ _ h
        · split at h
          · rename_i ht
            have hb3 : b = 3 := by
              have h255 := b.toNat_lt
              unfold signed at ht
              apply UInt8.toNat_inj.mp
              split at ht
              · rw [show (3 : UInt8).toNat = 3 from rfl]; omega
              · simp at ht; omega
            rw [← hb3]
            exact List.mem_of_getElem? hb
          · split at h
            · exact ih _ _ _ h
            · simp at h
  unfold readFile at h
  split at h
  · simp at h
  · exact key _ _ _ _ h

/-- Values that are not ASCII raise another error than a parse error. -/
theorem C46_keyword_not_ascii (lib : Library) (charset : List Char) (b : Bytes) (c : UInt8) (hc : c ∈ b)
    (h : 128 ≤ c.toNat) : readValue lib charset 0x44 b = .error .unicodeError := by
  unfold readValue ascii
  rw [if_neg (by decide), if_neg (by decide), if_neg (by decide), if_neg (by decide), if_neg (by decide),
    if_pos (by decide), if_neg]
  intro ha
  rw [List.all_eq_true] at ha
  have := ha c hc
  rw [decide_eq_true_eq, UInt8.lt_iff_toNat_lt] at this
  simp at this
  omega

/-- A group with a character set, a text and a number. -/
example : readFile ⟨fun _ => true, fun c b => if c = "utf-8".toList then .ok (b.map (fun x => Char.ofNat x.toNat))
      else .error .unicodeError, fun _ => .ok ()⟩
    (List.replicate 8 0 ++ ([UInt8.ofNat 1] ++
      ([[UInt8.ofNat 0x47], beBytes 2 1, [97], beBytes 2 5, "utf-8".toList.map (fun c => UInt8.ofNat c.toNat)].flatten ++
      ([[UInt8.ofNat 0x41], beBytes 2 1, [98], beBytes 2 1, [200]].flatten ++
      ([[UInt8.ofNat 0x21], beBytes 2 0, [], beBytes 2 4, beBytes 4 (unsigned 4 (-2)) ++ []].flatten ++ [])))) ++
      3 :: [9, 9]) 5 =
    some (.ok [.group 1, .attr 0x47 [97] (.text "utf-8".toList), .attr 0x41 [98] (.text [Char.ofNat 200]),
      .attr 0x21 [] (.integer (-2))]) := by
  refine C46_items _ _ _ _ _ rfl ?_ 5 (by decide)
  refine .cons _ _ _ _ _ _ (.group _ 1 (by decide)) ?_
  refine .cons _ _ _ _ _ _ (.attr _ _ 0x47 [97] ("utf-8".toList.map (fun c => UInt8.ofNat c.toNat)) _
    (by decide) (by decide) (by decide) rfl (by decide)
    (.switch "utf-8".toList (by decide))) ?_
  refine .cons _ _ _ _ _ _ (.attr _ _ 0x41 [98] [200] _ (by decide) (by decide) (by decide) rfl (by decide)
    (.text _ _ _ (by decide) (by decide))) ?_
  exact .cons _ _ _ _ _ _ (.attr _ _ 0x21 [] (beBytes 4 (unsigned 4 (-2)) ++ []) _ (by decide) (by decide) (by decide) rfl (by decide)
    (.integer _ (-2) [] (by decide) (by decide) (by decide))) (.nil _)

end Dtf.Ipp
