import Verif.Holds

/-!
# Safari cookies files (C98)
-/

namespace Dtf.Cookies
open Py DataFormat

/-! ## Model -/

/-- What is shown of a cookie.  The times are kept as the 64 bits of the floating-point numbers. -/
structure Cookie where
  flags : Nat
  url : Bytes
  name : Bytes
  path : Bytes
  value : Bytes
  expiration : Nat
  creation : Nat
deriving DecidableEq, Repr

/-- `_ReadCString` (safari_cookies.py 70-96); the encoding is ASCII (safari_cookies.yaml 46-50). -/
def readCString (page : Bytes) (off : Nat) : Res Bytes :=
  match cstr (page.drop off) with
  | none => .error .parseError
  | some s => if s.all (· < 128) then .ok s else .error .parseError

/-- A string of a record, which is empty without an offset (safari_cookies.py 273-301). -/
def readString (page : Bytes) (off rel : Nat) : Res Bytes :=
  if rel = 0 then .ok [] else readCString page (off + rel)

/-- `_ReadRecord` (safari_cookies.py 240-301) with `binarycookies_record_header` (safari_cookies.yaml 93-121). The
size of the record is not used. -/
def readRecord (page : Bytes) (off : Nat) : Res Cookie :=
  let b := page.drop off
  if b.length < 56 then .error .parseError
  else
    match readString page off (leNat (slice b 16 20)), readString page off (leNat (slice b 20 24)),
      readString page off (leNat (slice b 24 28)), readString page off (leNat (slice b 28 32)) with
    | .ok url, .ok name, .ok path, .ok value =>
      .ok ⟨leNat (slice b 8 12), url, name, path, value, leNat (slice b 40 48), leNat (slice b 48 56)⟩
    | _, _, _, _ => .error .parseError

def readRecords (page : Bytes) : List Nat → Res (List Cookie)
  | [] => .ok []
  | o :: os =>
    match readRecord page o with
    | .error e => .error e
    | .ok c =>
      match readRecords page os with
      | .error e => .error e
      | .ok cs => .ok (c :: cs)

/-- `_ReadPage` (safari_cookies.py 175-227) with `binarycookies_page_header` (safari_cookies.yaml 77-91). -/
def readPage (page : Bytes) : Res (List Cookie) :=
  let n := leNat (slice page 4 8)
  if page.length < 8 ∨ page.length < 8 + 4 * n then .error .parseError
  else readRecords page (leNats 4 n (page.drop 8))

/-- `_ReadPages` (safari_cookies.py 229-238): the cookies of each page and the position after the pages. -/
def readPages (data : Bytes) : Nat → List Nat → Res (List (List Cookie) × Nat)
  | pos, [] => .ok ([], pos)
  | pos, n :: ns =>
    match dataAt data pos n with
    | .error e => .error e
    | .ok page =>
      match readPage page with
      | .error e => .error e
      | .ok cookies =>
        match readPages data (pos + n) ns with
        | .error e => .error e
        | .ok (rest, pos) => .ok (cookies :: rest, pos)

/-- `binarycookies_file_header` (safari_cookies.yaml 52-63): the number of pages. -/
def headerMap : DataTypeMap Nat :=
  (fixedMap 8 id).refine (fun b => if slice b 0 4 = [99, 111, 111, 107] then some (beNat (slice b 4 8)) else none)

/-- The sizes of the pages (safari_cookies.py 138-167): no bytes cannot be mapped, so a file without pages is an
error before the test on the number of pages. -/
def readSizes (data : Bytes) (n : Nat) : Res (List Nat) :=
  let b := slice data 8 (8 + 4 * n)
  if b = [] ∨ b.length < 4 * n then .error .parseError else .ok (beNats 4 n b)

/-- `ReadFileObject` (safari_cookies.py 308-316). -/
def readFile (data : Bytes) : Res (List (List Cookie)) :=
  match structAt headerMap data 0 with
  | .error e => .error e
  | .ok (n, _) =>
    match readSizes data n with
    | .error e => .error e
    | .ok sizes =>
      match readPages data (8 + 4 * n) sizes with
      | .error e => .error e
      | .ok (cookies, pos) =>
        match structAt (fixedMap 8 id) data pos with
        | .error e => .error e
        | .ok _ => .ok cookies

/-! ## Specification -/

/-- A string is where its offset says; an empty one need not have an offset. -/
def StringAt (page : Bytes) (off rel : Nat) (s : Bytes) : Prop :=
  rel < 2 ^ 32 ∧ (∀ c ∈ s, c ≠ 0 ∧ c.toNat < 128) ∧ ((rel = 0 ∧ s = []) ∨ (rel ≠ 0 ∧ Holds page (off + rel) (s ++ [0])))

/-- A cookie is at a place of a page. -/
def CookieAt (page : Bytes) (off : Nat) (c : Cookie) : Prop :=
  ∃ (before flags' unknown : Bytes) (o1 o2 o3 o4 : Nat), before.length = 8 ∧ flags'.length = 4 ∧ unknown.length = 8 ∧
    c.flags < 2 ^ 32 ∧ c.expiration < 2 ^ 64 ∧ c.creation < 2 ^ 64 ∧
    Holds page off [before, leBytes 4 c.flags, flags', leBytes 4 o1, leBytes 4 o2, leBytes 4 o3, leBytes 4 o4, unknown,
      leBytes 8 c.expiration, leBytes 8 c.creation].flatten ∧
    StringAt page off o1 c.url ∧ StringAt page off o2 c.name ∧ StringAt page off o3 c.path ∧ StringAt page off o4 c.value

/-- The bytes of a page: a signature, the number of cookies, their offsets and the cookies where these say. -/
def PageBytes (page : Bytes) (cookies : List Cookie) : Prop :=
  ∃ (signature body : Bytes) (offsets : List Nat), signature.length = 4 ∧ offsets.length < 2 ^ 32 ∧
    (∀ o ∈ offsets, o < 2 ^ 32) ∧ page.length < 2 ^ 32 ∧
    page = [signature, leBytes 4 offsets.length, offsets.flatMap (leBytes 4), body].flatten ∧
    offsets.length = cookies.length ∧
    ∀ (i : Nat) o c, offsets[i]? = some o → cookies[i]? = some c → CookieAt page o c

/-- The bytes of a file: the header, the sizes of the pages, the pages and a footer. -/
def fileBytes (pages : List Bytes) (footer : Bytes) : Bytes :=
  [[99, 111, 111, 107], beBytes 4 pages.length, (pages.map List.length).flatMap (beBytes 4), pages.flatten,
    footer].flatten

/-- All cookies of all files are read. -/
def C98_claim : Prop := ∀ (pages : List (Bytes × List Cookie)) (footer : Bytes), pages.length < 2 ^ 32 →
  (∀ p ∈ pages, PageBytes p.1 p.2) → 8 ≤ footer.length →
  readFile (fileBytes (pages.map (·.1)) footer) = .ok (pages.map (·.2))

/-! ## Proofs -/

theorem readString_at (page : Bytes) (off rel : Nat) (s : Bytes) (h : StringAt page off rel s) :
    readString page off rel = .ok s := by
  obtain ⟨_, h1, h2⟩ := h
  unfold readString
  rcases h2 with ⟨h2, rfl⟩ | ⟨h2, h3⟩
  · rw [if_pos h2]
  · rw [if_neg h2]
    obtain ⟨post, hp⟩ := holds_drop _ _ _ h3
    unfold readCString
    rw [hp, List.append_assoc, List.singleton_append, cstr_append _ _ (fun b hb => (h1 b hb).1)]
    dsimp only
    rw [if_pos]
    rw [List.all_eq_true]
    intro c hc
    have := (h1 c hc).2
    simpa [UInt8.lt_iff_toNat_lt] using this

theorem readRecord_at (page : Bytes) (off : Nat) (c : Cookie) (h : CookieAt page off c) :
    readRecord page off = .ok c := by
  obtain ⟨before, flags', unknown, o1, o2, o3, o4, h1, h2, h3, h4, h5, h6, h7, s1, s2, s3, s4⟩ := h
  obtain ⟨post, hp⟩ := holds_drop _ _ _ h7
  generalize hB : [before, leBytes 4 c.flags, flags', leBytes 4 o1, leBytes 4 o2, leBytes 4 o3, leBytes 4 o4, unknown,
      leBytes 8 c.expiration, leBytes 8 c.creation].flatten ++ post = B at hp
  have hB' : [before, leBytes 4 c.flags, flags', leBytes 4 o1, leBytes 4 o2, leBytes 4 o3, leBytes 4 o4, unknown,
      leBytes 8 c.expiration, leBytes 8 c.creation, post].flatten = B := by rw [← hB]; simp
  have f1 : leNat (slice B 8 12) = c.flags := hB' ▸ leField [before] 4 _ _ 8 12 (by simp [h1]) rfl (by omega)
  have f2 : leNat (slice B 16 20) = o1 := hB' ▸ leField [before, leBytes 4 c.flags, flags'] 4 _ _ 16 20
    (by simp [h1, h2]) rfl (by have := s1.1; omega)
  have f3 : leNat (slice B 20 24) = o2 := hB' ▸ leField [before, leBytes 4 c.flags, flags', leBytes 4 o1] 4 _ _ 20 24
    (by simp [h1, h2]) rfl (by have := s2.1; omega)
  have f4 : leNat (slice B 24 28) = o3 := hB' ▸ leField [before, leBytes 4 c.flags, flags', leBytes 4 o1, leBytes 4 o2] 4
    _ _ 24 28 (by simp [h1, h2]) rfl (by have := s3.1; omega)
  have f5 : leNat (slice B 28 32) = o4 := hB' ▸ leField [before, leBytes 4 c.flags, flags', leBytes 4 o1, leBytes 4 o2,
    leBytes 4 o3] 4 _ _ 28 32 (by simp [h1, h2]) rfl (by have := s4.1; omega)
  have f6 : leNat (slice B 40 48) = c.expiration := hB' ▸ leField [before, leBytes 4 c.flags, flags', leBytes 4 o1,
    leBytes 4 o2, leBytes 4 o3, leBytes 4 o4, unknown] 8 _ _ 40 48 (by simp [h1, h2, h3]) rfl (by omega)
  have f7 : leNat (slice B 48 56) = c.creation := hB' ▸ leField [before, leBytes 4 c.flags, flags', leBytes 4 o1,
    leBytes 4 o2, leBytes 4 o3, leBytes 4 o4, unknown, leBytes 8 c.expiration] 8 _ _ 48 56 (by simp [h1, h2, h3]) rfl
    (by omega)
  have hl : 56 ≤ B.length := by
    rw [← hB']
    simp [h1, h2, h3]
    omega
  unfold readRecord
  dsimp only
  rw [hp, if_neg (by omega), f1, f2, f3, f4, f5, f6, f7, readString_at _ _ _ _ s1, readString_at _ _ _ _ s2,
    readString_at _ _ _ _ s3, readString_at _ _ _ _ s4]

theorem readRecords_at (page : Bytes) (offsets : List Nat) (cookies : List Cookie)
    (hl : offsets.length = cookies.length)
    (h : ∀ (i : Nat) o c, offsets[i]? = some o → cookies[i]? = some c → CookieAt page o c) :
    readRecords page offsets = .ok cookies := by
  induction offsets generalizing cookies with
  | nil =>
    have : cookies = [] := List.length_eq_zero_iff.mp hl.symm
    rw [this]
    rfl
  | cons o os ih =>
    cases cookies with
    | nil => cases hl
    | cons c cs =>
      rw [readRecords, readRecord_at page o c (h 0 o c rfl rfl)]
      dsimp only
      rw [ih cs (by simpa using hl) (fun i o c a b => h (i + 1) o c (by simpa using a) (by simpa using b))]

theorem readPage_bytes (page : Bytes) (cookies : List Cookie) (h : PageBytes page cookies) :
    readPage page = .ok cookies ∧ 0 < page.length ∧ page.length < 2 ^ 32 := by
  obtain ⟨signature, body, offsets, h1, h2, h3, h4, h5, h6, h7⟩ := h
  have f : leNat (slice page 4 8) = offsets.length := by
    rw [h5]
    exact leField [signature] 4 _ _ 4 8 (by simp [h1]) rfl (by omega)
  have hf : (offsets.flatMap (leBytes 4)).length = 4 * offsets.length := flatMap_fixed_length 4 _ (by simp) _
  have hl : page.length = 8 + 4 * offsets.length + body.length := by
    rw [h5]
    simp only [List.flatten_cons, List.flatten_nil, List.append_nil, List.length_append, h1, leBytes_length, hf]
    omega
  refine ⟨?_, by omega, h4⟩
  have hd : page.drop 8 = offsets.flatMap (leBytes 4) ++ body := by
    have : page = [signature, leBytes 4 offsets.length].flatten ++ (offsets.flatMap (leBytes 4) ++ body) := by
      rw [h5]; simp
    rw [this]
    exact List.drop_left' (by simp [h1])
  unfold readPage
  rw [f, if_neg (by omega), hd, leNats_flatMap 4 offsets (fun o ho => by have := h3 o ho; omega)]
  exact readRecords_at page offsets cookies h6 h7

theorem readPages_bytes (pre footer : Bytes) (pages : List (Bytes × List Cookie)) (h : ∀ p ∈ pages, PageBytes p.1 p.2) :
    readPages (pre ++ (pages.map (·.1)).flatten ++ footer) pre.length (pages.map (·.1.length)) =
      .ok (pages.map (·.2), pre.length + ((pages.map (·.1)).flatten).length) := by
  induction pages generalizing pre with
  | nil => simp [readPages]
  | cons p pages ih =>
    obtain ⟨hp, _, _⟩ := readPage_bytes p.1 p.2 (h p (by simp))
    have e : pre ++ ((p :: pages).map (·.1)).flatten ++ footer = pre ++ p.1 ++ ((pages.map (·.1)).flatten ++ footer) := by
      simp
    rw [e]
    show (match dataAt (pre ++ p.1 ++ ((pages.map (·.1)).flatten ++ footer)) pre.length p.1.length with
      | .error e => Except.error e
      | .ok page => _) = _
    rw [dataAt_append]
    dsimp only
    rw [hp]
    dsimp only
    have := ih (pre ++ p.1) (fun q hq => h q (by simp [hq]))
    rw [List.append_assoc, List.length_append] at this
    rw [this]
    simp [Nat.add_assoc]

/-- The cookies of all pages are read with their strings, wherever in their page they are.  What is left out of the
claim: files without pages. -/
theorem C98_partial (pages : List (Bytes × List Cookie)) (footer : Bytes) (hn : pages.length < 2 ^ 32) (hne : pages ≠ [])
    (h : ∀ p ∈ pages, PageBytes p.1 p.2) (hf : 8 ≤ footer.length) :
    readFile (fileBytes (pages.map (·.1)) footer) = .ok (pages.map (·.2)) := by
  have hpos : 0 < pages.length := List.length_pos_iff.mpr hne
  have hs : ((pages.map (·.1)).map List.length).flatMap (beBytes 4) = (pages.map (·.1.length)).flatMap (beBytes 4) := by
    rw [List.map_map]; rfl
  have hsl : ((pages.map (·.1.length)).flatMap (beBytes 4)).length = 4 * pages.length := by
    rw [flatMap_fixed_length 4 _ (by simp), List.length_map]
  have e : fileBytes (pages.map (·.1)) footer = [[99, 111, 111, 107], beBytes 4 pages.length].flatten ++
      ((pages.map (·.1.length)).flatMap (beBytes 4) ++ ((pages.map (·.1)).flatten ++ footer)) := by
    unfold fileBytes
    rw [hs]
    simp
  have hh : structAt headerMap (fileBytes (pages.map (·.1)) footer) 0 = .ok (pages.length,
      ([[99, 111, 111, 107], beBytes 4 pages.length].flatten.length : Int)) := by
    refine encodes_holds headerMap [[99, 111, 111, 107], beBytes 4 pages.length].flatten _ ?_ _ 0
      ⟨[], _, by rw [List.nil_append]; exact e, rfl⟩
    refine encodes_refine _ _ _ _ _ (encodes_fixed 8 id _ (by omega) (by simp)) ?_
    have f0 : slice [[99, 111, 111, 107], beBytes 4 pages.length].flatten 0 4 = [99, 111, 111, 107] :=
      slice_fields [] [99, 111, 111, 107] _ 0 4 rfl rfl
    have f1 : beNat (slice [[99, 111, 111, 107], beBytes 4 pages.length].flatten 4 8) = pages.length :=
      beField [[99, 111, 111, 107]] 4 _ _ 4 8 rfl rfl (by omega)
    rw [id, f0, f1, if_pos rfl]
  have hb : slice (fileBytes (pages.map (·.1)) footer) 8 (8 + 4 * pages.length) =
      (pages.map (·.1.length)).flatMap (beBytes 4) := by
    have := slice_at [[99, 111, 111, 107], beBytes 4 pages.length].flatten ((pages.map (·.1.length)).flatMap (beBytes 4))
      ((pages.map (·.1)).flatten ++ footer) _ (Nat.le_refl _)
    rw [List.take_length, hsl] at this
    rw [e, ← List.append_assoc]
    simpa using this
  have hsizes : readSizes (fileBytes (pages.map (·.1)) footer) pages.length = .ok (pages.map (·.1.length)) := by
    unfold readSizes
    dsimp only
    rw [hb, if_neg]
    · have := beNats_flatMap 4 (pages.map (·.1.length)) (by
        intro n hn
        obtain ⟨p, hp, rfl⟩ := List.mem_map.mp hn
        have := (readPage_bytes p.1 p.2 (h p hp)).2.2
        omega) []
      rw [List.length_map, List.append_nil] at this
      rw [this]
    · intro hc
      rcases hc with hc | hc
      · rw [hc] at hsl
        simp at hsl
        omega
      · omega
  have hpages := readPages_bytes ([[99, 111, 111, 107], beBytes 4 pages.length].flatten ++
    (pages.map (·.1.length)).flatMap (beBytes 4)) footer pages h
  have hlen : ([[99, 111, 111, 107], beBytes 4 pages.length].flatten ++
    (pages.map (·.1.length)).flatMap (beBytes 4)).length = 8 + 4 * pages.length := by
    rw [List.length_append, hsl]; simp
  rw [hlen] at hpages
  have e' : fileBytes (pages.map (·.1)) footer = [[99, 111, 111, 107], beBytes 4 pages.length].flatten ++
    (pages.map (·.1.length)).flatMap (beBytes 4) ++ (pages.map (·.1)).flatten ++ footer := by
    rw [e]; simp
  rw [← e'] at hpages
  have hfoot : structAt (fixedMap 8 id) (fileBytes (pages.map (·.1)) footer)
      ((8 + 4 * pages.length + ((pages.map (·.1)).flatten).length : Nat) : Int) = .ok (footer.take 8, ((footer.take 8).length : Int)) := by
    refine encodes_holds _ (footer.take 8) _ (encodes_fixed 8 id _ (by omega) (by simp; omega)) _ _
      ⟨[[99, 111, 111, 107], beBytes 4 pages.length].flatten ++ (pages.map (·.1.length)).flatMap (beBytes 4) ++
        (pages.map (·.1)).flatten, footer.drop 8, ?_, ?_⟩
    · rw [e', List.append_assoc _ (footer.take 8), List.take_append_drop]
    · rw [List.length_append, hlen]
  unfold readFile
  rw [hh]
  dsimp only
  rw [hsizes]
  dsimp only
  rw [hpages]
  dsimp only
  rw [hfoot]

/-- A file without cookies is an error. -/
theorem C98_claim_false : ¬ C98_claim := by
  intro h
  have := h [] [0, 0, 0, 0, 0, 0, 0, 0] (by decide) (by simp) (by decide)
  revert this
  decide +kernel

def sampleCookie : Cookie := ⟨5, [97], [98, 99], [], [100], 7, 8⟩

def samplePage : Bytes :=
  [[0, 0, 1, 0], leBytes 4 1, leBytes 4 16, [0, 0, 0, 0], List.replicate 8 0, leBytes 4 5, List.replicate 4 0, leBytes 4 59,
    leBytes 4 56, leBytes 4 0, leBytes 4 61, List.replicate 8 0, leBytes 8 7, leBytes 8 8, [98, 99, 0, 97, 0, 100, 0]].flatten

theorem samplePage_bytes : PageBytes samplePage [sampleCookie] := by
  refine ⟨[0, 0, 1, 0], samplePage.drop 12, [16], rfl, by decide, by decide, by decide +kernel, by decide +kernel, rfl, ?_⟩
  refine zip_all _ _ _ ?_
  intro p hp
  have hp : p = (16, sampleCookie) := List.mem_singleton.mp hp
  subst hp
  refine ⟨List.replicate 8 0, List.replicate 4 0, List.replicate 8 0, 59, 56, 0, 61, rfl, rfl, rfl, by decide, by decide,
    by decide, holds_of_slice _ _ _ (by decide +kernel) (by decide +kernel), ?_, ?_, ?_, ?_⟩
  · exact ⟨by decide, by decide, .inr ⟨by decide, holds_of_slice _ _ _ (by decide +kernel) (by decide +kernel)⟩⟩
  · exact ⟨by decide, by decide, .inr ⟨by decide, holds_of_slice _ _ _ (by decide +kernel) (by decide +kernel)⟩⟩
  · exact ⟨by decide, by decide, .inl ⟨rfl, rfl⟩⟩
  · exact ⟨by decide, by decide, .inr ⟨by decide, holds_of_slice _ _ _ (by decide +kernel) (by decide +kernel)⟩⟩

example : readFile (fileBytes [samplePage, samplePage] (List.replicate 8 0)) = .ok [[sampleCookie], [sampleCookie]] :=
  C98_partial [(samplePage, [sampleCookie]), (samplePage, [sampleCookie])] (List.replicate 8 0) (by decide) (by decide)
    (by
      intro p hp
      simp only [List.mem_cons, List.not_mem_nil, or_false] at hp
      rcases hp with rfl | rfl <;> exact samplePage_bytes)
    (by decide)

end Dtf.Cookies
