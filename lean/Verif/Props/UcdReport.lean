import Verif.Model.UcdReport
import Verif.Props.UcdData
import Verif.Props.RadicalReport
/-!
# C132-C134: the report on UCD data

Model: `Verif/Model/UcdReport.lean`.
-/
namespace KT
open Spec

/-! ## Texts of entries -/

theorem decodedCode_eq (s : Str) : decodedCode s = (decode s).head?.getD 0 := by
  obtain ⟨cs, h1, h2⟩ := C07_getCode s
  rw [fromUtf8_decode] at h1
  cases h1
  rw [decodedCode, h2]; rfl

/-- The text of a kanji with a known code. -/
theorem codeAndName_entry {code : Nat} {name : Str} (h : KanjiEntry code name) :
    codeAndName name = toUnicode code .square ++ u8!" " ++ name := by
  rw [codeAndName, decodedCode_eq, h.2.2]; rfl

theorem codeAndName_ne_nil (name : Str) : codeAndName name ≠ [] := by
  unfold codeAndName
  simp

/-- Links are separated by commas. -/
theorem linkCodeAndNames_eq (ls : List Str) :
    linkCodeAndNames ls [] = (u8!", ").intercalate (ls.map codeAndName) := by
  have gen : ∀ (ls : List Str) (r : Str), r ≠ [] →
      linkCodeAndNames ls r = r ++ (ls.map fun l => u8!", " ++ codeAndName l).flatten := by
    intro ls
    induction ls with
    | nil => intro r _; simp [linkCodeAndNames]
    | cons l ls ih =>
      intro r hr
      have he : r.isEmpty = false := by cases r with | nil => exact absurd rfl hr | cons => rfl
      rw [linkCodeAndNames, he, if_neg (by simp), ih _ (by simp)]
      simp [codeAndName]
  cases ls with
  | nil => rfl
  | cons l ls =>
    rw [linkCodeAndNames]
    show linkCodeAndNames ls ([] ++ codeAndName l) = _
    rw [List.nil_append, gen _ _ (codeAndName_ne_nil l)]
    induction ls generalizing l with
    | nil => simp [List.intercalate]
    | cons a ls ih =>
      have := ih a
      simp only [List.map_cons, List.flatten_cons, List.intercalate, List.intersperse] at this ⊢
      rw [← this]
      simp

/-- The text of a link type is the one used in the file, "None" if there is none. -/
theorem linkTypeOut_eq (t : LinkType) : linkTypeOut t = if t = .none then u8!"None" else linkTypeText t := by
  cases t <;> decide +kernel

/-! ## C132: counts -/

/-- The lines with counts: for each feature the number of entries that have it, then the numbers among the "joyo" entries,
the "jinmei" entries and the others. -/
theorem C132_text (us : List UcdRec) :
    let joyo := featureCounts (us.filter fun k => k.isJoyo)
    let jinmei := featureCounts (us.filter fun k => !k.isJoyo && k.isJinmei)
    let other := featureCounts (us.filter fun k => !k.isJoyo && !k.isJinmei)
    let all := featureCounts us
    let line (s : Str) (f : PrintCount → Nat) : Str :=
      u8!">>>   " ++ s ++ u8!": " ++ toDec (f all) ++ u8!" (Jouyou " ++ toDec (f joyo) ++ u8!", Jinmei " ++
        toDec (f jinmei) ++ u8!", Other " ++ toDec (f other) ++ u8!")\n"
    ucdCountLines us = u8!">>> Kanji Loaded from Unicode 'ucd' file:\n" ++
      line (u8!"Total") (·.count) ++ line (u8!"Links") (·.link) ++ line (u8!"VStrokes") (·.variantStrokes) ++
      line (u8!"Meanings") (·.meaning) ++ line (u8!"On Readings") (·.onReading) ++
      line (u8!"Kun Readings") (·.kunReading) ++ line (u8!"Morohashi Ids") (·.morohashi) ++
      line (u8!"Nelson Ids") (·.nelson) := by
  obtain ⟨h1, h2⟩ := C98_counts us
  intro joyo jinmei other all line
  have hall : all = (joyo.sum jinmei).sum other := h2.symm
  have hl : ∀ (s : Str) (f : PrintCount → Nat), (∀ a b : PrintCount, f (a.sum b) = f a + f b) →
      ucdCountLine s (f joyo) (f jinmei) (f other) = line s f := by
    intro s f hf
    show _ = u8!">>>   " ++ s ++ u8!": " ++ toDec (f all) ++ _ ++ _ ++ _ ++ _ ++ _ ++ _ ++ _
    rw [hall, hf, hf]
    simp [ucdCountLine]
  unfold ucdCountLines
  simp only [h1]
  rw [hl (u8!"Total") (·.count) (fun _ _ => rfl), hl (u8!"Links") (·.link) (fun _ _ => rfl),
    hl (u8!"VStrokes") (·.variantStrokes) (fun _ _ => rfl), hl (u8!"Meanings") (·.meaning) (fun _ _ => rfl),
    hl (u8!"On Readings") (·.onReading) (fun _ _ => rfl), hl (u8!"Kun Readings") (·.kunReading) (fun _ _ => rfl),
    hl (u8!"Morohashi Ids") (·.morohashi) (fun _ _ => rfl), hl (u8!"Nelson Ids") (·.nelson) (fun _ _ => rfl)]
  rfl

/-- The total is the number of entries in the file. -/
theorem C132_total (rows : List UcdRow) (us : List UcdRec) (u : UcdData) (hr : RowsDescribe rows us)
    (h : UcdData.load rows {} = .ok u) : u.map.map (·.2) = us ∧ (featureCounts us).count = rows.length := by
  have hlen : ∀ (rows : List UcdRow) (us : List UcdRec), RowsDescribe rows us → us.length = rows.length := by
    intro rows
    induction rows with
    | nil => intro us h; cases us with | nil => rfl | cons => exact h.elim
    | cons r rs ih => intro us h; cases us with
      | nil => exact h.elim
      | cons v us => simp [ih us h.2]
  have huniq : ∀ (rows : List UcdRow) (us vs : List UcdRec), RowsDescribe rows us → RowsDescribe rows vs → us = vs := by
    intro rows
    induction rows with
    | nil =>
      intro us vs h g
      cases us with
      | nil => cases vs with | nil => rfl | cons => exact g.elim
      | cons => exact h.elim
    | cons r rs ih =>
      intro us vs h g
      cases us with
      | nil => exact h.elim
      | cons a us => cases vs with
        | nil => exact g.elim
        | cons b vs => rw [C93_unique r a b h.1 g.1, ih us vs h.2 g.2]
  rcases C95_load rows with ⟨vs, d', g1, _, g3, g4⟩ | ⟨_, g1⟩
  case inr => rw [g1] at h; cases h
  rw [g3] at h
  cases h
  rw [huniq rows us vs hr g1]
  exact ⟨by rw [g4.map, List.map_map]; simp [Function.comp_def], hlen rows vs g1⟩

/-! ## C133: kanji with links -/

/-- The entry of a kanji has links. -/
def hasEntryWithLinks (u : UcdData) (k : KanjiRec) : Bool :=
  match u.map.lookup k.kanji.name with
  | some x => decide (x.links ≠ [])
  | none => false

/-- The listing: the number of kanji whose entry has links; then for each of these a line with its code, its name, the
codes and names of its links and the type of the links, and for each kanji without entry an error. -/
theorem C133_text (u : UcdData) (name : Str) (list : List KanjiRec) :
    linkLines u name list = u8!">>> " ++ name ++ u8!" Kanji with links " ++ toDec (list.countP (hasEntryWithLinks u)) ++
      u8!":\n" ++ (list.map fun k =>
        match u.map.lookup k.kanji.name with
        | some x => if x.links = [] then [] else
            u8!"  " ++ codeAndName x.name ++ u8!" -> " ++ (u8!", ").intercalate (x.links.map codeAndName) ++ u8!" " ++
              (if x.linkType = .none then u8!"None" else linkTypeText x.linkType) ++ u8!"\n"
        | none => u8!"  ERROR: " ++ k.kanji.name ++ u8!" not found in UCD\n").flatten := by
  have e : ∀ x : UcdRec, x.hasLinks = decide (x.links ≠ []) := by
    intro x; unfold Ucd.hasLinks; cases x.links <;> simp
  have e1 : (fun k : KanjiRec => entryHasLinks (u.map.lookup k.kanji.name)) = hasEntryWithLinks u := by
    funext k
    unfold hasEntryWithLinks entryHasLinks
    cases u.map.lookup k.kanji.name with
    | none => rfl
    | some x => exact e x
  have e2 : (fun k : KanjiRec => linkLine u k.kanji.name) = fun k =>
        match u.map.lookup k.kanji.name with
        | some x => if x.links = [] then [] else
            u8!"  " ++ codeAndName x.name ++ u8!" -> " ++ (u8!", ").intercalate (x.links.map codeAndName) ++ u8!" " ++
              (if x.linkType = .none then u8!"None" else linkTypeText x.linkType) ++ u8!"\n"
        | none => u8!"  ERROR: " ++ k.kanji.name ++ u8!" not found in UCD\n" := by
    funext k
    unfold linkLine
    cases u.map.lookup k.kanji.name with
    | none => rfl
    | some x =>
      simp only [e, linkCodeAndNames_eq, linkTypeOut_eq]
      by_cases h : x.links = [] <;> simp [h]
  unfold linkLines
  simp only [e1, e2]

/-- For data from a file: the codes are those of the file, and the link type is never missing. -/
theorem C133_loaded (rows : List UcdRow) (us : List UcdRec) (u : UcdData) (hr : RowsDescribe rows us)
    (h : UcdData.load rows {} = .ok u) (n : Str) (x : UcdRec) (hx : u.map.lookup n = some x) :
    x.name = n ∧ (∃ code, KanjiEntry code n ∧ codeAndName x.name = toUnicode code .square ++ u8!" " ++ n) ∧
    (∀ l ∈ x.links, ∃ code, KanjiEntry code l ∧ codeAndName l = toUnicode code .square ++ u8!" " ++ l) ∧
    (x.links ≠ [] → x.linkType ≠ .none) := by
  have hus := (C132_total rows us u hr h).1
  have hmem : x ∈ us := by
    have := lookup_mem hx
    rw [← hus]
    exact List.mem_map.2 ⟨_, this, rfl⟩
  have hkey : x.name = n := by
    rcases C95_load rows with ⟨vs, d', _, _, g3, g4⟩ | ⟨_, g1⟩
    case inr => rw [g1] at h; cases h
    rw [g3] at h
    cases h
    have := lookup_mem hx
    rw [g4.map] at this
    obtain ⟨y, _, hy⟩ := List.mem_map.1 this
    cases hy; rfl
  have hdesc : ∃ r ∈ rows, DescribesUcd r x := by
    clear h hx hus hkey
    induction rows generalizing us with
    | nil => cases us with | nil => cases hmem | cons => exact hr.elim
    | cons r rs ih => cases us with
      | nil => exact hr.elim
      | cons v us =>
        rcases List.mem_cons.1 hmem with rfl | hm
        · exact ⟨r, List.mem_cons_self .., hr.1⟩
        · obtain ⟨q, hq, hd⟩ := ih us hr.2 hm
          exact ⟨q, List.mem_cons_of_mem _ hq, hd⟩
  obtain ⟨r, _, hd⟩ := hdesc
  obtain ⟨hn, code, _, hk⟩ := hd.name
  rw [← hn, hkey] at hk
  refine ⟨hkey, ⟨code, hk, ?_⟩, ?_, ?_⟩
  · rw [hkey]; exact codeAndName_entry hk
  · intro l hl
    obtain ⟨i, hi⟩ := List.mem_iff_getElem?.1 hl
    obtain ⟨c, code, _, _, he⟩ := hd.links.2.at.2 i l hi
    exact ⟨code, he, codeAndName_entry he⟩
  · intro hl ht
    have hnil := hd.linkType.2.2 ht
    have := hd.links.1
    rw [hnil] at this
    exact hl (by rw [this]; rfl)

/-- What the error says: there is no entry for the kanji. -/
def C133_statement : Prop := ∀ (rows : List UcdRow) (u : UcdData) (n : Str), UcdData.load rows {} = .ok u →
  linkLine u n = u8!"  ERROR: " ++ n ++ u8!" not found in UCD\n" → u.find n = .ok none

/-- The error is also printed for a kanji with a variation selector that has an entry (the one found by `find`, which the
kanji was loaded with). -/
theorem C133_violated : ¬ C133_statement := by
  intro h
  have := h [sampleVariant (u8!"Y")] _ [0xe9, 0x80, 0xb8, 0xef, 0xb8, 0x81] rfl (by decide +kernel)
  revert this
  decide +kernel

theorem find_plain (u : UcdData) (n : Str)
    (hn : ¬ ∃ (p : Str) (v : Char), IsSelector v ∧ 2 ≤ p.length ∧ p.length ≤ 4 ∧ n = p ++ String.utf8EncodeChar v) :
    u.find n = .ok (u.map.lookup n) := by
  obtain ⟨⟨b, hb⟩, hiff⟩ := C64_decides n
  cases b with
  | true => exact absurd (hiff.1 hb) hn
  | false => unfold UcdData.find; rw [hb]; rfl

/-- Without variation selector the error is printed exactly for the kanji without entry. -/
theorem C133_error_partial (u : UcdData) (n : Str)
    (hn : ¬ ∃ (p : Str) (v : Char), IsSelector v ∧ 2 ≤ p.length ∧ p.length ≤ 4 ∧ n = p ++ String.utf8EncodeChar v) :
    linkLine u n = u8!"  ERROR: " ++ n ++ u8!" not found in UCD\n" ↔ u.find n = .ok none := by
  rw [find_plain u n hn]
  unfold linkLine
  cases hl : u.map.lookup n with
  | none => simp
  | some x =>
    constructor
    · intro h
      exfalso
      simp only at h
      split at h
      · unfold codeAndName toUnicode toHex addBrackets at h
        simp at h
      · simp at h
    · intro h; cases h

/-! ## C134: kanji with variation selectors -/

/-- The row for a kanji and its entry. -/
def variantRow (count : Nat) (n : Str) (x : UcdRec) : Str :=
  u8!">>>     " ++ setwLeft 3 (toDec count) ++ u8!"    " ++ toUnicodeStr n .square ++ u8!" " ++ n ++ u8!" variant of " ++
    (noVariationSelector n).getD n ++ u8!"    " ++ codeAndName x.name ++
    (if x.links = [] then [] else u8!" variant of " ++ (u8!", ").intercalate (x.links.map codeAndName)) ++ u8!"\n"

theorem variantRow_eq (count : Nat) (n : Str) (x : UcdRec) :
    variantStart count n ++ variantEntry x = variantRow count n x := by
  have e : x.hasLinks = decide (x.links ≠ []) := by unfold Ucd.hasLinks; cases x.links <;> simp
  unfold variantStart variantEntry variantRow
  rw [linkCodeAndNames_eq, e]
  by_cases h : x.links = [] <;> simp [h]

/-- The rows, numbered from `count + 1`. -/
def variantTable : Nat → List (Str × UcdRec) → Str
  | _, [] => []
  | count, (n, x) :: l => variantRow (count + 1) n x ++ variantTable (count + 1) l

theorem find_total (u : UcdData) (n : Str) : ∃ x, u.find n = .ok x := by
  obtain ⟨⟨b, hb⟩, _⟩ := C64_decides n
  unfold UcdData.find
  rw [hb]
  cases b with
  | false => exact ⟨_, rfl⟩
  | true =>
    simp only [Res.ofOption, Res.bind, if_true, noVariationSelector, hb, Option.bind_eq_bind, Option.bind_some]
    split <;> exact ⟨_, rfl⟩

/-- If each kanji with a variation selector has an entry, then the table has a row for each of them, in the order of the
kanji; the rows are numbered from 1.  Otherwise there is a `DomainError` after the rows above the first kanji without
entry. -/
theorem C134_rows (u : UcdData) (ks : List KanjiRec) (count : Nat) :
    (∃ l : List (Str × UcdRec), l.map (·.1) = (ks.filter fun k => k.kanji.variant).map (·.kanji.name) ∧
      (∀ p ∈ l, u.find p.1 = .ok (some p.2)) ∧ variantRows u count ks = (variantTable count l, .ok ())) ∨
    (∃ (l : List (Str × UcdRec)) (n : Str) (rest : List Str),
      (ks.filter fun k => k.kanji.variant).map (·.kanji.name) = l.map (·.1) ++ n :: rest ∧
      (∀ p ∈ l, u.find p.1 = .ok (some p.2)) ∧ u.find n = .ok none ∧
      variantRows u count ks = (variantTable count l ++ variantStart (count + l.length + 1) n, .throw .domain)) := by
  induction ks generalizing count with
  | nil => exact .inl ⟨[], rfl, by simp, rfl⟩
  | cons k ks ih =>
    rw [variantRows]
    by_cases hv : k.kanji.variant = true
    · rw [if_pos hv, List.filter_cons_of_pos (by exact hv), List.map_cons]
      obtain ⟨x, hx⟩ := find_total u k.kanji.name
      rw [hx]
      cases x with
      | none => exact .inr ⟨[], k.kanji.name, _, rfl, by simp, hx, by simp [variantTable]⟩
      | some x =>
        simp only
        rcases ih (count + 1) with ⟨l, h1, h2, h3⟩ | ⟨l, n, rest, h1, h2, h3, h4⟩
        · refine .inl ⟨(k.kanji.name, x) :: l, by rw [List.map_cons, h1], ?_, ?_⟩
          · intro p hp
            rcases List.mem_cons.1 hp with rfl | hp
            · exact hx
            · exact h2 p hp
          · rw [h3, variantRow_eq]; rfl
        · refine .inr ⟨(k.kanji.name, x) :: l, n, rest, by rw [h1]; rfl, ?_, h3, ?_⟩
          · intro p hp
            rcases List.mem_cons.1 hp with rfl | hp
            · exact hx
            · exact h2 p hp
          · rw [h4, variantRow_eq, variantTable, List.append_assoc]
            rw [show count + 1 + l.length + 1 = count + ((k.kanji.name, x) :: l).length + 1 by simp; omega]
    · rw [if_neg hv, List.filter_cons_of_neg (by exact hv)]
      exact ih count

/-- The kanji with variation selectors come in the order of their names, each of them once. -/
theorem C134_order {d : KanjiStore} {A : List KanjiRec} (h : StoreInv d A) :
    ((mapOrder d.nameMap).filter fun k => k.kanji.variant).Pairwise
      (fun a b => strLt a.kanji.name b.kanji.name = true) ∧
    List.Perm ((mapOrder d.nameMap).filter fun k => k.kanji.variant) (A.filter fun k => k.kanji.variant) :=
  ⟨(mapOrder_spec h).2.filter _, (mapOrder_perm h).filter _⟩

/-- The parts of the report. -/
theorem C134_print (u : UcdData) (d : KanjiStore) :
    u.print d = (ucdCountLines (u.map.map (·.2)) ++ linkLines u (u8!"Frequency") (d.types .frequency) ++
      linkLines u (u8!"Extra") (d.types .extra) ++
      (u8!">>>   Standard Kanji with 'Variation Selectors' vs UCD Variants:\n" ++
       u8!">>>     #      Standard Kanji with Selector    UCD Compatibility Kanji\n" ++
       u8!">>>     -      ----------------------------    -----------------------\n") ++
      (variantRows u 0 (mapOrder d.nameMap)).1, (variantRows u 0 (mapOrder d.nameMap)).2) := by
  have : variantHeader =
      u8!">>>   Standard Kanji with 'Variation Selectors' vs UCD Variants:\n" ++
       u8!">>>     #      Standard Kanji with Selector    UCD Compatibility Kanji\n" ++
       u8!">>>     -      ----------------------------    -----------------------\n" := by decide +kernel
  simp only [UcdData.print, this]

/-! ## Examples -/

/-- A store with a kanji that has a variation selector (U+9038 U+FE01), 四 and U+FA67. -/
def ucdReportStore : KanjiStore where
  nameMap := [radicalKanji .jinmei [0xe9, 0x80, 0xb8, 0xef, 0xb8, 0x81] 162 (u8!"辵") 12].map fun k => (k.kanji.name, k)
  types := fun
    | .frequency => [radicalKanji .frequency (u8!"四") 31 (u8!"囗") 5,
        radicalKanji .frequency [0xef, 0xa9, 0xa7] 162 (u8!"辵") 12]
    | _ => []

example : (match UcdData.load [sampleJoyo, sampleVariant (u8!"Y")] {} with
    | .ok u => (linkLines u (u8!"Frequency") (ucdReportStore.types .frequency),
        variantRows u 0 (mapOrder ucdReportStore.nameMap))
    | _ => ([], [], .ub)) =
    (u8!">>> Frequency Kanji with links 1:\n  ERROR: 四 not found in UCD\n  [FA67] " ++ [0xef, 0xa9, 0xa7] ++
      u8!" -> [9038] 逸 Jinmei*\n",
     u8!">>>     1      [9038 FE01] 逸" ++ [0xef, 0xb8, 0x81] ++ u8!" variant of 逸    [FA67] " ++ [0xef, 0xa9, 0xa7] ++
       u8!" variant of [9038] 逸\n", .ok ()) := by decide +kernel

/-- As in `PrintVariantWithMissingEntry` (UcdDataTest.cpp). -/
example : (UcdData.print {} ucdReportStore).2 = .throw .domain := by decide +kernel

end KT
