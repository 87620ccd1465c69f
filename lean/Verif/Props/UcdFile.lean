import Verif.Model.UcdFile
import Verif.Lemmas.UcdLoad
/-!
# C196: loading the generated UCD file

Model: `Verif/Model/UcdFile.lean`, `Verif/Model/UcdScript.lean` (the script) and `Verif/Model/UcdData.lean` (the loader).
-/
namespace KT
open Spec

/-! ## The file is a table -/

/-- A text that `echo -e` writes as it is and that fits into a cell. -/
def CellText (s : Str) : Prop := ∀ b ∈ s, b ≠ 0x09 ∧ b ≠ 0x0a ∧ b ≠ 0x5c

/-- The cells of a row by the names of the columns. -/
def ScriptRow.cell (r : ScriptRow) : List (Str × Str) :=
  [(u8!"Code", r.row.code), (u8!"Name", r.row.name), (u8!"Block", r.row.block), (u8!"Version", r.row.version),
   (u8!"Radical", r.row.radical), (u8!"Strokes", r.row.strokes), (u8!"VStrokes", r.row.vStrokes),
   (u8!"Pinyin", r.row.pinyin), (u8!"MorohashiId", r.row.morohashiId), (u8!"NelsonIds", r.row.nelsonIds),
   (u8!"Sources", r.row.sources), (u8!"JSource", r.row.jSource), (u8!"Joyo", r.row.joyo), (u8!"Jinmei", r.row.jinmei),
   (u8!"LinkCodes", r.row.linkCodes), (u8!"LinkNames", r.row.linkNames), (u8!"LinkType", r.row.linkType),
   (u8!"Meaning", r.row.meaning), (u8!"On", r.row.on), (u8!"Kun", r.row.kun), (u8!"Japanese", r.japanese)]

theorem line_cells (r : ScriptRow) : r.line = (u8!"\t").intercalate (r.cell.map (·.2)) := by
  unfold ScriptRow.line ScriptRow.cell
  simp only [List.map_cons, List.map_nil, List.intercalate_cons_cons, List.intercalate_singleton, List.append_assoc]

theorem line_split (r : ScriptRow) (h : ∀ p ∈ r.cell, CellText p.2) : split 0x09 r.line = r.cell.map (·.2) := by
  rw [line_cells]
  refine split_fields 0x09 _ (by simp [ScriptRow.cell]) ?_
  intro w hw
  obtain ⟨p, hp, rfl⟩ := List.mem_map.mp hw
  exact fun hb => (h p hp _ hb).1 rfl

theorem line_newline (r : ScriptRow) (h : ∀ p ∈ r.cell, CellText p.2) : (0x0a : UInt8) ∉ r.line := by
  rw [line_cells]
  intro hb
  have hi : ∀ ws : List Str, (∀ w ∈ ws, (0x0a : UInt8) ∉ w) → (0x0a : UInt8) ∉ (u8!"\t").intercalate ws := by
    intro ws
    induction ws with
    | nil => intro _ hx; cases hx
    | cons w ws ih =>
      intro hw hx
      cases ws with
      | nil => rw [List.intercalate_singleton] at hx; exact hw w (by simp) hx
      | cons v ws =>
        rw [List.intercalate_cons_cons] at hx
        rcases List.mem_append.mp hx with hx | hx
        · rcases List.mem_append.mp hx with hx | hx
          · exact hw w (by simp) hx
          · exact absurd hx (by decide)
        · exact ih (fun x m => hw x (by simp [m])) hx
  refine hi _ ?_ hb
  intro w hw
  obtain ⟨p, hp, rfl⟩ := List.mem_map.mp hw
  exact fun hb => (h p hp _ hb).2.1 rfl

theorem ucdFile_lines (rows : List ScriptRow) (h : ∀ r ∈ rows, ∀ p ∈ r.cell, CellText p.2) :
    textLines (ucdFile rows) = ucdFileHeader :: rows.map ScriptRow.line := by
  have e : ucdFile rows = (ucdFileHeader :: rows.map ScriptRow.line).flatMap fun l => l ++ u8!"\n" := by
    unfold ucdFile
    rw [List.flatMap_cons, List.flatMap_map]
  rw [e]
  refine textLines_lines _ ?_
  intro l hl
  rcases List.mem_cons.mp hl with rfl | hl
  · decide
  · obtain ⟨r, hr, rfl⟩ := List.mem_map.mp hl
    exact line_newline r (h r hr)

/-- The file is a table with the columns that the loader wants, and its rows are those that were written. -/
theorem C196_table (rows : List ScriptRow) (h : ∀ r ∈ rows, ∀ p ∈ r.cell, CellText p.2) :
    TableText ucdHeader (ucdFile rows) ∧ (tableRows (ucdFile rows)).map ucdRowOf = rows.map ScriptRow.row := by
  have hl := ucdFile_lines rows h
  have hh : tableHeader (ucdFile rows) = ucdHeader := by
    unfold tableHeader
    rw [hl]
    show dropEmptyLast (split 0x09 ucdFileHeader) = ucdHeader
    decide +kernel
  have ht : tableLines (ucdFile rows) = rows.map ScriptRow.line := by
    unfold tableLines
    rw [hl]; rfl
  refine ⟨⟨by rw [hh], ?_⟩, ?_⟩
  · intro line hm
    rw [ht] at hm
    obtain ⟨r, hr, rfl⟩ := List.mem_map.mp hm
    left
    rw [line_split r (h r hr), List.length_map]
    rfl
  · unfold tableRows
    rw [hh, ht, List.map_map, List.map_map]
    refine List.map_congr_left fun r hr => ?_
    simp only [Function.comp_apply]
    unfold ucdRowOf cellOf
    rw [line_split r (h r hr)]
    rfl

/-! ## The loader accepts the rows -/

/-- A code that the loader accepts: four or five digits in upper case, the code of a kanji. -/
def KanjiCode (c : Str) : Prop := UcdCode c ∧ ∃ n, IsUnicodeText c n ∧ Spec.Kanji n

/-- A number that the loader can store: a number with at most two apostrophes, or `H` and a number. -/
def StoredAs (r : MorohashiRef) (x : MorohashiId) : Prop :=
  1 ≤ x.id ∧ ∃ ds, IsNumber ds x.id ∧
    match x.idType with
    | .plain => r.body = ds ∧ r.primes = 0
    | .prime => r.body = ds ∧ r.primes = 1
    | .doublePrime => r.body = ds ∧ r.primes = 2
    | .supplemental => r.body = u8!"H" ++ ds ∧ r.primes = 0

theorem stored_parsed (r : MorohashiRef) (x : MorohashiId) (h : StoredAs r x) : IsMorohashi r.plain x := by
  obtain ⟨h1, ds, h2, h3⟩ := h
  refine .inr ⟨ds, h2, ?_⟩
  unfold MorohashiRef.plain
  have h0 : x.id ≠ 0 := by omega
  cases ht : x.idType with
  | plain => rw [ht] at h3; dsimp only at h3 ⊢; rw [h3.1, h3.2]; simp
  | prime => rw [ht] at h3; dsimp only at h3 ⊢; rw [h3.1, h3.2]; exact ⟨h0, .inl rfl⟩
  | doublePrime => rw [ht] at h3; dsimp only at h3 ⊢; rw [h3.1, h3.2]; exact ⟨h0, .inl rfl⟩
  | supplemental => rw [ht] at h3; dsimp only at h3 ⊢; rw [h3.1, h3.2]; exact ⟨h0, by simp⟩

/-- What the loader demands of the data of an entry. -/
structure AcceptedEntry (es : List UcdEntry) (found : List (Str × List Str)) (e : UcdEntry) : Prop where
  code : KanjiCode e.cp
  links : ∀ c ∈ (linksOf es found e).2.1, KanjiCode c
  radical : 1 ≤ e.radical ∧ e.radical ≤ 214
  strokes : if (entryStrokes e).2 = 0 then 1 ≤ (entryStrokes e).1 ∧ (entryStrokes e).1 ≤ 64
    else 2 ≤ (entryStrokes e).1 ∧ (entryStrokes e).1 ≤ 64 ∧ 3 ≤ (entryStrokes e).2 ∧ (entryStrokes e).2 ≤ 33
  morohashi : ∀ d ∈ es, d.cp = e.cp → ∀ r ∈ d.morohashi, ∃ x, StoredAs r x
  joyo : ∀ y, e.joyo = some (.listed y) → e.jinmei = none ∧
    ∀ r, entryReadings es found e = some r → r.1.1 ≠ []
  jinmei : ∀ y c, e.joyo = none → e.jinmei = some (y, some c) → (readingOf es e.cp).isSome ∨ (readingOf es c).isSome

/-- The kanji with links given by the script have readings. -/
def ManualReadings (es : List UcdEntry) : Prop := ∀ p ∈ manualLinks, (readingOf es p.2).isSome

theorem definitionLink_reading {es : List UcdEntry} {found : List (Str × List Str)} (hm : ManualReadings es) {c d : Str}
    (h : definitionLink es found c = some d) : (readingOf es d).isSome := by
  unfold definitionLink at h
  cases hl : manualLinks.lookup c with
  | some x => rw [hl] at h; cases h; exact hm _ (lookup_mem hl)
  | none => 
    rw [hl] at h
    have := List.find?_some (p := fun d => (readingOf es d).isSome) h
    exact this

theorem readingsOf_some {es : List UcdEntry} {c : Str} (h : (readingOf es c).isSome) :
    (readingsOf es c).2.1 ≠ [] ∨ (readingsOf es c).2.2 ≠ [] := by
  have : ¬ (readingsOf es c).2.1 ++ (readingsOf es c).2.2 = [] := fun x => by
    rw [(readingsOf_empty es c).mp x] at h; cases h
  cases h1 : (readingsOf es c).2.1 with
  | cons => exact .inl (by simp)
  | nil => right; intro h2; rw [h1, h2] at this; exact this rfl

/-- The first link of the five best choices can be loaded from. -/
theorem linkChoices_load {es : List UcdEntry} {found : List (Str × List Str)} {e : UcdEntry} {p : Str × List Str × Bool}
    {c : Str} (hp : p ∈ linkChoices es found e) (hb : p.2.2 = true) (hc : p.2.1.head? = some c)
    (hm : ManualReadings es) : loadable es found c = true := by
  simp only [linkChoices, List.mem_cons, List.not_mem_nil, or_false] at hp
  have hh : ∀ l : List Str, (l.filter (loadable es found)).head? = some c → loadable es found c = true := by
    intro l hl
    exact (List.mem_filter.mp (List.mem_of_mem_head? hl)).2
  have hk : ∀ l : List Str, (l.take 1).head? = l.head? := by intro l; cases l <;> rfl
  rcases hp with rfl | rfl | rfl | rfl | rfl | rfl | rfl
  · dsimp only at hc
    split at hc
    · rename_i ha
      obtain ⟨x, hx, hx2⟩ := List.any_eq_true.mp ha
      have hne : (otherCodes e.cp e.traditional).filter (loadable es found) ≠ [] := by
        intro hn
        have := List.mem_filter.mpr ⟨hx, hx2⟩
        rw [hn] at this
        cases this
      refine hh (otherCodes e.cp e.traditional) ?_
      cases hx : (otherCodes e.cp e.traditional).filter (loadable es found) with
      | nil => exact absurd hx hne
      | cons a l => rw [hx] at hc; exact hc
    · cases hc
  · dsimp only at hc
    rw [hk] at hc
    exact hh _ hc
  · exact hh _ hc
  · dsimp only at hc
    cases hd : definitionLink es found e.cp with
    | none => rw [hd] at hc; cases hc
    | some d =>
      rw [hd] at hc
      cases hc
      unfold loadable
      rw [definitionLink_reading hm hd]
      rfl
  · dsimp only at hc
    split at hc
    · cases hc
    · rw [hk] at hc
      exact hh _ hc
  · cases hb
  · cases hb

/-- A row has readings or a number. -/
theorem entryReadings_origin {es : List UcdEntry} {found : List (Str × List Str)} {e : UcdEntry} (hm : ManualReadings es)
    (ha : AcceptedEntry es found e) {r : (Str × Str × Str) × Bool} (h : entryReadings es found e = some r) :
    r.1.2.1 ≠ [] ∨ r.1.2.2 ≠ [] ∨ morohashiOf es e.cp ≠ [] ∨ jSourceOf es e.cp ≠ [] := by
  have key : ∀ c, (readingOf es c).isSome → (readingsOf es c).2.1 ≠ [] ∨ (readingsOf es c).2.2 ≠ [] ∨
      morohashiOf es e.cp ≠ [] ∨ jSourceOf es e.cp ≠ [] := by
    intro c hc
    rcases readingsOf_some hc with h | h
    · exact .inl h
    · exact .inr (.inl h)
  unfold entryReadings at h
  split at h
  · rename_i ho; cases h; exact key _ ho
  · rename_i ho
    cases hl : (linksOf es found e).2.2 with
    | some c =>
      rw [hl] at h
      cases h
      dsimp only
      have hload : loadable es found c = true := by
        unfold linksOf at hl
        cases hj : e.joyo with
        | some j => rw [hj] at hl; cases hl
        | none =>
          rw [hj] at hl
          cases hi : e.jinmei with
          | some m =>
            obtain ⟨y, l⟩ := m
            rw [hi] at hl
            cases l with
            | some d =>
              have hd : c = d := by
                dsimp only at hl
                split at hl <;> (cases hl; rfl)
              subst hd
              rcases ha.jinmei y c hj hi with hx | hx
              · exact absurd hx ho
              · unfold loadable; rw [hx]; rfl
            | none =>
              dsimp only at hl
              cases hb : linkedFrom es e.cp with
              | none => rw [hb] at hl; cases hl
              | some d => rw [hb] at hl; cases hl
          | none =>
            rw [hi] at hl
            dsimp only at hl
            cases hf : (linkChoices es found e).find? fun p => !p.2.1.isEmpty with
            | none => rw [hf] at hl; cases hl
            | some p =>
              obtain ⟨t, l, b⟩ := p
              rw [hf] at hl
              dsimp only at hl
              cases b with
              | false => cases hl
              | true => exact linkChoices_load (List.mem_of_find?_eq_some hf) rfl hl hm
      by_cases hc : (readingOf es c).isSome = true
      · rw [if_pos hc]; exact key _ hc
      · rw [if_neg hc]
        unfold loadable at hload
        rw [Bool.or_eq_true] at hload
        rcases hload with hx | hx
        · exact absurd hx hc
        · cases hd : definitionLink es found c with
          | none => rw [hd] at hx; cases hx
          | some d => exact key _ (definitionLink_reading hm hd)
    | none =>
      rw [hl] at h
      dsimp only at h
      cases hg : givenReadings.lookup e.cp with
      | some g =>
        rw [hg] at h
        cases h
        have : ∀ p ∈ givenReadings, p.2.1 ≠ [] := by decide
        exact .inl (this (e.cp, g) (lookup_mem hg))
      | none =>
        rw [hg] at h
        dsimp only at h
        split at h
        · rename_i hi
          unfold inJapan at hi
          rw [Bool.or_eq_true] at hi
          rcases hi with hi | hi
          · exact .inr (.inr (.inl (by simpa using hi)))
          · exact .inr (.inr (.inr (by simpa using hi)))
        · cases h

/-- The types that links can have, with and without readings of the link. -/
def scriptLinkType (type : Str) (linked : Bool) : LinkType :=
  if type = u8!"Jinmei" then (if linked then .jinmeiR else .jinmei)
  else if type = u8!"Traditional" then (if linked then .traditionalR else .traditional)
  else if type = u8!"Simplified" then (if linked then .simplifiedR else .simplified)
  else if type = u8!"Compatibility" then (if linked then .compatibilityR else .compatibility)
  else if type = u8!"Definition" then (if linked then .definitionR else .definition)
  else if type = u8!"Semantic" then .semanticR
  else .none

theorem linkType_text (type : Str) (linked : Bool) (h : type ∈ scriptLinkTypes)
    (hs : type = u8!"Semantic" → linked = true) :
    type ++ (if linked then u8!"*" else []) = linkTypeText (scriptLinkType type linked) := by
  simp only [scriptLinkTypes, List.mem_cons, List.not_mem_nil, or_false] at h
  rcases h with rfl | rfl | rfl | rfl | rfl | rfl
  · cases linked <;> decide
  · cases linked <;> decide
  · cases linked <;> decide
  · cases linked <;> decide
  · cases linked <;> decide
  · rw [hs rfl]; decide

/-- "Semantic" is chosen only for kanji without readings of their own. -/
theorem semantic_linked {es : List UcdEntry} {found : List (Str × List Str)} {e : UcdEntry}
    (h : (linksOf es found e).1 = u8!"Semantic") {r : (Str × Str × Str) × Bool}
    (hr : entryReadings es found e = some r) : r.2 = true := by
  have hx : (readingOf es e.cp).isSome = false ∧ ∃ c, (linksOf es found e).2.2 = some c := by
    unfold linksOf at h ⊢
    cases hj : e.joyo with
    | some j => rw [hj] at h; exact absurd h (by simp)
    | none =>
      rw [hj] at h
      cases hi : e.jinmei with
      | some m =>
        obtain ⟨y, l⟩ := m
        rw [hi] at h
        cases l with
        | some d =>
          dsimp only at h
          split at h
          · exact absurd h (by simp)
          · exact absurd (show _ = u8!"Semantic" from h) (by simp)
        | none =>
          dsimp only at h
          cases hb : linkedFrom es e.cp with
          | none => rw [hb] at h; exact absurd h (by simp)
          | some d => rw [hb] at h; exact absurd (show (u8!"Jinmei") = u8!"Semantic" from h) (by decide)
      | none =>
        rw [hi] at h
        dsimp only at h ⊢
        cases hf : (linkChoices es found e).find? fun p => !p.2.1.isEmpty with
        | none => rw [hf] at h; exact absurd h (by simp)
        | some p =>
          have hp := List.mem_of_find?_eq_some hf
          have hne := List.find?_some hf
          rw [hf] at h
          simp only [linkChoices, List.mem_cons, List.not_mem_nil, or_false] at hp
          rcases hp with rfl | rfl | rfl | rfl | rfl | rfl | rfl
          · exact absurd (show _ = u8!"Semantic" from h) (by simp)
          · exact absurd (show _ = u8!"Semantic" from h) (by simp)
          · exact absurd (show _ = u8!"Semantic" from h) (by simp)
          · exact absurd (show _ = u8!"Semantic" from h) (by simp)
          · dsimp only at hne ⊢
            cases ho : (readingOf es e.cp).isSome with
            | true => rw [ho] at hne; exact absurd hne (by simp)
            | false =>
              rw [ho] at hne
              refine ⟨rfl, ?_⟩
              simp only [Bool.false_eq_true, if_false, if_true] at hne ⊢
              cases hl : ((e.semantic.map (·.1)).filter (loadable es found)).take 1 with
              | nil => rw [hl] at hne; cases hne
              | cons x xs => exact ⟨x, rfl⟩
          · exact absurd (show _ = u8!"Semantic" from h) (by simp)
          · exact absurd (show _ = u8!"Semantic" from h) (by simp)
  obtain ⟨h1, c, h2⟩ := hx
  unfold entryReadings at hr
  rw [h1, h2] at hr
  simp only [Bool.false_eq_true, if_false, Option.some.injEq] at hr
  rw [← hr]

theorem sources_valid (e : UcdEntry) : (∀ c ∈ entrySources e, c ∈ validSources) ∧ (entrySources e).Nodup := by
  unfold entrySources
  by_cases h1 : e.gSource = [] <;> by_cases h2 : e.hSource = [] <;> by_cases h3 : e.jSource = [] <;>
    by_cases h4 : e.kSource = [] <;> by_cases h5 : e.tSource = [] <;> by_cases h6 : e.vSource = [] <;>
    simp only [h1, h2, h3, h4, h5, h6, if_true, if_false] <;> decide

theorem kanjiCode_name {c : Str} (h : KanjiCode c) :
    (∃ n, IsUnicodeText c n ∧ KanjiEntry n (codeUtf8 c)) ∧ (codeUtf8 c).length ≤ 4 ∧ codeUtf8 c ≠ [] ∧
      (0x2c : UInt8) ∉ codeUtf8 c := by
  obtain ⟨h1, n, h2, h3⟩ := h
  obtain ⟨k1, k2, k3, k4⟩ := codeUtf8_kanji h2 h1 h3
  exact ⟨⟨n, h2, k1⟩, k2, k3, fun hb => absurd (k4 _ hb) (by decide)⟩

theorem linksMatch_codes (cs : List Str) (h : ∀ c ∈ cs, KanjiCode c) : LinksMatch (cs.map codeUtf8) cs := by
  induction cs with
  | nil => trivial
  | cons c cs ih => exact ⟨(kanjiCode_name (h c (by simp))).1, ih fun x hx => h x (by simp [hx])⟩

/-- Strokes of the entry, as they are stored. -/
def storedStrokes (e : UcdEntry) : Strokes := ⟨UInt8.ofNat (entryStrokes e).1, UInt8.ofNat (entryStrokes e).2⟩

/-- Listed as Joyo itself. -/
def UcdEntry.isListed (e : UcdEntry) : Bool := match e.joyo with | some (.listed _) => true | _ => false

/-- The loader accepts the row of an entry with proper data, and stores what the record has: the name, the names of the
links and their type, radical, strokes, whether it is Joyo or Jinmei, and the number of the Morohashi dictionary. -/
theorem C196_row (xs : List UcdXml) (es : List UcdEntry) (found : List (Str × List Str)) (h : AllRecords xs es)
    (hm : ManualReadings es) (e : UcdEntry) (he : e.Fits) (ha : AcceptedEntry es found e) (hk : ¬ MissesLink es found e)
    (row : UcdRow) (hr : ucdEntryRow es found e = some row) :
    ∃ u, DescribesUcd row u ∧ u.name = codeUtf8 e.cp ∧ u.links = (linksOf es found e).2.1.map codeUtf8 ∧
      u.isJoyo = UcdEntry.isListed e ∧ u.isJinmei = e.jinmei.isSome ∧ u.radical = e.radical ∧ u.strokes = storedStrokes e := by
  unfold ucdEntryRow at hr
  cases hx : entryReadings es found e with
  | none => rw [hx] at hr; cases hr
  | some r =>
    rw [hx] at hr
    simp only [Option.map_some, Option.some.injEq] at hr
    obtain ⟨f1, f2, -⟩ := linksOf_facts xs es found h e he
    have hnames : ∀ w ∈ (linksOf es found e).2.1.map codeUtf8, (0x2c : UInt8) ∉ w ∧ w ≠ [] := by
      intro w hw
      obtain ⟨c, hc, rfl⟩ := List.mem_map.mp hw
      have := kanjiCode_name (ha.links c hc)
      exact ⟨this.2.2.2, this.2.2.1⟩
    have hcodes : ∀ w ∈ (linksOf es found e).2.1, (0x2c : UInt8) ∉ w ∧ w ≠ [] := by
      intro c hc
      refine ⟨fun hb => ?_, f1 c hc⟩
      have := (ha.links c hc).1.2 _ hb
      revert this
      decide
    have hn : commas ((linksOf es found e).2.1.map codeUtf8) = [] ↔ (linksOf es found e).2.1 = [] := by
      rw [commas_nil _ fun w hw => (hnames w hw).2, List.map_eq_nil_iff]
    have u8 : ∀ v, v ≤ 255 → (UInt8.ofNat v).toNat = v := by
      intro v h; rw [UInt8.toNat_ofNat']; exact Nat.mod_eq_of_lt (by omega)
    obtain ⟨id, hid⟩ : ∃ id, IsMorohashi (morohashiOf es e.cp) id := by
      unfold morohashiOf
      cases hl : lastEntry es fun d => d.cp == e.cp && !d.morohashi.isEmpty with
      | none => exact ⟨{}, .inl ⟨rfl, rfl⟩⟩
      | some d =>
        obtain ⟨d1, -, d2⟩ := lastEntry_some hl
        rw [Bool.and_eq_true] at d2
        cases hmo : d.morohashi with
        | nil => exact ⟨{}, .inl ⟨by simp [hmo], rfl⟩⟩
        | cons m ms =>
          obtain ⟨x, hx⟩ := ha.morohashi d d1 (by simpa using d2.1) m (by simp [hmo])
          exact ⟨x, by simpa [hmo] using stored_parsed m x hx⟩
    have hlt : row.linkType = linkTypeText (if (linksOf es found e).1 = [] then .none else scriptLinkType (linksOf es found e).1 r.2) := by
      rw [← hr]
      dsimp only
      rcases f2 with ⟨g1, -⟩ | ⟨g1, -⟩
      · have : r.2 = false := by
          cases hb : r.2 with
          | false => rfl
          | true => exact absurd ⟨g1, r.1, by rw [hx, ← hb]⟩ hk
        rw [if_pos g1, g1, this]
        rfl
      · rw [if_neg (show ¬ (linksOf es found e).1 = [] by intro e'; rw [e'] at g1; exact absurd g1 (by decide))]
        exact linkType_text _ _ g1 fun e => semantic_linked e hx
    obtain ⟨u, u1, u2, u3, u4, -, u6, -⟩ := describes_exists row (UcdEntry.isListed e) e.jinmei.isSome e.radical _
      (storedStrokes e) id (by
        rw [← hr]
        exact entryReadings_origin hm ha hx)
      (by rw [← hr]; exact (kanjiCode_name ha.code).2.1)
      (by rw [← hr]; exact (kanjiCode_name ha.code).1)
      (by
        rw [← hr]
        have := ha.radical
        exact ⟨processU64_unlimited _ (by omega), this⟩)
      (by
        rw [← hr]
        dsimp only
        unfold UcdEntry.isListed
        cases e.joyo with
        | none => rfl
        | some j => cases j <;> rfl)
      (by rw [← hr])
      (by
        intro hj
        unfold UcdEntry.isListed at hj
        cases hjo : e.joyo with
        | none => rw [hjo] at hj; cases hj
        | some j =>
          cases j with
          | replaced => rw [hjo] at hj; cases hj
          | listed y =>
            obtain ⟨a, b⟩ := ha.joyo y hjo
            rw [a, ← hr]
            exact ⟨rfl, b r hx⟩)
      (by
        unfold LinkCells
        rw [hlt, ← hr]
        dsimp only
        by_cases hl : (linksOf es found e).2.1 = []
        · rcases f2 with ⟨g1, -⟩ | ⟨-, g2⟩
          · rw [if_pos (hn.mpr hl), if_pos g1, hl]
            exact ⟨rfl, rfl⟩
          · exact absurd hl g2
        · rw [if_neg (fun x => hl (hn.mp x)), commaFields_commas _ hnames, commaFields_commas _ hcodes]
          rcases f2 with ⟨-, g2⟩ | ⟨g1, g2⟩
          · exact absurd g2 hl
          · refine ⟨linksMatch_codes _ ha.links, ?_, ?_⟩
            · cases hj : e.joyo with
              | none => unfold UcdEntry.isListed; rw [hj]
              | some j => exact absurd (by unfold linksOf; rw [hj]) hl
            · have hne : (linksOf es found e).1 ≠ [] := by
                intro e; rw [e] at g1; exact absurd g1 (by decide)
              rw [if_neg hne, ← linkType_text _ _ g1 fun e => semantic_linked e hx]
              intro e
              exact hne (List.append_eq_nil_iff.mp e).1)
      hlt
      (by
        have hs := ha.strokes
        unfold StrokesMatch storedStrokes
        rw [← hr]
        dsimp only
        by_cases hv : (entryStrokes e).2 = 0
        · rw [if_pos hv] at hs
          rw [if_pos (if_pos hv), hv, u8 _ (by omega)]
          exact ⟨processU64_dec _ _ (by decide) (by decide) (by omega), rfl, hs⟩
        · rw [if_neg hv] at hs
          rw [if_neg (show ¬ (if (entryStrokes e).2 = 0 then [] else toDec (entryStrokes e).2) = [] by
            rw [if_neg hv]; exact toDec_ne_nil _), if_neg hv, u8 _ (by omega), u8 _ (by omega)]
          refine ⟨processU64_dec _ _ (by decide) (by decide) (by omega), processU64_dec _ _ (by decide) (by decide) (by omega),
            hs.1, hs.2.1, hs.2.2.1, hs.2.2.2, ?_⟩
          intro e'
          have := congrArg UInt8.toNat e'
          rw [u8 _ (by omega), u8 _ (by omega)] at this
          exact (C194_different e hv).1 this.symm)
      (by rw [← hr]; exact sources_valid e)
      (by rw [← hr]; exact hid)
    refine ⟨u, u1, ?_, ?_, u2, u3, u4, u6⟩
    · rw [u1.name.1, ← hr]
    · rw [u1.links.1, ← hr]
      exact commaFields_commas _ hnames

end KT
