import Verif.Lemmas.UcdLinkChoice
/-!
# C193, C194, C195: rows of data/ucd.txt

Model: `Verif/Model/UcdScript.lean` (scripts/parseUcdAllFlat.sh).  Specification: `Verif/Spec/UcdEntry.lean`.
-/
namespace KT
open Spec

section rows
variable (xs : List UcdXml) (es : List UcdEntry) (found : List (Str × List Str))

theorem allRecords_fits : ∀ (xs : List UcdXml) (es : List UcdEntry), AllRecords xs es → ∀ d ∈ es, d.Fits := by
  intro xs
  induction xs with
  | nil => intro es h d hd; cases es with | nil => cases hd | cons => exact h.elim
  | cons x xs ih =>
    intro es h d hd
    cases es with
    | nil => cases hd
    | cons e es =>
      rcases List.mem_cons.mp hd with rfl | hd
      · exact h.1.2
      · exact ih es h.2 d hd

/-- A choice: its links are codes and its type is known. -/
theorem linkChoices_facts (h : AllRecords xs es) (e : UcdEntry) (he : e.Fits) (p : Str × List Str × Bool)
    (hp : p ∈ linkChoices es found e) : (∀ c ∈ p.2.1, c ≠ []) ∧ p.1 ∈ scriptLinkTypes := by
  have ht : ∀ c ∈ otherCodes e.cp e.traditional, c ≠ [] := fun c hc =>
    (he.traditional c ((mem_otherCodes _ _ _).mp hc).1).1
  have hs : ∀ c ∈ otherCodes e.cp e.simplified, c ≠ [] := fun c hc =>
    (he.simplified c ((mem_otherCodes _ _ _).mp hc).1).1
  have hf : ∀ (l : List Str) (q : Str → Bool), (∀ c ∈ l, c ≠ []) → ∀ c ∈ l.filter q, c ≠ [] :=
    fun l q hl c hc => hl c (List.mem_filter.mp hc).1
  have hk : ∀ (l : List Str), (∀ c ∈ l, c ≠ []) → ∀ c ∈ l.take 1, c ≠ [] :=
    fun l hl c hc => hl c (List.mem_of_mem_take hc)
  simp only [linkChoices, List.mem_cons, List.not_mem_nil, or_false] at hp
  rcases hp with rfl | rfl | rfl | rfl | rfl | rfl | rfl
  · refine ⟨?_, (by decide : (u8!"Traditional") ∈ scriptLinkTypes)⟩
    intro c hc
    dsimp only at hc
    split at hc
    · rcases List.mem_append.mp hc with hc | hc
      · exact hf _ _ ht c hc
      · exact hf _ _ ht c hc
    · cases hc
  · exact ⟨hk _ (hf _ _ hs), (by decide : (u8!"Simplified") ∈ scriptLinkTypes)⟩
  · refine ⟨hf _ _ ?_, (by decide : (u8!"Compatibility") ∈ scriptLinkTypes)⟩
    intro c hc
    exact (he.compatibility c (by simpa using hc)).1
  · refine ⟨?_, (by decide : (u8!"Definition") ∈ scriptLinkTypes)⟩
    intro c hc
    exact definitionLink_ne_nil xs es found h e.cp c (by simpa using hc)
  · refine ⟨?_, (by decide : (u8!"Semantic") ∈ scriptLinkTypes)⟩
    intro c hc
    dsimp only at hc
    split at hc
    · cases hc
    · refine hk _ (hf _ _ ?_) c hc
      intro d hd
      obtain ⟨p, hp, rfl⟩ := List.mem_map.mp hd
      exact (he.semantic p hp).1.1
  · exact ⟨hf _ _ ht, (by decide : (u8!"Traditional") ∈ scriptLinkTypes)⟩
  · exact ⟨hk _ (hf _ _ hs), (by decide : (u8!"Simplified") ∈ scriptLinkTypes)⟩

/-- Links have codes that are not empty and a known type; there is no type without links. -/
theorem linksOf_facts (h : AllRecords xs es) (e : UcdEntry) (he : e.Fits) :
    (∀ c ∈ (linksOf es found e).2.1, c ≠ []) ∧
    (((linksOf es found e).1 = [] ∧ (linksOf es found e).2.1 = []) ∨
      ((linksOf es found e).1 ∈ scriptLinkTypes ∧ (linksOf es found e).2.1 ≠ [])) ∧
    ∀ c, (linksOf es found e).2.2 = some c → c ≠ [] := by
  unfold linksOf
  cases hj : e.joyo with
  | some j => exact ⟨by simp, .inl ⟨rfl, rfl⟩, by simp⟩
  | none =>
    cases hm : e.jinmei with
    | some m =>
      obtain ⟨y, l⟩ := m
      cases l with
      | some c =>
        have hc := (he.jinmei y c hm).1
        dsimp only
        split
        · exact ⟨by simp, .inl ⟨rfl, rfl⟩, by simpa using hc⟩
        · exact ⟨by simpa using hc, .inr ⟨(by decide : (u8!"Jinmei") ∈ scriptLinkTypes), by simp⟩, by simpa using hc⟩
      | none =>
        dsimp only
        cases hl : linkedFrom es e.cp with
        | none => exact ⟨by simp, .inl ⟨rfl, rfl⟩, by simp⟩
        | some d =>
          have hd := (allRecords_fits xs es h d (lastEntry_some hl).1).cp.1
          exact ⟨by simpa using hd, .inr ⟨(by decide : (u8!"Jinmei") ∈ scriptLinkTypes), by simp⟩, by simp⟩
    | none =>
      dsimp only
      cases hf : (linkChoices es found e).find? fun p => !p.2.1.isEmpty with
      | none => exact ⟨by simp, .inl ⟨rfl, rfl⟩, by simp⟩
      | some p =>
        obtain ⟨t, l, b⟩ := p
        obtain ⟨h1, h2⟩ := linkChoices_facts xs es found h e he _ (List.mem_of_find?_eq_some hf)
        have h3 := List.find?_some hf
        refine ⟨h1, .inr ⟨h2, by rintro rfl; simp at h3⟩, ?_⟩
        intro c hc
        dsimp only at hc
        split at hc
        · exact h1 c (List.mem_of_mem_head? hc)
        · cases hc

/-- Where the readings come from. -/
theorem recordReadings_entry (h : AllRecords xs es) (e : UcdEntry) (he : e.Fits) (v : UcdVars) (hv : v .cp = e.cp) :
    recordReadings (scriptArrays xs found) v ((linksOf es found e).2.2.getD []) =
      (entryReadings es found e).map fun r => (r.1.1, r.1.2.1, r.1.2.2, r.2) := by
  have hr : ∀ c, (scriptArrays xs found).definition c = (readingsOf es c).1 ∧
      (scriptArrays xs found).on c = (readingsOf es c).2.1 ∧ (scriptArrays xs found).kun c = (readingsOf es c).2.2 := by
    intro c
    have := scriptArrays_readings xs es found h c
    rw [← this]
    exact ⟨rfl, rfl, rfl⟩
  have ho := scriptArrays_own xs es found h e.cp
  obtain ⟨-, -, hc⟩ := linksOf_facts xs es found h e he
  unfold recordReadings entryReadings
  dsimp only
  rw [hv]
  cases hx : readingOf es e.cp with
  | some s =>
    simp only [Option.isSome_some, if_true]
    rw [if_pos (by intro x; rw [ho.mp x] at hx; cases hx), (hr _).1, (hr _).2.1, (hr _).2.2]
    rfl
  | none =>
    simp only [Option.isSome_none, Bool.false_eq_true, if_false]
    rw [if_neg (fun x => x (ho.mpr hx))]
    have hd : (readingsOf es e.cp).1 = [] := by simp [readingsOf, hx]
    cases hl : (linksOf es found e).2.2 with
    | some c =>
      have hcn := hc c hl
      dsimp only [Option.getD_some]
      rw [if_pos hcn]
      simp only [scriptArrays_hasReading xs es found h, scriptArrays_readingLink xs es found h c hcn,
        fun c => (hr c).1, fun c => (hr c).2.1, fun c => (hr c).2.2, Option.map_some]
    | none =>
      dsimp only [Option.getD_none]
      rw [if_neg (fun x => x rfl), (hr _).1, hd]
      have hm : manualReadings = givenReadings := rfl
      rw [hm]
      cases givenReadings.lookup e.cp with
      | some r => rfl
      | none =>
        dsimp only
        rw [scriptArrays_morohashi xs es found h, scriptArrays_jSource xs es found h]
        have := append_ne_nil_iff (morohashiOf es e.cp) (jSourceOf es e.cp)
        unfold inJapan
        by_cases hj : (morohashiOf es e.cp != [] || jSourceOf es e.cp != []) = true
        · rw [if_pos (this.mpr hj), if_pos hj]; rfl
        · rw [if_neg (fun x => hj (this.mp x)), if_neg hj]; rfl

/-- The attributes `processRecord` uses, without the last one. -/
def printFields : List UcdField := printUnset ++ requiredFields

theorem print_fields (x : UcdXml) (e : UcdEntry) (h : Records x e) (vars : UcdVars) (f : UcdField)
    (hf : f ∈ printFields) : evalRecord printUnset x vars f = e.text f :=
  evalRecord_entry _ _ _ h _ _ (List.mem_append.mp hf)

theorem sources_entry (v : UcdVars) (e : UcdEntry) (hv : ∀ f ∈ printFields, v f = e.text f) :
    scriptSources v = entrySources e := by
  have v1 : v .gSource = e.gSource := hv _ (by decide)
  have v2 : v .hSource = e.hSource := hv _ (by decide)
  have v3 : v .jSource = e.jSource := hv _ (by decide)
  have v4 : v .kSource = e.kSource := hv _ (by decide)
  have v5 : v .tSource = e.tSource := hv _ (by decide)
  have v6 : v .vSource = e.vSource := hv _ (by decide)
  unfold scriptSources entrySources
  simp only [List.filterMap, v1, v2, v3, v4, v5, v6]
  by_cases h1 : e.gSource = [] <;> by_cases h2 : e.hSource = [] <;> by_cases h3 : e.jSource = [] <;>
    by_cases h4 : e.kSource = [] <;> by_cases h5 : e.tSource = [] <;> by_cases h6 : e.vSource = [] <;>
    simp [h1, h2, h3, h4, h5, h6]

/-- A record and its row. -/
theorem processRecord_entry (h : AllRecords xs es) (e : UcdEntry) (he : e.Fits) (v : UcdVars)
    (hv : ∀ f ∈ printFields, v f = e.text f) :
    processRecord (scriptArrays xs found) v =
      if MissesLink es found e then .throw .std
      else .ok ((ucdEntryRow es found e).map fun r => ⟨r, v .japanese⟩) := by
  have v1 : v .cp = e.cp := hv _ (by decide)
  have v2 : v .blk = e.blk := hv _ (by decide)
  have v3 : v .age = e.age := hv _ (by decide)
  have v4 : v .rsUnicode = e.text .rsUnicode := hv _ (by decide)
  have v5 : v .mandarin = spaced e.mandarin := hv _ (by decide)
  have v6 : v .nelson = spaced (e.nelson.map fun p => List.replicate p.1 0x30 ++ p.2) := hv _ (by decide)
  have v7 : v .jinmei = e.text .jinmei := hv _ (by decide)
  have hl := recordLinks_entry xs es found h e he v (fun f hf => hv f (by revert hf; cases f <;> decide))
  have hs := scriptStrokes_entry e he v (hv _ (by decide)) (hv _ (by decide)) v4
  have ht := (linksOf_facts xs es found h e he).2.1
  have hm := (jinmei_marks e).1
  unfold processRecord
  rw [hl]
  dsimp only
  rw [recordReadings_entry xs es found h e he v v1, hs, v1, v2, v3, v4, v5, v6, v7, (rsUnicode_parts e).1,
    sources_entry v e hv, mandarin_first _ he.mandarin, nelson_words _ he.nelson,
    scriptArrays_morohashi xs es found h, scriptArrays_jSource xs es found h]
  unfold ucdEntryRow
  cases hr : entryReadings es found e with
  | none =>
    rw [if_neg (show ¬ MissesLink es found e by rintro ⟨-, r, hx⟩; rw [hr] at hx; cases hx)]
    rfl
  | some r =>
    obtain ⟨⟨m, on, kun⟩, linked⟩ := r
    dsimp only [Option.map_some]
    have hcond : ((linksOf es found e).1 ∉ scriptLinkTypes ∧ ((linksOf es found e).1 ≠ [] ∨ linked = true)) ↔
        MissesLink es found e := by
      unfold MissesLink
      rw [hr]
      rcases ht with ⟨h1, -⟩ | ⟨h1, -⟩
      · rw [h1]
        constructor
        · rintro ⟨-, hx | hx⟩
          · exact absurd rfl hx
          · subst hx; exact ⟨rfl, _, rfl⟩
        · rintro ⟨-, r, hx⟩
          simp only [Option.some.injEq, Prod.mk.injEq] at hx
          exact ⟨by decide, .inr hx.2⟩
      · constructor
        · rintro ⟨hx, -⟩; exact absurd h1 hx
        · rintro ⟨hx, -⟩; rw [hx] at h1; exact absurd h1 (by decide)
    by_cases hc : MissesLink es found e
    · rw [if_pos (hcond.mpr hc), if_pos hc]
    · rw [if_neg (fun x => hc (hcond.mp x)), if_neg hc]
      have hjinmei : (if e.text .jinmei ≠ [] then u8!"Y" else []) = (if e.jinmei.isSome = true then u8!"Y" else []) := by
        by_cases hx : e.jinmei = none
        · rw [if_neg (by rw [hm]; simp [hx]), if_neg (by simp [hx])]
        · rw [if_pos (hm.mpr hx), if_pos (by cases hy : e.jinmei; exact absurd hy hx; rfl)]
      rw [hjinmei]
      cases e.joyo with
      | none => rfl
      | some j => cases j <;> rfl

end rows

/-- The entries up to the first one with readings of another kanji but without a link. -/
def ucdPrinted (es : List UcdEntry) (found : List (Str × List Str)) (fs : List UcdEntry) : List UcdEntry :=
  (fs.filter UcdEntry.kept).takeWhile fun e => decide ¬ MissesLink es found e

theorem printUcdRows_entries (xs : List UcdXml) (es : List UcdEntry) (found : List (Str × List Str)) (h : AllRecords xs es)
    (ys : List UcdXml) (fs : List UcdEntry) (h2 : AllRecords ys fs) (vars : UcdVars) :
    (printUcdRows (scriptArrays xs found) ys vars).1.map ScriptRow.row =
      (ucdPrinted es found fs).filterMap (ucdEntryRow es found) ∧
    ((printUcdRows (scriptArrays xs found) ys vars).2 = true ↔
      ∀ e ∈ fs, e.kept = true → ¬ MissesLink es found e) := by
  induction ys generalizing fs vars with
  | nil =>
    cases fs with
    | nil => exact ⟨rfl, by simp [printUcdRows]⟩
    | cons => exact h2.elim
  | cons y ys ih =>
    cases fs with
    | nil => exact h2.elim
    | cons e fs =>
      obtain ⟨⟨hy, he⟩, ht⟩ := h2
      have hf := print_fields y e hy vars
      rw [printUcdRows]
      dsimp only
      rw [hf .rsUnicode (by decide), keepsRecord_entry]
      unfold ucdPrinted
      rw [List.filter_cons]
      by_cases hk : e.kept = true
      · rw [if_pos hk, if_pos hk, List.takeWhile_cons, processRecord_entry xs es found h e he _ hf]
        by_cases hm : MissesLink es found e
        · rw [if_pos hm, if_neg (by simpa using hm)]
          refine ⟨rfl, ?_⟩
          constructor
          · intro hx; cases hx
          · intro hx; exact absurd hm (hx e (by simp) hk)
        · rw [if_neg hm, if_pos (by simpa using hm), List.filterMap_cons]
          have hall : (∀ d ∈ e :: fs, d.kept = true → ¬ MissesLink es found d) ↔
              ∀ d ∈ fs, d.kept = true → ¬ MissesLink es found d := by
            constructor
            · intro hx d hd; exact hx d (List.mem_cons_of_mem _ hd)
            · intro hx d hd
              rcases List.mem_cons.mp hd with rfl | hd
              · exact fun _ => hm
              · exact hx d hd
          rw [hall]
          obtain ⟨i1, i2⟩ := ih fs ht (evalRecord printUnset y vars)
          cases ucdEntryRow es found e with
          | none => exact ⟨i1, i2⟩
          | some r => exact ⟨by dsimp only [Option.map_some]; rw [List.map_cons, i1]; rfl, i2⟩
      · rw [if_neg hk, if_neg hk]
        obtain ⟨i1, i2⟩ := ih fs ht (evalRecord printUnset y vars)
        refine ⟨i1, i2.trans ?_⟩
        constructor
        · intro hx d hd hdk
          rcases List.mem_cons.mp hd with rfl | hd
          · exact absurd hdk hk
          · exact hx d hd hdk
        · intro hx d hd; exact hx d (List.mem_cons_of_mem _ hd)

/-- The rows of data/ucd.txt are those of the entries, in the same order; the script ends early only at an entry that
has the readings of another kanji but no link. -/
theorem C193_rows (first second : List UcdXml) (es fs : List UcdEntry) (found : List (Str × List Str))
    (h1 : AllRecords first es) (h2 : AllRecords second fs) :
    (ucdScript first second found).1.map ScriptRow.row = (ucdPrinted es found fs).filterMap (ucdEntryRow es found) ∧
    ((ucdScript first second found).2 = true ↔ ∀ e ∈ fs, e.kept = true → ¬ MissesLink es found e) :=
  printUcdRows_entries first es found h1 second fs h2 _

/-- The number of strokes and the other number of strokes. -/
theorem C194_strokes (x : UcdXml) (e : UcdEntry) (h : Records x e) (he : e.Fits) (vars : UcdVars) :
    scriptStrokes (evalRecord printUnset x vars) = entryStrokes e :=
  scriptStrokes_entry e he _ (print_fields x e h vars _ (by decide)) (print_fields x e h vars _ (by decide))
    (print_fields x e h vars _ (by decide))

/-- The other number differs from the strokes, and both are those of glyphs. -/
theorem C194_different (e : UcdEntry) (h : (entryStrokes e).2 ≠ 0) :
    (entryStrokes e).2 ≠ (entryStrokes e).1 ∧ (∃ r ∈ e.adobe, r.strokes = (entryStrokes e).1) ∧
      ∃ r ∈ e.adobe, r.strokes = (entryStrokes e).2 := by
  unfold entryStrokes at h ⊢
  cases ha : e.adobe with
  | nil => rw [ha] at h; exact absurd rfl h
  | cons r rs =>
    rw [ha] at h
    dsimp only at h ⊢
    cases hf : rs.find? fun s => s.strokes != r.strokes with
    | none => rw [hf] at h; exact absurd rfl h
    | some s =>
      have hs := List.find?_some hf
      have hm := List.mem_of_find?_eq_some hf
      dsimp only
      have hne : s.strokes ≠ r.strokes := by simpa using hs
      split
      · exact ⟨fun x => hne x.symm, ⟨s, by simp [hm], rfl⟩, r, by simp, rfl⟩
      · exact ⟨hne, ⟨r, by simp, rfl⟩, s, by simp [hm], rfl⟩

/-! ## The last column -/

/-- Every row has the kana readings of its own record. -/
def C195_statement : Prop :=
  ∀ (first second : List UcdXml) (es fs : List UcdEntry) (found : List (Str × List Str)),
    AllRecords first es → AllRecords second fs →
    (ucdScript first second found).1.map ScriptRow.japanese =
      ((ucdPrinted es found fs).filter fun e => (ucdEntryRow es found e).isSome).map UcdEntry.japanese

/-- Two records: the second one has no kana readings. -/
def japaneseEntries : List UcdEntry :=
  [{ cp := u8!"4E00", radical := 1, totalStrokes := 1, on := u8!"ICHI", japanese := u8!"イチ" },
   { cp := u8!"4E02", radical := 1, totalStrokes := 2, on := u8!"KOU" }]

/-- The records without empty attributes that can be left out. -/
def shortXml (e : UcdEntry) : UcdXml := fun f => if e.text f = [] ∧ f ∉ requiredFields then none else some (e.text f)

theorem shortXml_records (e : UcdEntry) : Records (shortXml e) e := by
  unfold Records shortXml
  refine ⟨?_, ?_⟩
  · intro f
    by_cases h : e.text f = [] ∧ f ∉ requiredFields
    · rw [if_pos h]; exact h.1.symm
    · rw [if_neg h]; rfl
  · intro f hf
    rw [if_neg (fun h => h.2 hf)]
    simp

theorem plainEntry_fits (e : UcdEntry) (h1 : UcdCode e.cp) (h2 : e.more = []) (h3 : e.moreStrokes = []) (h4 : e.adobe = [])
    (h5 : e.mandarin = []) (h6 : e.morohashi = []) (h7 : e.nelson = []) (h8 : e.joyo = none) (h9 : e.jinmei = none)
    (h10 : e.traditional = []) (h11 : e.simplified = []) (h12 : e.compatibility = none) (h13 : e.semantic = []) : e.Fits :=
  ⟨h1, .inl h2, .inl h3, by simp [h4], by simp [h5], by simp [h6], by simp [h7], by simp [h8], by simp [h9], by simp [h10],
    by simp [h11], by simp [h12], by simp [h13]⟩

theorem japaneseEntries_records : AllRecords (japaneseEntries.map shortXml) japaneseEntries :=
  ⟨⟨shortXml_records _, plainEntry_fits _ ⟨by decide, by decide⟩ rfl rfl rfl rfl rfl rfl rfl rfl rfl rfl rfl rfl⟩,
   ⟨shortXml_records _, plainEntry_fits _ ⟨by decide, by decide⟩ rfl rfl rfl rfl rfl rfl rfl rfl rfl rfl rfl rfl⟩, trivial⟩

/-- The readings of the record before it are printed for a record without the attribute: `kJapanese` is not unset. -/
theorem C195_violated : ¬ C195_statement := by
  intro h
  have := h _ _ _ _ [] japaneseEntries_records japaneseEntries_records
  revert this
  decide +kernel

/-- With the attribute in every record the column is right. -/
theorem printUcdRows_japanese (xs : List UcdXml) (es : List UcdEntry) (found : List (Str × List Str)) (h : AllRecords xs es)
    (ys : List UcdXml) (fs : List UcdEntry) (h2 : AllRecords ys fs) (hj : ∀ y ∈ ys, y .japanese ≠ none) (vars : UcdVars) :
    (printUcdRows (scriptArrays xs found) ys vars).1.map ScriptRow.japanese =
      ((ucdPrinted es found fs).filter fun e => (ucdEntryRow es found e).isSome).map UcdEntry.japanese := by
  induction ys generalizing fs vars with
  | nil =>
    cases fs with
    | nil => rfl
    | cons => exact h2.elim
  | cons y ys ih =>
    cases fs with
    | nil => exact h2.elim
    | cons e fs =>
      obtain ⟨⟨hy, he⟩, ht⟩ := h2
      have hf := print_fields y e hy vars
      have hjap : evalRecord printUnset y vars .japanese = e.japanese := by
        unfold evalRecord
        have h1 := hy.1 .japanese
        have h3 := hj y (by simp)
        cases hx : y .japanese with
        | none => exact absurd hx h3
        | some s => rw [hx] at h1; exact h1
      have ih' := ih fs ht (fun z hz => hj z (by simp [hz])) (evalRecord printUnset y vars)
      rw [printUcdRows]
      dsimp only
      rw [hf .rsUnicode (by decide), keepsRecord_entry]
      unfold ucdPrinted
      rw [List.filter_cons (p := UcdEntry.kept)]
      by_cases hk : e.kept = true
      · rw [if_pos hk, if_pos hk, List.takeWhile_cons, processRecord_entry xs es found h e he _ hf]
        by_cases hm : MissesLink es found e
        · rw [if_pos hm, if_neg (by simpa using hm)]
          rfl
        · rw [if_neg hm, if_pos (by simpa using hm), List.filter_cons]
          cases ucdEntryRow es found e with
          | none => exact ih'
          | some r =>
            dsimp only [Option.map_some, Option.isSome_some]
            rw [if_pos rfl, List.map_cons, List.map_cons, ih', hjap]
            rfl
      · rw [if_neg hk, if_neg hk]
        exact ih'

theorem C195_japanese_partial (first second : List UcdXml) (es fs : List UcdEntry) (found : List (Str × List Str))
    (h1 : AllRecords first es) (h2 : AllRecords second fs) (hj : ∀ y ∈ second, y .japanese ≠ none) :
    (ucdScript first second found).1.map ScriptRow.japanese =
      ((ucdPrinted es found fs).filter fun e => (ucdEntryRow es found e).isSome).map UcdEntry.japanese :=
  printUcdRows_japanese first es found h1 second fs h2 hj _

end KT
