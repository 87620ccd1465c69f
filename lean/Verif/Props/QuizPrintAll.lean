import Verif.Props.QuizPrint
/-!
# Everything printed while the data of the quiz program is loaded: the theorems about all files (C186)
-/
namespace KT
open Spec

/-- What is done after the kanji are loaded. -/
def loadAfterKanji (mode : DebugMode) (f : DataFiles) (t : KanjiStore × UcdData × Loaded) : Printing DetailStore :=
  (loadMeaningPrinting t.1.findByName f.meanings {}).bind fun meanings =>
  (loadPatternPrinting t.1.findByName f.patterns {}).bind fun patterns =>
  (quietly (RadicalData.load f.radicalCols f.radicals)).bind fun rad =>
  let groups := printGroupData mode (formatAfterKanji mode rad t.1) meanings patterns t.1
  (printing groups.1).bind fun _ =>
  (loadJukugoPrinting (mode ≠ .none) groups.2 t.1.typeOfName f.jukugo).bind fun jukugo =>
  quietly (.ok {
    store := t.1, ucd := t.2.1, extra := fun k => k.kanji.extra
    detail := {
      patterns, meanings, jukugo, reading := fun k => k.kanji.reading
      meaning := fun k => if k.kanji.meaning.isEmpty then none else some k.kanji.meaning } })

theorem loadDataPrinting_eq (mode : DebugMode) (sort : List KanjiRec → List KanjiRec) (ltr : Bool) (f : DataFiles) :
    loadDataPrinting mode sort ltr f = (loadTextDataPrinting mode sort ltr f).bind (loadAfterKanji mode f) := rfl

/-- The data after the kanji. -/
def dataAfterKanji (f : DataFiles) (t : KanjiStore × UcdData × Loaded) : Res DetailStore :=
  (loadMeaning t.1.findByName f.meanings {}).bind fun meanings =>
  (loadPattern t.1.findByName f.patterns {}).bind fun patterns =>
  (loadJukugo f.jukugo).bind fun jukugo =>
  .ok {
    store := t.1, ucd := t.2.1, extra := fun k => k.kanji.extra
    detail := {
      patterns, meanings, jukugo, reading := fun k => k.kanji.reading
      meaning := fun k => if k.kanji.meaning.isEmpty then none else some k.kanji.meaning } }

theorem loadData_eq (ltr : Bool) (f : DataFiles) : loadData ltr f = (loadTextData ltr f).bind (dataAfterKanji f) := rfl

theorem loadAfterKanji_result (mode : DebugMode) (f : DataFiles) (t : KanjiStore × UcdData × Loaded) {rad : RadicalData}
    (hr : RadicalData.load f.radicalCols f.radicals = .ok rad) :
    (loadAfterKanji mode f t).result = dataAfterKanji f t := by
  unfold loadAfterKanji dataAfterKanji
  rw [Printing.bind_result, loadMeaningPrinting_result]
  congr 1
  funext m
  rw [Printing.bind_result, loadPatternPrinting_result]
  congr 1
  funext p
  rw [hr, quietly_bind_result]
  simp only [Res.bind]
  rw [Printing.bind_result]
  simp only [printing, Res.bind]
  rw [Printing.bind_result, (C185_result _ _ _ _).1]
  rfl

theorem loaded_store {ltr : Bool} {f : DataFiles} {d : KanjiStore} {u : UcdData} {l : Loaded}
    (h : loadTextData ltr f = .ok (d, u, l)) : StoreInv d d.all := by
  rcases loadTextDataPrinting_cases .none id ltr f with ⟨lists, u', rad, h1, h2, h3, _, h4, h5⟩ | ⟨h1, _⟩
  · rw [h4] at h
    obtain ⟨d', hk, h⟩ := Res.bind_eq_ok h
    cases h
    obtain ⟨_, _, ⟨A, _, more, hs, _⟩, _⟩ := loadKanji_text hk
    rw [hs.all_eq]
    exact hs
  · exact absurd h (h1 _)

theorem loaded_radicals {ltr : Bool} {f : DataFiles} {d : KanjiStore} {u : UcdData} {l : Loaded}
    (h : loadTextData ltr f = .ok (d, u, l)) : ∃ rad, RadicalData.load f.radicalCols f.radicals = .ok rad := by
  obtain ⟨rad, _, _, hr, _⟩ := C184_full id ltr f d u l h
  exact ⟨rad, hr⟩

/-- **C186** (result): printing doesn't change the data that is loaded or how loading ends, except for the exception of full
debug for a kanji with variation selector without entry. -/
theorem C186_result (mode : DebugMode) (sort : List KanjiRec → List KanjiRec) (ltr : Bool) (f : DataFiles) :
    ((mode = .full → ∀ d u l, loadTextData ltr f = .ok (d, u, l) → ¬ NoVariantEntry u d) →
      (loadDataPrinting mode sort ltr f).result = loadData ltr f) ∧
    (∀ d u l, mode = .full → loadTextData ltr f = .ok (d, u, l) → NoVariantEntry u d →
      (loadDataPrinting mode sort ltr f).result = .throw .domain) := by
  obtain ⟨h1, h2, h3⟩ := C184_result mode sort ltr f
  rw [loadDataPrinting_eq, Printing.bind_result, loadData_eq]
  refine ⟨fun h => ?_, fun d u l hm ht hv => ?_⟩
  · by_cases ht : ∃ d u l, loadTextData ltr f = .ok (d, u, l)
    · obtain ⟨d, u, l, ht⟩ := ht
      obtain ⟨rad, hr⟩ := loaded_radicals ht
      have : (loadTextDataPrinting mode sort ltr f).result = .ok (d, u, l) := by
        by_cases hm : mode = .full
        · exact (h3 d u l ht).1 (h hm d u l ht)
        · rw [h1 hm, ht]
      rw [this, ht]
      simp only [Res.bind]
      exact loadAfterKanji_result mode f _ hr
    · have hn : ∀ t, loadTextData ltr f ≠ .ok t := fun t e => ht ⟨t.1, t.2.1, t.2.2, e⟩
      rw [h2 hn]
      cases hx : loadTextData ltr f with
      | ok t => exact absurd hx (hn t)
      | throw _ => rfl
      | ub => rfl
  · rw [(h3 d u l ht).2 hm hv]
    rfl

/-- **C186** (quiet): without debug nothing is printed to the output stream. -/
theorem C186_quiet (sort : List KanjiRec → List KanjiRec) (ltr : Bool) (f : DataFiles) :
    (loadDataPrinting .none sort ltr f).prints.out = [] := by
  rw [loadDataPrinting_eq]
  refine Silent.bind (C184_quiet .none sort ltr f (.inl rfl)) fun t => ?_
  refine (loadMeaningPrinting_silent _ _ _).bind fun m => (loadPatternPrinting_silent _ _ _).bind fun p =>
    (silent_quietly _).bind fun rad => Silent.bind rfl fun _ => Silent.bind ((C185_result _ _ _ _).2.2 rfl) fun _ => rfl

/-- **C186** (text): with debug the output has what is printed for the kanji, then the two lists of groups and then the text
for the Jukugo; alignment and fill character of the stream go from one to the next. -/
theorem C186_text (mode : DebugMode) (hm : mode ≠ .none) (sort : List KanjiRec → List KanjiRec) (ltr : Bool) (f : DataFiles)
    (v : DetailStore) (h : (loadDataPrinting mode sort ltr f).result = .ok v) :
    ∃ rad wss kanji, RadicalData.load f.radicalCols f.radicals = .ok rad ∧
      (f.jukugo.zip jukugoGrades).mapM fileWords = some wss ∧
      (kanji.Pairwise fun a b => strLt a b = true) ∧ (∀ k, k ∈ kanji ↔ ∃ j ∈ wss.flatten, k ∈ kanjiIn j.name) ∧
      (loadDataPrinting mode sort ltr f).prints.out =
        (loadTextDataPrinting mode sort ltr f).prints.out ++
        (printAllGroups (mode = .full) (formatAfterKanji mode rad v.store) v.detail.meanings v.detail.patterns
          fun t => (v.store.types t).map fun k => k.kanji.name).1 ++
        u8!">>>\n>>> Begin Loading Jukugo\n>>>\n" ++
        loadedLines ((newWords [] wss).zip ((f.jukugo.zip jukugoGrades).map (·.2))) ++
        (u8!">>> Total Kanji with Jukugo: " ++ toDec kanji.length ++ u8!", unique jukugo: " ++
          toDec wss.flatten.eraseDups.length ++ u8!"\n") ++
        jukugoLines (printAllGroups (mode = .full) (formatAfterKanji mode rad v.store) v.detail.meanings v.detail.patterns
          fun t => (v.store.types t).map fun k => k.kanji.name).2.fill
          (fun n => (v.store.findByName n).map fun k => k.kanji.type) kanji := by
  rw [loadDataPrinting_eq, Printing.bind_result] at h
  obtain ⟨t, ht, h⟩ := Res.bind_eq_ok h
  have hx := h
  unfold loadAfterKanji at h
  rw [Printing.bind_result] at h
  obtain ⟨m, h1, h⟩ := Res.bind_eq_ok h
  rw [Printing.bind_result] at h
  obtain ⟨p, h2, h⟩ := Res.bind_eq_ok h
  rw [quietly_bind_result] at h
  obtain ⟨rad, h3, h⟩ := Res.bind_eq_ok h
  rw [Printing.bind_result] at h
  simp only [printing, Res.bind] at h
  rw [Printing.bind_result, (C185_result _ _ _ _).1] at h
  obtain ⟨st, h4, h⟩ := Res.bind_eq_ok h
  cases h
  have hd : decide (mode ≠ .none) = true := by simpa using hm
  obtain ⟨wss, kanji, k1, _, k3, k4, k5⟩ := C185_loaded (printGroupData mode (formatAfterKanji mode rad t.1) m p t.1).2
    t.1.typeOfName f.jukugo st h4
  refine ⟨rad, wss, kanji, h3, k1, k3, k4, ?_⟩
  rw [loadDataPrinting_eq, Printing.bind_out ht]
  unfold loadAfterKanji
  rw [Printing.bind_out h1, Printing.bind_out h2, Printing.bind_out (a := rad) h3, Printing.bind_out (a := ()) rfl, hd,
    Printing.bind_out (a := st) (by rw [(C185_result _ _ _ _).1]; exact h4), k5,
    show (loadMeaningPrinting t.1.findByName f.meanings {}).prints.out = [] from loadMeaningPrinting_silent _ _ _,
    show (loadPatternPrinting t.1.findByName f.patterns {}).prints.out = [] from loadPatternPrinting_silent _ _ _]
  simp only [printing, quietly, printGroupData, if_neg hm, List.append_nil, List.nil_append, List.append_assoc]
  rfl

/-- **C186** (format): with info the lists of groups are printed by a stream in its first state; with full debug numbers and
names are aligned to the left if there is a kanji with variation selector, and otherwise filled with zeros if there is a
radical without common kanji. -/
theorem C186_format (ltr : Bool) (f : DataFiles) (d : KanjiStore) (u : UcdData) (l : Loaded) (rad : RadicalData)
    (h : loadTextData ltr f = .ok (d, u, l)) :
    formatAfterKanji .info rad d = {} ∧
    ((∃ k ∈ d.all, k.kanji.variant = true) → formatAfterKanji .full rad d = ⟨true, 0x20⟩) ∧
    ((∀ k ∈ d.all, k.kanji.variant = false) →
      ((∀ r ∈ rad.radicals, ∃ k ∈ d.all, k.common = true ∧ k.kanji.radicalNumber = r.number) →
        formatAfterKanji .full rad d = {}) ∧
      ((∃ r ∈ rad.radicals, ∀ k ∈ d.all, k.common = true → k.kanji.radicalNumber ≠ r.number) →
        formatAfterKanji .full rad d = ⟨false, 0x30⟩)) := by
  have hs := loaded_store h
  refine ⟨rfl, fun ⟨k, hk, hv⟩ => ?_, fun hv => ?_⟩
  · unfold formatAfterKanji
    rw [if_pos rfl, if_pos]
    exact List.any_eq_true.mpr ⟨k, (mapOrder_perm hs).mem_iff.mpr hk, hv⟩
  · have hn : ¬ (mapOrder d.nameMap).any (·.kanji.variant) = true := by
      intro e
      obtain ⟨k, hk, e⟩ := List.any_eq_true.mp e
      rw [hv k ((mapOrder_perm hs).mem_iff.mp hk)] at e
      cases e
    unfold formatAfterKanji
    rw [if_pos rfl, if_neg hn, C131_missing hs]
    constructor
    · intro hr
      rw [if_pos]
      rw [List.isEmpty_iff, List.filter_eq_nil_iff]
      intro r hrm
      obtain ⟨k, hk, hc, hn⟩ := hr r hrm
      simp only [Bool.not_eq_true', Bool.not_eq_false]
      exact List.any_eq_true.mpr ⟨k, hk, by simp [hc, hn]⟩
    · rintro ⟨r, hrm, hr⟩
      rw [if_neg]
      intro e
      rw [List.isEmpty_iff, List.filter_eq_nil_iff] at e
      have := e r hrm
      simp only [Bool.not_eq_true', Bool.not_eq_false] at this
      obtain ⟨k, hk, e⟩ := List.any_eq_true.mp this
      simp only [Bool.and_eq_true, beq_iff_eq] at e
      exact hr k hk e.1 e.2

/-- **C186** (errors): when all data is loaded the messages are those for the kanji and those for kanji that are in several
pattern groups; they don't depend on the mode, and their number is the sum of the counted errors. -/
theorem C186_errors (mode : DebugMode) (sort : List KanjiRec → List KanjiRec) (ltr : Bool) (f : DataFiles)
    (v : DetailStore) (h : (loadDataPrinting mode sort ltr f).result = .ok v) :
    (loadDataPrinting mode sort ltr f).prints.errors =
      (loadTextDataPrinting .none id ltr f).prints.errors ++ alreadyInGroup [] v.detail.patterns.groups ∧
    (loadDataPrinting mode sort ltr f).prints.errors.length = v.store.errors + v.detail.patterns.errors := by
  rw [loadDataPrinting_eq, Printing.bind_result] at h
  obtain ⟨t, ht, h⟩ := Res.bind_eq_ok h
  have hl : loadTextData ltr f = .ok t := by
    obtain ⟨h1, h2, h3⟩ := C184_result mode sort ltr f
    by_cases hx : ∃ t', loadTextData ltr f = .ok t'
    · obtain ⟨⟨d, u, l⟩, hx⟩ := hx
      by_cases hm : mode = .full
      · by_cases hv : NoVariantEntry u d
        · rw [(h3 d u l hx).2 hm hv] at ht; cases ht
        · rw [(h3 d u l hx).1 hv] at ht; rw [hx]; exact ht
      · rw [← h1 hm]; exact ht
    · rw [← h2 fun t' e => hx ⟨t', e⟩]; exact ht
  unfold loadAfterKanji at h
  rw [Printing.bind_result] at h
  obtain ⟨m, h1, h⟩ := Res.bind_eq_ok h
  rw [Printing.bind_result] at h
  obtain ⟨p, h2, h⟩ := Res.bind_eq_ok h
  rw [quietly_bind_result] at h
  obtain ⟨rad, h3, h⟩ := Res.bind_eq_ok h
  rw [Printing.bind_result] at h
  simp only [printing, Res.bind] at h
  rw [Printing.bind_result, (C185_result _ _ _ _).1] at h
  obtain ⟨st, h4, h⟩ := Res.bind_eq_ok h
  cases h
  have hm' := h1
  have hp' := h2
  rw [loadMeaningPrinting_result] at hm'
  rw [loadPatternPrinting_result] at hp'
  have hpe : (loadPatternPrinting t.1.findByName f.patterns {}).prints.errors = alreadyInGroup [] p.groups := by
    obtain ⟨n, gs, k1, k2, k3, k4⟩ := (C186_rows t.1.findByName f.patterns).2
    have hg := ((C89_load t.1.findByName f.patterns).2.1 p.groups).1 ⟨p, hp', rfl⟩
    have hall := (readGroups_iff t.1.findByName .pattern f.patterns).1 p.groups |>.2 hg
    have hn : f.patterns[n]? = none := by
      cases hr : f.patterns[n]? with
      | none => rfl
      | some r =>
        have hb := k4 r hr
        exfalso
        have : ∀ (rows : List GroupRow) (gs : List Group), readGroups t.1.findByName .pattern rows = .ok gs → ∀ r ∈ rows,
            readGroup t.1.findByName .pattern r ≠ .throw .domain := by
          intro rows
          induction rows with
          | nil => intro gs _ r hr; cases hr
          | cons a rows ih =>
            intro gs hgs r hr
            rw [readGroups] at hgs
            obtain ⟨g, e1, e2⟩ := Res.bind_eq_ok hgs
            obtain ⟨gs', e3, _⟩ := Res.bind_eq_ok e2
            rcases List.mem_cons.mp hr with rfl | hr
            · rw [e1]; simp
            · exact ih gs' e3 r hr
        exact this _ _ hall r (List.mem_of_getElem? hr) hb
    rw [k3, hn]
    have hlen : f.patterns.length ≤ n := List.getElem?_eq_none_iff.mp hn
    rw [List.take_of_length_le hlen, hall] at k2
    cases k2
    simp
  have he : (loadDataPrinting mode sort ltr f).prints.errors =
      (loadTextDataPrinting .none id ltr f).prints.errors ++ alreadyInGroup [] p.groups := by
    rw [loadDataPrinting_eq, Printing.bind_errors ht, C184_errors_mode mode .none sort id]
    congr 1
    unfold loadAfterKanji
    rw [Printing.bind_errors h1, Printing.bind_errors h2, Printing.bind_errors (a := rad) h3,
      Printing.bind_errors (a := ()) rfl,
      Printing.bind_errors (a := st) (by rw [(C185_result _ _ _ _).1]; exact h4), (C185_result _ _ _ _).2.1,
      loadMeaningPrinting_errors _ hm', hpe]
    simp [quietly, printing]
  refine ⟨he, ?_⟩
  rw [he, List.length_append]
  obtain ⟨d, u, l⟩ := t
  obtain ⟨_, _, _, _, e⟩ := (C184_errors .none id ltr f).2 d u l hl
  rw [e]
  have := loadPatternPrinting_count f.patterns hp'
  rw [hpe] at this
  simpa using this.symm

end KT
