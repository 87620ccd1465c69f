import Verif.Props.LoadPrintText
/-!
# Everything printed while the kanji are loaded: the theorems (C184)
-/
namespace KT
open Spec

/-! ## Errors -/

theorem insertMessages_spec {d : KanjiStore} {A : List KanjiRec} (h : StoreInv d A) (x : KanjiRec × Option Ucd) :
    insertMessages d x.1 x.2 = offerMessages A x := by
  obtain ⟨k, ucd⟩ := x
  have hl : d.nameMap.lookup k.kanji.name = A.find? (·.kanji.name == k.kanji.name) := by
    rw [h.nameMap, any_name_iff]
  have e1 : ((mapEmplace d.nameMap k.kanji.name k).2 = false) ↔ A.any (·.kanji.name == k.kanji.name) = true := by
    unfold mapEmplace
    rw [hl]
    split <;> simp_all
  have e2 : ((mapEmplace d.compatMap k.kanji.compatibilityName k.kanji.name).2 = false) ↔
      (A.any fun y => y.kanji.variant && y.kanji.compatibilityName == k.kanji.compatibilityName) = true := by
    unfold mapEmplace
    rw [h.compat]
    split <;> simp_all
  unfold insertMessages offerMessages
  simp only [e1, e2, Bool.and_eq_true]

theorem allMessages_spec (hist : List (KanjiRec × Option Ucd)) : ∀ {d : KanjiStore} {A : List KanjiRec}, StoreInv d A →
    allMessages hist d = offersMessages A hist := by
  induction hist with
  | nil => exact fun _ => rfl
  | cons x xs ih =>
    intro d A h
    rw [allMessages, offersMessages, insertMessages_spec h]
    congr 1
    have hi := (checkInsert_inv d A x.1 x.2 h).1
    have e : (A.all (·.kanji.name != x.1.kanji.name)) = !(A.any (·.kanji.name == x.1.kanji.name)) := by
      rw [List.not_any_eq_all_not]; rfl
    rw [e] at hi
    cases ha : A.any (·.kanji.name == x.1.kanji.name) with
    | true => rw [ha] at hi; exact ih hi
    | false => rw [ha] at hi; exact ih hi

theorem allMessages_empty (hist : List (KanjiRec × Option Ucd)) : allMessages hist {} = offersMessages [] hist :=
  allMessages_spec hist (insertAll_inv [])

theorem insertAll_errors (hist : List (KanjiRec × Option Ucd)) : ∀ d : KanjiStore,
    (KanjiStore.insertAll d hist).errors = d.errors + (allMessages hist d).length := by
  induction hist with
  | nil => exact fun _ => rfl
  | cons x xs ih =>
    intro d
    show (KanjiStore.insertAll (d.checkInsert x.1 x.2).1 xs).errors = _
    rw [ih, C142_count, allMessages, List.length_append, Nat.add_assoc]

theorem Printing.bind_errors {α β : Type} {r : Printing α} {a : α} (h : r.result = .ok a) (g : α → Printing β) :
    (r.bind g).prints.errors = r.prints.errors ++ (g a).prints.errors := by
  unfold Printing.bind; rw [h]; rfl

theorem Printing.bind_same {α β γ : Type} {r : Printing α} {r' : Printing γ} {g : α → Printing β} {g' : γ → Printing β}
    (he : r.prints.errors = r'.prints.errors)
    (h : (∃ a a', r.result = .ok a ∧ r'.result = .ok a' ∧ (g a).prints.errors = (g' a').prints.errors) ∨
      ((∀ a, r.result ≠ .ok a) ∧ ∀ a, r'.result ≠ .ok a)) :
    (r.bind g).prints.errors = (r'.bind g').prints.errors := by
  unfold Printing.bind
  rcases h with ⟨a, a', h1, h2, h3⟩ | ⟨h1, h2⟩
  · rw [h1, h2]; show _ ++ _ = _ ++ _; rw [he, h3]
  · cases hr : r.result with
    | ok a => exact absurd hr (h1 a)
    | throw _ =>
      cases hr' : r'.result with
      | ok a => exact absurd hr' (h2 a)
      | throw _ => exact he
      | ub => exact he
    | ub =>
      cases hr' : r'.result with
      | ok a => exact absurd hr' (h2 a)
      | throw _ => exact he
      | ub => exact he

theorem Printing.bind_same' {α β : Type} {r : Printing α} {g g' : α → Printing β}
    (h : ∀ a, r.result = .ok a → (g a).prints.errors = (g' a).prints.errors) :
    (r.bind g).prints.errors = (r.bind g').prints.errors := by
  cases hr : r.result with
  | ok a => exact Printing.bind_same rfl (.inl ⟨a, a, hr, hr, h a hr⟩)
  | throw _ => exact Printing.bind_same rfl (.inr (by simp [hr]))
  | ub => exact Printing.bind_same rfl (.inr (by simp [hr]))

/-- The messages don't depend on the debug mode. -/
theorem processList_errors (c : KanjiCtx) (ic : IdCtx) (kind : ListKind) (b b' : Bool) : ∀ (names : List Str) (i : Nat)
    (d : KanjiStore) (log log' : ListLog), (processListPrinting c ic kind b i names d log).prints.errors =
      (processListPrinting c ic kind b' i names d log').prints.errors
  | [], _, _, _, _ => rfl
  | name :: names, i, d, log, log' => by
    rw [processListPrinting, processListPrinting]
    rcases d.findByName name with _ | k
    case some => exact Printing.bind_same' fun _ _ => processList_errors c ic kind b b' names _ _ _ _
    case none =>
      exact Printing.bind_same' fun _ _ => Printing.bind_same' fun _ _ => processList_errors c ic kind b b' names _ _ _ _

theorem processLists_errors (m m' : DebugMode) (l : Loaded) : ∀ (fs : List (ListKind × List Str)) (d : KanjiStore),
    (processListsPrinting m l fs d).prints.errors = (processListsPrinting m' l fs d).prints.errors
  | [], _ => rfl
  | (kind, names) :: fs, d => by
    rw [processListsPrinting, processListsPrinting]
    refine Printing.bind_same (processList_errors ..) ?_
    have h1 := C140_store l.ctx l.ids kind (m ≠ .none) names 0 d {}
    have h2 := C140_store l.ctx l.ids kind (m' ≠ .none) names 0 d {}
    rw [← h2] at h1
    rw [processList_result, processList_result]
    cases g1 : KanjiStore.processListLog l.ctx l.ids kind (m ≠ .none) 0 names d {} with
    | ok r =>
      cases g2 : KanjiStore.processListLog l.ctx l.ids kind (m' ≠ .none) 0 names d {} with
      | ok r' =>
        rw [g1, g2] at h1
        refine .inl ⟨r, r', rfl, rfl, ?_⟩
        have e : r.1 = r'.1 := Res.ok.inj h1
        rw [Printing.bind_errors (r := printing _) (a := ()) rfl, Printing.bind_errors (r := printing _) (a := ()) rfl, e]
        exact congrArg _ (processLists_errors m m' l fs r'.1)
      | throw _ => rw [g1, g2] at h1; cases h1
      | ub => rw [g1, g2] at h1; cases h1
    | throw _ =>
      cases g2 : KanjiStore.processListLog l.ctx l.ids kind (m' ≠ .none) 0 names d {} with
      | ok r' => rw [g1, g2] at h1; cases h1
      | throw _ => exact .inr (by simp)
      | ub => exact .inr (by simp)
    | ub =>
      cases g2 : KanjiStore.processListLog l.ctx l.ids kind (m' ≠ .none) 0 names d {} with
      | ok r' => rw [g1, g2] at h1; cases h1
      | throw _ => exact .inr (by simp)
      | ub => exact .inr (by simp)

theorem loadKanji_errors (m m' : DebugMode) (l : Loaded) (f : KanjiFiles) :
    (loadKanjiPrinting m l f).prints.errors = (loadKanjiPrinting m' l f).prints.errors := by
  unfold loadKanjiPrinting
  refine Printing.bind_same' fun _ _ => Printing.bind_same' fun _ _ => Printing.bind_same' fun _ _ => Printing.bind_same' fun _ _ => Printing.bind_same' fun d _ => ?_
  refine Printing.bind_same (processLists_errors ..) ?_
  rw [processLists_result, processLists_result]
  cases processLists l l.lists.processOrder d with
  | ok a => exact .inl ⟨a, a, rfl, rfl, rfl⟩
  | throw _ => exact .inr (by simp)
  | ub => exact .inr (by simp)

/-! ## The constructor -/

/-- The part after the files of `Loaded`. -/
def loadRest (mode : DebugMode) (sort : List KanjiRec → List KanjiRec) (f : DataFiles) (rad : RadicalData) (u : UcdData)
    (l : Loaded) : Printing (KanjiStore × UcdData × Loaded) :=
  (loadKanjiPrinting mode l f.kanji).bind fun store =>
  (printing (if mode = .full then checkStrokes l.findUcd store else [])).bind fun _ =>
  (printing (printLoaded mode store)).bind fun _ =>
  (if mode = .full then printSummaries sort rad u store else quietly (.ok ())).bind fun _ =>
  quietly (.ok (store, u, l))

/-- Either a file of `Loaded` is rejected, or the rest follows. -/
theorem loadTextDataPrinting_cases (mode : DebugMode) (sort : List KanjiRec → List KanjiRec) (ltr : Bool) (f : DataFiles) :
    (∃ lists u rad, loadListFiles (levelOrder.map fun l => (l, f.levels l)) (kyuOrder.map fun k => (k, f.kyus k)) f.frequency =
        .ok lists ∧ UcdData.load f.ucd {} = .ok u ∧ RadicalData.load f.radicalCols f.radicals = .ok rad ∧
      (∃ r, loadFrequencyReadings f.kanji.frequencyReadings [] = .ok r) ∧
      loadTextData ltr f = (loadKanji (loadedOf ltr lists u rad f.kanji.frequencyReadings) f.kanji).bind (fun store =>
        .ok (store, u, loadedOf ltr lists u rad f.kanji.frequencyReadings)) ∧
      loadTextDataPrinting mode sort ltr f =
        ⟨(Prints.mk (if mode = .full then u8!">>>\n>>> Begin Loading Data\n>>>\n" else []) []).add
            (loadRest mode sort f rad u (loadedOf ltr lists u rad f.kanji.frequencyReadings)).prints,
          (loadRest mode sort f rad u (loadedOf ltr lists u rad f.kanji.frequencyReadings)).result⟩) ∨
    ((∀ t, loadTextData ltr f ≠ .ok t) ∧ (loadTextDataPrinting mode sort ltr f).result = loadTextData ltr f ∧
      (loadTextDataPrinting mode sort ltr f).prints =
        ⟨if mode = .full then u8!">>>\n>>> Begin Loading Data\n>>>\n" else [], []⟩) := by
  have hb : (if mode = .full then u8!">>>\n>>> " ++ u8!"Begin Loading Data\n>>>\n" else []) =
      (if mode = .full then u8!">>>\n>>> Begin Loading Data\n>>>\n" else []) := rfl
  unfold loadTextDataPrinting loadTextData
  rw [hb]
  generalize (if mode = .full then u8!">>>\n>>> Begin Loading Data\n>>>\n" else []) = s
  cases loadListFiles (levelOrder.map fun l => (l, f.levels l)) (kyuOrder.map fun k => (k, f.kyus k)) f.frequency with
  | throw e => exact .inr ⟨fun _ => by simp [Res.bind], rfl, by simp [Printing.bind, printing, quietly, Prints.add]⟩
  | ub => exact .inr ⟨fun _ => by simp [Res.bind], rfl, by simp [Printing.bind, printing, quietly, Prints.add]⟩
  | ok lists =>
    cases UcdData.load f.ucd {} with
    | throw e => exact .inr ⟨fun _ => by simp [Res.bind], rfl, by simp [Printing.bind, printing, quietly, Prints.add]⟩
    | ub => exact .inr ⟨fun _ => by simp [Res.bind], rfl, by simp [Printing.bind, printing, quietly, Prints.add]⟩
    | ok u =>
      cases RadicalData.load f.radicalCols f.radicals with
      | throw e => exact .inr ⟨fun _ => by simp [Res.bind], rfl, by simp [Printing.bind, printing, quietly, Prints.add]⟩
      | ub => exact .inr ⟨fun _ => by simp [Res.bind], rfl, by simp [Printing.bind, printing, quietly, Prints.add]⟩
      | ok rad =>
        cases hr : loadFrequencyReadings f.kanji.frequencyReadings [] with
        | throw e => exact .inr ⟨fun _ => by simp [Res.bind], rfl, by simp [Printing.bind, printing, quietly, Prints.add]⟩
        | ub => exact .inr ⟨fun _ => by simp [Res.bind], rfl, by simp [Printing.bind, printing, quietly, Prints.add]⟩
        | ok r =>
          obtain ⟨rfl, _⟩ := (C107_readings _ _).mp hr
          refine .inl ⟨lists, u, rad, rfl, rfl, rfl, ⟨_, rfl⟩, rfl, ?_⟩
          rfl

/-- A kanji with variation selector without Unicode entry: the summary of the Unicode data asks for it (UcdData.cpp:173). -/
def NoVariantEntry (u : UcdData) (d : KanjiStore) : Prop :=
  ∃ p ∈ d.nameMap, p.2.kanji.variant = true ∧ u.findEntry p.2.kanji.name = none

theorem mem_mapOrder_iff {d : KanjiStore} {A : List KanjiRec} (h : StoreInv d A) (k : KanjiRec) :
    k ∈ mapOrder d.nameMap ↔ ∃ p ∈ d.nameMap, p.2 = k := by
  constructor
  · intro hk
    obtain ⟨p, hp, e⟩ := mapOrder_mem hk
    exact ⟨p, hp, e⟩
  · rintro ⟨p, hp, rfl⟩
    rw [(mapOrder_perm h).mem_iff]
    rw [h.nameMap] at hp
    obtain ⟨k, hk, rfl⟩ := List.mem_map.mp hp
    exact hk

theorem findEntry_of_find {u : UcdData} {n : Str} {x : Option UcdRec} (h : u.find n = .ok x) : u.findEntry n = x := by
  unfold UcdData.findEntry; rw [h]

theorem print_result (u : UcdData) {d : KanjiStore} {A : List KanjiRec} (h : StoreInv d A) :
    ((u.print d).2 = .ok () ∧ ¬ NoVariantEntry u d) ∨ ((u.print d).2 = .throw .domain ∧ NoVariantEntry u d) := by
  rw [C134_print]
  rcases C134_rows u (mapOrder d.nameMap) 0 with ⟨l, h1, h2, h3⟩ | ⟨l, n, rest, h1, _, h3, h4⟩
  · refine .inl ⟨by rw [h3], ?_⟩
    rintro ⟨p, hp, hv, hn⟩
    have : p.2.kanji.name ∈ l.map (·.1) := by
      rw [h1]
      exact List.mem_map.mpr ⟨p.2, List.mem_filter.mpr ⟨(mem_mapOrder_iff h p.2).mpr ⟨p, hp, rfl⟩, hv⟩, rfl⟩
    obtain ⟨q, hq, e⟩ := List.mem_map.mp this
    have := findEntry_of_find (h2 q hq)
    rw [e, hn] at this
    cases this
  · refine .inr ⟨by rw [h4], ?_⟩
    have : n ∈ ((mapOrder d.nameMap).filter fun k => k.kanji.variant).map (·.kanji.name) := by rw [h1]; simp
    obtain ⟨k, hk, rfl⟩ := List.mem_map.mp this
    obtain ⟨hk, hv⟩ := List.mem_filter.mp hk
    obtain ⟨p, hp, rfl⟩ := (mem_mapOrder_iff h k).mp hk
    exact ⟨p, hp, hv, findEntry_of_find h3⟩

theorem loadRest_result (mode : DebugMode) (sort : List KanjiRec → List KanjiRec) (f : DataFiles) (rad : RadicalData)
    (u : UcdData) (l : Loaded) :
    (loadRest mode sort f rad u l).result = (loadKanji l f.kanji).bind fun store =>
      (if mode = .full then (u.print store).2 else .ok ()).bind fun _ => .ok (store, u, l) := by
  unfold loadRest
  rw [Printing.bind_result, loadKanji_result]
  congr 1
  funext store
  by_cases hm : mode = .full
  · simp only [hm, if_true]
    rw [Printing.bind_result, Printing.bind_result, Printing.bind_result]
    unfold printSummaries
    rw [Printing.bind_result]
    rfl
  · simp only [hm, if_false]
    rw [Printing.bind_result, Printing.bind_result, Printing.bind_result]
    rfl

/-- **C184** (result): printing doesn't change the data that is loaded or the exception for a file that is rejected; only with
full debug the summary of the Unicode data ends with an exception if there is no entry for a kanji with variation selector. -/
theorem C184_result (mode : DebugMode) (sort : List KanjiRec → List KanjiRec) (ltr : Bool) (f : DataFiles) :
    (mode ≠ .full → (loadTextDataPrinting mode sort ltr f).result = loadTextData ltr f) ∧
    ((∀ t, loadTextData ltr f ≠ .ok t) → (loadTextDataPrinting mode sort ltr f).result = loadTextData ltr f) ∧
    ∀ d u l, loadTextData ltr f = .ok (d, u, l) →
      (¬ NoVariantEntry u d → (loadTextDataPrinting mode sort ltr f).result = .ok (d, u, l)) ∧
      (mode = .full → NoVariantEntry u d → (loadTextDataPrinting mode sort ltr f).result = .throw .domain) := by
  rcases loadTextDataPrinting_cases mode sort ltr f with ⟨lists, u, rad, h1, h2, h3, _, h4, h5⟩ | ⟨h1, h2, _⟩
  · rw [h4, h5]
    simp only [loadRest_result]
    generalize loadedOf ltr lists u rad f.kanji.frequencyReadings = l
    refine ⟨fun hm => by simp only [if_neg hm, Res.bind], fun hn => ?_, fun d u' l' h => ?_⟩
    · cases hk : loadKanji l f.kanji with
      | ok d => rw [hk] at hn; exact absurd rfl (hn _)
      | throw _ => rfl
      | ub => rfl
    · obtain ⟨d', hk, h⟩ := Res.bind_eq_ok h
      cases h
      rw [hk]
      obtain ⟨_, _, ⟨A, _, more, hs, _⟩, _⟩ := loadKanji_text hk
      by_cases hm : mode = .full
      · simp only [hm, if_true, Res.bind]
        rcases print_result u hs with ⟨e, hn⟩ | ⟨e, hn⟩
        · exact ⟨fun _ => by rw [e], fun _ g => absurd g hn⟩
        · exact ⟨fun g => absurd hn g, fun _ _ => by rw [e]⟩
      · simp only [hm, if_false, Res.bind]
        exact ⟨fun _ => trivial, fun g => absurd g (by simp)⟩
  · exact ⟨fun _ => h2, fun _ => h2, fun d u l h => absurd h (h1 _)⟩

/-- **C184** (quiet): without debug nothing is printed to the output stream, with debug nothing before the data is loaded. -/
theorem C184_quiet (mode : DebugMode) (sort : List KanjiRec → List KanjiRec) (ltr : Bool) (f : DataFiles)
    (h : mode = .none ∨ (mode = .info ∧ ∀ t, loadTextData ltr f ≠ .ok t)) :
    (loadTextDataPrinting mode sort ltr f).prints.out = [] := by
  have hm : mode ≠ .full := by rcases h with h | ⟨h, _⟩ <;> rw [h] <;> decide
  rcases loadTextDataPrinting_cases mode sort ltr f with ⟨lists, u, rad, h1, h2, h3, _, h4, h5⟩ | ⟨h1, h2, h3⟩
  · rw [h5, if_neg hm]
    show (loadRest mode sort f rad u _).prints.out = []
    unfold loadRest Printing.bind
    cases hk : (loadKanjiPrinting mode (loadedOf ltr lists u rad f.kanji.frequencyReadings) f.kanji).result with
    | throw _ => exact loadKanji_quiet hm _ _
    | ub => exact loadKanji_quiet hm _ _
    | ok d =>
      rcases h with h | ⟨_, h⟩
      · subst h
        simp only [printing, quietly, Prints.add, List.append_nil, printLoaded, ne_eq, not_true_eq_false, reduceCtorEq,
          if_false]
        exact loadKanji_quiet hm _ _
      · rw [h4] at h
        rw [loadKanji_result] at hk
        rw [hk] at h
        exact absurd rfl (h _)
  · rw [h3, if_neg hm]

/-- **C184** (info): the counts and the grades. -/
theorem C184_info (sort : List KanjiRec → List KanjiRec) (ltr : Bool) (f : DataFiles) (d : KanjiStore) (u : UcdData)
    (l : Loaded) (h : loadTextData ltr f = .ok (d, u, l)) :
    (loadTextDataPrinting .info sort ltr f).prints.out = printCountsAndStats false d ++ printGrades d := by
  rcases loadTextDataPrinting_cases .info sort ltr f with ⟨lists, u', rad, h1, h2, h3, _, h4, h5⟩ | ⟨h1, _⟩
  · rw [h4] at h
    obtain ⟨d', hk, h⟩ := Res.bind_eq_ok h
    cases h
    rw [h5]
    show (loadRest _ sort f rad u _).prints.out = _
    unfold loadRest
    rw [Printing.bind_out (by rw [loadKanji_result]; exact hk),
      show (loadKanjiPrinting .info _ f.kanji).prints.out = [] from loadKanji_quiet (by decide) _ _]
    simp [Printing.bind, printing, quietly, Prints.add, printLoaded]
  · exact absurd h (h1 _)

/-- **C184** (full): the start, what the lists add, the different strokes, the counts, and the summaries of the radicals and
of the Unicode data.  The lists are put into a store with the kanji of the other files. -/
theorem C184_full (sort : List KanjiRec → List KanjiRec) (ltr : Bool) (f : DataFiles) (d : KanjiStore) (u : UcdData)
    (l : Loaded) (h : loadTextData ltr f = .ok (d, u, l)) :
    ∃ rad d0 lists, RadicalData.load f.radicalCols f.radicals = .ok rad ∧
      d0.all = (d.all.filter fun k => k.kanji.type ≠ .frequency ∧ k.kanji.type ≠ .kentei ∧ k.kanji.type ≠ .ucd) ∧
      ListTexts l d0 l.lists.processOrder lists ∧
      (loadTextDataPrinting .full sort ltr f).prints.out =
        u8!">>>\n>>> Begin Loading Data\n>>>\n" ++ lists ++ checkStrokes l.findUcd d ++
        (u8!">>>\n>>> Finished Loading Data\n>>>\n" ++ printCountsAndStats true d ++ printGrades d ++
          printListStats d (·.level) allLevels JlptLevel.toString (u8!"Level") true ++
          printListStats d (·.kyu) allKyus KenteiKyu.toString (u8!"Kyu") false) ++
        rad.print sort d ++ (u.print d).1 := by
  rcases loadTextDataPrinting_cases .full sort ltr f with ⟨lists, u', rad, h1, h2, h3, _, h4, h5⟩ | ⟨h1, _⟩
  · rw [h4] at h
    obtain ⟨d', hk, h⟩ := Res.bind_eq_ok h
    cases h
    obtain ⟨d0, d1, ⟨A, hA, more, hs, g1, g2⟩, _, ht⟩ := loadKanji_text hk
    refine ⟨rad, d0, _, h3, ?_, ht, ?_⟩
    · rw [hA.all_eq, hs.all_eq, List.filter_append]
      rw [List.filter_eq_self.mpr fun k hk => by simpa using g1 k hk, List.filter_eq_nil_iff.mpr, List.append_nil]
      intro k hk
      have := g2 k hk
      simp only [ne_eq, decide_eq_true_eq, not_and, Classical.not_not]
      intro a b
      rcases this with e | e | e
      · exact absurd e a
      · exact absurd e b
      · exact e
    · rw [h5]
      show _ ++ (loadRest _ sort f rad u _).prints.out = _
      unfold loadRest
      rw [Printing.bind_out (by rw [loadKanji_result]; exact hk)]
      have e1 : ∀ (s : Str) (g : Unit → Printing (KanjiStore × UcdData × Loaded)),
          ((printing s).bind g).prints.out = s ++ (g ()).prints.out := fun _ _ => rfl
      rw [e1, e1]
      simp only [if_true]
      have e2 : ((printSummaries sort rad u d).bind fun _ => quietly (.ok (d, u, loadedOf ltr lists u rad
          f.kanji.frequencyReadings))).prints.out = rad.print sort d ++ (u.print d).1 := by
        unfold printSummaries
        simp only [Printing.bind, printing]
        cases (u.print d).2 with
        | ok _ => simp [Prints.add, quietly]
        | throw _ => rfl
        | ub => rfl
      rw [e2]
      simp only [printLoaded, if_true, ne_eq, reduceCtorEq, not_false_eq_true, List.append_assoc, decide_true]
      rfl
  · exact absurd h (h1 _)

/-- **C184** (full, start): whatever happens, the text starts in the same way. -/
theorem C184_full_start (sort : List KanjiRec → List KanjiRec) (ltr : Bool) (f : DataFiles) :
    ∃ s, (loadTextDataPrinting .full sort ltr f).prints.out = u8!">>>\n>>> Begin Loading Data\n>>>\n" ++ s := by
  rcases loadTextDataPrinting_cases .full sort ltr f with ⟨_, _, _, _, _, _, _, _, h5⟩ | ⟨_, _, h3⟩
  · rw [h5]; exact ⟨_, rfl⟩
  · rw [h3]; exact ⟨[], rfl⟩

theorem loadRest_errors (mode : DebugMode) (sort : List KanjiRec → List KanjiRec) (f : DataFiles) (rad : RadicalData)
    (u : UcdData) (l : Loaded) :
    (loadRest mode sort f rad u l).prints.errors = (loadKanjiPrinting mode l f.kanji).prints.errors := by
  unfold loadRest
  have e1 : ∀ (s : Str) (g : Unit → Printing (KanjiStore × UcdData × Loaded)),
      ((printing s).bind g).prints.errors = (g ()).prints.errors := fun _ _ => rfl
  cases hk : (loadKanjiPrinting mode l f.kanji).result with
  | throw _ => simp only [Printing.bind, hk]
  | ub => simp only [Printing.bind, hk]
  | ok d =>
    rw [Printing.bind_errors hk, e1, e1]
    by_cases hm : mode = .full
    · simp only [hm, if_true]
      unfold printSummaries
      simp only [Printing.bind, printing]
      cases (u.print d).2 with
      | ok _ => simp [Prints.add, quietly]
      | throw _ => simp [Prints.add]
      | ub => simp [Prints.add]
    · simp only [hm, if_false]
      simp [Printing.bind, Prints.add, quietly]

/-- **C184** (errors, mode): the messages to the error stream don't depend on the debug mode. -/
theorem C184_errors_mode (m m' : DebugMode) (sort sort' : List KanjiRec → List KanjiRec) (ltr : Bool) (f : DataFiles) :
    (loadTextDataPrinting m sort ltr f).prints.errors = (loadTextDataPrinting m' sort' ltr f).prints.errors := by
  unfold loadTextDataPrinting
  refine Printing.bind_same rfl (.inl ⟨(), (), rfl, rfl, ?_⟩)
  refine Printing.bind_same' fun lists _ => Printing.bind_same' fun u _ => Printing.bind_same' fun rad _ =>
    Printing.bind_same' fun r _ => ?_
  show (loadRest m sort f rad u _).prints.errors = (loadRest m' sort' f rad u _).prints.errors
  rw [loadRest_errors, loadRest_errors, loadKanji_errors]

/-- **C184** (errors): unless the program crashes the messages are those for kanji made from the files, inserted one after
the other; the store has the first kanji of each name, and the number of errors is the number of messages. -/
theorem C184_errors (mode : DebugMode) (sort : List KanjiRec → List KanjiRec) (ltr : Bool) (f : DataFiles) :
    ((loadTextDataPrinting mode sort ltr f).result ≠ .ub →
      (loadTextDataPrinting mode sort ltr f).prints.errors = [] ∨
      ∃ lists u rad hist, UcdData.load f.ucd {} = .ok u ∧
        (loadTextDataPrinting mode sort ltr f).prints.errors = offersMessages [] hist ∧
        ∀ x ∈ hist, Origin (loadedOf ltr lists u rad f.kanji.frequencyReadings) f.kanji x.1 ∧
          x.2 = (u.findEntry x.1.kanji.name).map (·.toUcd)) ∧
    ∀ d u l, loadTextData ltr f = .ok (d, u, l) →
      ∃ hist : List (KanjiRec × Option Ucd),
        (loadTextDataPrinting mode sort ltr f).prints.errors = offersMessages [] hist ∧
        (∀ x ∈ hist, Origin l f.kanji x.1 ∧ x.2 = (u.findEntry x.1.kanji.name).map (·.toUcd)) ∧
        d.all = firstByName (hist.map (·.1)) ∧
        (loadTextDataPrinting mode sort ltr f).prints.errors.length = d.errors := by
  have main : ∀ lists u rad, (loadKanji (loadedOf ltr lists u rad f.kanji.frequencyReadings) f.kanji ≠ .ub) →
      ∃ hist : List (KanjiRec × Option Ucd),
        (loadKanjiPrinting mode (loadedOf ltr lists u rad f.kanji.frequencyReadings) f.kanji).prints.errors =
          offersMessages [] hist ∧
        (∀ x ∈ hist, Origin (loadedOf ltr lists u rad f.kanji.frequencyReadings) f.kanji x.1 ∧
          x.2 = (u.findEntry x.1.kanji.name).map (·.toUcd)) ∧
        ∀ d, loadKanji (loadedOf ltr lists u rad f.kanji.frequencyReadings) f.kanji = .ok d →
          d.all = firstByName (hist.map (·.1)) ∧ (offersMessages [] hist).length = d.errors := by
    intro lists u rad hne
    obtain ⟨hist, g1, g2, g3⟩ := loadKanji_offers (l := loadedOf ltr lists u rad f.kanji.frequencyReadings) (f := f.kanji)
      mode (by rw [loadKanji_result]; exact hne)
    refine ⟨hist, by rw [g1, allMessages_empty], g2, fun d hd => ?_⟩
    obtain ⟨s1, _, s3⟩ := g3 d (by rw [loadKanji_result]; exact hd)
    refine ⟨?_, ?_⟩
    · rw [← (insertAll_inv hist).all_eq]
      unfold KanjiStore.all
      rw [s1]
    · rw [s3, insertAll_errors, allMessages_empty]
      exact (Nat.zero_add _).symm
  rcases loadTextDataPrinting_cases mode sort ltr f with ⟨lists, u, rad, h1, h2, h3, _, h4, h5⟩ | ⟨h1, h2, h3⟩
  · have he : (loadTextDataPrinting mode sort ltr f).prints.errors =
        (loadKanjiPrinting mode (loadedOf ltr lists u rad f.kanji.frequencyReadings) f.kanji).prints.errors := by
      rw [h5, ← loadRest_errors mode sort f rad u]
      exact List.nil_append _
    rw [he]
    constructor
    · intro hne
      have : loadKanji (loadedOf ltr lists u rad f.kanji.frequencyReadings) f.kanji ≠ .ub := by
        intro e
        rw [h5] at hne
        simp only [loadRest_result, e, Res.bind] at hne
        exact hne rfl
      obtain ⟨hist, g1, g2, _⟩ := main lists u rad this
      exact .inr ⟨lists, u, rad, hist, h2, g1, g2⟩
    · intro d u' l h
      rw [h4] at h
      obtain ⟨d', hk, h⟩ := Res.bind_eq_ok h
      cases h
      obtain ⟨hist, g1, g2, g3⟩ := main lists u rad (by rw [hk]; simp)
      exact ⟨hist, g1, g2, (g3 d hk).1, by rw [g1]; exact (g3 d hk).2⟩
  · exact ⟨fun _ => .inl (by rw [h3]), fun d u l h => absurd h (h1 _)⟩

theorem offersMessages_none : ∀ (hist : List (KanjiRec × Option Ucd)) (before : List KanjiRec),
    offersMessages before hist = [] → ∀ x ∈ hist, x.2 ≠ none
  | [], _, _, _, hx => by cases hx
  | y :: ys, before, h, x, hx => by
    rw [offersMessages] at h
    obtain ⟨h1, h2⟩ := List.append_eq_nil_iff.mp h
    rcases List.mem_cons.mp hx with rfl | hx
    · intro e
      unfold offerMessages at h1
      rw [e] at h1
      split at h1
      · cases h1
      · have := (List.append_eq_nil_iff.mp h1).1
        cases this
    · exact offersMessages_none ys _ h2 x hx

theorem mem_firstByName {ks : List KanjiRec} {k : KanjiRec} (h : k ∈ firstByName ks) : k ∈ ks := by
  have gen : ∀ (ks A : List KanjiRec),
      k ∈ ks.foldl (fun acc k => if acc.all (·.kanji.name != k.kanji.name) then acc ++ [k] else acc) A → k ∈ A ∨ k ∈ ks := by
    intro ks
    induction ks with
    | nil => exact fun _ h => .inl h
    | cons x ks ih =>
      intro A h
      rcases ih _ h with h | h
      · dsimp only at h
        split at h
        · rcases List.mem_append.mp h with h | h
          · exact .inl h
          · rw [List.mem_singleton] at h; subst h; exact .inr List.mem_cons_self
        · exact .inl h
      · exact .inr (List.mem_cons_of_mem _ h)
  rcases gen ks [] h with h | h
  · cases h
  · exact h

/-- **C184** (no errors): if no message is printed the data is loaded in every mode. -/
theorem C184_no_errors (mode : DebugMode) (sort : List KanjiRec → List KanjiRec) (ltr : Bool) (f : DataFiles) (d : KanjiStore)
    (u : UcdData) (l : Loaded) (h : loadTextData ltr f = .ok (d, u, l))
    (he : (loadTextDataPrinting mode sort ltr f).prints.errors = []) :
    (loadTextDataPrinting mode sort ltr f).result = .ok (d, u, l) := by
  refine ((C184_result mode sort ltr f).2.2 d u l h).1 ?_
  obtain ⟨hist, h1, h2, h3, _⟩ := (C184_errors mode sort ltr f).2 d u l h
  rw [he] at h1
  rintro ⟨p, hp, _, hn⟩
  have : p.2 ∈ d.all := List.mem_map.mpr ⟨p, hp, rfl⟩
  rw [h3] at this
  obtain ⟨x, hx, e⟩ := List.mem_map.mp (mem_firstByName this)
  refine offersMessages_none hist [] h1.symm x hx ?_
  rw [(h2 x hx).2, e, hn]
  rfl

end KT
