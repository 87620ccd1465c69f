import Verif.Model.KanjiReport
import Verif.Props.TextKanjiData
/-!
# Printed counts of the loaded kanji: C122-C125
-/
namespace KT

/-! ## Texts with counts -/

theorem separatedCounts_eq : ∀ (l : List (Nat × Str)), (∀ p ∈ l, 0 < p.1) →
    separatedCounts (l.map (·.1)).sum l = (u8!", ").intercalate (l.map (·.2))
  | [], _ => by simp [separatedCounts, List.intercalate]
  | [(n, t)], _ => by simp [separatedCounts, List.intercalate]
  | (n, t) :: (m, u) :: r, h => by
    have ih := separatedCounts_eq ((m, u) :: r) fun p hp => h p (by simp [hp])
    have hm : 0 < m := h (m, u) (by simp)
    have e : ((((n, t) :: (m, u) :: r).map (·.1)).sum - n) = (((m, u) :: r).map (·.1)).sum := by simp
    rw [separatedCounts, e, ih, if_pos (by simp; omega)]
    simp [List.intercalate]

theorem foldl_add_snd {α : Type} (f : α → Nat) (l : List α) (n : Nat) :
    l.foldl (fun n p => n + f p) n = n + (l.map f).sum := by
  induction l generalizing n with
  | nil => simp
  | cons x l ih => simp [ih]; omega

theorem sum_filter_pos {α : Type} (f : α → Nat) (l : List α) :
    ((l.filter fun x => f x ≠ 0).map f).sum = (l.map f).sum := by
  induction l with
  | nil => rfl
  | cons x l ih =>
    by_cases h : f x = 0
    · simp [h] at *
      simpa using ih
    · simp [h] at *
      simpa using ih

theorem exampleLoop_eq (pred : Kanji → Bool) (n : Nat) (l done : List KanjiRec) :
    exampleLoop pred n l (done.countP fun k => pred k.kanji,
        ((done.filter fun k => pred k.kanji).map (·.kanji.name)).take n) =
      ((done ++ l).countP fun k => pred k.kanji,
        (((done ++ l).filter fun k => pred k.kanji).map (·.kanji.name)).take n) := by
  induction l generalizing done with
  | nil => simp [exampleLoop]
  | cons k l ih =>
    have ih := ih (done ++ [k])
    rw [List.append_assoc] at ih
    simp only [List.cons_append, List.nil_append] at ih
    rw [exampleLoop]
    by_cases h : pred k.kanji = true
    · rw [if_pos h, ← ih]
      congr 1
      rw [List.countP_append, List.filter_append, List.map_append, List.take_append]
      have e : (done.filter fun k => pred k.kanji).length = done.countP fun k => pred k.kanji :=
        List.countP_eq_length_filter.symm
      simp only [List.length_map, e, List.countP_cons, List.countP_nil, h]
      simp only [h, List.filter_cons, List.filter_nil]
      congr 1
      by_cases hn : (done.countP fun k => pred k.kanji) + 1 ≤ n
      · rw [if_pos hn]
        have : n - (done.countP fun k => pred k.kanji) = (n - (done.countP fun k => pred k.kanji) - 1) + 1 := by omega
        rw [this]; simp
      · rw [if_neg hn]
        have : n - (done.countP fun k => pred k.kanji) = 0 := by omega
        rw [this]; simp
    · rw [if_neg h, ← ih]
      simp [List.countP_append, List.filter_append, h]

theorem countAndExamples_eq (pred : Kanji → Bool) (n : Nat) (l : List KanjiRec) :
    countAndExamples pred n l =
      (l.countP fun k => pred k.kanji, ((l.filter fun k => pred k.kanji).map (·.kanji.name)).take n) := by
  unfold countAndExamples
  split
  · have := exampleLoop_eq pred n l []
    simpa using this
  · simp_all

/-- The kanji in the lists of all types. -/
def KanjiStore.listed (d : KanjiStore) : List KanjiRec := d.typeLists.flatMap (·.2)

theorem countP_listed (d : KanjiStore) (p : KanjiRec → Bool) :
    (d.typeLists.map fun q => q.2.countP p).sum = d.listed.countP p := by
  unfold KanjiStore.listed
  induction d.typeLists with
  | nil => rfl
  | cons x l ih => simp [List.countP_append, ih]

/-! ## C122: the number of kanji -/

theorem loadedTypes_eq : ∀ (l : List (KanjiType × List KanjiRec)),
    loadedTypes true l = (u8!" ").intercalate (l.map fun p => kanjiTypeText p.1 ++ u8!" " ++ toDec p.2.length) ∧
    (l ≠ [] → loadedTypes false l = u8!" " ++ loadedTypes true l)
  | [] => ⟨rfl, fun h => absurd rfl h⟩
  | [(t, x)] => by constructor <;> simp [loadedTypes, List.intercalate]
  | (t, x) :: q :: r => by
    obtain ⟨i1, i2⟩ := loadedTypes_eq (q :: r)
    refine ⟨?_, fun _ => by simp [loadedTypes]⟩
    rw [loadedTypes, i2 (by simp), i1]
    simp [List.intercalate]

/-- The line shows the number of kanji found by name and, for each type in order, the number of kanji in its list. -/
theorem C122_text (d : KanjiStore) :
    loadedLine d = u8!">>> Loaded " ++ toDec d.all.length ++ u8!" Kanji (" ++
      (u8!" ").intercalate ((allKanjiTypes.filterMap id).map fun t =>
        kanjiTypeText t ++ u8!" " ++ toDec (d.types t).length) ++ u8!")\n" := by
  rw [loadedLine, (loadedTypes_eq _).1]
  simp [KanjiStore.all, KanjiStore.typeLists, allKanjiTypes]

/-- The numbers of the types add up to the number of kanji. -/
def C122_statement : Prop :=
  ∀ (l : Loaded) (f : KanjiFiles) (d : KanjiStore), loadKanji l f = .ok d →
    ((allKanjiTypes.filterMap id).map fun t => (d.types t).length).sum = d.all.length

theorem sum_types (l : List KanjiRec) :
    ((allKanjiTypes.filterMap id).map fun t => (l.filter (·.kanji.type == t)).length).sum = l.length := by
  induction l with
  | nil => rfl
  | cons k l ih =>
    simp only [allKanjiTypes, List.filterMap_cons, id, List.filterMap_nil, List.map_cons, List.map_nil, List.sum_cons,
      List.sum_nil, List.filter_cons] at ih ⊢
    generalize k.kanji.type = t
    cases t <;> simp at ih ⊢ <;> omega

/-- They don't if a kanji is in two rows, as it then is twice in the list of its type. -/
theorem C122_violated : ¬ C122_statement := by
  intro h
  have : ∃ d, loadKanji sampleLoaded duplicateFiles = .ok d ∧
      ((allKanjiTypes.filterMap id).map fun t => (d.types t).length).sum ≠ d.all.length := by
    have e : (match loadKanji sampleLoaded duplicateFiles with
        | .ok d => decide (((allKanjiTypes.filterMap id).map fun t => (d.types t).length).sum ≠ d.all.length)
        | _ => false) = true := by decide +kernel
    split at e
    · rename_i d hd
      exact ⟨d, hd, by simpa using e⟩
    · cases e
  obtain ⟨d, h1, h2⟩ := this
  exact h2 (h _ _ d h1)

/-- They do if no error was printed, and are never less. -/
theorem C122_partial (l : Loaded) (f : KanjiFiles) (d : KanjiStore) (h : loadKanji l f = .ok d) :
    (d.errors = 0 → ((allKanjiTypes.filterMap id).map fun t => (d.types t).length).sum = d.all.length) ∧
    d.all.length ≤ ((allKanjiTypes.filterMap id).map fun t => (d.types t).length).sum := by
  constructor
  · intro he
    rw [← sum_types]
    congr 1
    exact List.map_congr_left fun t _ => by rw [C101_partial l f d h he t]
  · rw [← sum_types]
    have hs := fun t => ((C101_types l f d h).2 t).1.length_le
    simp only [allKanjiTypes, List.filterMap_cons, id, List.filterMap_nil, List.map_cons, List.map_nil, List.sum_cons,
      List.sum_nil]
    have a := hs .jouyou
    have b := hs .jinmei
    have c := hs .linkedJinmei
    have e := hs .linkedOld
    have f := hs .frequency
    have g := hs .extra
    have i := hs .kentei
    have j := hs .ucd
    omega

/-! ## C123: counts of kanji with a feature -/

/-- A count shows how many of the listed kanji have the feature, in total and for each type with such kanji (in order,
separated by commas) followed by the names of the first of them; nothing is shown if no kanji has the feature. -/
theorem C123_text (d : KanjiStore) (pred : Kanji → Bool) (name : Str) (examples : Nat) :
    printCount d pred name examples =
      if d.listed.countP (fun k => pred k.kanji) = 0 then []
      else
        u8!">>> " ++ name ++ u8!" " ++ toDec (d.listed.countP fun k => pred k.kanji) ++ u8!" (" ++
          (u8!", ").intercalate (((allKanjiTypes.filterMap id).filter fun t =>
              (d.types t).countP (fun k => pred k.kanji) ≠ 0).map fun t =>
            kanjiTypeText t ++ u8!" " ++ toDec ((d.types t).countP fun k => pred k.kanji) ++
              ((((d.types t).filter fun k => pred k.kanji).take examples).map
                fun k => u8!" " ++ k.kanji.name).flatten) ++
          u8!")\n" := by
  simp only [printCount, countAndExamples_eq]
  have hf : (d.typeLists.map fun p => (p.1, ((p.2.countP fun k => pred k.kanji),
      ((p.2.filter fun k => pred k.kanji).map (·.kanji.name)).take examples))).filter (fun p => p.2.1 ≠ 0) =
      ((allKanjiTypes.filterMap id).filter fun t => (d.types t).countP (fun k => pred k.kanji) ≠ 0).map
        fun t => (t, (((d.types t).countP fun k => pred k.kanji),
          (((d.types t).filter fun k => pred k.kanji).map (·.kanji.name)).take examples)) := by
    rw [List.filter_map, KanjiStore.typeLists, List.filter_map, List.map_map]
    rfl
  rw [hf]
  generalize hl : (allKanjiTypes.filterMap id).filter (fun t => (d.types t).countP (fun k => pred k.kanji) ≠ 0) = l
  have htot : (l.map fun t => (d.types t).countP fun k => pred k.kanji).sum =
      d.listed.countP fun k => pred k.kanji := by
    rw [← hl, sum_filter_pos (fun t => (d.types t).countP fun k => pred k.kanji), ← countP_listed,
      KanjiStore.typeLists, List.map_map]
    rfl
  have hpos : ∀ t ∈ l, 0 < (d.types t).countP fun k => pred k.kanji := by
    intro t ht
    rw [← hl] at ht
    have := (List.mem_filter.1 ht).2
    simp only [ne_eq, decide_not, Bool.not_eq_eq_eq_not, Bool.not_true, decide_eq_false_iff_not] at this
    omega
  rw [foldl_add_snd (fun p : KanjiType × Nat × List Str => p.2.1), List.map_map]
  simp only [Function.comp_def, Nat.zero_add, htot]
  by_cases h0 : d.listed.countP (fun k => pred k.kanji) = 0
  · rw [if_neg (by simpa using h0), if_pos h0]
  · rw [if_pos h0, if_neg h0]
    congr 2
    rw [List.map_map, ← htot]
    have := separatedCounts_eq (l.map fun t => ((d.types t).countP fun k => pred k.kanji,
      kanjiTypeText t ++ u8!" " ++ toDec ((d.types t).countP fun k => pred k.kanji) ++
        ((((d.types t).filter fun k => pred k.kanji).take examples).map fun k => u8!" " ++ k.kanji.name).flatten))
      (by simpa using hpos)
    simp only [List.map_map, Function.comp_def] at this ⊢
    simpa [List.map_take, List.map_map, Function.comp_def] using this

end KT
