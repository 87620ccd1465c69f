import Verif.Props.KanjiReport
/-!
# Printed counts of grades, levels and kyus: C124, C125
-/
namespace KT

/-- Counting by the value of a field. -/
theorem countP_values {α β : Type} [DecidableEq β] (f : α → β) (vals : List β) (hn : vals.Nodup)
    (p : α → Bool) (l : List α) (h : ∀ x ∈ l, p x = true → f x ∈ vals) :
    (vals.map fun v => l.countP fun x => p x && decide (f x = v)).sum = l.countP p := by
  induction l with
  | nil => 
    simp only [List.countP_nil]
    clear h hn
    induction vals with
    | nil => rfl
    | cons v vs ih => simpa using ih
  | cons x l ih =>
    have ih := ih fun y hy => h y (by simp [hy])
    have key : ∀ (vs : List β), vs.Nodup →
        (vs.map fun v => (x :: l).countP fun x => p x && decide (f x = v)).sum =
          (vs.map fun v => l.countP fun x => p x && decide (f x = v)).sum +
            (if p x = true ∧ f x ∈ vs then 1 else 0) := by
      intro vs
      induction vs with
      | nil => simp
      | cons v vs ih =>
        intro hn
        obtain ⟨hv, hn⟩ := List.nodup_cons.1 hn
        rw [List.map_cons, List.sum_cons, ih hn, List.map_cons, List.sum_cons, List.countP_cons]
        by_cases hp : p x = true
        · by_cases hx : f x = v
          · subst hx
            simp [hp, hv]; omega
          · simp [hp, hx]
            split <;> omega
        · simp [hp]
    rw [key vals hn, ih, List.countP_cons]
    congr 1
    by_cases hp : p x = true
    · simp [hp, h x (by simp) hp]
    · simp [hp]

theorem nodup_withNone {α : Type} (l : List α) (h : l.Nodup) : (withNone l).Nodup := by
  unfold withNone
  refine List.nodup_append.2 ⟨?_, by simp, ?_⟩
  · rw [List.nodup_iff_pairwise_ne, List.pairwise_map]
    exact (List.nodup_iff_pairwise_ne.1 h).imp fun h => by simpa using h
  · intro a ha b hb
    simp only [List.mem_singleton] at hb
    subst hb
    simp only [List.mem_map] at ha
    obtain ⟨x, -, rfl⟩ := ha
    simp

theorem mem_withNone {α : Type} (l : List α) (h : ∀ x : α, x ∈ l) (v : Option α) : v ∈ withNone l := by
  cases v with
  | none => simp [withNone]
  | some x => simp [withNone, h x]

theorem mem_allGrades : ∀ g : KanjiGrade, g ∈ allGrades := by intro g; cases g <;> decide
theorem mem_allLevels : ∀ g : JlptLevel, g ∈ allLevels := by intro g; cases g <;> decide
theorem mem_allKyus : ∀ g : KenteiKyu, g ∈ allKyus := by intro g; cases g <;> decide

/-! ## C124: grades -/

/-- The number of kanji without a frequency, if there are any. -/
def nfText (open_ close : Str) (n : Nat) : Str := if n = 0 then [] else open_ ++ u8!"nf " ++ toDec n ++ close

theorem noFreq_eq (n : Nat) (b : Bool) :
    noFreq n b = nfText (if b then u8!" (" else u8!" ") (if b then u8!")" else []) n := by
  unfold noFreq nfText
  by_cases h : n = 0
  · simp [h]
  · rw [if_pos h, if_neg h]

/-- The line of a grade with kanji shows their number, how many of them have no frequency and the numbers for each level
that has any (in order, `None` at the end); these add up to the number of the grade. -/
theorem C124_line (jouyou : List KanjiRec) (g : Option KanjiGrade) :
    let inGrade := jouyou.filter fun k => k.kanji.grade = g
    let levels := (withNone allLevels).filter fun v => (inGrade.countP fun k => k.kanji.level = v) ≠ 0
    (gradeLine jouyou g).1 = inGrade.length ∧
    (gradeLine jouyou g).2 =
      (if inGrade = [] then []
       else u8!">>>   Total for grade " ++ orNone KanjiGrade.toString g ++ u8!": " ++ toDec inGrade.length ++
        nfText (u8!" (") (u8!")") (inGrade.countP fun k => k.kanji.frequency = 0) ++ u8!" (" ++
        (u8!", ").intercalate (levels.map fun v =>
          orNone JlptLevel.toString v ++ u8!" " ++ toDec (inGrade.countP fun k => k.kanji.level = v)) ++ u8!")\n") ∧
    (levels.map fun v => inGrade.countP fun k => k.kanji.level = v).sum = inGrade.length := by
  intro inGrade levels
  have hlen : (jouyou.countP fun k => decide (k.kanji.grade = g)) = inGrade.length := List.countP_eq_length_filter
  have hcount : ∀ p : KanjiRec → Bool, (jouyou.countP fun k => decide (k.kanji.grade = g) && p k) = inGrade.countP p := by
    intro p
    rw [show inGrade = jouyou.filter fun k => decide (k.kanji.grade = g) from rfl, List.countP_filter]
    congr 1
    funext k
    rw [Bool.and_comm]
  have hsum : (levels.map fun v => inGrade.countP fun k => k.kanji.level = v).sum = inGrade.length := by
    rw [sum_filter_pos (fun v => inGrade.countP fun k => decide (k.kanji.level = v))]
    have := countP_values (fun k : KanjiRec => k.kanji.level) (withNone allLevels) (nodup_withNone _ (by decide))
      (fun _ => true) inGrade fun x _ _ => mem_withNone _ mem_allLevels _
    simpa using this
  refine ⟨?_, ?_, hsum⟩
  · unfold gradeLine
    simp only [hlen]
    split
    · rfl
    · rename_i h; simpa using (Eq.symm (Classical.not_not.1 h))
  · unfold gradeLine
    simp only [hlen, hcount]
    by_cases h : inGrade = []
    · rw [if_neg (by simp [h]), if_pos h]
    · rw [if_pos (by simpa using h), if_neg h, noFreq_eq]
      have hf : ((withNone allLevels).filterMap fun level =>
          if (inGrade.countP fun x => decide (x.kanji.level = level)) ≠ 0 then
            some ((inGrade.countP fun x => decide (x.kanji.level = level)),
              orNone JlptLevel.toString level ++ u8!" " ++
                toDec (inGrade.countP fun x => decide (x.kanji.level = level)))
          else none) = levels.map fun v => ((inGrade.countP fun k => decide (k.kanji.level = v)),
            orNone JlptLevel.toString v ++ u8!" " ++ toDec (inGrade.countP fun k => k.kanji.level = v)) := by
        simp only [levels]
        induction withNone allLevels with
        | nil => rfl
        | cons v vs ih =>
          by_cases hv : (inGrade.countP fun x => decide (x.kanji.level = v)) = 0
          · simp only [List.filterMap_cons, hv, List.filter_cons]
            simpa using ih
          · simp only [List.filterMap_cons, List.filter_cons, ne_eq, hv, not_false_eq_true, if_true, decide_true,
              List.map_cons, ih]
      have hs := separatedCounts_eq (levels.map fun v => ((inGrade.countP fun k => decide (k.kanji.level = v)),
            orNone JlptLevel.toString v ++ u8!" " ++ toDec (inGrade.countP fun k => k.kanji.level = v))) (by
          intro p hp
          obtain ⟨v, hv, rfl⟩ := List.mem_map.1 hp
          have := (List.mem_filter.1 hv).2
          simp only [ne_eq, decide_not, Bool.not_eq_eq_eq_not, Bool.not_true, decide_eq_false_iff_not] at this
          exact Nat.pos_of_ne_zero this)
      simp only [List.map_map, Function.comp_def, hsum] at hs
      rw [hf, hs]
      simp

/-- All lines and the total, which is the number of kanji in the Jouyou list. -/
theorem C124_text (d : KanjiStore) :
    printGrades d = u8!">>> Grade breakdown:\n" ++
      ((withNone allGrades).map fun g => (gradeLine (d.types .jouyou) g).2).flatten ++
      u8!">>>   Total for all grades: " ++ toDec (d.types .jouyou).length ++ u8!"\n" := by
  simp only [printGrades]
  rw [foldl_add_snd (fun l : Nat × Str => l.1), List.map_map, List.map_map]
  have h : ((withNone allGrades).map ((fun l : Nat × Str => l.1) ∘ gradeLine (d.types .jouyou))).sum =
      (d.types .jouyou).length := by
    have := countP_values (fun k : KanjiRec => k.kanji.grade) (withNone allGrades) (nodup_withNone _ (by decide))
      (fun _ => true) (d.types .jouyou) fun x _ _ => mem_withNone _ mem_allGrades _
    simp only [Bool.true_and, List.countP_true] at this
    rw [← this]
    congr 1
    refine List.map_congr_left fun g _ => ?_
    have := (C124_line (d.types .jouyou) g).1
    rw [List.countP_eq_length_filter]
    exact this
  rw [h]
  simp [Function.comp_def]

/-- After loading there is no line for kanji without a grade. -/
theorem C124_none (l : Loaded) (f : KanjiFiles) (d : KanjiStore) (h : loadKanji l f = .ok d) :
    (gradeLine (d.types .jouyou) none).2 = [] := by
  rw [(C124_line _ _).2.1, if_pos]
  rw [List.filter_eq_nil_iff]
  intro k hk
  obtain ⟨⟨ks, h1, h2⟩, -, -⟩ := C101_rows l f d h
  rw [h2] at hk
  obtain ⟨⟨k', info⟩, hk', rfl⟩ := List.mem_map.1 hk
  have hm : (Res.ok (k', info)) ∈ f.jouyou.map (jouyouFromRow l.ctx) := by
    rw [h1]; exact List.mem_map_of_mem hk'
  obtain ⟨row, -, hr⟩ := List.mem_map.1 hm
  obtain ⟨g, -, e⟩ := (jouyou_row hr).2.2.2.2.2.2.2.1
  show ¬ decide (k'.grade = none) = true
  simp [e]

/-! ## C125: levels and kyus -/

/-- The line of a value shows the number of kanji with it and the numbers for each type with such kanji, if asked for
with the number of those without a frequency. -/
theorem C125_line {α : Type} [DecidableEq α] (d : KanjiStore) (field : Kanji → Option α) (text : α → Str) (name : Str)
    (showNoFreq : Bool) (v : Option α) :
    let having := fun t => (d.types t).filter fun k => decide (field k.kanji = v)
    let total := d.listed.countP fun k => field k.kanji = v
    (listStatsLine d field text name showNoFreq v).1 = total ∧
    (listStatsLine d field text name showNoFreq v).2 =
      (if total = 0 then []
       else u8!">>>   Total for " ++ name ++ u8!" " ++ orNone text v ++ u8!": " ++ toDec total ++ u8!" (" ++
        (u8!", ").intercalate (((allKanjiTypes.filterMap id).filter fun t => having t ≠ []).map fun t =>
          kanjiTypeText t ++ u8!" " ++ toDec (having t).length ++
            (if showNoFreq then nfText (u8!" ") [] ((having t).countP fun k => k.kanji.frequency = 0) else [])) ++
        u8!")\n") := by
  intro having total
  have hlen : ∀ t, ((d.types t).countP fun x => decide (field x.kanji = v)) = (having t).length :=
    fun t => List.countP_eq_length_filter
  have hf : (d.typeLists.map fun p => (p.1, p.2.countP fun x => decide (field x.kanji = v))).filter (fun p => p.2 ≠ 0) =
      ((allKanjiTypes.filterMap id).filter fun t => having t ≠ []).map fun t => (t, (having t).length) := by
    rw [List.filter_map, KanjiStore.typeLists, List.filter_map, List.map_map]
    simp only [Function.comp_def, hlen]
    congr 1
    refine List.filter_congr fun t _ => ?_
    simp
  have htot : (((allKanjiTypes.filterMap id).filter fun t => having t ≠ []).map fun t => (having t).length).sum =
      total := by
    have e : (fun t => decide (having t ≠ [])) = fun t => decide ((having t).length ≠ 0) := by funext t; simp
    rw [e, sum_filter_pos (fun t => (having t).length)]
    simp only [total]
    rw [← countP_listed, KanjiStore.typeLists, List.map_map]
    simp only [Function.comp_def, hlen]
    rfl
  unfold listStatsLine
  simp only [hf]
  rw [foldl_add_snd (fun p : KanjiType × Nat => p.2), List.map_map]
  simp only [Function.comp_def, Nat.zero_add, htot]
  by_cases h0 : total = 0
  · rw [if_neg (by simpa using h0)]
    exact ⟨h0.symm, by rw [if_pos h0]⟩
  · rw [if_pos h0]
    refine ⟨rfl, ?_⟩
    rw [if_neg h0]
    have hs := separatedCounts_eq (((allKanjiTypes.filterMap id).filter fun t => having t ≠ []).map fun t =>
      ((having t).length, kanjiTypeText t ++ u8!" " ++ toDec (having t).length ++
        (if showNoFreq then nfText (u8!" ") [] ((having t).countP fun k => k.kanji.frequency = 0) else []))) (by
          intro p hp
          obtain ⟨t, ht, rfl⟩ := List.mem_map.1 hp
          have := (List.mem_filter.1 ht).2
          simp only [ne_eq, decide_not, Bool.not_eq_eq_eq_not, Bool.not_true, decide_eq_false_iff_not] at this
          exact List.length_pos_iff.2 this)
    simp only [List.map_map, Function.comp_def, htot] at hs
    rw [← hs]
    have hc : ∀ t, ((d.types t).countP fun x => decide (field x.kanji = v) && decide (x.kanji.frequency = 0)) =
        (having t).countP fun k => decide (k.kanji.frequency = 0) := by
      intro t
      rw [show having t = (d.types t).filter fun k => decide (field k.kanji = v) from rfl, List.countP_filter]
      congr 1
      funext k
      rw [Bool.and_comm]
    simp only [noFreq_eq, List.map_map, Function.comp_def, hc]
    simp

/-- All lines and the total, which is the number of kanji in all lists: every kanji is in the line of its value, or in
the line of `None`. -/
theorem C125_text {α : Type} [DecidableEq α] (d : KanjiStore) (field : Kanji → Option α) (list : List α)
    (hn : list.Nodup) (ha : ∀ x : α, x ∈ list) (text : α → Str) (name : Str) (showNoFreq : Bool) :
    printListStats d field list text name showNoFreq = u8!">>> " ++ name ++ u8!" breakdown:\n" ++
      ((withNone list).map fun v => (listStatsLine d field text name showNoFreq v).2).flatten ++
      u8!">>>   Total for all " ++ name ++ u8!"s: " ++ toDec d.listed.length ++ u8!"\n" := by
  simp only [printListStats]
  rw [foldl_add_snd (fun l : Nat × Str => l.1), List.map_map, List.map_map]
  have h : ((withNone list).map ((fun l : Nat × Str => l.1) ∘ listStatsLine d field text name showNoFreq)).sum =
      d.listed.length := by
    have := countP_values (fun k : KanjiRec => field k.kanji) (withNone list) (nodup_withNone _ hn)
      (fun _ => true) d.listed fun x _ _ => mem_withNone _ ha _
    simp only [Bool.true_and, List.countP_true] at this
    rw [← this]
    congr 1
    exact List.map_congr_left fun g _ => (C125_line d field text name showNoFreq g).1
  rw [h]
  simp [Function.comp_def]

theorem countP_types (p : KanjiRec → Bool) (l : List KanjiRec) :
    ((allKanjiTypes.filterMap id).map fun t => (l.filter (·.kanji.type == t)).countP p).sum = l.countP p := by
  induction l with
  | nil => rfl
  | cons k l ih =>
    simp only [allKanjiTypes, List.filterMap_cons, id, List.filterMap_nil, List.map_cons, List.map_nil, List.sum_cons,
      List.sum_nil, List.filter_cons, List.countP_cons] at ih ⊢
    generalize k.kanji.type = t
    cases t <;> simp [List.countP_cons] at ih ⊢ <;> omega

/-- If no error was printed then the listed kanji are the kanji found by name, so the numbers above count these. -/
theorem C125_loaded (l : Loaded) (f : KanjiFiles) (d : KanjiStore) (h : loadKanji l f = .ok d) (he : d.errors = 0)
    (p : KanjiRec → Bool) : d.listed.countP p = d.all.countP p ∧ d.listed.length = d.all.length := by
  have key : ∀ p : KanjiRec → Bool, d.listed.countP p = d.all.countP p := by
    intro p
    rw [← countP_listed, ← countP_types, KanjiStore.typeLists, List.map_map]
    simp only [Function.comp_def]
    congr 1
    exact List.map_congr_left fun t _ => by rw [C101_partial l f d h he t]
  refine ⟨key p, ?_⟩
  have := key fun _ => true
  simpa using this

/-- The Kyu breakdown then shows for each kyu how many kanji are in the file of this kyu. -/
theorem C125_kyus (l : Loaded) (hls : ListsLoaded l.lists) (f : KanjiFiles) (d : KanjiStore) (h : loadKanji l f = .ok d)
    (he : d.errors = 0) (v : Option KenteiKyu) :
    (listStatsLine d (·.kyu) KenteiKyu.toString (u8!"Kyu") false v).1 =
      d.all.countP fun k => l.lists.kyu k.kanji.name = v := by
  rw [(C125_line _ _ _ _ _ _).1, (C125_loaded l f d h he _).1]
  refine List.countP_congr fun k hk => ?_
  rw [C103_kyu l hls f d h k hk]

/-- The Level breakdown shows for each level how many Jouyou and Jinmei kanji are in its file. -/
theorem C125_levels (l : Loaded) (f : KanjiFiles) (d : KanjiStore) (h : loadKanji l f = .ok d) (he : d.errors = 0)
    (v : JlptLevel) :
    (listStatsLine d (·.level) JlptLevel.toString (u8!"Level") true (some v)).1 =
      d.all.countP fun k => (k.kanji.type = .jouyou ∨ k.kanji.type = .jinmei) ∧ l.lists.level k.kanji.name = some v := by
  rw [(C125_line _ _ _ _ _ _).1, (C125_loaded l f d h he _).1]
  refine List.countP_congr fun k hk => ?_
  rw [C103_level l f d h k hk]
  by_cases ht : k.kanji.type = .jouyou ∨ k.kanji.type = .jinmei
  · simp [ht]
  · simp [ht]

/-! ## What is printed -/

/-- Nothing is printed without a debug option.  With `-info` the number of kanji and the grades are printed, with `-debug`
also how many kanji have a level; have a frequency, no level and aren't Jouyou; are Jinmei without frequency and level;
have no frequency; have variant strokes; have variation selectors (with five examples); and have old forms, and the
breakdowns of levels and kyus. -/
theorem C123_printed (d : KanjiStore) :
    printLoaded .none d = [] ∧
    printLoaded .info d = loadedLine d ++ printGrades d ∧
    printLoaded .full d = u8!">>>\n>>> Finished Loading Data\n>>>\n" ++ loadedLine d ++
      printCount d (fun k => k.level ≠ none) (u8!"  Has JLPT level") 0 ++
      printCount d (fun k => k.frequency ≠ 0 ∧ k.type ≠ .jouyou ∧ k.level = none)
        (u8!"  Has frequency and not in Jouyou or JLPT") 0 ++
      printCount d (fun k => k.type = .jinmei ∧ k.frequency = 0 ∧ k.level = none)
        (u8!"  Jinmei with no frequency and not JLPT") 0 ++
      printCount d (fun k => k.frequency = 0) (u8!"  NF (no-frequency)") 0 ++
      printCount d (fun k => k.strokes.variant ≠ 0) (u8!"  Has Variant Strokes") 0 ++
      printCount d (fun k => k.variant = true) (u8!"  Has Variation Selectors") 5 ++
      printCount d (fun k => k.oldNames ≠ []) (u8!"Old Forms") 0 ++
      printGrades d ++
      printListStats d (·.level) allLevels JlptLevel.toString (u8!"Level") true ++
      printListStats d (·.kyu) allKyus KenteiKyu.toString (u8!"Kyu") false := by
  refine ⟨by simp [printLoaded], by simp [printLoaded, printCountsAndStats], ?_⟩
  have e1 : (fun k : Kanji => decide (k.level ≠ none)) = fun k => k.level.isSome := by
    funext k; cases k.level <;> rfl
  have e2 : (fun k : Kanji => decide (k.frequency ≠ 0 ∧ k.type ≠ .jouyou ∧ k.level = none)) =
      fun k => decide (k.frequency ≠ 0) && decide (k.type ≠ .jouyou) && !k.level.isSome := by
    funext k; cases k.level <;> simp
  have e3 : (fun k : Kanji => decide (k.type = .jinmei ∧ k.frequency = 0 ∧ k.level = none)) =
      fun k => decide (k.type = .jinmei) && decide (k.frequency = 0) && !k.level.isSome := by
    funext k; cases k.level <;> simp
  have e4 : (fun k : Kanji => decide (k.variant = true)) = fun k => k.variant := by funext k; simp
  rw [e1, e2, e3, e4]
  simp only [printLoaded, printCountsAndStats, printedCounts, List.map_cons, List.map_nil, List.flatten_cons,
    List.flatten_nil, List.append_nil, List.append_assoc]
  simp

/-! ## Examples -/

/-- A kanji of the samples. -/
def reportKanji (t : KanjiType) (name : Str) (frequency : UInt16) (grade : Option KanjiGrade) (level : Option JlptLevel) :
    KanjiRec :=
  ⟨{ type := t, name := name, radicalName := [], radicalNumber := 1, strokes := ⟨1, 0⟩, frequency := frequency,
     grade := grade, level := level }, {}, []⟩

def reportStore : KanjiStore where
  types := fun
    | .jouyou => [reportKanji .jouyou (u8!"一") 1 (some .g1) (some .n5), reportKanji .jouyou (u8!"右") 2 (some .g1) none,
        reportKanji .jouyou (u8!"亜") 0 (some .s) (some .n1)]
    | .jinmei => [reportKanji .jinmei (u8!"乃") 0 none (some .n1)]
    | _ => []

example : printGrades reportStore = u8!">>> Grade breakdown:\n>>>   Total for grade G1: 2 (N5 1, None 1)\n" ++
    u8!">>>   Total for grade S: 1 (nf 1) (N1 1)\n>>>   Total for all grades: 3\n" := by decide +kernel

example : printListStats reportStore (·.level) allLevels JlptLevel.toString (u8!"Level") true =
    u8!">>> Level breakdown:\n>>>   Total for Level N5: 1 (Jouyou 1)\n" ++
    u8!">>>   Total for Level N1: 2 (Jouyou 1 nf 1, Jinmei 1 nf 1)\n" ++
    u8!">>>   Total for Level None: 1 (Jouyou 1)\n>>>   Total for all Levels: 4\n" := by decide +kernel

example : printCount reportStore (fun k => k.frequency = 0) (u8!"  NF (no-frequency)") 2 =
    u8!">>>   NF (no-frequency) 2 (Jouyou 1 亜, Jinmei 1 乃)\n" := by decide +kernel

end KT
