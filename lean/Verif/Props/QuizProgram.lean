import Verif.Spec.QuizProgram
import Verif.Props.GroupTranscript
import Verif.Props.ListTranscript
import Verif.Props.KanjiDetails
import Verif.Props.KanjiArgs
import Verif.Props.LaunchDialog
import Verif.Props.LaunchText
import Verif.Props.Bitmask
/-!
# kanjiQuiz from its arguments and input to its output (C167)
-/
namespace KT
open Spec

/-! ## Lists -/

theorem each_ok {α β : Type} (f : α → Res β) (g : α → β) (l : List α) (h : ∀ a ∈ l, f a = .ok (g a)) :
    Res.each f l = .ok (l.map g) := by
  induction l with
  | nil => rfl
  | cons a l ih =>
    rw [Res.each, h a (by simp), ih fun b hb => h b (by simp [hb])]
    rfl

theorem shuffled_eq {α : Type} (drawn : List Nat) (l : List α) :
    shuffled drawn l = if drawn.Perm (List.range l.length) then drawn.filterMap (l[·]?) else l := by
  unfold shuffled
  by_cases h : drawn.Perm (List.range l.length)
  · rw [if_pos h, if_pos (List.isPerm_iff.mpr h)]
  · rw [if_neg h, if_neg (fun h' => h (List.isPerm_iff.mp h'))]

theorem arrange_eq {α : Type} (o : QuestionOrder) (drawn : List Nat) (l : List α) :
    o.arrange drawn l = arranged o drawn l := by
  cases o <;> simp [QuestionOrder.arrange, arranged, shuffled_eq]

theorem range_filterMap {α : Type} (l : List α) : (List.range l.length).filterMap (l[·]?) = l := by
  induction l with
  | nil => rfl
  | cons a l ih =>
    rw [List.length_cons, List.range_succ_eq_map]
    show a :: ((List.range l.length).map Nat.succ).filterMap _ = _
    rw [List.filterMap_map]
    exact congrArg _ ih

theorem arranged_perm {α : Type} (o : QuestionOrder) (drawn : List Nat) (l : List α) : (arranged o drawn l).Perm l := by
  cases o
  case fromEnd => exact List.reverse_perm l
  case random =>
    show (if drawn.Perm (List.range l.length) then drawn.filterMap (l[·]?) else l).Perm l
    split
    · next h =>
      have h1 := h.filterMap (l[·]?)
      rwa [range_filterMap] at h1
    · exact .refl l
  all_goals exact .refl l

theorem arranged_length {α : Type} (o : QuestionOrder) (drawn : List Nat) (l : List α) :
    (arranged o drawn l).length = l.length := (arranged_perm o drawn l).length_eq

theorem mem_arranged {α : Type} {o : QuestionOrder} {drawn : List Nat} {l : List α} {a : α} :
    a ∈ arranged o drawn l ↔ a ∈ l := (arranged_perm o drawn l).mem_iff

/-! ## The beginning of a quiz -/

theorem notBegun_eq (quizMode : Bool) (question : UInt16) (meanings : Bool) :
    ListState.finish quizMode { current := question, shown := meanings } = notBegun quizMode question.toNat := by
  cases quizMode with
  | false => rfl
  | true => exact lastLine_eq { current := question, shown := meanings } (by simp)

/-- A quiz that may begin. -/
theorem begun (question : UInt16) (total : Nat) (z : Talk Unit) :
    withMessage (entryMessage question total) (.ok (z.1, z.2.map fun x => .ok x.2)) = .ok z.output := by
  unfold withMessage Talk.output
  simp only [Res.bind]
  cases z.2 <;> rfl

/-! ## List quizzes -/

/-- What can be shown of a kanji. -/
def KanjiRec.Sound (k : KanjiRec) : Prop :=
  (k.kanji.newName = none ∨ k.kanji.oldNames = []) ∧ (∀ p, k.kanji.pinyin = some p → p ≠ []) ∧
    ∀ n ∈ k.kanji.oldNames, n ≠ []

theorem mark_eq (k : Kanji) : k.qualifiedName = .ok (k.name ++ [kanjiMark k]) := by
  unfold Kanji.qualifiedName Kanji.qualifiedNameRank kanjiMark
  cases hl : k.level <;> by_cases hf : k.frequency = 0 <;> by_cases hk : k.kyu = some .k1 <;> cases ht : k.type <;>
    simp [hf, hk, qualifiedNames]

theorem similarNames_ok (k : KanjiRec) (l : List KanjiRec) :
    similarNames k l = .ok ((l.filter fun j => j.kanji.name ≠ k.kanji.name).map fun j =>
      u8!" " ++ j.kanji.name ++ [kanjiMark j.kanji]).flatten := by
  induction l with
  | nil => rfl
  | cons j l ih =>
    unfold similarNames
    by_cases h : j.kanji.name = k.kanji.name
    · rw [if_pos h, ih]; simp [h]
    · rw [if_neg h, ih, mark_eq]; simp [h, Res.bind]

theorem review_eq (sort : List KanjiRec → List KanjiRec) (d : DetailData) (k : KanjiRec) :
    printReviewDetails sort d k = .ok (reviewText sort d k) := by
  have h : similarLine sort d.patterns k = .ok (similarText sort d k) := by
    unfold similarLine similarText
    cases d.patterns.map.lookup k.kanji.name with
    | none => rfl
    | some g =>
      simp only
      split
      · rfl
      · rw [similarNames_ok]; rfl
  unfold printReviewDetails reviewText
  rw [h]; rfl

theorem fieldsFor_eq (l : QuestionList) : fieldsOfBits (shownFields l.excluded) = fieldsFor l := by
  obtain ⟨-, -, h1, -, h2, -, h3, -, h4⟩ := C153_fields
  cases l <;> assumption

theorem item_eq (sort : List KanjiRec → List KanjiRec) (d : DetailStore) (l : QuestionList) (k : KanjiRec) (hk : k.Sound) :
    listItem sort d (fieldsFor l) k = .ok (itemFor sort d l k) := by
  unfold listItem itemFor printExtraTypeInfo
  rw [C73_info _ _ hk.1 hk.2.1 hk.2.2, review_eq]
  cases d.extra k <;> rfl

theorem legendFor_eq (l : QuestionList) : printLegend (fieldsFor l) = legendFor l := by
  cases l <;> rfl

theorem listedKanji_eq (d : KanjiStore) (l : QuestionList) : l.kanji d = listedKanji d l := by
  rcases l with (_ | i) | (_ | g) | (_ | k) | (_ | j) <;>
    simp [QuestionList.kanji, listedKanji, List.getD_eq_getElem?_getD]

/-- Without questions nothing is drawn. -/
theorem no_draws (y : ListStyle) (legend : Str) (draws : List (Nat × List Nat)) (question : UInt16) (meanings : Bool) (n : Nat)
    (s : InStream) :
    listQuiz y legend [] question meanings n draws s = listQuiz y legend [] question meanings n [] s ∧
    playList y legend [] question.toNat meanings n draws s = playList y legend [] question.toNat meanings n [] s := by
  have h1 : ∀ st, listSession y [] n draws st s = listSession y [] n [] st s := by
    intro st
    cases draws with
    | nil => rfl
    | cons a l => unfold listSession; rfl
  have h2 : ∀ z, playItems y [] n draws z s = playItems y [] n [] z s := by
    intro z
    cases draws with
    | nil => rfl
    | cons a l => unfold playItems; rfl
  constructor
  · unfold listQuiz; simp only [h1]
  · unfold playList; simp only [h2]

/-- A list quiz for kanji that can be shown. -/
theorem list_output (sort : List KanjiRec → List KanjiRec) (d : DetailStore) (mode : ProgramMode) (order : QuestionOrder)
    (l : QuestionList) (hl : (listedKanji d.store l).length < 65536) (hk : ∀ k ∈ listedKanji d.store l, k.Sound) (count : Nat)
    (h1 : 1 ≤ count) (h9 : count ≤ 9) (toReading : Bool) (question : UInt16) (meanings : Bool) (n : Nat) (r : Drawn)
    (s : InStream) :
    runList sort d mode order l count toReading question meanings n r s =
      .ok (listOutput sort d mode order l count toReading question.toNat meanings n r s) := by
  unfold runList listOutput
  simp only [listedKanji_eq, notBegun_eq, fieldsFor_eq, arrange_eq, legendFor_eq]
  cases hf : (listedKanji d.store l).find? fun k => d.detail.reading k = [] with
  | some k => rfl
  | none =>
    simp only
    have hr : ∀ k ∈ listedKanji d.store l, d.detail.reading k ≠ [] := by
      intro k hk
      simpa using List.find?_eq_none.mp hf k hk
    generalize listedKanji d.store l = ks at *
    rw [each_ok (listItem sort d (fieldsFor l)) (itemFor sort d l) _ fun k h => item_eq sort d l k (hk k (mem_arranged.mp h))]
    simp only [Res.bind, List.length_map, arranged_length]
    unfold beginAt
    have hr' : ∀ i ∈ (arranged order r.order ks).map (itemFor sort d l), i.reading ≠ [] := by
      intro i hi
      obtain ⟨k, h, rfl⟩ := List.mem_map.mp hi
      exact hr k (mem_arranged.mp h)
    by_cases hq : question.toNat ≤ ks.length
    · rw [if_pos hq]
      by_cases h0 : ks = []
      · subst h0
        have : (arranged order r.order ([] : List KanjiRec)).map (itemFor sort d l) = [] := by
          rw [List.map_eq_nil_iff]
          exact List.eq_nil_of_length_eq_zero (arranged_length order r.order [])
        rw [this, (no_draws _ _ _ _ _ _ _).1, (no_draws _ _ _ question _ _ _).2,
          C163_quiz _ h1 h9 _ [] (by simp) (by simp) _ hq _ _ _ (by simp)]
        exact begun question _ _
      · rw [C163_quiz _ h1 h9 _ _ (by rwa [List.length_map, arranged_length]) hr' _
          (by rwa [List.length_map, arranged_length])]
        · exact begun question ks.length _
        · intro a ha
          obtain ⟨b, -, rfl⟩ := List.mem_map.mp ha
          refine ⟨Nat.mod_lt _ h1, fun x hx => ?_⟩
          obtain ⟨y, -, rfl⟩ := List.mem_map.mp hx
          rw [List.length_map, arranged_length]
          exact Nat.mod_lt _ (List.length_pos_iff.mpr h0)
    · rw [if_neg hq]
      have hany : (((arranged order r.order ks).map (itemFor sort d l)).any fun i => i.reading = []) = false := by
        rw [List.any_eq_false]
        intro i hi
        simpa using hr' i hi
      have hb : beginQuiz question ((arranged order r.order ks).map (itemFor sort d l)).length = .throw .usage := by
        unfold beginQuiz
        rw [if_neg (by rintro rfl; simp at hq), if_pos (by rw [List.length_map, arranged_length]; omega)]
      unfold listQuiz
      simp only [hany, hb, Bool.false_eq_true, if_false, notBegun_eq]
      rfl

/-! ## Group quizzes -/

theorem member_eq (d : DetailData) (t : GroupType) (k : KanjiRec) : groupItem d t k = .ok (memberFor d t k) := by
  unfold groupItem memberFor
  rw [mark_eq]
  have h1 : (d.reading k != []) = decide (d.reading k ≠ []) := by
    cases d.reading k <;> simp
  have h2 : (k.kanji.type == .jouyou) = decide (k.kanji.type = .jouyou) := by
    cases k.kanji.type <;> rfl
  have h3 : k.kanji.level.isSome = decide (k.kanji.level ≠ none) := by
    cases k.kanji.level <;> rfl
  simp only [Res.bind, h1, h2, h3, otherGroup]
  cases t <;> rfl

theorem entry_eq (d : DetailData) (t : GroupType) (g : Group) : groupEntry d t g = .ok (entryFor d t g) := by
  unfold groupEntry entryFor groupTitle
  rw [each_ok _ (memberFor d t) _ fun k _ => member_eq d t k]
  cases g.members <;> rfl

theorem enough_eq (mt : MemberType) (g : GroupEntry) : enoughShown mt g = decide (2 ≤ (shownMembers mt g).length) := by
  unfold enoughShown shownMembers
  rw [List.countP_eq_length_filter]
  rfl

/-- Groups before the first one with the text of a part. -/
def beforePart (i : Nat) (g : GroupEntry) : Bool :=
  match partStarts[i]? with
  | some p => !containsStr p g.name
  | none => true

theorem selectLoop_all (mt : MemberType) (l : List GroupEntry) :
    selectLoop mt none true l = .ok (worthAsking mt l) := by
  induction l with
  | nil => rfl
  | cons g r ih =>
    unfold selectLoop
    simp only [if_true, ih, Res.bind, Bool.true_and, enough_eq]
    unfold worthAsking
    by_cases h : 2 ≤ (shownMembers mt g).length <;> simp [h]

theorem selectLoop_from (mt : MemberType) (b : Nat) (l : List GroupEntry) :
    selectLoop mt (some b) true l = .ok (worthAsking mt (l.takeWhile (beforePart b))) := by
  induction l with
  | nil => rfl
  | cons g r ih =>
    unfold selectLoop
    simp only [if_true, ih, Res.bind, Bool.true_and, enough_eq]
    have hb : beforePart b g = match patternGroups[b]? with | some p => !containsStr p g.name | none => true := rfl
    unfold worthAsking at *
    cases hp : patternGroups[b]? with
    | none =>
      rw [hp] at hb
      rw [List.takeWhile_cons_of_pos hb]
      by_cases h : 2 ≤ (shownMembers mt g).length <;> simp [h]
    | some p =>
      rw [hp] at hb
      have hb : beforePart b g = !containsStr p g.name := hb
      cases hc : containsStr p g.name with
      | true =>
        rw [hc] at hb
        rw [List.takeWhile_cons_of_neg (by rw [hb]; decide)]
        simp [hc]
      | false =>
        rw [hc] at hb
        rw [List.takeWhile_cons_of_pos hb]
        by_cases h : 2 ≤ (shownMembers mt g).length <;> simp [h, hc]

theorem selectLoop_part (mt : MemberType) (b : Nat) (hb : b < 5) (l : List GroupEntry) :
    selectLoop mt (some (b + 1)) false l = .ok (worthAsking mt (groupPart (b + 1) l)) := by
  obtain ⟨p, hp⟩ : ∃ p, patternGroups[b]? = some p := ⟨patternGroups[b], List.getElem?_eq_getElem hb⟩
  induction l with
  | nil => rfl
  | cons g r ih =>
    unfold selectLoop
    simp only [Bool.false_eq_true, if_false, Nat.add_sub_cancel, hp]
    have hb : beforePart b g = !containsStr p g.name := by
      unfold beforePart
      rw [show partStarts[b]? = some p from hp]
    have hpart : groupPart (b + 1) (g :: r) =
        match (g :: r).dropWhile (beforePart b) with
        | [] => []
        | g :: r => g :: r.takeWhile (beforePart (b + 1)) := rfl
    have hpart' : groupPart (b + 1) r =
        match r.dropWhile (beforePart b) with
        | [] => []
        | g :: r => g :: r.takeWhile (beforePart (b + 1)) := rfl
    cases hc : containsStr p g.name with
    | true =>
      rw [hc] at hb
      rw [hpart, List.dropWhile_cons_of_neg (by rw [hb]; decide), selectLoop_from]
      simp only [Res.bind, Bool.true_and, enough_eq]
      unfold worthAsking
      by_cases h : 2 ≤ (shownMembers mt g).length <;> simp [h]
    | false =>
      rw [hc] at hb
      rw [hpart, List.dropWhile_cons_of_pos hb, ih, ← hpart']
      rfl

theorem select_all (mt : MemberType) (order : QuestionOrder) (drawn : List Nat) (l : List GroupEntry) :
    selectGroups mt order drawn none l = .ok (arranged order drawn (worthAsking mt l)) := by
  unfold selectGroups
  rw [show (Option.getD none 0 == 0) = true from rfl, selectLoop_all, ← arrange_eq]
  rfl

theorem select_part (mt : MemberType) (order : QuestionOrder) (drawn : List Nat) (b : Nat) (hb : b < 6) (l : List GroupEntry) :
    selectGroups mt order drawn (some b) l = .ok (arranged order drawn (worthAsking mt (groupPart b l))) := by
  unfold selectGroups
  cases b with
  | zero =>
    rw [show (Option.getD (some 0) 0 == 0) = true from rfl, selectLoop_from, ← arrange_eq]
    rfl
  | succ b =>
    rw [show (Option.getD (some (b + 1)) 0 == 0) = false by simp, selectLoop_part mt b (by omega), ← arrange_eq]
    rfl

/-- Parts agree with those of C80. -/
theorem selectLoop_prepare (mt : MemberType) (b : Option Nat) (inc : Bool) (l : List GroupEntry) :
    (selectLoop mt b inc l).bind (fun r => .ok (r.map fun g => QuizGroup.mk g.name (g.members.map (·.info)))) =
      prepareLoop mt b inc (l.map fun g => ⟨g.name, g.members.map (·.info)⟩) := by
  induction l generalizing inc with
  | nil => rfl
  | cons g r ih =>
    have hen : enoughMembers mt ⟨g.name, g.members.map (·.info)⟩ = enoughShown mt g := by
      unfold enoughMembers enoughShown
      rw [List.countP_map]
      rfl
    have next : ∀ inc : Bool,
        (((selectLoop mt b inc r).bind fun l => Res.ok (if inc && enoughShown mt g then g :: l else l)).bind fun r =>
          Res.ok (r.map fun g => QuizGroup.mk g.name (g.members.map (·.info)))) =
        (prepareLoop mt b inc (r.map fun g => ⟨g.name, g.members.map (·.info)⟩)).bind fun l =>
          .ok (if inc && enoughMembers mt ⟨g.name, g.members.map (·.info)⟩ then ⟨g.name, g.members.map (·.info)⟩ :: l else l) := by
      intro inc
      rw [← ih, hen]
      cases selectLoop mt b inc r with
      | ok l => simp only [Res.bind]; split <;> rfl
      | throw e => rfl
      | ub => rfl
    rw [List.map_cons]
    unfold selectLoop prepareLoop
    cases inc with
    | true =>
      simp only [if_true]
      cases b with
      | none => exact next true
      | some b =>
        simp only
        cases patternGroups[b]? with
        | none => exact next true
        | some p =>
          simp only
          split
          · rfl
          · exact next true
    | false =>
      simp only [Bool.false_eq_true, if_false]
      cases b with
      | none => rfl
      | some b =>
        simp only
        cases patternGroups[b - 1]? with
        | none => rfl
        | some p => exact next _

/-- Groups that can be asked. -/
theorem groups_output (quizMode : Bool) (t : GroupType) (mt : MemberType) (groups : List GroupEntry)
    (htot : groups.length < 65536) (hg : ∀ g ∈ groups, Listed mt g) (question : UInt16) (meanings : Bool) (n : Nat) (r : Drawn)
    (s : InStream) :
    runGroups quizMode t mt groups question meanings n r s =
      .ok (beginAt quizMode question.toNat groups.length
        (playQuiz quizMode t mt groups question.toNat meanings n r.members s)) := by
  unfold runGroups beginAt
  by_cases hq : question.toNat ≤ groups.length
  · rw [if_pos hq, C162_quiz quizMode t mt groups htot hg question hq]
    exact begun question _ _
  · rw [if_neg hq]
    have hb : beginQuiz question groups.length = .throw .usage := by
      unfold beginQuiz
      rw [if_neg (by rintro rfl; simp at hq), if_pos (by omega)]
    unfold groupStartQuiz
    simp only [hb, notBegun_eq]
    rfl

/-- What has to hold for the groups that a quiz may ask: at most 26 members are shown, and what is shown isn't too long. -/
def GroupsFit (d : DetailData) : Prop :=
  ∀ t mt, (groupsOf d t).length < 65536 ∧
    ∀ g ∈ groupsOf d t, (2 ≤ (shownMembers mt g).length ∨ (t = .meaning ∧ mt = .all)) → Listed mt g

theorem groupPart_sub (b : Nat) (l : List GroupEntry) : (groupPart b l).Sublist l := by
  unfold groupPart
  cases b with
  | zero => exact List.takeWhile_sublist _
  | succ b =>
    simp only
    split
    · exact List.nil_sublist _
    · next g r h =>
      exact (List.Sublist.cons_cons g (List.takeWhile_sublist _)).trans (h ▸ List.dropWhile_sublist _)

theorem group_output (d : DetailStore) (hd : GroupsFit d.detail) (mode : ProgramMode) (order : QuestionOrder) (patterns : Bool)
    (mt : MemberType) (question : UInt16) (meanings : Bool) (n : Nat) (r : Drawn) (s : InStream) :
    runGroup d mode order patterns (some mt) question meanings n r s =
      .ok (groupOutput d mode order patterns mt question.toNat meanings n r s) := by
  unfold runGroup groupOutput
  simp only [notBegun_eq]
  have hworth : ∀ (t : GroupType) (l : List GroupEntry), l.Sublist (groupsOf d.detail t) →
      (arranged order r.order (worthAsking mt l)).length < 65536 ∧
      ∀ g ∈ arranged order r.order (worthAsking mt l), Listed mt g := by
    intro t l hl
    obtain ⟨h1, h2⟩ := hd t mt
    constructor
    · rw [arranged_length]
      have := hl.length_le
      have : (worthAsking mt l).length ≤ l.length := List.length_filter_le _ _
      omega
    · intro g hg
      have hg := mem_arranged.mp hg
      obtain ⟨h3, h4⟩ := List.mem_filter.mp hg
      exact h2 g (hl.mem h3) (.inl (by simpa using h4))
  cases patterns with
  | true =>
    simp only [if_true]
    rw [each_ok _ (entryFor d.detail .pattern) _ fun g _ => entry_eq d.detail .pattern g]
    have hall : d.detail.patterns.groups.map (entryFor d.detail .pattern) = groupsOf d.detail .pattern := rfl
    simp only [Res.bind, hall]
    by_cases h0 : groupsOf d.detail .pattern = []
    · rw [if_pos h0, if_pos h0]
    · rw [if_neg h0, if_neg h0]
      obtain ⟨cs, hp, hk⟩ := C161_prompt
      have hrun : patternAsk.run n s = .ok (typedOr
          (u8!"Pattern name (/=quit, 1=ア, 2=カ, 3=サ, 4=タ、ナ, 5=ハ、マ, 6=ヤ、ラ、ワ) def '1': ") (u8!"/123456") (some 0x31) n s []) := by
        unfold Ask.run
        rw [hp]
        simp only [Res.bind]
        rw [typedOr_eq, hk]
        rfl
      rw [hrun]
      simp only
      generalize ht : typedOr _ _ _ n s [] = z
      obtain ⟨text, o⟩ := z
      cases o with
      | none => rfl
      | some x =>
        obtain ⟨c, s'⟩ := x
        have hc : c ∈ (u8!"/123456" : Str) := typedOr_key (by intro c h; cases h; decide) ht
        simp only [Talk.finish]
        by_cases hq : c = 0x2f
        · have hq' : c = quitOption := hq
          rw [if_pos hq, if_pos hq']
        · have hq' : ¬ c = quitOption := hq
          rw [if_neg hq, if_neg hq']
          have hb : (c - 0x31).toNat = c.toNat - 49 ∧ c.toNat - 49 < 6 := by
            clear ht hrun
            revert hq
            revert c
            decide +kernel
          obtain ⟨h2, h3⟩ := hworth .pattern _ (groupPart_sub (c.toNat - 49) _)
          rw [hb.1, select_part _ _ _ _ hb.2]
          simp only
          rw [groups_output _ _ _ _ h2 h3]
  | false =>
    simp only [Bool.false_eq_true, if_false]
    rw [each_ok _ (entryFor d.detail .meaning) _ fun g _ => entry_eq d.detail .meaning g]
    have hall : d.detail.meanings.groups.map (entryFor d.detail .meaning) = groupsOf d.detail .meaning := rfl
    simp only [Res.bind, hall]
    by_cases h0 : groupsOf d.detail .meaning = []
    · rw [if_pos h0, if_pos h0]
    · rw [if_neg h0, if_neg h0]
      by_cases h1 : order = .fromBeginning ∧ mt = .all
      · rw [if_pos h1, if_pos h1, groups_output]
        · exact (hd .meaning mt).1
        · exact fun g hg => (hd .meaning mt).2 g hg (.inr ⟨rfl, h1.2⟩)
      · obtain ⟨h2, h3⟩ := hworth .meaning _ (List.Sublist.refl _)
        rw [if_neg h1, if_neg h1, select_all]
        simp only
        rw [groups_output _ _ _ _ h2 h3]

/-! ## The program -/

/-- What has to hold for the data: kanji of the lists and groups can be shown, and lists aren't too long. -/
structure DataFits (d : DetailStore) : Prop where
  sound : ∀ l, ∀ k ∈ listedKanji d.store l, k.Sound
  length : ∀ l, (listedKanji d.store l).length < 65536
  groups : GroupsFit d.detail

theorem quiz_output (sort : List KanjiRec → List KanjiRec) (d : DetailStore) (hd : DataFits d) (a : LaunchArgs) (ha : ArgsInv a)
    (n : Nat) (r : Drawn) (s : InStream) :
    runQuiz sort d a n r s = .ok ((dialog n a s).finish (quizOutput sort d a.question a.showMeanings n r)) := by
  have hq : (UInt16.ofNat a.question).toNat = a.question := by
    have := ha.question
    simp [UInt16.toNat_ofNat']; omega
  obtain ⟨text, o, h, hv⟩ := C156_valid n a.launcher a.quizType a.qList ha.type ha.list s
  have hs := C166_dialog n a ha s
  unfold runQuiz
  rw [h] at hs ⊢
  simp only [LaunchRun.seen, Res.bind, Res.ok.injEq] at hs ⊢
  rw [← hs]
  cases o with
  | none => rfl
  | some x =>
    obtain ⟨l', ch, s'⟩ := x
    have hv := hv _ _ _ rfl
    simp only [Option.map_some, Talk.finish]
    cases ch with
    | quit => rfl
    | list mode order l count toReading =>
      have hc : 1 ≤ count ∧ count ≤ 9 := by
        obtain ⟨-, -, -, h | h⟩ := hv <;> omega
      simp only [quizOutput]
      rw [list_output sort d mode order l (hd.length l) (hd.sound l) count hc.1 hc.2, hq]
    | group mode order patterns members =>
      obtain ⟨-, -, c, hc, h1, h2⟩ := hv
      obtain ⟨mt, rfl⟩ := Option.isSome_iff_exists.mp h2
      simp only [quizOutput, Option.getD_some]
      rw [group_output d hd.groups, hq]

/-- For any arguments and any input the program writes what is specified. -/
theorem C167_program (sort : List KanjiRec → List KanjiRec) (d : DetailStore) (hd : DataFits d) (card : Str → Str)
    (hc : ∀ name, detailText sort d name = .ok (card name)) (ranked : Nat → Option KanjiRec)
    (hr : ∀ n ≤ 65535, d.store.frequencies.find n = .ok (ranked n)) (e : StoulTexts) (debug : Bool) (args : List Str) (n : Nat)
    (r : Drawn) (s : InStream) :
    runProgram sort d e debug args n r s = .ok (programOutput sort d card ranked e debug args n r s) := by
  unfold runProgram programOutput
  rw [C165_arguments]
  cases hu : understood e args with
  | error m => rfl
  | ok x =>
    cases x with
    | help => rfl
    | kanji arg =>
      simp only [C164_shown sort d card hc ranked hr arg]
      have : kanjiPage card ranked d.store arg ≠ .ub := by
        unfold kanjiPage
        split
        · intro h; cases h
        · split <;> (intro h; cases h)
        all_goals (intro h; cases h)
      cases hk : kanjiPage card ranked d.store arg with
      | text t => rfl
      | error m => rfl
      | ub => exact absurd hk this
    | start a =>
      simp only
      cases debug with
      | true => rfl
      | false =>
        have ha : ArgsInv a := by
          have h1 := C165_messages e args false {}
          rw [C165_arguments, hu] at h1
          cases hl : launchLoop false {} args with
          | ok b =>
            rw [hl] at h1
            obtain rfl : Launch.start a = b := h1
            exact launchLoop_inv args false {} ⟨by simp, by simp, by simp, by simp⟩ a hl
          | throw _ => rw [hl] at h1; exact h1.elim
          | ub => rw [hl] at h1; exact h1.elim
        exact quiz_output sort d hd a ha n r s

/-- The program from its command line to its exit code. -/
theorem C167_main (sort : List KanjiRec → List KanjiRec) (d : DetailStore) (hd : DataFits d) (card : Str → Str)
    (hc : ∀ name, detailText sort d name = .ok (card name)) (ranked : Nat → Option KanjiRec)
    (hr : ∀ n ≤ 65535, d.store.frequencies.find n = .ok (ranked n)) (e : StoulTexts) (debug : Bool) (argv : List Str)
    (hn : argv.length < 65535) (n : Nat) (r : Drawn) (s : InStream) :
    mainQuiz sort d e debug argv n r s =
      some (.ok (mainOutput (programOutput sort d card ranked e debug (programArgs false (argv.drop 1)) n r s))) := by
  unfold mainQuiz
  rw [C45_args_partial argv (by omega) (by omega) _ (by omega)]
  simp only [Option.map_some, Res.bind]
  rw [C167_program sort d hd card hc ranked hr]
  rfl

/-- Whatever the arguments and the input are, the program doesn't crash. -/
theorem C167_total (sort : List KanjiRec → List KanjiRec) (d : DetailStore) (hd : DataFits d) (hs : d.Sound)
    (hr : ∀ n ≤ 65535, ∃ k, d.store.frequencies.find n = .ok k) (e : StoulTexts) (debug : Bool) (args : List Str) (n : Nat)
    (r : Drawn) (s : InStream) : ∃ o, runProgram sort d e debug args n r s = .ok o := by
  obtain ⟨card, hc⟩ := C164_cards sort d hs
  have : ∃ ranked : Nat → Option KanjiRec, ∀ n ≤ 65535, d.store.frequencies.find n = .ok (ranked n) := by
    refine ⟨fun n => if h : n ≤ 65535 then Classical.choose (hr n h) else none, fun n h => ?_⟩
    simp only [dif_pos h]
    exact Classical.choose_spec (hr n h)
  obtain ⟨ranked, hr'⟩ := this
  exact ⟨_, C167_program sort d hd card hc ranked hr' e debug args n r s⟩

end KT
