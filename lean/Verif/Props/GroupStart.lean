import Verif.Props.GroupPrompt
import Verif.Props.LaunchSession
/-!
# Starting a group quiz, groups with more than 26 members (GroupQuiz.cpp:28-47 and 256-275)
-/
namespace KT
open Spec

/-- A member of the examples. -/
def plainItem : GroupItem := ⟨u8!"亜", u8!"ア", none, ⟨true, true, false, 0⟩, ⟨u8!"亜.", none, none⟩⟩

/-- A group with 27 members; the first group of the file has more. -/
def bigGroup : GroupEntry := ⟨u8!"x", u8!"[x]", List.replicate 27 plainItem⟩

/-- All letters in order. -/
def bigInput : Str := (List.range 27).flatMap fun i => [groupLetter i, 0x0a]

/-- Claim: for groups with members for all of which there is a letter, nothing that is entered is an error. -/
def C159_statement : Prop :=
  ∀ (quizMode : Bool) (t : GroupType) (mt : MemberType) (groups : List GroupEntry),
    (∀ g ∈ groups, 1 ≤ (shownMembers mt g).length ∧ (shownMembers mt g).length ≤ 58 ∧
      ∀ i ∈ shownMembers mt g, PinyinFits i) →
    ∀ n orders st s, groupSession quizMode t mt groups n orders st s ≠ .ub

set_option maxRecDepth 20000 in
theorem big_ub : groupSession true .meaning .jouyou [bigGroup] 28 [(List.range 27, List.range 27)]
    ⟨0, 0, [], false, false⟩ { rest := bigInput } = .ub := by
  decide +kernel

theorem big_fits : ∀ g ∈ [bigGroup], 1 ≤ (shownMembers .jouyou g).length ∧ (shownMembers .jouyou g).length ≤ 58 ∧
    ∀ i ∈ shownMembers .jouyou g, PinyinFits i := by
  intro g hg
  obtain rfl : g = bigGroup := by simpa using hg
  refine ⟨by decide, by decide, fun i hi => ?_⟩
  have : i = plainItem := by
    have := (List.mem_filter.1 hi).1
    exact List.eq_of_mem_replicate this
  subst this
  simp [PinyinFits, plainItem]

/-- When all questions of a group of 27 are answered the letter `A` is taken for a position far outside of the list. -/
theorem C159_violated : ¬ C159_statement := fun h => h _ _ _ _ big_fits _ _ _ _ big_ub

/-! ## The start -/

/-- The part of the pattern groups is asked for with this text; only these keys, or return for the first part, are
accepted. -/
theorem C161_prompt :
    ∃ cs : Choices, patternAsk.prepare =
        .ok (cs, u8!"Pattern name (/=quit, 1=ア, 2=カ, 3=サ, 4=タ、ナ, 5=ハ、マ, 6=ヤ、ラ、ワ) def '1': ") ∧
      cs.map (·.1) = u8!"/123456" := by
  have h : offerResult patternAsk.prepare = some (u8!"/123456",
      u8!"Pattern name (/=quit, 1=ア, 2=カ, 3=サ, 4=タ、ナ, 5=ハ、マ, 6=ヤ、ラ、ワ) def '1': ") := by decide +kernel
  unfold offerResult at h
  split at h
  · next cs text h' =>
    simp only [Option.some.injEq, Prod.mk.injEq] at h
    exact ⟨cs, by rw [h', h.2], h.1⟩
  · cases h

/-- Claim: quitting at the prompt for the part of the pattern groups skips the questions before the one asked for, as
quitting at that question does. -/
def C161_statement : Prop :=
  ∀ (mt : MemberType) (list : List GroupEntry) (select : Option Nat → List GroupEntry) (question : UInt16) (shown : Bool)
    (n : Nat) (orders : List (List Nat × List Nat)) (s s' : InStream) (asked : Str),
    list ≠ [] → question ≠ 0 → patternAsk.run n s = .ok (asked, some (quitOption, s')) →
    groupQuiz true .pattern mt list select question shown n orders s =
      .ok (asked ++ ListState.finish true { current := question - 1, shown := shown }, some (.ok s'))

/-- Quitting before a quiz that starts with its first question has a skipped question in the final score. -/
theorem C161_violated : ¬ C161_statement := by
  intro h
  have h1 : patternAsk.run 1 { rest := u8!"/\n" } = .ok
      (u8!"Pattern name (/=quit, 1=ア, 2=カ, 3=サ, 4=タ、ナ, 5=ハ、マ, 6=ヤ、ラ、ワ) def '1': ",
        some (quitOption, { rest := [] })) := by decide +kernel
  have := h .jouyou [bigGroup] (fun _ => [bigGroup]) 1 false 1 [] _ _ _ (by simp) (by decide) h1
  have h2 : groupQuiz true .pattern .jouyou [bigGroup] (fun _ => [bigGroup]) 1 false 1 [] { rest := u8!"/\n" } =
      .ok (u8!"Pattern name (/=quit, 1=ア, 2=カ, 3=サ, 4=タ、ナ, 5=ハ、マ, 6=ヤ、ラ、ワ) def '1': " ++
        ListState.finish true { current := 1, shown := false }, some (.ok { rest := [] })) := by
    unfold groupQuiz
    simp only [h1, Res.bind]
    rfl
  rw [h2] at this
  simp only [Res.ok.injEq, Prod.mk.injEq, List.append_cancel_left_eq] at this
  revert this
  decide +kernel

/-- The state a quiz starts with. -/
def startScore (question : UInt16) : QuizScore := { current := if question = 0 then 0 else question - 1 }

/-- A quiz that comes to its end, for these groups: the text has the heading, what the questions write and the final
score, which is that of actions offered for the questions. -/
def Played (quizMode : Bool) (t : GroupType) (mt : MemberType) (groups : List GroupEntry) (question : UInt16) (text : Str) :
    Prop :=
  ∃ body st acts, text = groupBegin quizMode t mt groups.length ++ body ++ ListState.finish quizMode st ∧
    quizLoop quizMode groups.length (startScore question) acts = .finished st.score ∧
    st.mistakes = missedNames (groups.map (·.name)) (startScore question) acts

theorem startQuiz_cases (quizMode : Bool) (t : GroupType) (mt : MemberType) (groups : List GroupEntry)
    (hg : ∀ g ∈ groups, Askable mt g) (question : UInt16) (shown : Bool) (n : Nat) (orders : List (List Nat × List Nat))
    (s : InStream) :
    ∃ text o, groupStartQuiz quizMode t mt groups question shown n orders s = .ok (text, o) ∧
      (question.toNat > groups.length → o = some (.error .usage) ∧
        text = ListState.finish quizMode { current := question, shown := shown }) ∧
      (¬ question.toNat > groups.length → (∀ e, o ≠ some (.error e)) ∧
        ∀ s', o = some (.ok s') → Played quizMode t mt groups question text) := by
  have hrun : ∀ c : UInt16, (startScore question).current = c →
      ∃ text o, ((groupSession quizMode t mt groups n orders { current := c, shown := shown } s).bind fun r =>
        let text := groupBegin quizMode t mt groups.length ++ r.1
        match r.2 with
        | none => .ok (text, none)
        | some (st, s) => .ok (text ++ st.finish quizMode, some (.ok s)) : Res (Str × Option (Except Exc InStream))) =
          .ok (text, o) ∧ (∀ e, o ≠ some (.error e)) ∧ ∀ s', o = some (.ok s') → Played quizMode t mt groups question text := by
    intro c hc
    obtain ⟨out, res, h, hres⟩ := C159_session_partial quizMode t mt groups hg n orders { current := c, shown := shown } s
    have hsc : ListState.score { current := c, shown := shown } = startScore question := by
      subst hc; rfl
    rw [h]
    simp only [Res.bind]
    cases res with
    | none => exact ⟨_, _, rfl, by simp, by simp⟩
    | some x =>
      obtain ⟨st, s'⟩ := x
      refine ⟨_, _, rfl, by simp, fun s'' _ => ?_⟩
      obtain ⟨acts, h1, h2⟩ := hres st s' rfl
      rw [hsc] at h1 h2
      exact ⟨out, st, acts, rfl, h1, by simpa using h2⟩
  unfold groupStartQuiz beginQuiz
  by_cases h0 : question = 0
  · rw [if_pos h0]
    obtain ⟨text, o, h, h1⟩ := hrun 0 (by simp [startScore, h0])
    exact ⟨text, o, h, fun hq => by subst h0; simp at hq, fun _ => h1⟩
  · rw [if_neg h0]
    by_cases hb : question.toNat > groups.length
    · rw [if_pos hb]
      exact ⟨_, _, rfl, fun _ => ⟨rfl, rfl⟩, fun h => absurd hb h⟩
    · rw [if_neg hb]
      obtain ⟨text, o, h, h1⟩ := hrun (question - 1) (by simp [startScore, h0])
      exact ⟨text, o, h, fun hq => absurd hq hb, fun _ => h1⟩

/-- Whatever is entered a group quiz for groups with at most 26 members shown has no error but these: the list of groups
is empty, or the question to start with is after the last one; then nothing but the final score is written after the
prompt.  A quiz that comes to its end has the text of a quiz with the groups chosen, unless it was quit at the prompt. -/
theorem C161_start_partial (quizMode : Bool) (t : GroupType) (mt : MemberType) (list : List GroupEntry)
    (select : Option Nat → List GroupEntry) (hg : ∀ b, ∀ g ∈ select b, Askable mt g) (question : UInt16) (shown : Bool)
    (n : Nat) (orders : List (List Nat × List Nat)) (s : InStream) :
    ∃ text o, groupQuiz quizMode t mt list select question shown n orders s = .ok (text, o) ∧
      let final := ListState.finish quizMode { current := question, shown := shown }
      (list = [] → o = some (.error .domain) ∧ text = final) ∧
      (list ≠ [] →
        (t = .meaning →
          (question.toNat > (select none).length → o = some (.error .usage) ∧ text = final) ∧
          (¬ question.toNat > (select none).length → (∀ e, o ≠ some (.error e)) ∧
            ∀ s', o = some (.ok s') → Played quizMode t mt (select none) question text)) ∧
        (t = .pattern → ∃ asked reply, patternAsk.run n s = .ok (asked, reply) ∧
          (reply = none → o = none ∧ text = asked) ∧
          ∀ c s1, reply = some (c, s1) →
            (c = quitOption ∧ o = some (.ok s1) ∧ text = asked ++ final) ∨
            ∃ i < 6, c.toNat = 0x31 + i ∧ ∃ text', text = asked ++ text' ∧
              (question.toNat > (select (some i)).length → o = some (.error .usage) ∧ text' = final) ∧
              (¬ question.toNat > (select (some i)).length → (∀ e, o ≠ some (.error e)) ∧
                ∀ s', o = some (.ok s') → Played quizMode t mt (select (some i)) question text'))) := by
  unfold groupQuiz
  simp only
  by_cases hl : list = []
  · rw [if_pos hl]
    exact ⟨_, _, rfl, fun _ => ⟨rfl, rfl⟩, fun h => absurd hl h⟩
  rw [if_neg hl]
  cases t with
  | meaning =>
    obtain ⟨text, o, h, h1, h2⟩ := startQuiz_cases quizMode .meaning mt (select none) (hg none) question shown n orders s
    simp only [h]
    exact ⟨text, o, rfl, fun h => absurd h hl, fun _ => ⟨fun _ => ⟨h1, h2⟩, fun h => by cases h⟩⟩
  | pattern =>
    obtain ⟨cs, hp, hk⟩ := C161_prompt
    cases ha : Choice.ask (u8!"Pattern name (/=quit, 1=ア, 2=カ, 3=サ, 4=タ、ナ, 5=ハ、マ, 6=ヤ、ラ、ワ) def '1': ") cs
      (some 0x31) n s [] with
    | mk asked reply =>
      have hr : patternAsk.run n s = .ok (asked, reply) := by
        unfold Ask.run
        rw [hp]
        simp only [Res.bind]
        rw [show patternAsk.dflt = some 0x31 from rfl, ha]
      simp only [hr, Res.bind]
      cases reply with
      | none =>
        exact ⟨_, _, rfl, fun h => absurd h hl, fun _ => ⟨fun h => (by cases h), fun _ => ⟨asked, none, rfl,
          fun _ => ⟨rfl, rfl⟩, by simp⟩⟩⟩
      | some p =>
        obtain ⟨c, s1⟩ := p
        have hc := ask_key (by
          intro d h
          rw [has_keys, hk]
          cases h; decide) ha
        rw [has_keys, hk] at hc
        by_cases hq : c = quitOption
        · simp only [if_pos hq]
          refine ⟨_, _, rfl, fun h => absurd h hl, fun _ => ⟨fun h => (by cases h), fun _ => ⟨asked, _, rfl, by simp, ?_⟩⟩⟩
          intro c' s2 he
          simp only [Option.some.injEq, Prod.mk.injEq] at he
          exact Or.inl ⟨by rw [← he.1, hq], by rw [he.2], rfl⟩
        · simp only [if_neg hq]
          have hi : ∃ i < 6, c.toNat = 0x31 + i ∧ (c - 0x31).toNat = i := by
            have hc' : c ∈ (u8!"123456" : Str) := key_split hc hq
            revert hc'
            have : ∀ c ∈ (u8!"123456" : Str), ∃ i < 6, c.toNat = 0x31 + i ∧ (c - 0x31).toNat = i := by decide
            exact this c
          obtain ⟨i, hi6, hci, hcs⟩ := hi
          obtain ⟨text, o, h, h1, h2⟩ := startQuiz_cases quizMode .pattern mt (select (some i)) (hg _) question shown n
            orders s1
          simp only [hcs, h]
          refine ⟨_, _, rfl, fun h => absurd h hl, fun _ => ⟨fun h => (by cases h), fun _ => ⟨asked, _, rfl, by simp, ?_⟩⟩⟩
          intro c' s2 he
          simp only [Option.some.injEq, Prod.mk.injEq] at he
          obtain ⟨rfl, rfl⟩ := he
          exact Or.inr ⟨i, hi6, hci, text, rfl, h1, h2⟩

/-! ## Examples (tests/quiz/GroupQuizTest.cpp) -/

/-- The group 亜：ア、アク. -/
def aGroup : GroupEntry := ⟨u8!"亜：ア、アク", u8!"[亜：ア、アク]",
  [⟨u8!"亜", u8!"ア", some (u8!"Asia"), ⟨true, true, false, 0⟩, ⟨u8!"亜.", none, none⟩⟩,
   ⟨u8!"悪", u8!"アク", some (u8!"bad"), ⟨true, true, false, 0⟩, ⟨u8!"悪.", none, none⟩⟩]⟩

/-- The quiz of the tests. -/
def aQuiz (input : Str) : Res (Str × Option (Except Exc InStream)) :=
  groupQuiz true .pattern .jouyou [aGroup] (fun _ => [aGroup, aGroup]) 0 false 20
    [([0, 1], [0, 1]), ([0, 1], [0, 1])] { rest := input }

/-- The text ends like this. -/
def endsLike (r : Res (Str × Option (Except Exc InStream))) (e : Str) : Bool :=
  (quizText r).any fun x => e.isSuffixOf x.1

-- CorrectResponse and IncorrectResponse
example : endsLike (aQuiz (u8!"1\na\nb\n/\n")) (u8!"\nFinal score: 1/1 - Perfect!\n") = true := by decide +kernel
example : endsLike (aQuiz (u8!"1\nb\na\n/\n")) (u8!"\nFinal score: 0/1 - mistakes: 亜：ア、アク\n") = true := by decide +kernel
-- SkipQuestions
example : endsLike (aQuiz (u8!"1\n.\n.\n/\n")) (u8!"\nFinal score: 0/2, skipped: 2\n") = true := by decide +kernel
-- EditAfterOneAnswer
example : endsLike (aQuiz (u8!"1\na\n*\nb\na\n/\n")) (u8!"\nFinal score: 0/1 - mistakes: 亜：ア、アク\n") = true := by
  decide +kernel

example : ∀ g ∈ [aGroup, aGroup], Askable .jouyou g := by
  intro g hg
  obtain rfl : g = aGroup := by simpa using hg
  refine ⟨by decide, by decide, fun i hi => ?_⟩
  have : i.shown.pinyin = none := by
    have := (List.mem_filter.1 hi).1
    simp only [aGroup, List.mem_cons, List.not_mem_nil, or_false] at this
    rcases this with rfl | rfl <;> rfl
  simp [PinyinFits, this]

end KT
