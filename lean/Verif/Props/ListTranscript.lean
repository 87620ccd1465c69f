import Verif.Spec.ListTranscript
import Verif.Props.GroupTranscript
import Verif.Props.ListSession
/-!
# A list quiz writes exactly what is specified, for any input (ListQuiz.cpp, Quiz.cpp, Choice.cpp)
-/
namespace KT
open Spec

/-! ## Prompts -/

theorem typed_eq (prompt : Str) (cs : Choices) : ∀ (n : Nat) (s : InStream) (line : Str),
    Choice.ask prompt cs none n s line = typed prompt (cs.map (·.1)) n s line := by
  intro n
  induction n with
  | zero => intro s line; rfl
  | succ n ih =>
    intro s line
    simp only [Choice.ask, typed]
    generalize hg : s.getline line = g
    obtain ⟨s', l⟩ := g
    simp only
    match l with
    | [] => simp only [Choice.answer, ih, Talk.begin]
    | [c] =>
      simp only [Choice.answer]
      by_cases hc : cs.has c = true
      · rw [if_pos hc, if_pos ((has_keys cs c).1 hc)]
      · rw [if_neg hc, if_neg (fun h => hc ((has_keys cs c).2 h))]
        simp only [ih, Talk.begin]
    | _ :: _ :: _ => simp only [Choice.answer, ih, Talk.begin]

/-! ## Answers -/

theorem getD_lt {l : List Str} {d : Nat} (h : d < l.length) : l.getD d [] = l[d] := by
  rw [List.getD_eq_getElem?_getD, List.getElem?_eq_getElem h]
  rfl

theorem drawChoice_new (readings seen : List Str) : ∀ (ds : List Nat), (∀ d ∈ ds, d < readings.length) →
    (drawChoice readings seen ds = .ok none ∧ newReadings readings seen ds = []) ∨
    ∃ d rest, drawChoice readings seen ds = .ok (some (d, readings.getD d [] :: seen, rest)) ∧
      newReadings readings seen ds = d :: newReadings readings (readings.getD d [] :: seen) rest ∧
      ∀ d ∈ rest, d < readings.length := by
  intro ds
  induction ds with
  | nil => intro _; exact Or.inl ⟨rfl, rfl⟩
  | cons d ds ih =>
    intro h
    have hd : d < readings.length := h d (by simp)
    simp only [drawChoice, newReadings, List.getElem?_eq_getElem hd, getD_lt hd]
    by_cases hc : readings[d] ∈ seen
    · rw [if_pos (by simpa using hc), if_pos hc]
      exact ih fun x hx => h x (by simp [hx])
    · rw [if_neg (by simpa using hc), if_neg hc]
      exact Or.inr ⟨d, ds, by rw [getD_lt hd], by rw [getD_lt hd],
        fun x hx => h x (by simp [hx])⟩

theorem populate_after (readings : List Str) (question correct : Nat) : ∀ (n i : Nat) (seen : List Str) (ds : List Nat),
    correct < i → (∀ d ∈ ds, d < readings.length) →
    populateLoop readings question correct n i seen ds =
      .ok (if (newReadings readings seen ds).length < n then none else some ((newReadings readings seen ds).take n)) := by
  intro n
  induction n with
  | zero => intro i seen ds _ _; simp [populateLoop]
  | succ n ih =>
    intro i seen ds hi h
    rw [populateLoop, if_neg (by omega)]
    rcases drawChoice_new readings seen ds h with ⟨h1, h2⟩ | ⟨d, rest, h1, h2, h3⟩
    · rw [h1, h2]; simp [Res.bind]
    · rw [h1, h2]
      simp only [Res.bind, ih (i + 1) _ rest (by omega) h3, List.length_cons, Nat.add_lt_add_iff_right, List.take_succ_cons]
      split <;> rfl

theorem populate_before (readings : List Str) (question m : Nat) : ∀ (k i : Nat) (seen : List Str) (ds : List Nat),
    (∀ d ∈ ds, d < readings.length) →
    populateLoop readings question (i + k) (k + 1 + m) i seen ds =
      .ok (if (newReadings readings seen ds).length < k + m then none
        else some ((newReadings readings seen ds).take k ++ question :: ((newReadings readings seen ds).drop k).take m)) := by
  intro k
  induction k with
  | zero =>
    intro i seen ds h
    rw [show 0 + 1 + m = m + 1 by omega, populateLoop, if_pos (by omega),
      populate_after readings question _ m (i + 1) seen ds (by omega) h]
    simp only [Res.bind, Nat.zero_add, List.take_zero, List.drop_zero, List.nil_append]
    split <;> rfl
  | succ k ih =>
    intro i seen ds h
    rw [show k + 1 + 1 + m = (k + 1 + m) + 1 by omega, populateLoop, if_neg (by omega)]
    rcases drawChoice_new readings seen ds h with ⟨h1, h2⟩ | ⟨d, rest, h1, h2, h3⟩
    · rw [h1, h2]; simp [Res.bind]
    · rw [h1, h2, show i + (k + 1) = (i + 1) + k by omega]
      simp only [Res.bind, ih (i + 1) _ rest h3, List.length_cons, List.take_succ_cons, List.drop_succ_cons]
      rw [show k + 1 + m = (k + m) + 1 by omega]
      simp only [Nat.add_lt_add_iff_right]
      split <;> rfl

/-- The answers are as specified. -/
theorem answers_eq (readings : List Str) (question count correct : Nat) (hq : question < readings.length)
    (hc : correct < count) (ds : List Nat) (hd : ∀ d ∈ ds, d < readings.length) :
    populateAnswers readings question count correct ds = .ok (shownAnswers readings question count correct ds) := by
  unfold populateAnswers shownAnswers
  rw [List.getElem?_eq_getElem hq, getD_lt hq]
  have := populate_before readings question (count - 1 - correct) correct 0 [readings[question]] ds hd
  rw [Nat.zero_add, show correct + 1 + (count - 1 - correct) = count by omega] at this
  simp only [this, Res.ok.injEq]
  rw [show correct + (count - 1 - correct) = count - 1 by omega]
  by_cases h : (newReadings readings [readings[question]] ds).length < count - 1
  · rw [if_pos h, if_pos (by omega)]
  · rw [if_neg h, if_neg (by omega)]

/-! ## Pages -/

theorem filterMap_of_map {α β : Type} (f : α → Option β) : ∀ (l : List α) (xs : List β), l.map f = xs.map some → l.filterMap f = xs
  | [], [], _ => rfl
  | [], _ :: _, h => by simp at h
  | _ :: _, [], h => by simp at h
  | a :: l, x :: xs, h => by
    simp only [List.map_cons, List.cons.injEq] at h
    rw [List.filterMap_cons, h.1, filterMap_of_map f l xs h.2]

theorem listLines_eq (y : ListStyle) (items : List ListItem) (answers : List Nat) (h : ∀ a ∈ answers, a < items.length)
    (i : ListItem) : y.choiceText items answers i = .ok (answersText y items answers i) := by
  unfold ListStyle.choiceText answersText
  cases hm : y.quizMode with
  | false => rfl
  | true =>
    obtain ⟨xs, h1, h2⟩ := answerLines_ok y items answers 0 h
    rw [if_pos rfl, if_pos rfl, h2, filterMap_of_map _ _ _ h1]
    rfl

theorem askedText_eq (y : ListStyle) (i : ListItem) (meanings : Bool) : y.question meanings i = askedText y i meanings := by
  unfold ListStyle.question askedText printMeaning
  cases i.meaning <;> cases meanings <;> cases y.quizMode <;> simp

theorem listPage_eq (y : ListStyle) (current : UInt16) (items : List ListItem) (answers : List Nat) (i : ListItem)
    (meanings : Bool) :
    questionHead y.quizMode current items.length ++ y.question meanings i ++ answersText y items answers i =
      listPage y (current.toNat + 1) items answers i meanings := by
  unfold questionHead listPage
  rw [askedText_eq]

/-! ## Verdicts -/

theorem digit_is (correct : Nat) (h : correct < 9) (c : UInt8) : 0x31 + UInt8.ofNat correct = c ↔ c.toNat = 49 + correct := by
  have : (0x31 + UInt8.ofNat correct).toNat = 49 + correct := by
    rw [UInt8.toNat_add]; simp; omega
  rw [← this]
  exact ⟨fun h => by rw [h], fun h => (UInt8.toNat_inj.1 h).symm⟩

theorem digit_dec (correct : Nat) (h : correct < 9) : [0x31 + UInt8.ofNat correct] = toDec (correct + 1) := by
  have : ∀ c < 9, [0x31 + UInt8.ofNat c] = toDec (c + 1) := by decide +kernel
  exact this correct h

/-- A key that ends a question has the verdict specified. -/
theorem listVerdict_eq (y : ListStyle) (h9 : y.count ≤ 9) (total : Nat) (htot : total < 65536) (st : ListState) (correct : Nat)
    (hc : correct < y.count) (name : Str) (ho : Ongoing y.quizMode total st) (hlt : st.current.toNat < total) (a : UInt8)
    (ha : a ∈ listKeys y.quizMode (st.current == 0) y.count) (hm : a ≠ 0x2d) :
    ∃ out st', st.judge correct name a = (out, st', true) ∧
      (out, st'.after.1, st'.after.2) = listVerdict name correct st.standing a ∧
      (st'.stop = false → Ongoing y.quizMode total { st' with current := st'.current + 1 }) ∧
      (st'.stop = true → Ongoing y.quizMode total { st' with stop := false }) := by
  obtain ⟨n1, n2, n3, n4⟩ := digit_other correct (by omega)
  have h16 := u16_succ st.current (by omega)
  have hgo := ho.goes
  unfold ListState.judge listVerdict quitOption
  rw [if_neg hm]
  by_cases hq : a = 0x2f
  · rw [if_pos hq, if_pos hq]
    exact ⟨_, _, rfl, rfl, fun h => by simp at h, fun _ => ⟨rfl, ho.within, ho.counts⟩⟩
  rw [if_neg hq, if_neg hq]
  by_cases hp : a = 0x2c
  · rw [if_pos hp, if_pos hp]
    have hk : y.quizMode = false ∧ (st.current == 0) = false := by
      rcases keys_mem ha with h | h | h | ⟨-, h1, h2⟩ | ⟨-, i, hi, h⟩
      · exact absurd h hm
      · rw [hp] at h; cases h
      · exact absurd h hq
      · exact ⟨h1, h2⟩
      · exact absurd (h ▸ hp) (digit_ne i (by omega)).2.1
    have hz : st.current ≠ 0 := by simpa using hk.2
    have hpr := u16_prev st.current hz
    refine ⟨_, _, rfl, ?_, fun _ => ⟨hgo, ?_, fun h => by rw [hk.1] at h; cases h⟩, fun h => by simp [hgo] at h⟩
    · simp only [ListState.after, hgo, ListState.standing, hpr, Bool.false_eq_true, if_false]
    · show (st.current - 2 + 1).toNat ≤ _
      omega
  rw [if_neg hp, if_neg hp]
  by_cases hd : a = 0x2e
  · subst hd
    rw [if_neg n3, if_neg (by simp), if_pos rfl]
    refine ⟨_, _, rfl, ?_, fun _ => ⟨hgo, ?_, fun h => ?_⟩, fun h => by simp [hgo] at h⟩
    · simp only [ListState.after, hgo, ListState.standing, h16, Bool.false_eq_true, if_false]
    · show (st.current + 1).toNat ≤ _
      omega
    · have := ho.counts h
      show _ ≤ (st.current + 1).toNat
      simp only; omega
  rw [if_neg hd]
  have hk : y.quizMode = true := by
    rcases keys_mem ha with h | h | h | ⟨h, -, -⟩ | ⟨h, -⟩
    · exact absurd h hm
    · exact absurd h hd
    · exact absurd h hq
    · exact absurd h hp
    · exact h
  have hcnt := ho.counts hk
  have hc16 := u16_succ st.correct (by omega)
  by_cases hr : a.toNat = 49 + correct
  · rw [if_pos hr, if_pos ((digit_is correct (by omega) a).2 hr)]
    refine ⟨_, _, rfl, ?_, fun _ => ⟨hgo, ?_, fun h => ?_⟩, fun h => by simp [hgo] at h⟩
    · simp only [ListState.after, hgo, ListState.standing, h16, hc16, correctMessage, Bool.false_eq_true, if_false]
    · show (st.current + 1).toNat ≤ _
      omega
    · show (st.correct + 1).toNat + st.mistakes.length ≤ (st.current + 1).toNat
      omega
  · rw [if_neg hr, if_neg (fun h => hr ((digit_is correct (by omega) a).1 h)), if_pos hd]
    refine ⟨_, _, rfl, ?_, fun _ => ⟨hgo, ?_, fun h => ?_⟩, fun h => by simp [hgo] at h⟩
    · simp only [ListState.after, hgo, ListState.standing, h16, incorrectText, digit_dec correct (by omega),
        Bool.false_eq_true, if_false]
    · show (st.current + 1).toNat ≤ _
      omega
    · show st.correct.toNat + (st.mistakes ++ [name]).length ≤ (st.current + 1).toNat
      rw [List.length_append, List.length_singleton]
      omega

theorem typed_key {prompt : Str} {keys : List UInt8} : ∀ {n : Nat} {s : InStream} {line text : Str} {a : UInt8} {s' : InStream},
    typed prompt keys n s line = (text, some (a, s')) → a ∈ keys := by
  intro n
  induction n with
  | zero => intro s line text a s' h; simp [typed] at h
  | succ n ih =>
    intro s line text a s' h
    simp only [typed] at h
    split at h
    · next c _ =>
      split at h
      · next hc => cases h; exact hc
      · obtain ⟨-, h2⟩ := Prod.mk.injEq .. ▸ h
        exact ih (Prod.ext rfl h2)
    · obtain ⟨-, h2⟩ := Prod.mk.injEq .. ▸ h
      exact ih (Prod.ext rfl h2)

/-- The rounds of a question with its verdict. -/
theorem listRounds_eq (y : ListStyle) (h1 : 1 ≤ y.count) (h9 : y.count ≤ 9) (items : List ListItem)
    (htot : items.length < 65536) (item : ListItem) (correct : Nat) (hc : correct < y.count) (answers : List Nat)
    (hans : ∀ a ∈ answers, a < items.length) (n : Nat) :
    ∀ (fuel : Nat) (st : ListState) (s : InStream), Ongoing y.quizMode items.length st → st.current.toNat < items.length →
      ∃ text res, listRounds y items item correct answers n fuel (quizChoices y.quizMode st.current items.length st.shown) st s =
          .ok (text, res) ∧
        (text, res.map fun x => (x.1.after, x.2)) =
          ((talkListQuestion y (st.current.toNat == 0) (st.current.toNat + 1 == items.length)
              (listPage y (st.current.toNat + 1) items answers item) n fuel st.shown s).next fun x s =>
            let v := listVerdict item.name correct { st.standing with meanings := x.2 } x.1
            (v.1, some ((v.2.1, v.2.2), s))) ∧
        ∀ st' s', res = some (st', s') →
          (st'.stop = false → Ongoing y.quizMode items.length { st' with current := st'.current + 1 }) ∧
          (st'.stop = true → Ongoing y.quizMode items.length { st' with stop := false }) := by
  intro fuel
  induction fuel with
  | zero => intro st s _ _; exact ⟨_, _, rfl, rfl, by intro st' s' h; cases h⟩
  | succ fuel ih =>
    intro st s ho hlt
    obtain ⟨cs, hof, hk⟩ := C146_prompt y st.current items.length st.shown h1 h9
    rw [listRounds, talkListQuestion, listLines_eq y items answers hans]
    simp only [Res.bind, hof, typed_eq, hk, listPage_eq]
    rw [show (st.current.toNat + 1 == items.length) = decide (st.current.toNat + 1 = items.length) from rfl, first_eq]
    cases ht : typed (listPrompt y.quizMode y.toReading st.shown (st.current.toNat == 0)
        (decide (st.current.toNat + 1 = items.length)) y.count) (listKeys y.quizMode (st.current.toNat == 0) y.count) n s [] with
    | mk text r =>
      cases r with
      | none => exact ⟨_, _, rfl, rfl, by intro st' s' h; cases h⟩
      | some x =>
        obtain ⟨a, s1⟩ := x
        have ha := typed_key ht
        simp only [Talk.next, Talk.begin]
        by_cases hm : a = 0x2d
        · have hj : st.judge correct item.name a = ([], { st with shown := !st.shown }, false) := by
            simp [ListState.judge, hm]
          obtain ⟨t2, r2, e1, e2, e3⟩ := ih { st with shown := !st.shown } s1 ⟨ho.goes, ho.within, ho.counts⟩ hlt
          simp only [hj, C146_toggle, e1, if_pos hm]
          refine ⟨_, _, rfl, ?_, e3⟩
          simp only [Talk.next] at e2
          rw [show (st.current.toNat + 1 == items.length) = decide (st.current.toNat + 1 = items.length) from rfl] at e2
          cases hq : (talkListQuestion y (st.current.toNat == 0) (decide (st.current.toNat + 1 = items.length))
              (listPage y (st.current.toNat + 1) items answers item) n fuel (!st.shown) s1).2 with
          | none =>
            rw [hq] at e2
            simp only [Prod.mk.injEq] at e2
            simp [e2.1, e2.2]
          | some z =>
            rw [hq] at e2
            simp only [Prod.mk.injEq] at e2
            simp [e2.1, e2.2, ListState.standing]
        · rw [← first_eq] at ha
          obtain ⟨out, st', hj, hv, hgo, hst⟩ := listVerdict_eq y h9 items.length htot st correct hc item.name ho hlt a ha hm
          simp only [hj, if_neg hm]
          refine ⟨_, _, rfl, ?_, fun st2 s2 he => ?_⟩
          · rw [show ({ st.standing with meanings := st.shown } : Standing) = st.standing from rfl, ← hv]
            simp
          · simp only [Option.some.injEq, Prod.mk.injEq] at he
            obtain ⟨rfl, -⟩ := he
            exact ⟨hgo, hst⟩

/-! ## C163 -/

theorem shownAnswers_lt {readings : List Str} {question count correct : Nat} (hq : question < readings.length) {ds l : List Nat}
    (hc : correct < count) (hd : ∀ d ∈ ds, d < readings.length)
    (h : shownAnswers readings question count correct ds = some l) : ∀ a ∈ l, a < readings.length := by
  have := answers_eq readings question count correct hq hc ds hd
  rw [h] at this
  exact (C56_choices readings question count correct hc ds l this).2.2.1

/-- The questions of a list quiz are as specified, with all that is written. -/
theorem C163_session (y : ListStyle) (h1 : 1 ≤ y.count) (h9 : y.count ≤ 9) (items : List ListItem)
    (htot : items.length < 65536) (n : Nat) :
    ∀ (draws : List (Nat × List Nat)) (_ : ∀ d ∈ draws, d.1 < y.count ∧ ∀ x ∈ d.2, x < items.length) (st : ListState)
      (s : InStream), Ongoing y.quizMode items.length st →
      ∃ text res, listSession y items n draws st s = .ok (text, res) ∧
        (text, res.map fun x => (x.1.standing, x.2)) = playItems y items n draws st.standing s ∧
        ∀ st' s', res = some (st', s') → y.quizMode = true → st'.correct.toNat + st'.mistakes.length ≤ st'.current.toNat := by
  intro draws
  induction draws with
  | nil =>
    intro _ st s ho
    rw [listSession, playItems, if_neg (by simp [ho.goes]), show st.standing.before = st.current.toNat from rfl]
    cases hi : items[st.current.toNat]? with
    | none =>
      refine ⟨_, _, rfl, rfl, fun st' s' he => ?_⟩
      simp only [Option.some.injEq, Prod.mk.injEq] at he
      obtain ⟨rfl, -⟩ := he
      exact ho.counts
    | some i => exact ⟨_, _, rfl, rfl, by intro st' s' he; cases he⟩
  | cons d draws ih =>
    intro hd st s ho
    obtain ⟨correct, ds⟩ := d
    obtain ⟨hc, hds⟩ := hd (correct, ds) (by simp)
    simp only at hc hds
    rw [listSession, playItems, if_neg (by simp [ho.goes]), show st.standing.before = st.current.toNat from rfl]
    cases hi : items[st.current.toNat]? with
    | none =>
      refine ⟨_, _, rfl, rfl, fun st' s' he => ?_⟩
      simp only [Option.some.injEq, Prod.mk.injEq] at he
      obtain ⟨rfl, -⟩ := he
      exact ho.counts
    | some item =>
      have hlt : st.current.toNat < items.length := (List.getElem?_eq_some_iff.1 hi).1
      simp only [answers_eq (items.map (·.reading)) st.current.toNat y.count correct (by simpa using hlt) hc ds
        (by simpa using hds), Res.bind]
      cases hsh : shownAnswers (items.map (·.reading)) st.current.toNat y.count correct ds with
      | none => exact ⟨_, _, rfl, rfl, by intro st' s' he; cases he⟩
      | some answers =>
        have hans := shownAnswers_lt (by simpa using hlt) hc (by simpa using hds) hsh
        obtain ⟨text, res, h, hp, hres⟩ := listRounds_eq y h1 h9 items htot item correct hc answers
          (by simpa using hans) n n st s ho hlt
        simp only [h]
        rw [show st.standing.meanings = st.shown from rfl]
        generalize talkListQuestion y (st.current.toNat == 0) (st.current.toNat + 1 == items.length)
          (listPage y (st.current.toNat + 1) items answers item) n n st.shown s = q at hp ⊢
        obtain ⟨q1, q2⟩ := q
        cases q2 with
        | none =>
          simp only [Talk.next, Prod.mk.injEq, Option.map_eq_none_iff] at hp
          obtain ⟨rfl, rfl⟩ := hp
          exact ⟨_, _, rfl, rfl, by intro st' s' he; cases he⟩
        | some z =>
          obtain ⟨⟨c, m⟩, s2⟩ := z
          simp only [Talk.next, Prod.mk.injEq, Option.map_eq_some_iff] at hp
          obtain ⟨rfl, ⟨st1, s1⟩, rfl, hst⟩ := hp
          simp only at hst
          obtain ⟨hst, rfl⟩ := hst
          obtain ⟨hgo, hstop⟩ := hres st1 s1 rfl
          simp only [Talk.next, Talk.begin]
          simp only [ListState.standing] at hst ⊢
          obtain ⟨v1, v2, v3, hv⟩ : ∃ v1 v2 v3,
              listVerdict item.name correct ⟨st.current.toNat, st.correct.toNat, st.mistakes, m⟩ c = (v1, v2, v3) :=
            ⟨_, _, _, rfl⟩
          simp only [hv] at hst ⊢
          cases hs : st1.stop with
          | true =>
            have h16 : st1.current + 1 - 1 = st1.current := by
              apply UInt16.toNat_inj.1
              rw [UInt16.toNat_sub, UInt16.toNat_add]
              have := st1.current.toNat_lt
              simp; omega
            simp only [ListState.after, hs, if_true, Prod.mk.injEq] at hst
            obtain ⟨rfl, rfl⟩ := hst
            rw [listSession, if_pos rfl]
            refine ⟨_, _, rfl, ?_, fun st' s' he => ?_⟩
            · simp [ListState.standing, h16]
            · simp only [Option.some.injEq, Prod.mk.injEq] at he
              obtain ⟨rfl, -⟩ := he
              show _ → _ + _ ≤ (st1.current + 1 - 1).toNat
              rw [h16]
              exact (hstop hs).counts
          | false =>
            simp only [ListState.after, hs, Bool.false_eq_true, if_false, Prod.mk.injEq] at hst
            obtain ⟨rfl, rfl⟩ := hst
            obtain ⟨text2, res2, e2, hp2, hc2⟩ := ih (fun x hx => hd x (by simp [hx])) { st1 with current := st1.current + 1 } s1
              (hgo hs)
            rw [hs] at e2 hp2
            rw [e2]
            refine ⟨_, _, rfl, ?_, hc2⟩
            rw [if_neg (by simp), ← hp2]
            simp
            rfl

/-- A whole list quiz writes exactly what is specified: its heading, each question with its answers, prompts and verdict,
and the final score, for whatever is drawn and entered. -/
theorem C163_quiz (y : ListStyle) (h1 : 1 ≤ y.count) (h9 : y.count ≤ 9) (legend : Str) (items : List ListItem)
    (htot : items.length < 65536) (hr : ∀ i ∈ items, i.reading ≠ []) (question : UInt16) (hq : question.toNat ≤ items.length)
    (shown : Bool) (n : Nat) (draws : List (Nat × List Nat))
    (hd : ∀ d ∈ draws, d.1 < y.count ∧ ∀ x ∈ d.2, x < items.length) (s : InStream) :
    listQuiz y legend items question shown n draws s =
      let z := playList y legend items question.toNat shown n draws s
      .ok (z.1, z.2.map fun x => .ok x.2) := by
  have hb : ∃ c : UInt16, beginQuiz question items.length = .ok { current := c } ∧ c.toNat = question.toNat - 1 := by
    unfold beginQuiz
    by_cases h0 : question = 0
    · subst h0; exact ⟨0, rfl, rfl⟩
    · have h0' : question.toNat ≠ 0 := fun h => h0 (UInt16.toNat_inj.1 h)
      rw [if_neg h0, if_neg (by omega)]
      exact ⟨question - 1, rfl, u16_pred question (by omega)⟩
  obtain ⟨c, hb, hc⟩ := hb
  unfold listQuiz
  have hany : (items.any fun i => i.reading = []) = false := by
    rw [List.any_eq_false]
    intro i hi
    simpa using hr i hi
  simp only [hany, hb, Bool.false_eq_true, if_false]
  obtain ⟨text, res, h, hp, hfin⟩ := C163_session y h1 h9 items htot n draws hd { current := c, shown := shown } s
    ⟨rfl, by show c.toNat ≤ _; omega, fun _ => by simp⟩
  simp only [h, Res.bind]
  unfold playList
  rw [show (⟨question.toNat - 1, 0, [], shown⟩ : Standing) = ListState.standing { current := c, shown := shown } by
    simp [ListState.standing, hc], ← hp]
  cases res with
  | none => simp [Talk.next, Talk.begin, beginText]
  | some x =>
    obtain ⟨st', s'⟩ := x
    have hl : ListState.finish y.quizMode st' = if y.quizMode then lastLine st'.standing else [] := by
      cases hm : y.quizMode with
      | false => rfl
      | true => rw [if_pos rfl, lastLine_eq _ (hfin _ _ rfl hm)]
    simp [Talk.next, Talk.begin, hl, beginText]

-- the quiz shown beside C150
example (s : InStream) := C163_quiz ⟨true, true, 2⟩ (by decide) (by decide) (u8!">>> Legend\n") exampleItems (by decide)
  (by decide) 0 (by decide) false 5 [(1, [0, 2]), (0, [1, 0])] (by decide) s
example : shownAnswers (exampleItems.map (·.reading)) 1 3 2 [1, 2, 2, 0] = some [2, 0, 1] := by decide +kernel
example : shownAnswers (exampleItems.map (·.reading)) 1 3 0 [1, 2, 2, 1] = none := by decide +kernel

end KT
