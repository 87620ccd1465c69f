import Verif.Model.ListSession
import Verif.Props.Kanji
import Verif.Props.ListQuiz
import Verif.Spec.ListSession
/-!
# Properties of list quizzes from input to output (C146 to C150)
-/
namespace KT
open Spec

/-! ## C146 -/

/-- The choices in terms of what they depend on. -/
def quizChoicesOf (quizMode shown first last : Bool) : Choices :=
  let c := (Choices.insert [] 0x2d (meaningsText shown)).insert 0x2e
    (if last then u8!"finish" else if !quizMode then u8!"next" else u8!"skip")
  if !quizMode && !first then c.insert 0x2c (u8!"prev") else c

theorem quizChoices_of (quizMode shown : Bool) (current : UInt16) (total : Nat) :
    quizChoices quizMode current total shown =
      quizChoicesOf quizMode shown (current == 0) (decide (current.toNat + 1 = total)) := by
  unfold quizChoices quizChoicesOf skipText
  simp only [decide_eq_true_eq, bne]

/-- The keys and the prompt. -/
def offerResult : Res (Choices × Str) → Option (List UInt8 × Str)
  | .ok (cs, text) => some (cs.map (·.1), text)
  | _ => none

theorem offer_all : ∀ c < 9, ∀ quizMode toReading shown first last : Bool,
    offerResult ((ListStyle.mk quizMode toReading (c + 1)).offer (quizChoicesOf quizMode shown first last)) =
      some (listKeys quizMode first (c + 1), listPrompt quizMode toReading shown first last (c + 1)) := by
  decide +kernel

/-- For every question the prompt and the characters accepted are those of the specification: the numbers of the
answers in a quiz, the way back in a review unless it is the first question, showing or hiding meanings, going on and
quitting. -/
theorem C146_prompt (y : ListStyle) (current : UInt16) (total : Nat) (shown : Bool) (h1 : 1 ≤ y.count) (h9 : y.count ≤ 9) :
    ∃ cs, y.offer (quizChoices y.quizMode current total shown) =
        .ok (cs, listPrompt y.quizMode y.toReading shown (current == 0) (decide (current.toNat + 1 = total)) y.count) ∧
      cs.map (·.1) = listKeys y.quizMode (current == 0) y.count := by
  obtain ⟨qm, tr, count⟩ := y
  have := offer_all (count - 1) (by simp only at *; omega) qm tr shown (current == 0) (decide (current.toNat + 1 = total))
  simp only at h1 h9
  rw [show count - 1 + 1 = count by omega, ← quizChoices_of] at this
  unfold offerResult at this
  split at this
  · next cs text h =>
    simp only [Option.some.injEq, Prod.mk.injEq] at this
    exact ⟨cs, by rw [h, this.2], this.1⟩
  · cases this

/-- Showing or hiding meanings only changes the text of that choice. -/
theorem C146_toggle (quizMode shown now : Bool) (current : UInt16) (total : Nat) :
    (quizChoices quizMode current total shown).setText 0x2d (meaningsText now) = quizChoices quizMode current total now := by
  rw [quizChoices_of, quizChoices_of]
  generalize (current == 0) = first
  generalize decide (current.toNat + 1 = total) = last
  revert quizMode shown now first last
  decide +kernel

example : listPrompt true true false true false 4 =
    u8!"  Select correct reading (-=show meanings, .=skip, /=quit, 1-4): " := by decide +kernel
example : listPrompt false true true true false 1 = u8!"  Select (-=hide meanings, .=next, /=quit): " := by decide +kernel

/-! ## C147 -/

theorem answerLines_ok (y : ListStyle) (items : List ListItem) : ∀ (l : List Nat) (i : Nat), (∀ c ∈ l, c < items.length) →
    ∃ xs : List ListItem, l.map (items[·]?) = xs.map some ∧
      y.answerLines items i l = .ok ((xs.zipIdx i).map fun p => y.answerLine p.2 p.1).flatten := by
  intro l
  induction l with
  | nil => intro i _; exact ⟨[], rfl, rfl⟩
  | cons a r ih =>
    intro i h
    obtain ⟨xs, h1, h2⟩ := ih (i + 1) fun c hc => h c (by simp [hc])
    have ha : a < items.length := h a (by simp)
    refine ⟨items[a] :: xs, by simp [h1, ha], ?_⟩
    simp only [ListStyle.answerLines, List.getElem?_eq_getElem ha, h2, Res.bind, List.zipIdx_cons, List.map_cons,
      List.flatten_cons]

theorem digit_inj (a b : Nat) (ha : a < 9) (hb : b < 9) : (0x31 + UInt8.ofNat a = 0x31 + UInt8.ofNat b) ↔ a = b := by
  have : ∀ a < 9, ∀ b < 9, (0x31 + UInt8.ofNat a = 0x31 + UInt8.ofNat b) ↔ a = b := by decide +kernel
  exact this a ha b hb

theorem digit_other (a : Nat) (ha : a < 9) : 0x31 + UInt8.ofNat a ≠ (0x2d : UInt8) ∧ 0x31 + UInt8.ofNat a ≠ (0x2c : UInt8) ∧
    0x31 + UInt8.ofNat a ≠ (0x2e : UInt8) ∧ 0x31 + UInt8.ofNat a ≠ (0x2f : UInt8) := by
  have : ∀ a < 9, 0x31 + UInt8.ofNat a ≠ (0x2d : UInt8) ∧ 0x31 + UInt8.ofNat a ≠ (0x2c : UInt8) ∧
    0x31 + UInt8.ofNat a ≠ (0x2e : UInt8) ∧ 0x31 + UInt8.ofNat a ≠ (0x2f : UInt8) := by decide +kernel
  exact this a ha

/-- The verdicts: the number of right answers so far out of the questions so far (both counted from one), or the number
of the right answer. -/
theorem C147_verdict (correct current : UInt16) (right : UInt8) :
    correctMessage correct current =
      u8!"  Correct! (" ++ toDec correct.toNat ++ u8!"/" ++ toDec (current.toNat + 1) ++ u8!")\n" ∧
    incorrectText right = u8!"  Incorrect (correct answer is " ++ [right] ++ u8!")\n" :=
  ⟨rfl, rfl⟩

example : correctMessage 2 4 = u8!"  Correct! (2/5)\n" := by decide +kernel

/-- In a quiz the lines shown for a question are numbered from one and show the readings or names of kanji `xs` of
the list.  Whatever was drawn, exactly one of them has the reading of the question; answering with a number is right
exactly if the kanji on that line has this reading, and otherwise the message names the number of the only such line,
and the name of the kanji asked is added to the mistakes. -/
theorem C147_judge (y : ListStyle) (hq : y.quizMode = true) (h9 : y.count ≤ 9) (items : List ListItem) (st : ListState)
    (item : ListItem) (hi : items[st.current.toNat]? = some item) (correct : Nat) (hc : correct < y.count)
    (draws : List Nat) (l : List Nat)
    (h : populateAnswers (items.map (·.reading)) st.current.toNat y.count correct draws = .ok (some l)) :
    ∃ xs : List ListItem, xs.length = y.count ∧ (∀ x ∈ xs, x ∈ items) ∧
      y.choiceText items l item = .ok ((xs.zipIdx 0).map fun p => y.answerLine p.2 p.1).flatten ∧
      ∃ k, k < y.count ∧ xs[k]? = some item ∧
        ∀ d x, xs[d]? = some x →
          (x.reading = item.reading ↔ d = k) ∧
          st.judge correct item.name (0x31 + UInt8.ofNat d) =
            if x.reading = item.reading then
              (correctMessage (st.correct + 1) st.current, { st with correct := st.correct + 1 }, true)
            else (incorrectText (0x31 + UInt8.ofNat k), { st with mistakes := st.mistakes ++ [item.name] }, true) := by
  obtain ⟨hlen, hpos, hval, -, huni⟩ := C56_choices _ _ _ _ hc _ _ h
  obtain ⟨xs, hx, ht⟩ := answerLines_ok y items l 0 fun c hc => by simpa using hval c hc
  have hxl : xs.length = y.count := by
    have := congrArg List.length hx
    simp only [List.length_map] at this
    omega
  have hget : ∀ d : Nat, (l[d]?).map (items[·]?) = (xs[d]?).map some := by
    intro d
    have := congrArg (·[d]?) hx
    simpa only [List.getElem?_map] using this
  have hbind : ∀ d : Nat, ((l[d]?).bind ((items.map (·.reading))[·]?)) = (xs[d]?).map (·.reading) := by
    intro d
    have := hget d
    cases hl : l[d]? with
    | none =>
      rw [hl] at this
      cases hxd : xs[d]? with
      | none => rfl
      | some x => rw [hxd] at this; simp at this
    | some c =>
      rw [hl] at this
      cases hxd : xs[d]? with
      | none => rw [hxd] at this; simp at this
      | some x =>
        rw [hxd] at this
        simp only [Option.map_some, Option.some.injEq] at this
        simp [this]
  have hk : xs[correct]? = some item := by
    have := hget correct
    rw [hpos] at this
    simp only [Option.map_some, hi] at this
    cases hxc : xs[correct]? with
    | none => rw [hxc] at this; simp at this
    | some x => rw [hxc] at this; simp at this; rw [this]
  refine ⟨xs, hxl, ?_, by simp only [ListStyle.choiceText, hq, if_true, ht], correct, hc, hk, ?_⟩
  · intro x hxm
    obtain ⟨d, hd, rfl⟩ := List.getElem_of_mem hxm
    have := hget d
    rw [List.getElem?_eq_getElem hd] at this
    cases hl : l[d]? with
    | none => rw [hl] at this; simp at this
    | some c =>
      rw [hl] at this
      simp only [Option.map_some, Option.some.injEq] at this
      exact List.mem_of_getElem? this
  · intro d x hdx
    have hd : d < y.count := by rw [← hxl]; exact (List.getElem?_eq_some_iff.1 hdx).1
    have hiff : x.reading = item.reading ↔ d = correct := by
      have := huni d hd
      rw [hbind, hdx] at this
      rw [← this]
      simp [hi]
    refine ⟨hiff, ?_⟩
    obtain ⟨n1, n2, n3, n4⟩ := digit_other d (by omega)
    unfold ListState.judge quitOption
    simp only [if_neg n1, if_neg n4, if_neg n2, digit_inj correct d (by omega) (by omega)]
    by_cases hdc : d = correct
    · rw [if_pos hdc.symm, if_pos (hiff.2 hdc)]
    · rw [if_neg (fun h => hdc h.symm), if_pos n3, if_neg (fun h => hdc (hiff.1 h))]

/-! ## C148 -/

/-- The score of a quiz as in the model of the loop alone. -/
def ListState.score (st : ListState) : QuizScore := ⟨st.current, st.correct, st.mistakes.length, st.stop⟩

/-- The names of the questions answered wrong when these actions are taken. -/
def missedNames (names : List Str) : QuizScore → List QuizAction → List Str
  | _, [] => []
  | st, .wrong :: r => (names[st.current.toNat]?).toList ++ missedNames names (st.step .wrong) r
  | st, a :: r => missedNames names (st.step a) r

/-- What an answer means in a quiz or review where the correct answer is at this position. -/
def actionOf (correct : Nat) (a : UInt8) : QuizAction :=
  if a = 0x2f then .quit else if a = 0x2c then .prev else if 0x31 + UInt8.ofNat correct = a then .right
  else if a = 0x2e then .skip else .wrong

theorem ask_answer {prompt : Str} {cs : Choices} : ∀ {fuel : Nat} {s : InStream} {line text : Str} {a : UInt8} {s' : InStream},
    Choice.ask prompt cs none fuel s line = (text, some (a, s')) → cs.has a = true := by
  intro fuel
  induction fuel with
  | zero => intro s line text a s' h; simp [Choice.ask] at h
  | succ n ih =>
    intro s line text a s' h
    simp only [Choice.ask] at h
    split at h
    · next b hb =>
      cases h
      generalize (s.getline line).2 = t at hb
      unfold Choice.answer at hb
      split at hb
      · next hd => cases hd
      · split at hb
        · next hh => cases hb; exact hh
        · cases hb
      · cases hb
    · obtain ⟨-, h2⟩ := Prod.mk.injEq .. ▸ h
      exact ih (Prod.ext rfl h2)

theorem has_keys (cs : Choices) (a : UInt8) : cs.has a = true ↔ a ∈ cs.map (·.1) := by
  simp only [Choices.has, List.any_eq_true, List.mem_map, beq_iff_eq]

theorem keys_mem {quizMode first : Bool} {count : Nat} {a : UInt8} (h : a ∈ listKeys quizMode first count) :
    a = 0x2d ∨ a = 0x2e ∨ a = 0x2f ∨ (a = 0x2c ∧ quizMode = false ∧ first = false) ∨
      (quizMode = true ∧ ∃ i < count, a = UInt8.ofNat (49 + i)) := by
  unfold listKeys at h
  simp only [List.mem_append] at h
  rcases h with (h | h) | h
  · cases quizMode <;> cases first <;> simp at h <;> simp [h]
  · simp at h; rcases h with h | h | h <;> simp [h]
  · cases quizMode <;> simp at h
    obtain ⟨i, h1, h2⟩ := h
    exact Or.inr (Or.inr (Or.inr (Or.inr ⟨rfl, i, h1, by simp [h2]⟩)))

theorem digit_ne (i : Nat) (h : i < 9) : UInt8.ofNat (49 + i) ≠ 0x2d ∧ UInt8.ofNat (49 + i) ≠ 0x2c ∧
    UInt8.ofNat (49 + i) ≠ 0x2e ∧ UInt8.ofNat (49 + i) ≠ 0x2f := by
  have : ∀ i < 9, UInt8.ofNat (49 + i) ≠ 0x2d ∧ UInt8.ofNat (49 + i) ≠ 0x2c ∧
    UInt8.ofNat (49 + i) ≠ 0x2e ∧ UInt8.ofNat (49 + i) ≠ 0x2f := by decide +kernel
  exact this i h

/-- An answer that isn't the one for meanings ends the question with the step of its action, which is offered. -/
theorem judge_step (quizMode : Bool) (count : Nat) (h9 : count ≤ 9) (names : List Str) (st : ListState) (correct : Nat)
    (hc : correct < count) (name : Str) (hn : names[st.current.toNat]? = some name) (a : UInt8)
    (ha : a ∈ listKeys quizMode (st.current == 0) count) (hm : a ≠ 0x2d) :
    ∃ out st', st.judge correct name a = (out, st', true) ∧
      ListState.score { st' with current := st'.current + 1 } = st.score.step (actionOf correct a) ∧
      (actionOf correct a).offered quizMode st.score = true ∧
      st'.mistakes = st.mistakes ++ missedNames names st.score [actionOf correct a] ∧ st'.shown = st.shown := by
  obtain ⟨n1, n2, n3, n4⟩ := digit_other correct (by omega)
  unfold ListState.judge actionOf quitOption
  rw [if_neg hm]
  rcases keys_mem ha with h | h | h | ⟨h, hq, hf⟩ | ⟨hq, i, hi, h⟩
  · exact absurd h hm
  · subst h
    refine ⟨[], st, ?_⟩
    simp [n3, ListState.score, QuizScore.step, QuizAction.offered, missedNames]
  · subst h
    refine ⟨[], { st with stop := true }, ?_⟩
    simp [ListState.score, QuizScore.step, QuizAction.offered, missedNames]
  · subst h
    refine ⟨[], { st with current := st.current - 2 }, ?_⟩
    have : (st.current != 0) = true := by simpa using hf
    simp [ListState.score, QuizScore.step, QuizAction.offered, missedNames, hq, this]
  · obtain ⟨m1, m2, m3, m4⟩ := digit_ne i (by omega)
    rw [← h] at m2 m3 m4
    simp only [if_neg m2, if_neg m3, if_neg m4]
    by_cases he : 0x31 + UInt8.ofNat correct = a
    · refine ⟨correctMessage (st.correct + 1) st.current, { st with correct := st.correct + 1 }, ?_⟩
      simp [he, ListState.score, QuizScore.step, QuizAction.offered, missedNames, hq]
    · refine ⟨incorrectText (0x31 + UInt8.ofNat correct), { st with mistakes := st.mistakes ++ [name] }, ?_⟩
      simp [he, ListState.score, QuizScore.step, QuizAction.offered, missedNames, hq, hn, m3]

/-- The rounds of a question: showing meanings changes nothing else. -/
theorem rounds_step (y : ListStyle) (h1 : 1 ≤ y.count) (h9 : y.count ≤ 9) (items : List ListItem) (item : ListItem)
    (correct : Nat) (hc : correct < y.count) (answers : List Nat) (n : Nat) :
    ∀ (fuel : Nat) (st : ListState) (s : InStream) (out : Str) (st' : ListState) (s' : InStream),
      items[st.current.toNat]? = some item → st.stop = false →
      listRounds y items item correct answers n fuel (quizChoices y.quizMode st.current items.length st.shown) st s =
        .ok (out, some (st', s')) →
      ∃ a : QuizAction, a.offered y.quizMode st.score = true ∧
        ListState.score { st' with current := st'.current + 1 } = st.score.step a ∧
        st'.mistakes = st.mistakes ++ missedNames (items.map (·.name)) st.score [a] := by
  intro fuel
  induction fuel with
  | zero => intro st s out st' s' _ _ h; simp [listRounds] at h
  | succ fuel ih =>
    intro st s out st' s' hi hs h
    obtain ⟨cs, ho, hk⟩ := C146_prompt y st.current items.length st.shown h1 h9
    rw [listRounds] at h
    obtain ⟨lines, -, h⟩ := Res.bind_eq_ok h
    rw [ho] at h
    simp only [Res.bind] at h
    split at h
    · simp at h
    · next text a s1 hask =>
      have ha := ask_answer hask
      rw [has_keys, hk] at ha
      have hname : (items.map (·.name))[st.current.toNat]? = some item.name := by simp [hi]
      by_cases hm : a = 0x2d
      · have hj : st.judge correct item.name a = ([], { st with shown := !st.shown }, false) := by
          simp [ListState.judge, hm]
        rw [hj] at h
        simp only [C146_toggle] at h
        cases hr : listRounds y items item correct answers n fuel
            (quizChoices y.quizMode st.current items.length (!st.shown)) { st with shown := !st.shown } s1 with
        | ub => simp [hr] at h
        | throw e => simp [hr] at h
        | ok r =>
          rw [hr] at h
          simp only [Res.ok.injEq, Prod.mk.injEq] at h
          have := ih { st with shown := !st.shown } s1 r.1 st' s' hi hs (by rw [hr, ← h.2])
          exact this
      · obtain ⟨o, st2, hj, h2, h3, h4, -⟩ := judge_step y.quizMode y.count h9 _ st correct hc item.name hname a ha hm
        rw [hj] at h
        simp only [Res.ok.injEq, Prod.mk.injEq, Option.some.injEq] at h
        obtain ⟨-, rfl, -⟩ := h
        exact ⟨_, h3, h2, h4⟩

theorem missed_cons (names : List Str) (st : QuizScore) (a : QuizAction) (r : List QuizAction) :
    missedNames names st (a :: r) = missedNames names st [a] ++ missedNames names (st.step a) r := by
  cases a <;> simp [missedNames]

/-- Whatever is entered, a list quiz that comes to its end went through the loop of C58: each question was answered
with an action that was offered, the counts are those of these actions, and the mistakes are the names of the
questions answered wrong, in order. -/
theorem C148_session (y : ListStyle) (h1 : 1 ≤ y.count) (h9 : y.count ≤ 9) (items : List ListItem) (n : Nat) :
    ∀ (draws : List (Nat × List Nat)) (st : ListState) (s : InStream) (out : Str) (st' : ListState) (s' : InStream),
      (∀ d ∈ draws, d.1 < y.count) →
      listSession y items n draws st s = .ok (out, some (st', s')) →
      ∃ acts, quizLoop y.quizMode items.length st.score acts = .finished st'.score ∧
        st'.mistakes = st.mistakes ++ missedNames (items.map (·.name)) st.score acts := by
  intro draws
  induction draws with
  | nil =>
    intro st s out st' s' _ h
    rw [listSession] at h
    by_cases hs : st.stop = true
    · rw [if_pos hs] at h
      simp only [Res.ok.injEq, Prod.mk.injEq, Option.some.injEq] at h
      obtain ⟨-, rfl, -⟩ := h
      exact ⟨[], by simp [quizLoop, ListState.score, hs], by simp [missedNames]⟩
    · rw [if_neg hs] at h
      split at h
      · next hi =>
        simp only [Res.ok.injEq, Prod.mk.injEq, Option.some.injEq] at h
        obtain ⟨-, rfl, -⟩ := h
        have : ¬ st.current.toNat < items.length := by simpa using hi
        exact ⟨[], by simp [quizLoop, ListState.score, hs, this], by simp [missedNames]⟩
      · simp at h
  | cons d draws ih =>
    intro st s out st' s' hd h
    rw [listSession] at h
    by_cases hs : st.stop = true
    · rw [if_pos hs] at h
      simp only [Res.ok.injEq, Prod.mk.injEq, Option.some.injEq] at h
      obtain ⟨-, rfl, -⟩ := h
      exact ⟨[], by simp [quizLoop, ListState.score, hs], by simp [missedNames]⟩
    · rw [if_neg hs] at h
      split at h
      · next hi =>
        simp only [Res.ok.injEq, Prod.mk.injEq, Option.some.injEq] at h
        obtain ⟨-, rfl, -⟩ := h
        have : ¬ st.current.toNat < items.length := by simpa using hi
        exact ⟨[], by simp [quizLoop, ListState.score, hs, this], by simp [missedNames]⟩
      · next item hi =>
        obtain ⟨correct, ds⟩ := d
        simp only at h
        obtain ⟨o, ho, h⟩ := Res.bind_eq_ok h
        cases o with
        | none => simp at h
        | some answers =>
          obtain ⟨r, hr, h⟩ := Res.bind_eq_ok h
          obtain ⟨out1, r2⟩ := r
          cases r2 with
          | none => simp at h
          | some p =>
            obtain ⟨st1, s1⟩ := p
            obtain ⟨q, hq, h⟩ := Res.bind_eq_ok h
            simp only [Res.ok.injEq, Prod.mk.injEq] at h
            obtain ⟨-, hq2⟩ := h
            obtain ⟨a, h2, h3, h4⟩ := rounds_step y h1 h9 items item correct (hd (correct, ds) (by simp)) answers n n st s
              out1 st1 s1 hi (by simpa using hs) hr
            obtain ⟨acts, h5, h6⟩ := ih _ s1 q.1 st' s' (fun d hd' => hd d (by simp [hd'])) (by rw [hq, ← hq2])
            rw [h3] at h5 h6
            have hlt : st.current.toNat < items.length := (List.getElem?_eq_some_iff.1 hi).1
            refine ⟨a :: acts, ?_, ?_⟩
            · rw [quizLoop]
              have : (!st.score.stop && decide (st.score.current.toNat < items.length)) = true := by
                simp [ListState.score, hs, hlt]
              rw [if_pos this, if_pos h2, h5]
            · rw [h6, missed_cons]
              simp only
              rw [h4, List.append_assoc]

/-! ## C149 -/

/-- Asking writes the prompt once for every line read and has the result of C34. -/
theorem C149_loop (prompt : Str) (cs : Choices) (dflt : Option UInt8) : ∀ (fuel : Nat) (s : InStream) (line : Str),
    (Choice.ask prompt cs dflt fuel s line).2 = Choice.loop cs dflt fuel s line := by
  intro fuel
  induction fuel with
  | zero => intro s line; rfl
  | succ n ih =>
    intro s line
    simp only [Choice.ask, Choice.loop]
    cases Choice.answer cs dflt (s.getline line).2 with
    | some b => rfl
    | none => exact ih _ _

theorem cutLine_append : ∀ (l r : Str), 0x0a ∉ l → cutLine (l ++ 0x0a :: r) = (l, some r)
  | [], r, _ => by simp [cutLine]
  | b :: l, r, h => by
    have hb : b ≠ 0x0a := fun hb => h (by simp [hb])
    simp only [List.cons_append, cutLine, if_neg hb, cutLine_append l r (fun hm => h (by simp [hm]))]

/-- Lines that aren't accepted only repeat the prompt. -/
theorem C149_prompts (prompt : Str) (cs : Choices) (dflt : Option UInt8) (b : UInt8) (final rest : Str)
    (hf : 0x0a ∉ final) (hb : Choice.answer cs dflt final = some b) :
    ∀ (bad : List Str) (fuel : Nat) (line : Str), (∀ l ∈ bad, 0x0a ∉ l ∧ Choice.answer cs dflt l = none) →
      bad.length < fuel →
      Choice.ask prompt cs dflt fuel { rest := (bad.map (· ++ [0x0a])).flatten ++ final ++ 0x0a :: rest } line =
        ((List.replicate (bad.length + 1) prompt).flatten, some (b, { rest := rest })) := by
  intro bad
  induction bad with
  | nil =>
    intro fuel line _ hn
    obtain ⟨m, rfl⟩ : ∃ m, fuel = m + 1 := ⟨fuel - 1, by simp at hn; omega⟩
    simp [Choice.ask, InStream.getline, cutLine_append final rest hf, hb]
  | cons l bad ih =>
    intro fuel line h hn
    simp only [List.length_cons] at hn
    obtain ⟨m, rfl⟩ : ∃ m, fuel = m + 1 := ⟨fuel - 1, by omega⟩
    obtain ⟨h1, h2⟩ := h l (by simp)
    have hcut : cutLine (((l :: bad).map (· ++ [0x0a])).flatten ++ final ++ 0x0a :: rest) =
        (l, some ((bad.map (· ++ [0x0a])).flatten ++ final ++ 0x0a :: rest)) := by
      rw [← cutLine_append l _ h1]
      simp [List.append_assoc]
    simp only [Choice.ask, InStream.getline, hcut, if_true, h2, ih m l (fun x hx => h x (by simp [hx])) (by omega)]
    simp only [List.length_cons, List.replicate_succ, List.flatten_cons]

/-- What is shown for a question before it is answered, for lines `lines` of answers or details. -/
def questionScreen (y : ListStyle) (total : Nat) (st : ListState) (item : ListItem) (lines : Str) : Str :=
  questionHead y.quizMode st.current total ++ y.question st.shown item ++ lines

theorem offered_not_bad {cs : Choices} {a : UInt8} (h : a ∈ cs.map (·.1)) : Choice.answer cs none [a] = some a := by
  simp only [Choice.answer, (has_keys cs a).2 h, if_true]

theorem bad_not_answer {cs : Choices} {keys : List UInt8} (hk : cs.map (·.1) = keys) {l : Str}
    (h : ∀ a ∈ keys, l ≠ [a]) : Choice.answer cs none l = none := by
  unfold Choice.answer
  split
  · next hd => cases hd
  · next b =>
    have : ¬ cs.has b = true := by rw [has_keys, hk]; exact fun hb => h b hb rfl
    rw [if_neg this]
  · rfl

theorem keys_no_newline {quizMode first : Bool} {count : Nat} (h9 : count ≤ 9) {a : UInt8}
    (h : a ∈ listKeys quizMode first count) : (0x0a : UInt8) ∉ [a] := by
  have hd : ∀ i < 9, (0x0a : UInt8) ≠ UInt8.ofNat (49 + i) := by decide +kernel
  simp only [List.mem_singleton]
  rcases keys_mem h with h | h | h | ⟨h, -⟩ | ⟨-, i, hi, h⟩ <;> rw [h]
  · decide
  · decide
  · decide
  · decide
  · exact hd i (by omega)

/-- A question whose input is some lines that aren't accepted and then an accepted character other than `-`: the
screen, the prompt for every line, and what is written for the answer. -/
theorem C149_answer (y : ListStyle) (h1 : 1 ≤ y.count) (h9 : y.count ≤ 9) (items : List ListItem) (item : ListItem)
    (correct : Nat) (answers : List Nat) (lines : Str)
    (hl : y.choiceText items answers item = .ok lines) (st : ListState)
    (n fuel : Nat) (bad : List Str) (hn : bad.length < n) (a : UInt8) (rest : Str)
    (ha : a ∈ listKeys y.quizMode (st.current == 0) y.count) (hm : a ≠ 0x2d)
    (hbad : ∀ l ∈ bad, 0x0a ∉ l ∧ ∀ k ∈ listKeys y.quizMode (st.current == 0) y.count, l ≠ [k]) :
    ∃ st', st.judge correct item.name a = ((st.judge correct item.name a).1, st', true) ∧
      listRounds y items item correct answers n (fuel + 1)
        (quizChoices y.quizMode st.current items.length st.shown) st
        { rest := (bad.map (· ++ [0x0a])).flatten ++ [a] ++ 0x0a :: rest } =
      .ok (questionScreen y items.length st item lines ++
          (List.replicate (bad.length + 1) (listPrompt y.quizMode y.toReading st.shown (st.current == 0)
            (decide (st.current.toNat + 1 = items.length)) y.count)).flatten ++
          (st.judge correct item.name a).1,
        some (st', { rest := rest })) := by
  obtain ⟨cs, ho, hk⟩ := C146_prompt y st.current items.length st.shown h1 h9
  have hask := C149_prompts (listPrompt y.quizMode y.toReading st.shown (st.current == 0)
      (decide (st.current.toNat + 1 = items.length)) y.count) cs none a [a] rest
    (keys_no_newline h9 ha) (offered_not_bad (by rw [hk]; exact ha)) bad n []
    (fun l hl' => ⟨(hbad l hl').1, bad_not_answer hk (hbad l hl').2⟩) hn
  have hj : ∃ o st', st.judge correct item.name a = (o, st', true) := by
    unfold ListState.judge
    rw [if_neg hm]
    repeat' split
    all_goals exact ⟨_, _, rfl⟩
  obtain ⟨o, st', hj⟩ := hj
  refine ⟨st', by rw [hj], ?_⟩
  rw [listRounds, hl, ho]
  simp only [Res.bind, hask, hj, questionScreen]

/-- Answering with `-` asks the same question with the same answers again, with meanings shown if they weren't and the
other way round. -/
theorem C149_meanings (y : ListStyle) (h1 : 1 ≤ y.count) (h9 : y.count ≤ 9) (items : List ListItem) (item : ListItem)
    (correct : Nat) (answers : List Nat) (lines : Str) (hl : y.choiceText items answers item = .ok lines) (st : ListState)
    (n fuel : Nat) (bad : List Str) (hn : bad.length < n) (rest : Str)
    (hbad : ∀ l ∈ bad, 0x0a ∉ l ∧ ∀ k ∈ listKeys y.quizMode (st.current == 0) y.count, l ≠ [k]) :
    listRounds y items item correct answers n (fuel + 1)
        (quizChoices y.quizMode st.current items.length st.shown) st
        { rest := (bad.map (· ++ [0x0a])).flatten ++ [0x2d] ++ 0x0a :: rest } =
      (listRounds y items item correct answers n fuel
        (quizChoices y.quizMode st.current items.length (!st.shown)) { st with shown := !st.shown } { rest := rest }).bind
        fun r => .ok (questionScreen y items.length st item lines ++
          (List.replicate (bad.length + 1) (listPrompt y.quizMode y.toReading st.shown (st.current == 0)
            (decide (st.current.toNat + 1 = items.length)) y.count)).flatten ++ r.1, r.2) := by
  obtain ⟨cs, ho, hk⟩ := C146_prompt y st.current items.length st.shown h1 h9
  have ha : (0x2d : UInt8) ∈ listKeys y.quizMode (st.current == 0) y.count := by
    unfold listKeys; simp
  have hask := C149_prompts (listPrompt y.quizMode y.toReading st.shown (st.current == 0)
      (decide (st.current.toNat + 1 = items.length)) y.count) cs none 0x2d [0x2d] rest
    (by decide) (offered_not_bad (by rw [hk]; exact ha)) bad n []
    (fun l hl' => ⟨(hbad l hl').1, bad_not_answer hk (hbad l hl').2⟩) hn
  have hj : st.judge correct item.name 0x2d = ([], { st with shown := !st.shown }, false) := by
    simp [ListState.judge]
  rw [listRounds, hl, ho]
  simp only [Res.bind, hask, hj, C146_toggle, questionScreen, List.append_nil]

/-! ## C150 -/

/-- A quiz that throws an exception instead of starting writes nothing. -/
def C150_statement : Prop :=
  ∀ (y : ListStyle) (legend : Str) (items : List ListItem) (question : UInt16) (shown : Bool) (n : Nat)
    (draws : List (Nat × List Nat)) (s : InStream) (text : Str) (e : Exc),
    listQuiz y legend items question shown n draws s = .ok (text, some (.error e)) → text = []

/-- Starting at question 5 of a list of two is an error; a final score with five skipped questions is written
nevertheless. -/
theorem C150_violated : ¬ C150_statement := by
  intro h
  have := h ⟨true, true, 4⟩ [] [⟨u8!"一", u8!"イチ", [], [], none, []⟩, ⟨u8!"右", u8!"ウ", [], [], none, []⟩] 5 false 0 []
    { rest := [] } (u8!"\nFinal score: 0/5, skipped: 5\n") .usage rfl
  revert this
  decide

theorem final_throw (question : UInt16) (shown : Bool) (hq : question ≠ 0) :
    ListState.finish true { current := question, shown := shown } =
      u8!"\nFinal score: 0/" ++ toDec question.toNat ++ u8!", skipped: " ++ toDec question.toNat ++ u8!"\n" := by
  have h0 : question.toNat ≠ 0 := fun h => hq (UInt16.toNat_inj.1 h)
  have h1 : (((question.toNat : Int) - 0 - 0) % 2 ^ 64).toNat = question.toNat := by
    have : question.toNat < 65536 := question.toNat_lt
    omega
  simp only [ListState.finish, finalMessage, if_true, if_pos h0, List.length_nil, UInt16.toNat_zero, Int.ofNat_zero]
  simp only [h1, if_pos h0]
  have hd : toDec 0 = u8!"0" := by decide
  rw [hd]
  simp [List.append_assoc, h0]

/-- What a quiz writes that throws: nothing in a review; in a quiz a final score that counts the questions before the
one asked for as skipped.  It throws exactly if a kanji has no reading or the number is too large. -/
theorem C150_partial (y : ListStyle) (legend : Str) (items : List ListItem) (question : UInt16) (shown : Bool) (n : Nat)
    (draws : List (Nat × List Nat)) (s : InStream) :
    ((∃ text e, listQuiz y legend items question shown n draws s = .ok (text, some (.error e))) ↔
      (∃ i ∈ items, i.reading = []) ∨ question.toNat > items.length) ∧
    ∀ text e, listQuiz y legend items question shown n draws s = .ok (text, some (.error e)) →
      text = if y.quizMode then
          (if question = 0 then u8!"\nFinal score: 0/0\n"
           else u8!"\nFinal score: 0/" ++ toDec question.toNat ++ u8!", skipped: " ++ toDec question.toNat ++ u8!"\n")
        else [] := by
  have hfin : ListState.finish y.quizMode { current := question, shown := shown } =
      if y.quizMode then
          (if question = 0 then u8!"\nFinal score: 0/0\n"
           else u8!"\nFinal score: 0/" ++ toDec question.toNat ++ u8!", skipped: " ++ toDec question.toNat ++ u8!"\n")
        else [] := by
    cases hq : y.quizMode with
    | false => simp [ListState.finish]
    | true =>
      rw [if_pos rfl]
      by_cases h : question = 0
      · subst h; cases shown <;> decide +kernel
      · rw [if_neg h, final_throw question shown h]
  rw [← hfin]
  have hno : ∀ b, (∃ text e, ((listSession y items n draws { current := b, shown := shown } s).bind fun r =>
        let text := beginText y.quizMode items.length ++ (if y.toReading then legend else []) ++ r.1
        match r.2 with
        | none => .ok (text, none)
        | some (st, s) => .ok (text ++ st.finish y.quizMode, some (.ok s)) : Res (Str × Option (Except Exc InStream))) =
          .ok (text, some (.error e))) → False := by
    rintro b ⟨text, e, h⟩
    obtain ⟨r, -, h⟩ := Res.bind_eq_ok h
    obtain ⟨t, o⟩ := r
    cases o with
    | none => simp at h
    | some p => simp at h
  unfold listQuiz
  by_cases hr : (items.any fun i => decide (i.reading = [])) = true
  · simp only [if_pos hr]
    refine ⟨⟨fun _ => Or.inl ?_, fun _ => ⟨_, _, rfl⟩⟩, ?_⟩
    · simpa using hr
    · intro text e h; cases h; rfl
  · simp only [if_neg hr]
    have hr' : ¬ ∃ i ∈ items, i.reading = [] := by simpa using hr
    unfold beginQuiz
    by_cases h0 : question = 0
    · rw [if_pos h0]
      refine ⟨⟨fun h => (hno _ h).elim, ?_⟩, fun text e h => (hno _ ⟨text, e, h⟩).elim⟩
      rintro (h | h)
      · exact absurd h hr'
      · subst h0; simp at h
    · rw [if_neg h0]
      by_cases hb : question.toNat > items.length
      · rw [if_pos hb]
        refine ⟨⟨fun _ => Or.inr hb, fun _ => ⟨_, _, rfl⟩⟩, ?_⟩
        intro text e h; cases h; rfl
      · rw [if_neg hb]
        refine ⟨⟨fun h => (hno _ h).elim, ?_⟩, fun text e h => (hno _ ⟨text, e, h⟩).elim⟩
        rintro (h | h)
        · exact absurd h hr'
        · exact absurd h hb

/-! ## Examples (tests/quiz/ListQuizTest.cpp with four kanji) -/

def exampleItems : List ListItem :=
  [⟨u8!"一", u8!"イチ", u8!"N5", u8!", Jouyou", some (u8!"one"), u8!"    Reading: イチ\n"⟩,
   ⟨u8!"右", u8!"ウ", [], u8!", Jouyou", some (u8!"right"), []⟩,
   ⟨u8!"雨", u8!"あめ", [], u8!", Jouyou", some (u8!"rain"), []⟩]

/-- What is written and the input left, for a quiz that ends. -/
def quizText : Res (Str × Option (Except Exc InStream)) → Option (Str × InStream)
  | .ok (text, some (.ok s)) => some (text, s)
  | _ => none

-- a wrong answer after an input that isn't accepted and showing meanings, then quit
example : quizText (listQuiz ⟨true, true, 2⟩ (u8!">>> Legend\n") exampleItems 0 false 5 [(1, [0, 2]), (0, [1, 0])]
    { rest := u8!"x\n-\n1\n/\n" }) =
  some (u8!">>>\n>>> Starting quiz for 3 kanji\n>>>\n>>> Legend\n" ++
    u8!"\nQuestion 1/3:  一  N5\n    1.  あめ\n    2.  イチ\n" ++
    u8!"  Select correct reading (-=show meanings, .=skip, /=quit, 1-2): " ++
    u8!"  Select correct reading (-=show meanings, .=skip, /=quit, 1-2): " ++
    u8!"\nQuestion 1/3:  一  N5 : one\n    1.  あめ\n    2.  イチ\n" ++
    u8!"  Select correct reading (-=hide meanings, .=skip, /=quit, 1-2): " ++
    u8!"  Incorrect (correct answer is 2)\n" ++
    u8!"\nQuestion 2/3:  右 : right\n    1.  ウ\n    2.  " ++ u8!"イチ\n" ++
    u8!"  Select correct reading (-=hide meanings, .=skip, /=quit, 1-2): " ++
    u8!"\nFinal score: 0/1 - mistakes: 一\n", { rest := [] }) := by decide +kernel
-- a review: back, to the next question and to the end
example : quizText (listQuiz ⟨false, true, 1⟩ [] exampleItems 3 true 9 [(0, []), (0, []), (0, [])]
      { rest := u8!",\n.\n.\n" }) =
  some (u8!">>>\n>>> Starting review for 3 kanji\n>>>\n" ++
    u8!"\n3/3:  雨, Jouyou\n    Meaning: rain\n" ++ u8!"  Select (,=prev, -=hide meanings, .=finish, /=quit): " ++
    u8!"\n2/3:  右, Jouyou\n    Meaning: right\n" ++ u8!"  Select (,=prev, -=hide meanings, .=next, /=quit): " ++
    u8!"\n3/3:  雨, Jouyou\n    Meaning: rain\n" ++ u8!"  Select (,=prev, -=hide meanings, .=finish, /=quit): ",
    { rest := [] }) := by decide +kernel

end KT
