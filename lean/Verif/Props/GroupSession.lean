import Verif.Spec.GroupSession
import Verif.Props.GroupQuiz
import Verif.Props.LaunchSession
import Verif.Props.QuizScreen
/-!
# C158-C160: a group quiz from its input to its output
-/
namespace KT
open Spec

/-! ## Choices -/

theorem erase_has (cs : Choices) (x c : UInt8) : (cs.erase x).has c = true ↔ cs.has c = true ∧ c ≠ x := by
  simp only [has_iff, Choices.erase, List.mem_filter, bne_iff_ne]
  constructor
  · rintro ⟨d, h, hn⟩; exact ⟨⟨d, h⟩, hn⟩
  · rintro ⟨⟨d, h⟩, hn⟩; exact ⟨d, h, hn⟩

theorem erase_sorted {cs : Choices} (h : cs.Sorted) (x : UInt8) : (cs.erase x).Sorted :=
  List.Pairwise.filter _ h

theorem erase_not_has (cs : Choices) (x : UInt8) : (cs.erase x).has x = false := by
  cases h : (cs.erase x).has x with
  | false => rfl
  | true => exact absurd rfl ((erase_has cs x x).1 h).2

theorem assign_has (cs : Choices) (x c : UInt8) (d : Str) : (cs.assign x d).has c = true ↔ c = x ∨ cs.has c = true := by
  unfold Choices.assign
  rw [has_iff]
  simp only [insert_mem, Prod.mk.injEq]
  constructor
  · rintro ⟨e, ⟨rfl, _⟩ | h⟩
    · exact .inl rfl
    · exact .inr ((erase_has cs x c).1 ((has_iff _ _).2 ⟨e, h⟩)).1
  · intro h
    by_cases hc : c = x
    · exact ⟨d, .inl ⟨hc, rfl⟩⟩
    · rcases h with h | h
      · exact absurd h hc
      · obtain ⟨e, he⟩ := (has_iff _ _).1 ((erase_has cs x c).2 ⟨h, hc⟩)
        exact ⟨e, .inr he⟩

theorem assign_sorted {cs : Choices} (h : cs.Sorted) (x : UInt8) (d : Str) : (cs.assign x d).Sorted :=
  insert_sorted (erase_sorted h x) d (erase_not_has cs x)

theorem answerChoices_ok : ∀ l : List UInt8, (answerChoices l).Sorted ∧ ∀ c, (answerChoices l).has c = true ↔ c ∈ l
  | [] => ⟨List.Pairwise.nil, by intro c; simp [answerChoices, Choices.has]⟩
  | a :: r => by
    obtain ⟨h1, h2⟩ := answerChoices_ok r
    refine ⟨assign_sorted h1 a [], fun c => ?_⟩
    simp [answerChoices, assign_has, h2]

/-! ## Simulation of the model with valid answers -/

/-- The variables here and there. -/
structure Rel (p : GroupPlay) (st : GroupState) : Prop where
  answers : p.answers = st.answers
  sorted : p.choices.Sorted
  keys : ∀ c, p.choices.has c = true ↔ c ∈ st.choices

/-- There is no error, and when a part of a question comes to an end then the part for valid answers does as well for
some answers, with the same result. -/
def Sim {α β : Type} (r : GRun α) (k : List UInt8 → Run β) (o : α → β) : Prop :=
  ∃ text res, r = .ok (text, res) ∧ ∀ a p s, res = some (a, p, s) →
    ∃ inp st, Rel p st ∧ ∀ rest, k (inp ++ rest) = .ok (o a) st rest

theorem Sim.done {α β : Type} {a : α} {p : GroupPlay} {s : InStream} {k : List UInt8 → Run β} {o : α → β} {st : GroupState}
    (hr : Rel p st) (h : ∀ rest, k rest = .ok (o a) st rest) : Sim (GRun.done a p s) k o :=
  ⟨[], _, rfl, by
    intro a' p' s' he
    simp only [Option.some.injEq, Prod.mk.injEq] at he
    obtain ⟨rfl, rfl, rfl⟩ := he
    exact ⟨[], st, hr, h⟩⟩

theorem Sim.after {α β : Type} {r : GRun α} {k : List UInt8 → Run β} {o : α → β} (text : Str) (h : Sim r k o) :
    Sim (r.after text) k o := by
  obtain ⟨t, res, h1, h2⟩ := h
  exact ⟨text ++ t, res, by rw [GRun.after, h1]; rfl, h2⟩

theorem Sim.andThen {α β γ δ : Type} {r : GRun α} {k : List UInt8 → Run β} {o : α → β}
    {f : α → GroupPlay → InStream → GRun γ} {g : β → GroupState → List UInt8 → Run δ} {o' : γ → δ} (h : Sim r k o)
    (hf : ∀ a p s st inp, Rel p st → (∀ rest, k (inp ++ rest) = .ok (o a) st rest) → Sim (f a p s) (g (o a) st) o') :
    Sim (r.andThen f) (fun i => (k i).bind g) o' := by
  obtain ⟨t, res, h1, h2⟩ := h
  unfold GRun.andThen
  rw [h1]
  simp only [Res.bind]
  cases res with
  | none => exact ⟨t, none, rfl, by intro a p s he; cases he⟩
  | some x =>
    obtain ⟨a, p, s⟩ := x
    obtain ⟨inp, st, hr, hk⟩ := h2 a p s rfl
    obtain ⟨t', res', h1', h2'⟩ := hf a p s st inp hr hk
    simp only [h1']
    refine ⟨t ++ t', res', rfl, fun a' p' s' he => ?_⟩
    obtain ⟨inp', st', hr', hk'⟩ := h2' a' p' s' he
    refine ⟨inp ++ inp', st', hr', fun rest => ?_⟩
    show (k (inp ++ inp' ++ rest)).bind g = _
    rw [List.append_assoc, hk]
    exact hk' rest

theorem Sim.congr {α β : Type} {r : GRun α} {k k' : List UInt8 → Run β} {o : α → β} (h : Sim r k o)
    (hk : ∀ i, k' i = k i) : Sim r k' o := by
  have : k' = k := funext hk
  rw [this]; exact h

theorem sim_ask {n : Nat} {msg : Str} {cs : Choices} {dflt : Option UInt8} {useQuit : Bool} {p : GroupPlay} {s : InStream}
    (hs : cs.Sorted) (ha : Acceptable quizQuit useQuit cs dflt) (prompt : GroupPrompt) (keys : List UInt8)
    (hk : ∀ c, (offered quizQuit useQuit cs).has c = true → c ∈ keys) {st : GroupState} (hr : Rel p st) :
    Sim (groupAsk n msg cs dflt useQuit p s) (groupGet prompt keys st) id := by
  unfold groupAsk
  rw [C72_prompt quizQuit msg useQuit cs dflt hs ha]
  simp only [Res.bind]
  cases h : Choice.ask (promptText msg (offered quizQuit useQuit cs) dflt) (offered quizQuit useQuit cs) dflt n s [] with
  | mk text o =>
    cases o with
    | none => exact ⟨text, none, rfl, by intro a p s he; cases he⟩
    | some x =>
      obtain ⟨c, s'⟩ := x
      have hc := hk c (ask_key ha.hasDflt h)
      refine ⟨text, _, rfl, fun a p' s'' he => ?_⟩
      simp only [Option.some.injEq, Prod.mk.injEq] at he
      obtain ⟨rfl, rfl, rfl⟩ := he
      refine ⟨[c], st, hr, fun rest => ?_⟩
      simp [groupGet, hc]

theorem acceptable_of {L : List UInt8} (hL : LettersOk L) (hp : ∀ c ∈ L, isPrintable c = true) {cs : Choices}
    {dflt : Option UInt8} {useQuit : Bool} (hk : ∀ c, cs.has c = true → c ∈ L ∨ isChoiceOption c)
    (hne : useQuit = true ∨ ∃ c, cs.has c = true) (hd : ∀ d, dflt = some d → cs.has d = true) :
    Acceptable quizQuit useQuit cs dflt := by
  have hprint : ∀ c, cs.has c = true → isPrintable c = true := by
    intro c hc
    rcases hk c hc with h | h
    · exact hp c h
    · rcases h with h | h | h | h | h <;> (rw [h]; decide)
  refine ⟨?_, ?_, ?_, ?_⟩
  · intro q d h
    simp only [quizQuit, Option.some.injEq, Prod.mk.injEq] at h
    obtain ⟨rfl, rfl⟩ := h
    cases hc : cs.has 0x2f with
    | false => rfl
    | true =>
      rcases hk _ hc with h | h
      · exact absurd h hL.quit
      · rcases h with h | h | h | h | h <;> exact absurd h (by decide)
  · cases useQuit with
    | true =>
      intro h
      have := (insert_mem cs 0x2f (u8!"quit") (0x2f, u8!"quit")).2 (.inl rfl)
      have e : offered quizQuit true cs = cs.insert 0x2f (u8!"quit") := rfl
      rw [← e, h] at this
      cases this
    | false =>
      rcases hne with h | ⟨c, h⟩
      · cases h
      · intro he
        have e : offered quizQuit false cs = cs := rfl
        rw [e] at he
        rw [he] at h
        cases h
  · intro x hx
    cases useQuit with
    | true =>
      have e : offered quizQuit true cs = cs.insert 0x2f (u8!"quit") := rfl
      rw [e, insert_mem] at hx
      rcases hx with rfl | hx
      · decide
      · exact hprint _ ((has_iff _ _).2 ⟨_, hx⟩)
    | false => exact hprint _ ((has_iff _ _).2 ⟨_, hx⟩)
  · intro d hd'
    have h := hd d hd'
    cases useQuit with
    | false => exact h
    | true =>
      obtain ⟨e, he⟩ := (has_iff _ _).1 h
      exact (has_iff _ _).2 ⟨e, (insert_mem _ _ _ _).2 (.inr he)⟩

theorem offered_keys {cs : Choices} {c : UInt8} {useQuit : Bool} (h : (offered quizQuit useQuit cs).has c = true) :
    cs.has c = true ∨ (useQuit = true ∧ c = 0x2f) := by
  cases useQuit with
  | false => exact .inl h
  | true =>
    obtain ⟨d, hd⟩ := (has_iff _ _).1 h
    have e : offered quizQuit true cs = cs.insert 0x2f (u8!"quit") := rfl
    rw [e, insert_mem] at hd
    rcases hd with hd | hd
    · exact .inr ⟨rfl, congrArg Prod.fst hd⟩
    · exact .inl ((has_iff _ _).2 ⟨d, hd⟩)

theorem sim_toEdit {L : List UInt8} (hL : LettersOk L) (hp : ∀ c ∈ L, isPrintable c = true) {st : GroupState}
    (hi : GInv L .reading st) (hne : st.answers ≠ []) (n : Nat) {p : GroupPlay} (s : InStream) (hr : Rel p st) :
    Sim (askAnswerToEdit n p s) (getAnswerToEdit st) id := by
  unfold askAnswerToEdit
  by_cases h1 : p.answers.length = 1
  · rw [if_pos h1]
    refine Sim.done hr fun rest => ?_
    rw [hr.answers] at h1
    simp [getAnswerToEdit, h1]
  · rw [if_neg h1]
    have h1' : ¬ st.answers.length = 1 := by rw [← hr.answers]; exact h1
    refine Sim.congr (k := fun i => (groupGet .answerToEdit st.answers st i).bind fun c st inp =>
      match st.answers.findIdx? (· == c) with
      | some i => .ok i st inp
      | none => .ub) ?_ (fun i => by rw [getAnswerToEdit, if_neg h1']; rfl)
    obtain ⟨hs, hk⟩ := answerChoices_ok p.answers
    obtain ⟨a, ha⟩ := List.exists_mem_of_ne_nil _ hne
    refine Sim.andThen (sim_ask hs (acceptable_of hL hp ?_ (.inr ⟨a, ?_⟩) (by intro d h; cases h)) .answerToEdit st.answers
      ?_ hr) ?_
    · intro c hc
      exact .inl (hi.cons.2.1 c (by rw [← hr.answers]; exact (hk c).1 hc))
    · exact (hk a).2 (by rw [hr.answers]; exact ha)
    · intro c hc
      rcases offered_keys hc with h | ⟨h, _⟩
      · rw [← hr.answers]; exact (hk c).1 h
      · cases h
    · intro c p' s' st' inp hr' hk'
      have := hk' []
      have hall := groupGet_all (P := fun _ _ => True) .answerToEdit st.answers st (inp ++ []) trivial
      rw [this] at hall
      obtain ⟨rfl, hc, _⟩ := hall
      simp only [id] at hc
      rw [hr'.answers]
      cases hf : st'.answers.findIdx? (· == c) with
      | none =>
        rw [List.findIdx?_eq_none_iff] at hf
        simpa using hf c hc
      | some i => exact Sim.done hr' fun rest => by simp [hf]

theorem sim_edit {L : List UInt8} (hL : LettersOk L) (hp : ∀ c ∈ L, isPrintable c = true) {st : GroupState}
    (hi : GInv L .reading st) (hne : st.answers ≠ []) (n : Nat) {p : GroupPlay} (s : InStream) (hr : Rel p st) :
    Sim (askEdit n p s) (editAnswer st) id := by
  unfold askEdit
  refine Sim.andThen (sim_toEdit hL hp hi hne n s hr) ?_
  intro e p' s' st' inp hr' hk'
  have hall := getAnswerToEdit_all hi (inp ++ [])
  rw [hk'] at hall
  obtain ⟨rfl, he, _⟩ := hall
  simp only [id] at he ⊢
  rw [hr'.answers, List.getElem?_eq_getElem he]
  simp only
  have hkeys : ∀ c, (p'.choices.assign st'.answers[e] []).has c = true ↔ c ∈ addKey st'.answers[e] st'.choices := by
    intro c; rw [assign_has, mem_addKey, hr'.keys]
  have hsort := assign_sorted hr'.sorted st'.answers[e] []
  have hmem : st'.answers[e] ∈ L := hi.cons.2.1 _ (List.getElem_mem he)
  have hno : ¬ isChoiceOption st'.answers[e] := hL.opts _ hmem
  have hnew : ∀ c, (((((p'.choices.assign st'.answers[e] []).erase 0x2a).erase 0x2d).erase 0x27).erase 0x2e).has c = true ↔
      c ∈ eraseKey skipOption (eraseKey refreshOption (eraseKey meaningsOption
        (eraseKey editOption (addKey st'.answers[e] st'.choices)))) := by
    intro c
    simp only [erase_has, mem_eraseKey, hkeys]
    rfl
  refine Sim.andThen (sim_ask (erase_sorted (erase_sorted (erase_sorted (erase_sorted hsort _) _) _) _)
    (acceptable_of hL hp ?_ (.inr ⟨st'.answers[e], ?_⟩) ?_) _ _ ?_
    (st := { st' with choices := addKey st'.answers[e] st'.choices })
    (p := ⟨st'.answers, p'.choices.assign st'.answers[e] [], p'.shown⟩) ⟨rfl, hsort, hkeys⟩) ?_
  · intro c hc
    have := (hnew c).1 hc
    simp only [mem_eraseKey, mem_addKey] at this
    rcases this.1.1.1.1 with h | h
    · exact .inl (h ▸ hmem)
    · exact hi.opts c h
  · rw [hnew]
    simp only [mem_eraseKey, mem_addKey]
    simp only [isChoiceOption, not_or] at hno
    exact ⟨⟨⟨⟨.inl trivial, hno.2.2.1⟩, hno.1⟩, hno.2.2.2.1⟩, hno.2.1⟩
  · intro d hd
    cases hd
    rw [hnew]
    simp only [mem_eraseKey, mem_addKey]
    simp only [isChoiceOption, not_or] at hno
    exact ⟨⟨⟨⟨.inl trivial, hno.2.2.1⟩, hno.1⟩, hno.2.2.2.1⟩, hno.2.1⟩
  · intro c hc
    rcases offered_keys hc with h | ⟨h, _⟩
    · exact (hnew c).1 h
    · cases h
  · intro c p2 s2 st2 inp2 hr2 hk2
    refine Sim.done (st := ⟨st2.answers.set e c, eraseKey c st2.choices⟩) ⟨?_, erase_sorted hr2.sorted c, ?_⟩ fun rest => rfl
    · show p2.answers.set e c = _
      rw [hr2.answers]
    · intro x
      show (p2.choices.erase c).has x = true ↔ _
      rw [erase_has, mem_eraseKey, hr2.keys]

/-! ### More rounds than answers aren't needed -/

theorem Run.bind_ok {α β : Type} {r : Run α} {f : α → GroupState → List UInt8 → Run β} {b : β} {st : GroupState}
    {rest : List UInt8} (h : r.bind f = .ok b st rest) : ∃ a st' i, r = .ok a st' i ∧ f a st' i = .ok b st rest := by
  cases r with
  | ok a st' i => exact ⟨a, st', i, rfl, h⟩
  | _ => cases h

theorem groupGet_ok {p : GroupPrompt} {o : List UInt8} {st st' : GroupState} {inp r : List UInt8} {c : UInt8}
    (h : groupGet p o st inp = .ok c st' r) : st' = st ∧ inp = c :: r := by
  cases inp with
  | nil => cases h
  | cons x y =>
    simp only [groupGet] at h
    split at h
    · cases h; exact ⟨rfl, rfl⟩
    · cases h

theorem getAnswerToEdit_rest {st st' : GroupState} {inp r : List UInt8} {e : Nat}
    (h : getAnswerToEdit st inp = .ok e st' r) : r.length ≤ inp.length := by
  unfold getAnswerToEdit at h
  by_cases h1 : st.answers.length = 1
  · rw [if_pos h1] at h; cases h; exact Nat.le_refl _
  · rw [if_neg h1] at h
    obtain ⟨c, st1, i, hg, hx⟩ := Run.bind_ok h
    clear h
    have h := hx
    clear hx
    obtain ⟨rfl, rfl⟩ := groupGet_ok hg
    revert h
    cases st1.answers.findIdx? (· == c) with
    | none => intro h; cases h
    | some j => intro h; cases h; simp

theorem editAnswer_rest {st st' : GroupState} {inp r : List UInt8} {u : Unit} (h : editAnswer st inp = .ok u st' r) :
    r.length ≤ inp.length := by
  unfold editAnswer at h
  obtain ⟨e, st1, i, hg, hx⟩ := Run.bind_ok h
  clear h
  have h := hx
  clear hx
  have h1 := getAnswerToEdit_rest hg
  revert h
  cases st1.answers[e]? with
  | none => intro h; cases h
  | some old =>
    intro h
    obtain ⟨c, st2, i2, hg2, hx⟩ := Run.bind_ok h
    clear h
    have h := hx
    clear hx
    obtain ⟨rfl, rfl⟩ := groupGet_ok hg2
    cases h
    simp only [List.length_cons] at h1
    omega

/-- What `getAnswer` does with an answer, where `next` goes on after an answer has been changed. -/
def answerStep (next : GroupState → List UInt8 → Run AnswerOutcome) (answer : UInt8) (st : GroupState)
    (inp : List UInt8) : Run AnswerOutcome :=
  if answer = refreshOption then .ok .refresh st inp
  else if answer = meaningsOption then .ok .refresh { st with choices := addKey meaningsOption st.choices } inp
  else if answer = prevOption then .ok .prev st inp
  else if answer = skipOption then .ok .skip st inp
  else if answer = editOption then (editAnswer st inp).bind fun _ st inp => next st inp
  else if answer = quitOption then .ok .quit st inp
  else
    .ok .answered
      ⟨st.answers ++ [answer],
        if st.answers.length + 1 = 1 then
          addKey refreshOption (addKey editOption (eraseKey answer st.choices))
        else eraseKey answer st.choices⟩ inp

theorem answerStep_congr {next next' : GroupState → List UInt8 → Run AnswerOutcome} (a : UInt8) (st : GroupState)
    (inp : List UInt8) (h : ∀ st' (r : List UInt8), r.length ≤ inp.length → next st' r = next' st' r) :
    answerStep next a st inp = answerStep next' a st inp := by
  have : ((editAnswer st inp).bind fun _ st inp => next st inp) = (editAnswer st inp).bind fun _ st inp => next' st inp := by
    cases hed : editAnswer st inp with
    | ok u st' r => exact h st' r (editAnswer_rest hed)
    | _ => rfl
  unfold answerStep
  rw [this]

theorem getAnswer_step (f : Nat) (st : GroupState) (inp : List UInt8) : getAnswer (f + 1) st inp =
    (groupGet .reading (quitOption :: st.choices) st inp).bind (answerStep (getAnswer f)) := rfl

theorem getAnswer_fuel : ∀ (f1 f2 : Nat) (st : GroupState) (inp : List UInt8), inp.length < f1 → inp.length < f2 →
    getAnswer f1 st inp = getAnswer f2 st inp
  | 0, _, _, _, h, _ => by omega
  | _ + 1, 0, _, _, _, h => by omega
  | f1 + 1, f2 + 1, st, inp, h1, h2 => by
    rw [getAnswer_step, getAnswer_step]
    cases hg : groupGet .reading (quitOption :: st.choices) st inp with
    | ok c st' r =>
      obtain ⟨rfl, rfl⟩ := groupGet_ok hg
      simp only [List.length_cons] at h1 h2
      exact answerStep_congr c st' r fun st2 r2 h => getAnswer_fuel f1 f2 st2 r2 (by omega) (by omega)
    | _ => rfl

theorem getAnswer_unfold (st : GroupState) (inp : List UInt8) : getAnswer (inp.length + 1) st inp =
    (groupGet .reading (quitOption :: st.choices) st inp).bind
      (answerStep fun st inp => getAnswer (inp.length + 1) st inp) := by
  rw [getAnswer_step]
  cases hg : groupGet .reading (quitOption :: st.choices) st inp with
  | ok c st' r =>
    obtain ⟨rfl, rfl⟩ := groupGet_ok hg
    exact answerStep_congr c st' r fun st2 r2 h => getAnswer_fuel _ _ st2 r2 (by simp; omega) (by omega)
  | _ => rfl

theorem getAnswer_rest : ∀ (f : Nat) {st st' : GroupState} {inp r : List UInt8} {o : AnswerOutcome},
    getAnswer f st inp = .ok o st' r → r.length < inp.length
  | 0, _, _, _, _, _, h => by cases h
  | f + 1, st, st', inp, r, o, h => by
    rw [getAnswer_step] at h
    obtain ⟨c, st1, i, hg, hx⟩ := Run.bind_ok h
    clear h
    have h := hx
    clear hx
    obtain ⟨rfl, rfl⟩ := groupGet_ok hg
    simp only [List.length_cons]
    unfold answerStep at h
    by_cases h1 : c = refreshOption
    · rw [if_pos h1] at h; cases h; omega
    rw [if_neg h1] at h
    by_cases h2 : c = meaningsOption
    · rw [if_pos h2] at h; cases h; omega
    rw [if_neg h2] at h
    by_cases h3 : c = prevOption
    · rw [if_pos h3] at h; cases h; omega
    rw [if_neg h3] at h
    by_cases h4 : c = skipOption
    · rw [if_pos h4] at h; cases h; omega
    rw [if_neg h4] at h
    by_cases h5 : c = editOption
    · rw [if_pos h5] at h
      obtain ⟨u, st2, i2, he, hx⟩ := Run.bind_ok h
      clear h
      have h := hx
      clear hx
      have := editAnswer_rest he
      have := getAnswer_rest f h
      omega
    rw [if_neg h5] at h
    by_cases h6 : c = quitOption
    · rw [if_pos h6] at h; cases h; omega
    rw [if_neg h6] at h
    cases h; omega

theorem getAnswers_rest : ∀ (n : Nat) {st st' : GroupState} {inp r : List UInt8} {o : AnswersOutcome},
    getAnswers n st inp = .ok o st' r → r.length ≤ inp.length ∧ (o ≠ .complete → r.length < inp.length)
  | 0, _, _, _, _, _, h => by cases h; exact ⟨Nat.le_refl _, fun h => absurd rfl h⟩
  | n + 1, st, st', inp, r, o, h => by
    unfold getAnswers at h
    obtain ⟨o1, st1, i, hg, hx⟩ := Run.bind_ok h
    clear h
    have h := hx
    clear hx
    have h1 := getAnswer_rest _ hg
    cases o1 with
    | answered =>
      have := getAnswers_rest n h
      exact ⟨by omega, fun _ => by omega⟩
    | _ => cases h; exact ⟨by omega, fun _ => h1⟩

theorem groupQuestion_fuel (total : Nat) : ∀ (f1 f2 : Nat) (st : GroupState) (inp : List UInt8), inp.length < f1 →
    inp.length < f2 → groupQuestion total f1 st inp = groupQuestion total f2 st inp
  | 0, _, _, _, h, _ => by omega
  | _ + 1, 0, _, _, _, h => by omega
  | f1 + 1, f2 + 1, st, inp, h1, h2 => by
    unfold groupQuestion
    cases hg : getAnswers (total - st.answers.length) st inp with
    | ok o st' r =>
      simp only [Run.bind]
      by_cases ho : o = .refresh
      · have := (getAnswers_rest _ hg).2 (by rw [ho]; simp)
        rw [if_pos ho, if_pos ho]
        exact groupQuestion_fuel total f1 f2 st' r (by omega) (by omega)
      · rw [if_neg ho, if_neg ho]
    | _ => rfl

theorem groupQuestion_unfold (total : Nat) (st : GroupState) (inp : List UInt8) :
    groupQuestion total (inp.length + 1) st inp =
      (getAnswers (total - st.answers.length) st inp).bind fun o st inp =>
        if o = .refresh then groupQuestion total (inp.length + 1) st inp else .ok o st inp := by
  conv => lhs; unfold groupQuestion
  cases hg : getAnswers (total - st.answers.length) st inp with
  | ok o st' r =>
    simp only [Run.bind]
    by_cases ho : o = .refresh
    · have := (getAnswers_rest _ hg).2 (by rw [ho]; simp)
      rw [if_pos ho, if_pos ho]
      exact groupQuestion_fuel total _ _ st' r (by omega) (by omega)
    · rw [if_neg ho, if_neg ho]
  | _ => rfl

theorem Sim.wait {α β : Type} {k : List UInt8 → Run β} {o : α → β} (text : Str) : Sim (.ok (text, none)) k o :=
  ⟨text, none, rfl, by intro a p s he; cases he⟩

theorem sim_answer {L : List UInt8} (hL : LettersOk L) (hp : ∀ c ∈ L, isPrintable c = true) (quizMode : Bool) (n : Nat) :
    ∀ (fuel : Nat) {st : GroupState}, GInv L .reading st → ∀ {p : GroupPlay} (s : InStream), Rel p st →
      Sim (askAnswer quizMode n fuel p s) (fun i => getAnswer (i.length + 1) st i) id
  | 0, _, _, _, _, _ => Sim.wait []
  | fuel + 1, st, hi, p, s, hr => by
    unfold askAnswer
    refine Sim.after _ (Sim.congr (Sim.andThen (g := answerStep fun st inp => getAnswer (inp.length + 1) st inp)
      (sim_ask hr.sorted (acceptable_of hL hp ?_ (.inl rfl) (by intro d h; cases h)) .reading (quitOption :: st.choices) ?_ hr) ?_)
      (getAnswer_unfold st))
    · intro c hc; exact hi.opts c ((hr.keys c).1 hc)
    · intro c hc
      rcases offered_keys hc with h | ⟨_, h⟩
      · exact List.mem_cons_of_mem _ ((hr.keys c).1 h)
      · rw [h]; exact List.mem_cons_self
    · intro c p' s' st' inp hr' hk'
      have hall := groupGet_all (P := fun _ _ => True) .reading (quitOption :: st.choices) st (inp ++ []) trivial
      rw [hk'] at hall
      obtain ⟨rfl, hc, _⟩ := hall
      simp only [id] at hc ⊢
      by_cases h1 : c = 0x27
      · rw [if_pos h1]
        exact Sim.done hr' fun rest => by rw [answerStep, if_pos (show c = refreshOption from h1)]; rfl
      rw [if_neg h1]
      have h1' : ¬ c = refreshOption := h1
      by_cases h2 : c = 0x2d
      · rw [if_pos h2]
        refine Sim.done (st := { st' with choices := addKey meaningsOption st'.choices })
          ⟨hr'.answers, assign_sorted hr'.sorted _ _, fun x => ?_⟩ fun rest => by
            rw [answerStep, if_neg h1', if_pos (show c = meaningsOption from h2)]; rfl
        show (p'.choices.assign 0x2d _).has x = true ↔ _
        rw [assign_has, mem_addKey, hr'.keys]; rfl
      rw [if_neg h2]
      have h2' : ¬ c = meaningsOption := h2
      by_cases h3 : c = 0x2c
      · rw [if_pos h3]
        exact Sim.done hr' fun rest => by rw [answerStep, if_neg h1', if_neg h2', if_pos (show c = prevOption from h3)]; rfl
      rw [if_neg h3]
      have h3' : ¬ c = prevOption := h3
      by_cases h4 : c = 0x2e
      · rw [if_pos h4]
        exact Sim.done hr' fun rest => by rw [answerStep, if_neg h1', if_neg h2', if_neg h3', if_pos (show c = skipOption from h4)]; rfl
      rw [if_neg h4]
      have h4' : ¬ c = skipOption := h4
      by_cases h5 : c = 0x2a
      · rw [if_pos h5]
        have h5' : c = editOption := h5
        have hmem : editOption ∈ st'.choices := by
          rw [h5'] at hc; simpa [editOption, quitOption] using hc
        refine Sim.congr (Sim.andThen (g := fun _ st inp => getAnswer (inp.length + 1) st inp)
          (sim_edit hL hp hi (hi.edit hmem) n s' hr') ?_)
          fun i => by rw [answerStep, if_neg h1', if_neg h2', if_neg h3', if_neg h4', if_pos h5']
        intro u p2 s2 st2 inp2 hr2 hk2
        have hall := editAnswer_all hL hi (hi.edit hmem) (inp2 ++ [])
        rw [hk2] at hall
        exact sim_answer hL hp quizMode n fuel hall.1 s2 hr2
      rw [if_neg h5]
      have h5' : ¬ c = editOption := h5
      by_cases h6 : c = 0x2f
      · rw [if_pos h6]
        exact Sim.done hr' fun rest => by
          rw [answerStep, if_neg h1', if_neg h2', if_neg h3', if_neg h4', if_neg h5', if_pos (show c = quitOption from h6)]; rfl
      rw [if_neg h6]
      have h6' : ¬ c = quitOption := h6
      refine Sim.done (st := ⟨st'.answers ++ [c], if st'.answers.length + 1 = 1 then
          addKey refreshOption (addKey editOption (eraseKey c st'.choices)) else eraseKey c st'.choices⟩) ⟨?_, ?_, ?_⟩ fun rest => by
        rw [answerStep, if_neg h1', if_neg h2', if_neg h3', if_neg h4', if_neg h5', if_neg h6']; rfl
      · show p'.answers ++ [c] = _
        rw [hr'.answers]
      · show Choices.Sorted (if (p'.answers ++ [c]).length = 1 then _ else _)
        split
        · exact assign_sorted (assign_sorted (erase_sorted hr'.sorted _) _ _) _ _
        · exact erase_sorted hr'.sorted _
      · intro x
        show Choices.has (if (p'.answers ++ [c]).length = 1 then _ else _) x = true ↔ _
        rw [hr'.answers, List.length_append, List.length_singleton]
        by_cases hl : st'.answers.length + 1 = 1
        · simp only [if_pos hl, assign_has, erase_has, mem_addKey, mem_eraseKey, hr'.keys]
          rfl
        · simp only [if_neg hl, erase_has, mem_eraseKey, hr'.keys]

theorem sim_answers {L : List UInt8} (hL : LettersOk L) (hp : ∀ c ∈ L, isPrintable c = true) (quizMode : Bool) (n : Nat) :
    ∀ (k : Nat) {st : GroupState}, GInv L .reading st → ∀ {p : GroupPlay} (s : InStream), Rel p st →
      Sim (askAnswers quizMode n k p s) (getAnswers k st) id
  | 0, _, _, _, s, hr => Sim.done hr fun _ => rfl
  | k + 1, st, hi, p, s, hr => by
    unfold askAnswers
    refine Sim.andThen (sim_answer hL hp quizMode n n hi s hr) ?_
    intro o p' s' st' inp hr' hk'
    have hall := getAnswer_all hL ((inp ++ []).length + 1) st (inp ++ []) (Nat.lt_succ_self _) hi
    rw [hk'] at hall
    cases o with
    | answered => exact sim_answers hL hp quizMode n k hall.1 s' hr'
    | _ => exact Sim.done hr' fun _ => rfl

/-- What is needed to show the members of a question. -/
def Showable (quizMode : Bool) (t : GroupType) (questions readings : List GroupItem) : Prop :=
  ∀ (answers : List UInt8) (shown : Bool),
    ∃ screen, showGroup quizMode t answers 0 (questions.map (·.shown)) (readings.map (·.right shown)) = .ok screen

theorem sim_rounds {L : List UInt8} (hL : LettersOk L) (hp : ∀ c ∈ L, isPrintable c = true) (quizMode : Bool)
    (t : GroupType) (total : Nat) (current : UInt16) (g : GroupEntry) (questions readings : List GroupItem)
    (hshow : Showable quizMode t questions readings) (n : Nat) :
    ∀ (fuel : Nat) {st : GroupState}, GInv L .reading st → st.answers.length ≤ questions.length →
      ∀ {p : GroupPlay} (s : InStream), Rel p st →
      Sim (groupRounds quizMode t total current g questions readings n fuel p s)
        (fun i => groupQuestion questions.length (i.length + 1) st i) id
  | 0, _, _, _, _, _, _ => Sim.wait []
  | fuel + 1, st, hi, hle, p, s, hr => by
    unfold groupRounds
    obtain ⟨screen, hs⟩ := hshow p.answers p.shown
    rw [hs]
    simp only [Res.bind]
    refine Sim.after _ (Sim.congr (Sim.andThen (g := fun o st inp =>
      if o = .refresh then groupQuestion questions.length (inp.length + 1) st inp else .ok o st inp)
      (sim_answers hL hp quizMode n (questions.length - p.answers.length) hi s hr) ?_)
      fun i => by rw [groupQuestion_unfold, hr.answers])
    intro o p' s' st' inp hr' hk'
    have hall := getAnswers_all hL (questions.length - p.answers.length) st (inp ++ []) hi
    rw [hk'] at hall
    obtain ⟨h1, _, _, h4⟩ := hall
    rw [hr.answers] at h4
    simp only [id]
    by_cases ho : o = .refresh
    · simp only [if_pos ho]
      exact sim_rounds hL hp quizMode t total current g questions readings hshow n fuel h1 (by omega) s' hr'
    · simp only [if_neg ho]
      exact Sim.done hr' fun _ => rfl

/-! ### The start of a question -/

theorem foldl_assign (f : Nat → UInt8) : ∀ (l : List Nat) (cs : Choices), cs.Sorted →
    (l.foldl (fun cs i => cs.assign (f i) []) cs).Sorted ∧
      ∀ c, (l.foldl (fun cs i => cs.assign (f i) []) cs).has c = true ↔ cs.has c = true ∨ c ∈ l.map f
  | [], cs, h => ⟨h, by intro c; simp⟩
  | i :: l, cs, h => by
    obtain ⟨h1, h2⟩ := foldl_assign f l (cs.assign (f i) []) (assign_sorted h _ _)
    refine ⟨h1, fun c => ?_⟩
    simp only [List.foldl_cons, h2, assign_has, List.map_cons, List.mem_cons]
    constructor
    · rintro ((h | h) | h)
      · exact .inr (.inl h)
      · exact .inl h
      · exact .inr (.inr h)
    · rintro (h | h | h)
      · exact .inl (.inr h)
      · exact .inl (.inl h)
      · exact .inr h

theorem quizChoices_keys (quizMode shown : Bool) (current : UInt16) (total : Nat) :
    (quizChoices quizMode current total shown).map (·.1) =
      (if !quizMode && current != 0 then [prevOption] else []) ++ [meaningsOption, skipOption] := by
  rw [quizChoices_of, bne]
  generalize (current == 0) = first
  generalize decide (current.toNat + 1 = total) = last
  revert quizMode shown first last
  decide +kernel

theorem sorted_of_keys {cs : Choices} (h : (cs.map (·.1)).Pairwise (· < ·)) : cs.Sorted :=
  List.pairwise_map.1 h

theorem rel_start (quizMode shown : Bool) (current : UInt16) (total count : Nat) :
    Rel ⟨[], addLetters quizMode count (quizChoices quizMode current total shown), shown⟩
      (groupStart quizMode (current != 0) count) := by
  have hk := quizChoices_keys quizMode shown current total
  have hs : (quizChoices quizMode current total shown).Sorted := by
    apply sorted_of_keys
    rw [hk]
    clear hk
    generalize (current != 0) = b
    revert quizMode b
    decide
  have hh : ∀ c, (quizChoices quizMode current total shown).has c = true ↔
      c ∈ (if !quizMode && current != 0 then [prevOption] else []) ++ [meaningsOption, skipOption] := by
    intro c; rw [has_keys, hk]
  cases quizMode with
  | false =>
    refine ⟨rfl, hs, fun c => ?_⟩
    rw [addLetters, if_neg (by simp), hh]
    rfl
  | true =>
    obtain ⟨h1, h2⟩ := foldl_assign groupLetter (List.range count) _ hs
    refine ⟨rfl, h1, fun c => ?_⟩
    rw [addLetters, if_pos rfl, h2, hh]
    simp only [groupStart, if_true, List.mem_append]
    constructor
    · rintro ((h | h) | h)
      · exact .inl (.inr h)
      · exact .inr h
      · exact .inl (.inl h)
    · rintro ((h | h) | h)
      · exact .inr h
      · exact .inl (.inl h)
      · exact .inl (.inr h)

theorem letters_print (q : Bool) (n : Nat) (h : n ≤ 58) : ∀ c ∈ lettersFor q n, isPrintable c = true := by
  have : ∀ i < 58, isPrintable (groupLetter i) = true := by decide
  cases q with
  | false => intro c hc; cases hc
  | true =>
    intro c hc
    simp only [lettersFor, if_true, List.mem_map, List.mem_range] at hc
    obtain ⟨i, hi, rfl⟩ := hc
    exact this i (by omega)

/-- The pinyin of a member takes at most 8 columns, see C111. -/
def PinyinFits (i : GroupItem) : Prop :=
  ∀ p, i.shown.pinyin = some p → displaySize p ≤ 8 ∧ 0 ∉ p ∧ ∀ x y, p = x :: y → ¬ IsContinuation x

theorem showGroup_ok (quizMode : Bool) (t : GroupType) (answers : List UInt8) (shown : Bool) :
    ∀ (k : Nat) (questions readings : List GroupItem), (∀ i ∈ questions, PinyinFits i) →
      questions.length = readings.length →
      ∃ screen, showGroup quizMode t answers k (questions.map (·.shown)) (readings.map (·.right shown)) = .ok screen
  | _, [], _, _, _ => ⟨_, rfl⟩
  | _, _ :: _, [], _, h => by simp at h
  | k, q :: qs, r :: rs, hp, h => by
    obtain ⟨screen, hs⟩ := showGroup_ok quizMode t answers shown (k + 1) qs rs (fun i hi => hp i (by simp [hi]))
      (by simpa using h)
    have hq := (addPinyin_ok q.shown.qualifiedName q.shown.pinyin (hp q (by simp))).1
    obtain ⟨left, hleft⟩ : ∃ left, groupLineLeft quizMode t answers k q.shown = .ok left := by
      rw [groupLineLeft, hq]; exact ⟨_, rfl⟩
    refine ⟨left ++ [lineLetter quizMode k] ++ u8!":  " ++ r.reading ++ printMeaning r.meaning false shown ++ screen, ?_⟩
    simp only [List.map_cons]
    rw [show r.right shown = (r.reading, printMeaning r.meaning false shown) from rfl, showGroup, hleft, hs]
    rfl

theorem groupGet_mem {p : GroupPrompt} {o : List UInt8} {st st' : GroupState} {inp r : List UInt8} {c : UInt8}
    (h : groupGet p o st inp = .ok c st' r) : st' = st ∧ c ∈ o := by
  have hall := groupGet_all (P := fun _ _ => True) p o st inp trivial
  rw [h] at hall
  exact ⟨hall.1, hall.2.1⟩

/-- The way back isn't offered. -/
def NoPrev (st : GroupState) : Prop := prevOption ∉ st.choices ∧ prevOption ∉ st.answers

theorem editAnswer_noPrev {st st' : GroupState} {inp r : List UInt8} {u : Unit} (hn : NoPrev st)
    (h : editAnswer st inp = .ok u st' r) : NoPrev st' := by
  unfold editAnswer at h
  obtain ⟨e, st1, i, hg, h'⟩ := Run.bind_ok h
  clear h
  have h1 : st1 = st := by
    unfold getAnswerToEdit at hg
    split at hg
    · cases hg; rfl
    · obtain ⟨c, st2, i2, hg2, h2⟩ := Run.bind_ok hg
      have e2 := (groupGet_ok hg2).1
      revert h2
      cases st2.answers.findIdx? (· == c) with
      | none => intro h2; cases h2
      | some j => intro h2; cases h2; exact e2
  subst h1
  revert h'
  cases ho : st1.answers[e]? with
  | none => intro h'; cases h'
  | some old =>
    intro h'
    obtain ⟨c, st2, i2, hg2, h2⟩ := Run.bind_ok h'
    clear h'
    have hold : old ∈ st1.answers := List.mem_of_getElem? ho
    have hne : prevOption ≠ old := fun h => hn.2 (h ▸ hold)
    obtain ⟨rfl, hc⟩ := groupGet_mem hg2
    cases h2
    simp only [mem_eraseKey, mem_addKey] at hc
    have hcp : prevOption ≠ c := by
      rintro rfl
      rcases hc.1.1.1.1 with h | h
      · exact hne h
      · exact hn.1 h
    refine ⟨?_, ?_⟩
    · simp only [mem_eraseKey, mem_addKey]
      rintro ⟨h | h, -⟩
      · exact hne h
      · exact hn.1 h
    · intro h
      rcases List.mem_or_eq_of_mem_set h with h | h
      · exact hn.2 h
      · exact hcp h

theorem getAnswer_noPrev : ∀ (f : Nat) {st st' : GroupState} {inp r : List UInt8} {o : AnswerOutcome}, NoPrev st →
    getAnswer f st inp = .ok o st' r → o ≠ .prev ∧ NoPrev st'
  | 0, _, _, _, _, _, _, h => by cases h
  | f + 1, st, st', inp, r, o, hn, h => by
    rw [getAnswer_step] at h
    obtain ⟨c, st1, i, hg, h'⟩ := Run.bind_ok h
    clear h
    obtain ⟨rfl, hc⟩ := groupGet_mem hg
    clear hg
    unfold answerStep at h'
    by_cases h1 : c = refreshOption
    · rw [if_pos h1] at h'; cases h'; exact ⟨by simp, hn⟩
    rw [if_neg h1] at h'
    by_cases h2 : c = meaningsOption
    · rw [if_pos h2] at h'; cases h'
      refine ⟨by simp, ?_, hn.2⟩
      simp only [mem_addKey]
      rintro (h | h)
      · exact absurd h (by decide)
      · exact hn.1 h
    rw [if_neg h2] at h'
    by_cases h3 : c = prevOption
    · subst h3
      rcases List.mem_cons.1 hc with h | h
      · exact absurd h (by decide)
      · exact absurd h hn.1
    rw [if_neg h3] at h'
    by_cases h4 : c = skipOption
    · rw [if_pos h4] at h'; cases h'; exact ⟨by simp, hn⟩
    rw [if_neg h4] at h'
    by_cases h5 : c = editOption
    · rw [if_pos h5] at h'
      obtain ⟨u, st2, i2, he, h2⟩ := Run.bind_ok h'
      exact getAnswer_noPrev f (editAnswer_noPrev hn he) h2
    rw [if_neg h5] at h'
    by_cases h6 : c = quitOption
    · rw [if_pos h6] at h'; cases h'; exact ⟨by simp, hn⟩
    rw [if_neg h6] at h'
    cases h'
    refine ⟨by simp, ?_, ?_⟩
    · show prevOption ∉ (if st1.answers.length + 1 = 1 then _ else _)
      split
      · simp only [mem_addKey, mem_eraseKey]
        rintro (h | h | h)
        · exact absurd h (by decide)
        · exact absurd h (by decide)
        · exact hn.1 h.1
      · simp only [mem_eraseKey]
        exact fun h => hn.1 h.1
    · simp only [List.mem_append, List.mem_singleton]
      rintro (h | h)
      · exact hn.2 h
      · exact h3 h.symm

theorem getAnswers_noPrev : ∀ (n : Nat) {st st' : GroupState} {inp r : List UInt8} {o : AnswersOutcome}, NoPrev st →
    getAnswers n st inp = .ok o st' r → o ≠ .prev ∧ NoPrev st'
  | 0, _, _, _, _, _, hn, h => by cases h; exact ⟨by simp, hn⟩
  | n + 1, st, st', inp, r, o, hn, h => by
    unfold getAnswers at h
    obtain ⟨o1, st1, i, hg, h'⟩ := Run.bind_ok h
    clear h
    obtain ⟨h1, h2⟩ := getAnswer_noPrev _ hn hg
    cases o1 with
    | answered => exact getAnswers_noPrev n h2 h'
    | prev => exact absurd rfl h1
    | _ => cases h'; exact ⟨by simp, h2⟩

theorem groupQuestion_noPrev (total : Nat) : ∀ (f : Nat) {st st' : GroupState} {inp r : List UInt8} {o : AnswersOutcome},
    NoPrev st → groupQuestion total f st inp = .ok o st' r → o ≠ .prev
  | 0, _, _, _, _, _, _, h => by cases h
  | f + 1, st, st', inp, r, o, hn, h => by
    unfold groupQuestion at h
    obtain ⟨o1, st1, i, hg, h'⟩ := Run.bind_ok h
    clear h
    obtain ⟨h1, h2⟩ := getAnswers_noPrev _ hn hg
    by_cases ho : o1 = .refresh
    · rw [if_pos ho] at h'
      exact groupQuestion_noPrev total f h2 h'
    · rw [if_neg ho] at h'
      cases h'
      exact h1

theorem start_noPrev (quizMode hasPrev : Bool) (n : Nat) (h58 : n ≤ 58) (h : (!quizMode && hasPrev) = false) :
    NoPrev (groupStart quizMode hasPrev n) := by
  refine ⟨?_, by simp [groupStart]⟩
  have hL := lettersFor_ok quizMode n h58
  have hc : (groupStart quizMode hasPrev n).choices = lettersFor quizMode n ++
      (if !quizMode && hasPrev then [prevOption] else []) ++ [meaningsOption, skipOption] := rfl
  rw [hc, h]
  simp only [Bool.false_eq_true, if_false, List.append_nil, List.mem_append, List.mem_cons, List.not_mem_nil, or_false]
  rintro (h1 | h1 | h1)
  · exact hL.opts _ h1 (by simp [isChoiceOption])
  · exact absurd h1 (by decide)
  · exact absurd h1 (by decide)

/-! ## C158 -/

/-- A question of a group of up to 58 members, whatever is entered: there is no error; at the end the answers are
different letters of the group, one for each question if all were answered; going back is possible only in a review
after the first question; and there are answers for which the loop of C54 ends in the same way. -/
theorem C158_question (quizMode : Bool) (t : GroupType) (total : Nat) (current : UInt16) (g : GroupEntry)
    (questions readings : List GroupItem) (shown : Bool) (n : Nat) (s : InStream) (h58 : questions.length ≤ 58)
    (hl : questions.length = readings.length) (hp : ∀ i ∈ questions, PinyinFits i) :
    ∃ text res, groupRounds quizMode t total current g questions readings n n
        ⟨[], addLetters quizMode questions.length (quizChoices quizMode current total shown), shown⟩ s = .ok (text, res) ∧
      ∀ o p s', res = some (o, p, s') →
        p.answers.Nodup ∧ (∀ a ∈ p.answers, a ∈ lettersFor quizMode questions.length) ∧
        (o = .complete → p.answers.length = questions.length) ∧ o ≠ .refresh ∧
        (o = .prev → quizMode = false ∧ current ≠ 0) ∧
        ∃ inp st, groupQuestion questions.length (inp.length + 1) (groupStart quizMode (current != 0) questions.length) inp =
            .ok o st [] ∧ st.answers = p.answers := by
  have hL := lettersFor_ok quizMode questions.length h58
  have hi := groupStart_inv quizMode (current != 0) questions.length h58
  obtain ⟨text, res, h1, h2⟩ := sim_rounds hL (letters_print quizMode questions.length h58) quizMode t total current g
    questions readings (fun a sh => showGroup_ok quizMode t a sh 0 questions readings hp hl) n n hi (by simp [groupStart])
    s (rel_start quizMode shown current total questions.length)
  refine ⟨text, res, h1, fun o p s' hres => ?_⟩
  obtain ⟨inp, st, hr, hk⟩ := h2 o p s' hres
  have hk' := hk []
  rw [List.append_nil] at hk'
  have hall := groupQuestion_all hL questions.length (inp.length + 1) _ inp (Nat.lt_succ_self _) hi (by simp [groupStart])
  simp only [id] at hk'
  rw [hk'] at hall
  obtain ⟨ha, hb, hc⟩ := hall
  rw [hr.answers]
  refine ⟨ha.cons.1, ha.cons.2.1, hc, hb, fun ho => ?_, inp, st, hk', rfl⟩
  cases hq : (!quizMode && current != 0) with
  | true => simpa using hq
  | false =>
    exact absurd ho (groupQuestion_noPrev _ _ (start_noPrev quizMode (current != 0) questions.length h58 hq) hk')

/-! ## C159 -/

theorem filterMap_range : ∀ l : List GroupItem, (List.range l.length).filterMap (l[·]?) = l
  | [] => rfl
  | x :: l => by
    rw [List.length_cons, List.range_succ_eq_map, List.filterMap_cons]
    simp only [List.getElem?_cons_zero, List.filterMap_map]
    exact congrArg (x :: ·) (filterMap_range l)

/-- The members are shown in the order drawn. -/
theorem shuffled_perm (idx : List Nat) (l : List GroupItem) : (shuffled idx l).Perm l := by
  unfold shuffled
  split
  · next h =>
    have hp : idx.Perm (List.range l.length) := List.isPerm_iff.1 h
    have := hp.filterMap (l[·]?)
    rwa [filterMap_range] at this
  · exact List.Perm.refl l

theorem letters_idx (n : Nat) : ∀ l : List UInt8, (∀ a ∈ l, a ∈ lettersFor true n) →
    ∃ idx : List Nat, l = idx.map groupLetter ∧ ∀ i ∈ idx, i < n
  | [], _ => ⟨[], rfl, by simp⟩
  | a :: l, h => by
    obtain ⟨idx, h1, h2⟩ := letters_idx n l fun x hx => h x (by simp [hx])
    have ha := h a (by simp)
    simp only [lettersFor, if_true, List.mem_map, List.mem_range] at ha
    obtain ⟨i, hi, rfl⟩ := ha
    exact ⟨i :: idx, by rw [h1]; rfl, by
      intro j hj
      rcases List.mem_cons.1 hj with rfl | hj
      · exact hi
      · exact h2 j hj⟩

/-- The answers of a group of up to 26 members are checked against the members on the lines chosen. -/
theorem C159_verdict (st : ListState) (name : Str) (questions readings : List GroupItem) (idx : List Nat)
    (h26 : readings.length ≤ 26) (hl : idx.length = questions.length) (hi : ∀ i ∈ idx, i < readings.length) :
    checkText st name questions readings (idx.map groupLetter) =
      .ok (verdict (rightCount st.shown questions readings idx) questions.length (st.correct + 1).toNat
          (st.current.toNat + 1),
        if rightCount st.shown questions readings idx = questions.length then { st with correct := st.correct + 1 }
        else { st with mistakes := st.mistakes ++ [name] }) := by
  unfold checkText
  rw [C53_check_partial st.shown (readings.map (·.member)) (by simpa using h26) (questions.map (·.member)) idx
    (by simp [hl]) (by simpa using hi)]
  have hc : ((questions.map (·.member)).zip idx).countP (fun p =>
      ((readings.map (·.member))[p.2]?).any fun m => decide (p.1.reading = m.reading) &&
        (!st.shown || decide (p.1.meaning = m.meaning))) = rightCount st.shown questions readings idx := by
    unfold rightCount
    rw [List.zip_map_left, List.countP_map]
    congr 1
    funext p
    simp only [Function.comp, Prod.map, List.getElem?_map, id]
    cases readings[p.2]? with
    | none => rfl
    | some m =>
      simp only [Option.map, Option.any, GroupItem.member, sameReading]
      rw [Bool.eq_iff_iff]
      simp only [Bool.and_eq_true, Bool.or_eq_true, Bool.not_eq_true', beq_iff_eq]
      exact and_congr decide_eq_true_iff (or_congr Iff.rfl decide_eq_true_iff)
  simp only [Res.bind, hc, List.length_map, hl, verdict, correctMessage]
  by_cases h : rightCount st.shown questions readings idx = questions.length
  · simp only [if_pos h]
  · simp only [if_neg h]

/-- The order and the number of the members don't change the number of lines. -/
theorem round_lists (quizMode : Bool) (order : List Nat) (l : List GroupItem) :
    (if quizMode then shuffled order l else l).Perm l := by
  cases quizMode with
  | false => exact List.Perm.refl l
  | true => exact shuffled_perm order l

/-- A group that can be asked without an error: at least one member is shown, not more than 26, and their pinyin can be
shown. -/
def Askable (mt : MemberType) (g : GroupEntry) : Prop :=
  1 ≤ (shownMembers mt g).length ∧ (shownMembers mt g).length ≤ 26 ∧ ∀ i ∈ shownMembers mt g, PinyinFits i

theorem outcome_step (quizMode : Bool) (names : List Str) (st : ListState) (name : Str)
    (hn : names[st.current.toNat]? = some name) (questions readings : List GroupItem)
    (hl : questions.length = readings.length) (h1 : 1 ≤ questions.length) (h26 : questions.length ≤ 26)
    (answers : List UInt8) (shown : Bool) (o : AnswersOutcome) (ha : ∀ a ∈ answers, a ∈ lettersFor quizMode questions.length)
    (hc : o = .complete → answers.length = questions.length) (hr : o ≠ .refresh)
    (hp : o = .prev → quizMode = false ∧ st.current ≠ 0) :
    ∃ text st', groupOutcome { st with shown := shown } name questions readings answers o = .ok (text, st') ∧
      ∃ a : QuizAction, a.offered quizMode st.score = true ∧
        ListState.score { st' with current := st'.current + 1 } = st.score.step a ∧
        st'.mistakes = st.mistakes ++ missedNames names st.score [a] := by
  cases o with
  | refresh => exact absurd rfl hr
  | stop =>
    exact ⟨[], _, rfl, .quit, rfl, by simp [ListState.score, QuizScore.step], by simp [missedNames]⟩
  | skip => exact ⟨[], _, rfl, .skip, rfl, by simp [ListState.score, QuizScore.step], by simp [missedNames]⟩
  | prev =>
    obtain ⟨h2, h3⟩ := hp rfl
    refine ⟨[], _, rfl, .prev, ?_, by simp [ListState.score, QuizScore.step], by simp [missedNames]⟩
    simp [QuizAction.offered, h2, ListState.score, h3]
  | complete =>
    have hlen := hc rfl
    cases quizMode with
    | false =>
      cases answers with
      | nil => simp only [List.length_nil] at hlen; omega
      | cons a r => exact absurd (ha a (by simp)) (by simp [lettersFor])
    | true =>
      obtain ⟨idx, rfl, hi⟩ := letters_idx _ _ ha
      rw [List.length_map] at hlen
      rw [groupOutcome, C159_verdict _ name questions readings idx (by omega) hlen (by rw [← hl]; exact hi)]
      refine ⟨_, _, rfl, ?_⟩
      by_cases h : rightCount shown questions readings idx = questions.length
      · refine ⟨.right, rfl, ?_, ?_⟩
        · simp [h, ListState.score, QuizScore.step]
        · simp [h, missedNames]
      · refine ⟨.wrong, rfl, ?_, ?_⟩
        · simp [h, ListState.score, QuizScore.step]
        · simp [h, missedNames, ListState.score, hn]

theorem round_step (quizMode : Bool) (t : GroupType) (mt : MemberType) (groups : List GroupEntry) (g : GroupEntry)
    (hg : Askable mt g) (order : List Nat × List Nat) (n : Nat) (st : ListState) (s : InStream)
    (hi : groups[st.current.toNat]? = some g) :
    ∃ text res, groupRound quizMode t mt groups.length g order n st s = .ok (text, res) ∧ ∀ st' s', res = some (st', s') →
      ∃ a : QuizAction, a.offered quizMode st.score = true ∧
        ListState.score { st' with current := st'.current + 1 } = st.score.step a ∧
        st'.mistakes = st.mistakes ++ missedNames (groups.map (·.name)) st.score [a] := by
  obtain ⟨h1, h26, hp⟩ := hg
  have p1 := round_lists quizMode order.1 (shownMembers mt g)
  have p2 := round_lists quizMode order.2 (shownMembers mt g)
  have hl1 := p1.length_eq
  have hl2 := p2.length_eq
  unfold groupRound
  simp only
  rw [show (g.members.filter fun i => includeMember mt i.info) = shownMembers mt g from rfl]
  generalize (if quizMode then shuffled order.1 (shownMembers mt g) else shownMembers mt g) = qs at *
  generalize (if quizMode then shuffled order.2 (shownMembers mt g) else shownMembers mt g) = rs at *
  obtain ⟨text, res, h, hres⟩ := C158_question quizMode t groups.length st.current g qs rs st.shown n s (by omega)
    (by omega) (fun i hi => hp i (p1.mem_iff.1 hi))
  rw [h]
  simp only [Res.bind]
  cases res with
  | none => exact ⟨text, none, rfl, by intro st' s' he; cases he⟩
  | some x =>
    obtain ⟨o, p, s'⟩ := x
    obtain ⟨_, ha, hc, hr, hpv, _⟩ := hres o p s' rfl
    have hname : (groups.map (·.name))[st.current.toNat]? = some g.name := by simp [hi]
    obtain ⟨text2, st2, ho, hstep⟩ := outcome_step quizMode _ st g.name hname qs rs (by omega) (by omega) (by omega)
      p.answers p.shown o ha hc hr hpv
    simp only [ho]
    refine ⟨_, _, rfl, fun st' s'' he => ?_⟩
    simp only [Option.some.injEq, Prod.mk.injEq] at he
    obtain ⟨rfl, rfl⟩ := he
    exact hstep

/-- Whatever is entered, a group quiz has no error if not more than 26 members of a group are shown, and when it comes
to its end it went through the loop of C58: each question was answered with an action that was offered, the counts are
those of these actions, and the mistakes are the names of the groups answered wrong, in order. -/
theorem C159_session_partial (quizMode : Bool) (t : GroupType) (mt : MemberType) (groups : List GroupEntry)
    (hg : ∀ g ∈ groups, Askable mt g) (n : Nat) :
    ∀ (orders : List (List Nat × List Nat)) (st : ListState) (s : InStream),
      ∃ out res, groupSession quizMode t mt groups n orders st s = .ok (out, res) ∧
        ∀ st' s', res = some (st', s') →
          ∃ acts, quizLoop quizMode groups.length st.score acts = .finished st'.score ∧
            st'.mistakes = st.mistakes ++ missedNames (groups.map (·.name)) st.score acts := by
  intro orders
  induction orders with
  | nil =>
    intro st s
    rw [groupSession]
    by_cases hs : st.stop = true
    · rw [if_pos hs]
      refine ⟨_, _, rfl, fun st' s' he => ?_⟩
      simp only [Option.some.injEq, Prod.mk.injEq] at he
      obtain ⟨rfl, -⟩ := he
      exact ⟨[], by simp [quizLoop, ListState.score, hs], by simp [missedNames]⟩
    · rw [if_neg hs]
      cases hi : groups[st.current.toNat]? with
      | none =>
        refine ⟨_, _, rfl, fun st' s' he => ?_⟩
        simp only [Option.some.injEq, Prod.mk.injEq] at he
        obtain ⟨rfl, -⟩ := he
        have : ¬ st.current.toNat < groups.length := by simpa using hi
        exact ⟨[], by simp [quizLoop, ListState.score, hs, this], by simp [missedNames]⟩
      | some g => exact ⟨_, _, rfl, by intro st' s' he; cases he⟩
  | cons order orders ih =>
    intro st s
    rw [groupSession]
    by_cases hs : st.stop = true
    · rw [if_pos hs]
      refine ⟨_, _, rfl, fun st' s' he => ?_⟩
      simp only [Option.some.injEq, Prod.mk.injEq] at he
      obtain ⟨rfl, -⟩ := he
      exact ⟨[], by simp [quizLoop, ListState.score, hs], by simp [missedNames]⟩
    · rw [if_neg hs]
      cases hi : groups[st.current.toNat]? with
      | none =>
        refine ⟨_, _, rfl, fun st' s' he => ?_⟩
        simp only [Option.some.injEq, Prod.mk.injEq] at he
        obtain ⟨rfl, -⟩ := he
        have : ¬ st.current.toNat < groups.length := by simpa using hi
        exact ⟨[], by simp [quizLoop, ListState.score, hs, this], by simp [missedNames]⟩
      | some g =>
        obtain ⟨text, res, h1, h2⟩ := round_step quizMode t mt groups g (hg g (List.mem_of_getElem? hi)) order n st s hi
        simp only [h1, Res.bind]
        cases res with
        | none => exact ⟨_, _, rfl, by intro st' s' he; cases he⟩
        | some x =>
          obtain ⟨st1, s1⟩ := x
          obtain ⟨a, ha, hb, hc⟩ := h2 st1 s1 rfl
          obtain ⟨out2, res2, h3, h4⟩ := ih { st1 with current := st1.current + 1 } s1
          simp only [h3]
          refine ⟨_, _, rfl, fun st' s' he => ?_⟩
          obtain ⟨acts, h5, h6⟩ := h4 st' s' he
          rw [hb] at h5 h6
          have hlt : st.current.toNat < groups.length := (List.getElem?_eq_some_iff.1 hi).1
          refine ⟨a :: acts, ?_, ?_⟩
          · rw [quizLoop]
            have : (!st.score.stop && decide (st.score.current.toNat < groups.length)) = true := by
              simp [ListState.score, hs, hlt]
            rw [if_pos this, if_pos ha, h5]
          · rw [h6, missed_cons]
            simp only
            rw [hc, List.append_assoc]
