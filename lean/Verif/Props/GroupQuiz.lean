import Verif.Model.GroupQuiz
import Verif.Spec.Quiz
/-!
# Properties of group quizzes (C53, C54, C55, C80)
-/
namespace KT
open Spec

/-! ## C55 -/

theorem groupDups_nil (names ms : List Str) :
    groupDups names ms = [] ↔ ms.Nodup ∧ ∀ m ∈ ms, m ∉ names := by
  induction ms generalizing names with
  | nil => simp [groupDups]
  | cons m r ih =>
    by_cases h : m ∈ names
    · simp [groupDups, h]
    · have h' : names.contains m = false := by simpa using h
      simp only [groupDups, h', Bool.false_eq_true, if_false, ih, List.nodup_cons, List.mem_cons,
        not_or, forall_eq_or_imp]
      constructor
      · rintro ⟨h1, h2⟩
        exact ⟨⟨fun hm => (h2 m hm).1 rfl, h1⟩, h, fun x hx => (h2 x hx).2⟩
      · rintro ⟨⟨h1, h2⟩, _, h3⟩
        refine ⟨h2, fun x hx => ⟨?_, h3 x hx⟩⟩
        rintro rfl
        exact h1 hx

/-- A group can be created exactly when it has 2 to 58 distinct names; otherwise there is a
`DomainError`, and the members are those given. -/
theorem C55_groups (ms : List Str) :
    (createGroup ms = .ok ms ↔ 2 ≤ ms.length ∧ ms.length ≤ 58 ∧ ms.Nodup) ∧
    (createGroup ms = .ok ms ∨ createGroup ms = .throw .domain) := by
  have hd := groupDups_nil [] ms
  unfold createGroup
  by_cases h0 : ms = []
  · subst h0; simp
  have hl : ms.length ≠ 0 := by simpa using h0
  rw [if_neg h0]
  by_cases h1 : ms.length = 1
  · rw [if_pos h1]; simp; omega
  rw [if_neg h1]
  by_cases h2 : ms.length > 58
  · rw [if_pos h2]; simp; omega
  rw [if_neg h2]
  by_cases h3 : groupDups [] ms = []
  · rw [if_neg (by simpa using h3)]
    have := hd.1 h3
    simp [this.1]; omega
  · rw [if_pos h3]
    have : ¬ ms.Nodup := fun hn => h3 (hd.2 ⟨hn, by simp⟩)
    simp [this]

example : createGroup [u8!"亜", u8!"唖"] = .ok [u8!"亜", u8!"唖"] := by decide
example : createGroup [u8!"亜", u8!"唖", u8!"亜"] = .throw .domain := by decide

/-! ## C53 -/

/-- The letter shown for a position selects the reading at that position. -/
def C53_statement : Prop :=
  ∀ (readings : List QuizMember), 2 ≤ readings.length → readings.length ≤ 58 →
    ∀ (i : Nat) (h : i < readings.length),
      selectedMember readings (groupLetter i) = .ok readings[i]

theorem groupLetter_index (i : Nat) (h : i < 58) :
    answerIndex (groupLetter i) = if i < 26 then (i : Int) else (i : Int) - 58 := by
  have : ∀ i, i < 58 → answerIndex (groupLetter i) = if i < 26 then (i : Int) else (i : Int) - 58 := by
    decide
  exact this i h

/-- All letters are at most `z`, so the index of the members after the 26th is negative. -/
theorem C53_violated : ¬ C53_statement := by
  intro h
  have := h (List.replicate 27 ⟨[], [], []⟩) (by simp) (by simp) 26 (by simp)
  revert this
  decide

/-- The first 26 members are selected by their letters. For every later member of a group of up to 58
checking the answers has undefined behaviour. -/
theorem C53_select_partial (readings : List QuizMember) (h58 : readings.length ≤ 58) (i : Nat)
    (h : i < readings.length) :
    selectedMember readings (groupLetter i) = if i < 26 then .ok readings[i] else .ub := by
  unfold selectedMember
  rw [groupLetter_index i (by omega)]
  by_cases h26 : i < 26
  · rw [if_pos h26, if_pos h26, if_neg (by omega)]
    simp [h]
  · rw [if_neg h26, if_neg h26, if_pos (by omega)]

/-- Checking the answers of a group of up to 26: the answer for each question is correct exactly when
the member at the position of its letter has the reading (and, if shown, the meaning) of the
question. -/
theorem C53_check_partial (sm : Bool) (readings : List QuizMember) (h26 : readings.length ≤ 26) :
    ∀ (qs : List QuizMember) (idx : List Nat), idx.length ≤ qs.length →
      (hidx : ∀ i ∈ idx, i < readings.length) →
      checkAnswersLoop sm readings qs (idx.map groupLetter) =
        .ok ((List.zip qs idx).countP fun p =>
          (readings[p.2]?).any fun m => decide (p.1.reading = m.reading) &&
            (!sm || decide (p.1.meaning = m.meaning))) := by
  intro qs idx
  induction idx generalizing qs with
  | nil => intro _ _; cases qs <;> simp [checkAnswersLoop]
  | cons i r ih =>
    intro hl hidx
    cases qs with
    | nil => simp at hl
    | cons q qs =>
      have hi := hidx i (by simp)
      simp only [List.map_cons, checkAnswersLoop]
      rw [C53_select_partial readings (by omega) i hi, if_pos (by omega)]
      simp only [Res.bind]
      rw [ih qs (by simpa using hl) (fun j hj => hidx j (by simp [hj]))]
      simp only [List.zip_cons_cons, List.countP_cons, List.getElem?_eq_getElem hi, Option.any_some]
      by_cases hq : q.reading = readings[i].reading ∧ (sm = false ∨ q.meaning = readings[i].meaning)
      · rw [if_pos hq]; cases sm <;> simp_all
      · rw [if_neg hq]; cases sm <;> simp_all

/-! ## C54 -/

theorem mem_eraseKey (c x : UInt8) (cs : List UInt8) : c ∈ eraseKey x cs ↔ c ∈ cs ∧ c ≠ x := by
  simp [eraseKey]

theorem mem_addKey (c x : UInt8) (cs : List UInt8) : c ∈ addKey x cs ↔ c = x ∨ c ∈ cs := by
  unfold addKey
  by_cases h : x ∈ cs
  · have : cs.contains x = true := by simpa using h
    rw [if_pos this]
    constructor
    · exact Or.inr
    · rintro (rfl | h')
      · exact h
      · exact h'
  · have : ¬ cs.contains x = true := by simpa using h
    rw [if_neg this]; simp

/-- The options that aren't letters. -/
def isChoiceOption (c : UInt8) : Prop :=
  c = meaningsOption ∨ c = skipOption ∨ c = editOption ∨ c = refreshOption ∨ c = prevOption

structure LettersOk (L : List UInt8) : Prop where
  nodup : L.Nodup
  opts : ∀ c ∈ L, ¬ isChoiceOption c
  quit : quitOption ∉ L

/-- The invariant of a question. -/
structure GInv (L : List UInt8) (p : GroupPrompt) (st : GroupState) : Prop where
  cons : consistent L p st
  opts : ∀ c ∈ st.choices, c ∈ L ∨ isChoiceOption c
  edit : editOption ∈ st.choices → st.answers ≠ []
  prev : prevOption ∈ st.choices → L = []

/-- Every outcome is fine. -/
def Run.All {α : Type} (P : GroupPrompt → GroupState → Prop)
    (Q : α → GroupState → List UInt8 → Prop) : Run α → Prop
  | .invalid => True
  | .fuel => False
  | .ub => False
  | .waiting p st => P p st
  | .ok a st r => Q a st r

theorem Run.All_bind {α β : Type} {P : GroupPrompt → GroupState → Prop}
    {Q : α → GroupState → List UInt8 → Prop} {R : β → GroupState → List UInt8 → Prop}
    {r : Run α} {f : α → GroupState → List UInt8 → Run β}
    (h : r.All P Q) (hf : ∀ a st i, Q a st i → (f a st i).All P R) : (r.bind f).All P R := by
  cases r with
  | invalid => trivial
  | fuel => exact h
  | ub => exact h
  | waiting p st => exact h
  | ok a st i => exact hf a st i h

theorem groupGet_all {P : GroupPrompt → GroupState → Prop} (p : GroupPrompt) (o : List UInt8)
    (st : GroupState) (inp : List UInt8) (hp : P p st) :
    (groupGet p o st inp).All P fun c st' r => st' = st ∧ c ∈ o ∧ r.length + 1 = inp.length := by
  cases inp with
  | nil => exact hp
  | cons c r =>
    simp only [groupGet]
    by_cases h : c ∈ o
    · have : o.contains c = true := by simpa using h
      rw [if_pos this]; exact ⟨rfl, h, rfl⟩
    · have : ¬ o.contains c = true := by simpa using h
      rw [if_neg this]; trivial

theorem beingEdited_reading (st : GroupState) (c : UInt8) : ¬ beingEdited .reading st c := by
  rintro ⟨e, h, _⟩; cases h

theorem beingEdited_toEdit (st : GroupState) (c : UInt8) : ¬ beingEdited .answerToEdit st c := by
  rintro ⟨e, h, _⟩; cases h

theorem GInv.toEdit {L : List UInt8} {st : GroupState} (h : GInv L .reading st) :
    GInv L .answerToEdit st := by
  refine ⟨⟨h.cons.1, h.cons.2.1, fun c hc => ?_⟩, h.opts, h.edit, h.prev⟩
  have := h.cons.2.2 c hc
  simpa [beingEdited_reading, beingEdited_toEdit] using this

theorem getAnswerToEdit_all {L : List UInt8} {st : GroupState} (h : GInv L .reading st)
    (inp : List UInt8) :
    (getAnswerToEdit st inp).All (GInv L) fun e st' r =>
      st' = st ∧ e < st.answers.length ∧ r.length ≤ inp.length := by
  unfold getAnswerToEdit
  by_cases h1 : st.answers.length = 1
  · rw [if_pos h1]; exact ⟨rfl, by omega, Nat.le_refl _⟩
  · rw [if_neg h1]
    refine Run.All_bind (groupGet_all _ _ _ _ h.toEdit) ?_
    rintro c st' r ⟨rfl, hc, hr⟩
    cases hf : st'.answers.findIdx? (· == c) with
    | none =>
      rw [List.findIdx?_eq_none_iff] at hf
      simpa using hf c hc
    | some i =>
      have := List.findIdx?_eq_some_iff_getElem.1 hf
      exact ⟨rfl, this.1, by omega⟩

theorem nodup_set {l : List UInt8} (h : l.Nodup) (e : Nat) (he : e < l.length) (c : UInt8)
    (hc : c ∉ l ∨ c = l[e]) : (l.set e c).Nodup := by
  rw [List.nodup_iff_pairwise_ne, List.pairwise_iff_getElem] at *
  intro i j hi hj hij
  simp only [List.length_set] at hi hj
  simp only [List.getElem_set]
  have hij' := h i j hi hj hij
  by_cases h1 : e = i
  · subst h1
    rw [if_pos rfl, if_neg (by omega)]
    rcases hc with hc | hc
    · intro hx; exact hc (hx ▸ List.getElem_mem hj)
    · exact fun hx => hij' (hc.symm.trans hx)
  · rw [if_neg h1]
    by_cases h2 : e = j
    · subst h2
      rw [if_pos rfl]
      rcases hc with hc | hc
      · intro hx; exact hc (hx ▸ List.getElem_mem hi)
      · exact fun hx => hij' (hx.trans hc)
    · rw [if_neg h2]; exact hij'

theorem mem_set_iff {l : List UInt8} (h : l.Nodup) (e : Nat) (he : e < l.length) (c x : UInt8) :
    x ∈ l.set e c ↔ x = c ∨ (x ∈ l ∧ x ≠ l[e]) := by
  rw [List.nodup_iff_pairwise_ne, List.pairwise_iff_getElem] at h
  constructor
  · intro hx
    obtain ⟨i, hi, rfl⟩ := List.getElem_of_mem hx
    simp only [List.length_set] at hi
    rw [List.getElem_set]
    by_cases h1 : e = i
    · exact Or.inl (if_pos h1)
    · rw [if_neg h1]
      refine Or.inr ⟨List.getElem_mem hi, ?_⟩
      rcases Nat.lt_or_gt_of_ne h1 with hl | hl
      · exact fun hx => h e i he hi hl hx.symm
      · exact h i e hi he hl
  · rintro (rfl | ⟨hx, hne⟩)
    · exact List.mem_of_getElem (l := l.set e x) (i := e) (h := by simpa using he) (by simp)
    · obtain ⟨i, hi, rfl⟩ := List.getElem_of_mem hx
      have hei : e ≠ i := by rintro rfl; exact hne rfl
      exact List.mem_of_getElem (l := l.set e c) (i := i) (h := by simpa using hi)
        (by rw [List.getElem_set, if_neg hei])

/-- What editing does: nothing but one answer changes, to a letter that was free (or to itself). -/
def editedFrom (st st' : GroupState) : Prop :=
  ∃ e c, e < st.answers.length ∧ st'.answers = st.answers.set e c ∧
    (c ∉ st.answers ∨ st.answers[e]? = some c)

theorem editAnswer_all {L : List UInt8} (hL : LettersOk L) {st : GroupState}
    (h : GInv L .reading st) (hne : st.answers ≠ []) (inp : List UInt8) :
    (editAnswer st inp).All (GInv L) fun _ st' r =>
      GInv L .reading st' ∧ editedFrom st st' ∧ st'.answers ≠ [] ∧ r.length < inp.length := by
  unfold editAnswer
  refine Run.All_bind (getAnswerToEdit_all h inp) ?_
  rintro e st' r ⟨rfl, he, hr⟩
  rw [List.getElem?_eq_getElem he]
  have hmemL : ∀ i (hi : i < st'.answers.length), st'.answers[i] ∈ L :=
    fun i hi => h.cons.2.1 _ (List.getElem_mem hi)
  have hLne : L ≠ [] := by
    intro hn; have := hmemL e he; rw [hn] at this; cases this
  have hstep : GInv L (.newReading e) { st' with choices := addKey st'.answers[e] st'.choices } := by
    refine ⟨⟨h.cons.1, h.cons.2.1, fun c hc => ?_⟩, ?_, ?_, ?_⟩
    · have := h.cons.2.2 c hc
      simp only [beingEdited_reading, or_false] at this
      simp only [mem_addKey, this]
      constructor
      · rintro (rfl | h1)
        · exact Or.inr ⟨e, rfl, List.getElem?_eq_getElem he⟩
        · exact Or.inl h1
      · rintro (h1 | ⟨e', h1, h2⟩)
        · exact Or.inr h1
        · cases h1
          simp only [List.getElem?_eq_getElem he, Option.some.injEq] at h2
          exact Or.inl h2.symm
    · intro c hc
      simp only [mem_addKey] at hc
      rcases hc with rfl | hc
      · exact Or.inl (hmemL e he)
      · exact h.opts c hc
    · intro _; exact hne
    · intro hp
      simp only [mem_addKey] at hp
      rcases hp with hp | hp
      · exact absurd (by simp [isChoiceOption]) (hL.opts _ (hp ▸ hmemL e he))
      · exact h.prev hp
  refine Run.All_bind (groupGet_all _ _ _ _ hstep) ?_
  rintro c st'' r' ⟨rfl, hc, hr'⟩
  simp only [mem_eraseKey, mem_addKey] at hc
  obtain ⟨⟨⟨⟨hc, ho1⟩, ho2⟩, ho3⟩, ho4⟩ := hc
  have hcL : c ∈ L := by
    rcases hc with rfl | hc
    · exact hmemL e he
    · rcases h.opts c hc with h1 | h1
      · exact h1
      · rcases h1 with h1 | h1 | h1 | h1 | h1
        · exact absurd h1 ho2
        · exact absurd h1 ho4
        · exact absurd h1 ho1
        · exact absurd h1 ho3
        · exact absurd (h.prev (h1 ▸ hc)) hLne
  have hfree : c ∉ st'.answers ∨ c = st'.answers[e] := by
    rcases hc with h1 | h1
    · exact Or.inr h1
    · have := (h.cons.2.2 c hcL).1 h1
      simp only [beingEdited_reading, or_false] at this
      exact Or.inl this
  refine ⟨⟨⟨nodup_set h.cons.1 e he c hfree, ?_, ?_⟩, ?_, ?_, ?_⟩, ⟨e, c, he, rfl, ?_⟩, ?_, by omega⟩
  · intro a ha
    rw [mem_set_iff h.cons.1 e he] at ha
    rcases ha with rfl | ha
    · exact hcL
    · exact h.cons.2.1 a ha.1
  · intro x hx
    have := h.cons.2.2 x hx
    simp only [beingEdited_reading, or_false] at this ⊢
    rw [mem_set_iff h.cons.1 e he]
    simp only [mem_eraseKey, mem_addKey, this]
    by_cases h1 : x = c <;> by_cases h2 : x = st'.answers[e] <;> by_cases h3 : x ∈ st'.answers <;>
      simp [h1, h2, h3] <;> simp_all
  · intro x hx
    simp only [mem_eraseKey, mem_addKey] at hx
    rcases hx.1 with rfl | h1
    · exact Or.inl (hmemL e he)
    · exact h.opts x h1
  · intro _ hn
    have := congrArg List.length hn
    simp at this; simp [this] at he
  · intro hp
    simp only [mem_eraseKey, mem_addKey] at hp
    rcases hp.1 with hp | hp
    · exact absurd (by simp [isChoiceOption]) (hL.opts _ (hp ▸ hmemL e he))
    · exact h.prev hp
  · rcases hfree with h1 | h1
    · exact Or.inl h1
    · exact Or.inr (by rw [List.getElem?_eq_getElem he, h1])
  · intro hn
    have := congrArg List.length hn
    simp at this; simp [this] at he

theorem getAnswer_all {L : List UInt8} (hL : LettersOk L) :
    ∀ (fuel : Nat) (st : GroupState) (inp : List UInt8), inp.length < fuel → GInv L .reading st →
      (getAnswer fuel st inp).All (GInv L) fun o st' r =>
        GInv L .reading st' ∧ r.length < inp.length ∧
        st'.answers.length = st.answers.length + (if o = .answered then 1 else 0) := by
  intro fuel
  induction fuel with
  | zero => intro _ _ h; omega
  | succ fuel ih =>
    intro st inp hf h
    unfold getAnswer
    refine Run.All_bind (groupGet_all _ _ _ _ h) ?_
    rintro c st' r ⟨rfl, hc, hr⟩
    by_cases h1 : c = refreshOption
    · rw [if_pos h1]; exact ⟨h, by omega, rfl⟩
    rw [if_neg h1]
    by_cases h2 : c = meaningsOption
    · rw [if_pos h2]
      refine ⟨?_, by omega, rfl⟩
      have hm : meaningsOption ∈ st'.choices := by
        rw [h2] at hc; simpa [meaningsOption, quitOption] using hc
      have : addKey meaningsOption st'.choices = st'.choices := by
        unfold addKey; rw [if_pos (by simpa using hm)]
      rw [this]; exact h
    rw [if_neg h2]
    by_cases h3 : c = prevOption
    · rw [if_pos h3]; exact ⟨h, by omega, rfl⟩
    rw [if_neg h3]
    by_cases h4 : c = skipOption
    · rw [if_pos h4]; exact ⟨h, by omega, rfl⟩
    rw [if_neg h4]
    by_cases h5 : c = editOption
    · rw [if_pos h5]
      have he : editOption ∈ st'.choices := by
        rw [h5] at hc; simpa [editOption, quitOption] using hc
      refine Run.All_bind (editAnswer_all hL h (h.edit he) r) ?_
      rintro _ st2 r2 ⟨hi, ⟨e, c', _, hed, _⟩, _, hr2⟩
      have := ih st2 r2 (by omega) hi
      have hlen : st2.answers.length = st'.answers.length := by rw [hed]; simp
      revert this
      cases getAnswer fuel st2 r2 with
      | ok a st3 r3 =>
        rintro ⟨x, y, z⟩
        exact ⟨x, by omega, by rw [z, hlen]⟩
      | _ => exact id
    rw [if_neg h5]
    by_cases h6 : c = quitOption
    · rw [if_pos h6]; exact ⟨h, by omega, rfl⟩
    rw [if_neg h6]
    have hcc : c ∈ st'.choices := by simpa [h6] using hc
    have hcL : c ∈ L := by
      rcases h.opts c hcc with h' | h'
      · exact h'
      · rcases h' with h' | h' | h' | h' | h' <;> contradiction
    have hfree : c ∉ st'.answers := by
      have := (h.cons.2.2 c hcL).1 hcc
      simpa only [beingEdited_reading, or_false] using this
    have hLe : editOption ∉ L := fun hx => hL.opts _ hx (by simp [isChoiceOption])
    have hLr : refreshOption ∉ L := fun hx => hL.opts _ hx (by simp [isChoiceOption])
    have key : ∀ x ∈ L, x ∈ eraseKey c st'.choices ↔ x ∉ st'.answers ++ [c] := by
      intro x hx
      have := h.cons.2.2 x hx
      simp only [beingEdited_reading, or_false] at this
      simp [mem_eraseKey, this]
    refine ⟨⟨⟨?_, ?_, ?_⟩, ?_, ?_, ?_⟩, by omega, by simp⟩
    · simp only [List.nodup_append, List.nodup_cons, List.mem_singleton]
      refine ⟨h.cons.1, by simp, ?_⟩
      rintro a ha b rfl rfl
      exact hfree ha
    · intro a ha
      simp only [List.mem_append, List.mem_singleton] at ha
      rcases ha with ha | rfl
      · exact h.cons.2.1 a ha
      · exact hcL
    · intro x hx
      simp only [beingEdited_reading, or_false]
      rw [← key x hx]
      split
      · have : x ≠ editOption := fun e => hLe (e ▸ hx)
        have : x ≠ refreshOption := fun e => hLr (e ▸ hx)
        simp [mem_addKey, *]
      · rfl
    · intro x hx
      split at hx
      · simp only [mem_addKey, mem_eraseKey] at hx
        rcases hx with rfl | rfl | hx
        · right; simp [isChoiceOption]
        · right; simp [isChoiceOption]
        · exact h.opts x hx.1
      · simp only [mem_eraseKey] at hx
        exact h.opts x hx.1
    · intro _; simp
    · intro hp
      split at hp
      · simp only [mem_addKey, mem_eraseKey] at hp
        rcases hp with hp | hp | hp
        · exact absurd hp (by decide)
        · exact absurd hp (by decide)
        · exact h.prev hp.1
      · simp only [mem_eraseKey] at hp
        exact h.prev hp.1

theorem getAnswers_all {L : List UInt8} (hL : LettersOk L) :
    ∀ (n : Nat) (st : GroupState) (inp : List UInt8), GInv L .reading st →
      (getAnswers n st inp).All (GInv L) fun o st' r =>
        GInv L .reading st' ∧ (o ≠ .complete → r.length < inp.length) ∧
        (o = .complete → st'.answers.length = st.answers.length + n) ∧
        st'.answers.length ≤ st.answers.length + n := by
  intro n
  induction n with
  | zero => intro st inp h; exact ⟨h, fun h => absurd rfl h, fun _ => rfl, Nat.le_refl _⟩
  | succ n ih =>
    intro st inp h
    unfold getAnswers
    refine Run.All_bind (getAnswer_all hL _ st inp (Nat.lt_succ_self _) h) ?_
    rintro o st' r ⟨hi, hr, hlen⟩
    cases o with
    | answered =>
      have := ih st' r hi
      simp only [if_true] at hlen
      revert this
      show (getAnswers n st' r).All _ _ → (getAnswers n st' r).All _ _
      cases getAnswers n st' r with
      | ok a st3 r3 =>
        rintro ⟨x, y, z, w⟩
        exact ⟨x, fun ho => by have := y ho; omega, fun ho => by have := z ho; omega, by omega⟩
      | _ => exact id
    | _ =>
      simp only [reduceCtorEq, if_false, Nat.add_zero] at hlen
      exact And.intro hi (And.intro (fun _ => hr)
        (And.intro (fun h => by simp only [reduceCtorEq] at h) (by omega)))

theorem groupQuestion_all {L : List UInt8} (hL : LettersOk L) (total : Nat) :
    ∀ (fuel : Nat) (st : GroupState) (inp : List UInt8), inp.length < fuel → GInv L .reading st →
      st.answers.length ≤ total →
      (groupQuestion total fuel st inp).All (GInv L) fun o st' _ =>
        GInv L .reading st' ∧ o ≠ .refresh ∧ (o = .complete → st'.answers.length = total) := by
  intro fuel
  induction fuel with
  | zero => intro _ _ h; omega
  | succ fuel ih =>
    intro st inp hf h ht
    unfold groupQuestion
    refine Run.All_bind (getAnswers_all hL _ st inp h) ?_
    rintro o st' r ⟨hi, hr, hc, hle⟩
    by_cases ho : o = .refresh
    · rw [if_pos ho]
      have := hr (by rw [ho]; intro h; cases h)
      exact ih st' r (by omega) hi (by omega)
    · rw [if_neg ho]
      exact ⟨hi, ho, fun h => by have := hc h; omega⟩

/-- The letters shown for `n` members in quiz mode. -/
def lettersFor (quizMode : Bool) (n : Nat) : List UInt8 :=
  if quizMode then (List.range n).map groupLetter else []

theorem groupLetter_inj (i j : Nat) (hi : i < 58) (hj : j < 58) (h : groupLetter i = groupLetter j) :
    i = j := by
  have : ∀ i, i < 58 → ∀ j, j < 58 → groupLetter i = groupLetter j → i = j := by decide
  exact this i hi j hj h

theorem lettersFor_ok (q : Bool) (n : Nat) (h : n ≤ 58) : LettersOk (lettersFor q n) := by
  have ho : ∀ i, i < 58 → groupLetter i ≠ meaningsOption ∧ groupLetter i ≠ skipOption ∧
      groupLetter i ≠ editOption ∧ groupLetter i ≠ refreshOption ∧ groupLetter i ≠ prevOption ∧
      groupLetter i ≠ quitOption := by decide
  cases q with
  | false => exact ⟨by simp [lettersFor], by simp [lettersFor], by simp [lettersFor]⟩
  | true =>
    refine ⟨?_, ?_, ?_⟩
    · simp only [lettersFor, if_true, List.nodup_iff_pairwise_ne, List.pairwise_map]
      refine List.Pairwise.imp_of_mem ?_ (List.nodup_iff_pairwise_ne.1 (List.nodup_range (n := n)))
      intro a b ha hb hab he
      simp only [List.mem_range] at ha hb
      exact hab (groupLetter_inj a b (by omega) (by omega) he)
    · simp only [lettersFor, if_true, List.mem_map, List.mem_range]
      rintro c ⟨i, hi, rfl⟩ h'
      have := ho i (by omega)
      rcases h' with h' | h' | h' | h' | h' <;> simp [h'] at this
    · simp only [lettersFor, if_true, List.mem_map, List.mem_range]
      rintro ⟨i, hi, h'⟩
      exact (ho i (by omega)).2.2.2.2.2 h'

theorem groupStart_inv (q pv : Bool) (n : Nat) (h : n ≤ 58) :
    GInv (lettersFor q n) .reading (groupStart q pv n) := by
  have hL := lettersFor_ok q n h
  have hc : (groupStart q pv n).choices = lettersFor q n ++
      (if !q && pv then [prevOption] else []) ++ [meaningsOption, skipOption] := rfl
  refine ⟨⟨by simp [groupStart], by simp [groupStart], ?_⟩, ?_, ?_, ?_⟩
  · intro c hc'
    rw [hc]
    simp [groupStart, hc']
  · intro c
    rw [hc]
    simp only [List.mem_append, List.mem_cons, List.not_mem_nil, or_false]
    rintro ((h1 | h1) | h1)
    · exact Or.inl h1
    · split at h1
      · simp at h1; right; simp [isChoiceOption, h1]
      · cases h1
    · right; rcases h1 with rfl | rfl <;> simp [isChoiceOption]
  · rw [hc]
    simp only [List.mem_append, List.mem_cons, List.not_mem_nil, or_false]
    rintro ((h1 | h1) | h1)
    · exact absurd (by simp [isChoiceOption]) (hL.opts _ h1)
    · split at h1
      · simp at h1; exact absurd h1 (by decide)
      · cases h1
    · rcases h1 with h1 | h1 <;> exact absurd h1 (by decide)
  · rw [hc]
    simp only [List.mem_append, List.mem_cons, List.not_mem_nil, or_false]
    rintro ((h1 | h1) | h1)
    · exact absurd (by simp [isChoiceOption]) (hL.opts _ h1)
    · cases q
      · rfl
      · simp at h1
    · rcases h1 with h1 | h1 <;> exact absurd h1 (by decide)

/-- For any inputs to a question about a group of up to 58 members, at each prompt that is reached and
at the end: the answers are distinct letters of the group and exactly the other letters are offered
(plus, when editing, the one being edited).  There is never undefined behaviour, and when all answers
are given there is one per member. -/
theorem C54_answers (quizMode hasPrev : Bool) (n : Nat) (h : n ≤ 58) (inp : List UInt8) :
    match groupQuestion n (inp.length + 1) (groupStart quizMode hasPrev n) inp with
    | .invalid => True
    | .fuel => False
    | .ub => False
    | .waiting p st => consistent (lettersFor quizMode n) p st
    | .ok o st _ => consistent (lettersFor quizMode n) .reading st ∧
        (o = .complete → st.answers.length = n) := by
  have := groupQuestion_all (lettersFor_ok quizMode n h) n (inp.length + 1)
    (groupStart quizMode hasPrev n) inp (Nat.lt_succ_self _) (groupStart_inv quizMode hasPrev n h)
    (by simp [groupStart])
  revert this
  cases groupQuestion n (inp.length + 1) (groupStart quizMode hasPrev n) inp with
  | waiting p st => exact fun h => h.cons
  | ok o st r => exact fun h => ⟨h.1.cons, h.2.2⟩
  | _ => exact id

/-- Editing replaces one answer by a letter that wasn't used (or keeps it) and leaves the others. -/
theorem C54_edit (n : Nat) (h : n ≤ 58) (st : GroupState) (hst : GInv (lettersFor true n) .reading st)
    (hne : st.answers ≠ []) (inp : List UInt8) (st' : GroupState) (rest : List UInt8)
    (he : editAnswer st inp = .ok () st' rest) :
    ∃ e c, e < st.answers.length ∧ st'.answers = st.answers.set e c ∧
      (c ∉ st.answers ∨ st.answers[e]? = some c) ∧ consistent (lettersFor true n) .reading st' := by
  have := editAnswer_all (lettersFor_ok true n h) hst hne inp
  rw [he] at this
  obtain ⟨hi, ⟨e, c, h1, h2, h3⟩, _⟩ := this
  exact ⟨e, c, h1, h2, h3, hi.cons⟩

example : groupQuestion 3 8 (groupStart true false 3) (u8!"ba*bcac") =
    .invalid := by decide
example : groupQuestion 3 8 (groupStart true false 3) (u8!"ba*bcb") =
    .ok .complete ⟨u8!"cab", u8!"'*-."⟩ [] := by decide


/-! ## C80 -/

/-- Which members are shown for each kind of member selection. -/
theorem C80_members (k : MemberInfo) :
    (includeMember .jouyou k = true ↔ k.hasReading = true ∧ k.isJouyou = true) ∧
    (includeMember .jlpt k = true ↔ k.hasReading = true ∧ (k.isJouyou = true ∨ k.hasLevel = true)) ∧
    (includeMember .frequency k = true ↔
      k.hasReading = true ∧ (k.isJouyou = true ∨ k.hasLevel = true ∨ k.frequency ≠ 0)) ∧
    (includeMember .all k = true ↔ k.hasReading = true) := by
  obtain ⟨a, b, c, d⟩ := k
  cases a <;> cases b <;> cases c <;> simp [includeMember, MemberType.toNat]

/-- A wider selection shows all members of a narrower one. -/
theorem C80_wider (t u : MemberType) (h : t.toNat ≤ u.toNat) (k : MemberInfo)
    (hk : includeMember t k = true) : includeMember u k = true := by
  obtain ⟨h1, h2, h3, h4⟩ := C80_members k
  cases t <;> cases u <;> simp [MemberType.toNat] at h <;> simp_all <;> grind

theorem prepareLoop_all (t : MemberType) (b : Option Nat) (l : List QuizGroup)
    (h : ∀ i p, b = some i → patternGroups[i]? = some p → ∀ g ∈ l, containsStr p g.name = false) :
    prepareLoop t b true l = .ok (l.filter (enoughMembers t)) := by
  induction l with
  | nil => rfl
  | cons g r ih =>
    have hr := ih fun i p hb hp x hx => h i p hb hp x (by simp [hx])
    have fin : ((Res.ok (r.filter (enoughMembers t))).bind fun l =>
        .ok (if true && enoughMembers t g then g :: l else l) : Res (List QuizGroup)) =
        .ok ((g :: r).filter (enoughMembers t)) := by
      simp only [Res.bind, Bool.true_and, List.filter_cons]
    cases b with
    | none => simp only [prepareLoop, if_true, hr]; exact fin
    | some i =>
      cases hp : patternGroups[i]? with
      | none => simp only [prepareLoop, if_true, hp, hr]; exact fin
      | some p =>
        have := h i p rfl hp g (by simp)
        simp only [prepareLoop, if_true, hp, this, Bool.false_eq_true, if_false, hr]; exact fin

theorem prepareLoop_until (t : MemberType) (i : Nat) (p : Str) (hp : patternGroups[i]? = some p)
    (a : List QuizGroup) (g : QuizGroup) (r : List QuizGroup)
    (ha : ∀ x ∈ a, containsStr p x.name = false) (hg : containsStr p g.name = true) :
    prepareLoop t (some i) true (a ++ g :: r) = .ok (a.filter (enoughMembers t)) := by
  induction a with
  | nil => simp [prepareLoop, hp, hg]
  | cons x a ih =>
    have hx := ha x (by simp)
    simp only [List.cons_append, prepareLoop, if_true, hp, hx, Bool.false_eq_true, if_false,
      ih fun y hy => ha y (by simp [hy]), Res.bind, Bool.true_and, List.filter_cons]

theorem prepareLoop_from (t : MemberType) (i : Nat) (p : Str) (hp : patternGroups[i]? = some p)
    (a : List QuizGroup) (g : QuizGroup) (r : List QuizGroup)
    (ha : ∀ x ∈ a, containsStr p x.name = false) (hg : containsStr p g.name = true) :
    prepareLoop t (some (i + 1)) false (a ++ g :: r) =
      (prepareLoop t (some (i + 1)) true r).bind fun l =>
        .ok (if enoughMembers t g then g :: l else l) := by
  induction a with
  | nil => simp [prepareLoop, hp, hg]
  | cons x a ih =>
    have hx := ha x (by simp)
    simp only [List.cons_append, prepareLoop, Bool.false_eq_true, if_false, Nat.add_sub_cancel, hp, hx,
      ih fun y hy => ha y (by simp [hy]), Bool.false_and]
    cases prepareLoop t (some (i + 1)) true r <;> rfl

/-- Without a bucket all groups with enough members are used. -/
theorem C80_all (t : MemberType) (l : List QuizGroup) :
    prepareList t none l = .ok (l.filter (enoughMembers t)) :=
  prepareLoop_all t none l (by simp)

/-- If the pattern groups are in the order of the markers (six segments, each after the first starting
with the first group whose name contains the marker of the segment) then each bucket consists of the
groups of its segment that have enough members: every group is in exactly one bucket. -/
theorem C80_buckets (t : MemberType) (segs : List (List QuizGroup)) (h6 : segs.length = 6)
    (hstart : ∀ (j : Nat) (p : Str) (s : List QuizGroup), patternGroups[j]? = some p → segs[j + 1]? = some s →
      ∃ g r, s = g :: r ∧ containsStr p g.name = true)
    (hfirst : ∀ (j : Nat) (p : Str) (i : Nat) (s : List QuizGroup), patternGroups[j]? = some p → i ≤ j → segs[i]? = some s →
      ∀ g ∈ s, containsStr p g.name = false) (k : Nat) (hk : k < 6) :
    prepareList t (some k) segs.flatten = .ok ((segs[k]).filter (enoughMembers t)) := by
  have hpl : patternGroups.length = 5 := rfl
  have hsplit : segs.flatten = (segs.take k).flatten ++ (segs[k] ++ (segs.drop (k + 1)).flatten) := by
    rw [← List.flatten_cons, ← List.drop_eq_getElem_cons, ← List.flatten_append, List.take_append_drop]
  have hsk : segs[k]? = some segs[k] := List.getElem?_eq_getElem (by omega)
  have hafter : ∀ p, patternGroups[k]? = some p →
      ∃ g r, (segs.drop (k + 1)).flatten = g :: r ∧ containsStr p g.name = true := by
    intro p hp
    have hk5 : k < 5 := by have := (List.getElem?_eq_some_iff.1 hp).1; omega
    obtain ⟨g, r, hs, hg⟩ := hstart k p segs[k + 1] hp (List.getElem?_eq_getElem (by omega))
    rw [List.drop_eq_getElem_cons (by omega), List.flatten_cons, hs]
    exact ⟨g, _, rfl, hg⟩
  have hloop : ∀ r : List QuizGroup, (∀ x ∈ r, x ∈ segs[k]) →
      prepareLoop t (some k) true (r ++ (segs.drop (k + 1)).flatten) =
        .ok (r.filter (enoughMembers t)) := by
    intro r hr
    cases hp : patternGroups[k]? with
    | none =>
      have : (segs.drop (k + 1)).flatten = [] := by
        have := List.getElem?_eq_none_iff.1 hp
        rw [List.drop_eq_nil_of_le (by omega)]; rfl
      rw [this, List.append_nil]
      refine prepareLoop_all t _ r ?_
      intro i p hi hp'
      cases hi
      rw [hp] at hp'; cases hp'
    | some p =>
      obtain ⟨g, r', hs, hg⟩ := hafter p hp
      rw [hs]
      exact prepareLoop_until t k p hp r g r'
        (fun x hx => hfirst k p k _ hp (Nat.le_refl k) hsk x (hr x hx)) hg
  unfold prepareList
  cases k with
  | zero =>
    rw [hsplit]
    simpa using hloop segs[0] (fun x hx => hx)
  | succ k =>
    have hpk : patternGroups[k]? = some patternGroups[k] := List.getElem?_eq_getElem (by omega)
    obtain ⟨g, r, hs, hg⟩ := hstart k _ _ hpk hsk
    have hb : ((some (k + 1)).getD 0 == 0) = false := by simp
    rw [hb, hsplit]
    simp only [hs] at hloop ⊢
    have ha : ∀ x ∈ (segs.take (k + 1)).flatten, containsStr patternGroups[k] x.name = false := by
      intro x hx
      obtain ⟨s, hs', hx'⟩ := List.mem_flatten.1 hx
      obtain ⟨i, hi, rfl⟩ := List.getElem_of_mem hs'
      have hi' := hi
      rw [List.length_take] at hi'
      refine hfirst k _ i _ hpk (by omega) (List.getElem?_eq_getElem (by omega)) x ?_
      simpa using hx'
    rw [List.cons_append, prepareLoop_from t k _ hpk _ g _ ha hg,
      hloop r (fun x hx => by simp [hx])]
    simp only [Res.bind, List.filter_cons]

example : prepareList .all (some 1)
    [⟨u8!"一：イ", []⟩, ⟨u8!"可：カ", List.replicate 2 ⟨true, false, false, 0⟩⟩, ⟨u8!"左：サ", []⟩] =
    .ok [⟨u8!"可：カ", List.replicate 2 ⟨true, false, false, 0⟩⟩] := by decide

end KT
