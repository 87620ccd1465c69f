import Verif.Props.LaunchSession
import Verif.Props.LaunchText
import Verif.Spec.LaunchDialog
import Verif.Spec.LaunchText
/-!
# The dialog before a quiz for any input (C166)
-/
namespace KT
open Spec

/-! ## Prompts -/

theorem answer_keyIn (cs : Choices) (dflt : Option UInt8) (l : Str) :
    Choice.answer cs dflt l = keyIn (cs.map (·.1)) dflt l := by
  match l with
  | [] => cases dflt <;> rfl
  | [c] =>
    by_cases h : c ∈ cs.map (·.1)
    · simp only [Choice.answer, keyIn, (has_keys cs c).2 h, if_true, h]
    · have : ¬ Choices.has cs c = true := fun h' => h ((has_keys cs c).1 h')
      simp only [Choice.answer, keyIn, this, h, if_false]
      rfl
  | _ :: _ :: _ => rfl

theorem typedOr_eq (prompt : Str) (cs : Choices) (dflt : Option UInt8) : ∀ (n : Nat) (s : InStream) (line : Str),
    Choice.ask prompt cs dflt n s line = typedOr prompt (cs.map (·.1)) dflt n s line := by
  intro n
  induction n with
  | zero => intro s line; rfl
  | succ n ih =>
    intro s line
    simp only [Choice.ask, typedOr, answer_keyIn]
    generalize s.getline line = g
    obtain ⟨s', l⟩ := g
    simp only
    cases keyIn (cs.map (·.1)) dflt l with
    | some b => rfl
    | none => simp only [ih, Talk.begin]

theorem typedOr_key {prompt : Str} {keys : List UInt8} {dflt : Option UInt8} (hd : ∀ c, dflt = some c → c ∈ keys) :
    ∀ {n : Nat} {s : InStream} {line text : Str} {a : UInt8} {s' : InStream},
    typedOr prompt keys dflt n s line = (text, some (a, s')) → a ∈ keys := by
  intro n
  induction n with
  | zero => intro s line text a s' h; simp [typedOr] at h
  | succ n ih =>
    intro s line text a s' h
    simp only [typedOr] at h
    split at h
    · next c hc =>
      cases h
      unfold keyIn at hc
      split at hc
      · exact hd _ hc
      · split at hc
        · next hm => cases hc; exact hm
        · cases hc
      · cases hc
    · exact ih (text := (typedOr prompt keys dflt n (s.getline line).1 (s.getline line).2).1) (by
        simp only [Talk.begin, Prod.mk.injEq] at h
        exact Prod.ext rfl h.2)

theorem Talk.next_next {α β γ : Type} (r : Talk α) (f : α → InStream → Talk β) (g : β → InStream → Talk γ) :
    Talk.next (Talk.next r f) g = Talk.next r fun a s => Talk.next (f a s) g := by
  obtain ⟨text, o⟩ := r
  cases o with
  | none => rfl
  | some x =>
    simp only [Talk.next]
    cases (f x.1 x.2).2 with
    | none => rfl
    | some y => simp only [List.append_assoc]

theorem Talk.next_congr {α β : Type} (r : Talk α) (f g : α → InStream → Talk β)
    (h : ∀ a s, r.2 = some (a, s) → f a s = g a s) : Talk.next r f = Talk.next r g := by
  unfold Talk.next
  split
  · rfl
  · next a s hr => rw [h a s hr]

/-- What a run writes, what was chosen and the input that is left. -/
def LaunchRun.seen (r : LaunchRun) : Res (Talk Chosen) := r.bind fun x => .ok (x.1, x.2.map fun y => (y.2.1, y.2.2))

/-- One question. -/
theorem seen_ask (t : UInt8) (ht : t ∈ (u8!"fgklmp" : Str)) (q : LaunchQ) (n : Nat) (s : InStream)
    (f : UInt8 → InStream → LaunchRun) (g : UInt8 → InStream → Talk Chosen)
    (h : ∀ c ∈ launchKeys t q, ∀ s, (f c s).seen = .ok (g c s)) :
    LaunchRun.seen ((askOf t q).andThen n s f) =
      .ok ((typedOr (launchPrompt t q) (launchKeys t q) (launchDefault t q) n s []).next g) := by
  obtain ⟨cs, hp, hk, hd⟩ := C156_prompts q t ht
  unfold Ask.andThen Ask.run
  rw [hp]
  simp only [Res.bind]
  rw [hd, typedOr_eq, hk]
  generalize hr : typedOr (launchPrompt t q) (launchKeys t q) (launchDefault t q) n s [] = r
  obtain ⟨text, o⟩ := r
  cases o with
  | none => rfl
  | some x =>
    obtain ⟨c, s'⟩ := x
    have hc := typedOr_key (default_offered q t ht) hr
    have := h c hc s'
    simp only [Talk.next]
    unfold LaunchRun.seen at this ⊢
    cases hf : f c s' with
    | throw _ => rw [hf] at this; cases this
    | ub => rw [hf] at this; cases this
    | ok y =>
      rw [hf] at this
      simp only [Res.bind, Res.ok.injEq] at this ⊢
      rw [← this]

/-! ## The dialog -/

/-- The rest of the dialog. -/
def dialogFrom (n : Nat) (given : LaunchQ → Option UInt8) (qs : List LaunchQ) (k : Answers) (s : InStream) : Talk Chosen :=
  (converse n given qs k s).next fun k s => ([], some (match k with | none => .quit | some k => quizFor k, s))

theorem dialogFrom_nil (n : Nat) (given : LaunchQ → Option UInt8) (k : Answers) (s : InStream) :
    dialogFrom n given [] k s = ([], some (quizFor k, s)) := rfl

theorem dialogFrom_given {n : Nat} {given : LaunchQ → Option UInt8} {q : LaunchQ} {qs : List LaunchQ} {k : Answers}
    {s : InStream} {c : UInt8} (h : given q = some c) :
    dialogFrom n given (q :: qs) k s = dialogFrom n given qs (k.with q c) s := by
  unfold dialogFrom
  rw [converse, h]

theorem dialogFrom_skip {n : Nat} {given : LaunchQ → Option UInt8} {q : LaunchQ} {qs : List LaunchQ} {k : Answers}
    {s : InStream} (h : given q = none) (ha : applies k q = false) :
    dialogFrom n given (q :: qs) k s = dialogFrom n given qs k s := by
  unfold dialogFrom
  rw [converse, h]
  simp only [ha, Bool.false_eq_true, if_false]

theorem dialogFrom_ask {n : Nat} {given : LaunchQ → Option UInt8} {q : LaunchQ} {qs : List LaunchQ} {k : Answers}
    {s : InStream} (h : given q = none) (ha : applies k q = true) :
    dialogFrom n given (q :: qs) k s =
      (typedOr (launchPrompt (k .type) q) (launchKeys (k .type) q) (launchDefault (k .type) q) n s []).next fun c s =>
        if c = 0x2f then ([], some (.quit, s)) else dialogFrom n given qs (k.with q c) s := by
  unfold dialogFrom
  rw [converse, h]
  simp only [ha, if_true]
  rw [Talk.next_next]
  apply Talk.next_congr
  intro c s' _
  split <;> rfl

theorem seen_done (l : Launcher) (c : Chosen) (s : InStream) : (launchDone l c s).seen = .ok ([], some (c, s)) := rfl

/-- The settings agree with the answers. -/
def keptMode (l : Launcher) (k : Answers) : Prop :=
  (l.mode = .review ∧ k .mode = 0x72) ∨ (l.mode = .quiz ∧ k .mode = 0x74)
def keptOrder (l : Launcher) (k : Answers) : Prop :=
  (l.order = .fromBeginning ∧ k .order = 0x62) ∨ (l.order = .fromEnd ∧ k .order = 0x65) ∨
    (l.order = .random ∧ k .order = 0x72)

theorem keptMode_if {l : Launcher} {k : Answers} (h : keptMode l k) :
    (if k .mode = 0x72 then ProgramMode.review else .quiz) = l.mode := by
  rcases h with ⟨h1, h2⟩ | ⟨h1, h2⟩ <;> rw [h1, h2] <;> rfl

theorem keptOrder_if {l : Launcher} {k : Answers} (h : keptOrder l k) :
    (if k .order = 0x62 then QuestionOrder.fromBeginning else if k .order = 0x65 then .fromEnd else .random) = l.order := by
  rcases h with ⟨h1, h2⟩ | ⟨h1, h2⟩ | ⟨h1, h2⟩ <;> rw [h1, h2] <;> rfl

theorem with_same (k : Answers) (q : LaunchQ) (c : UInt8) : (k.with q c) q = c := by simp [Answers.with]
theorem with_other (k : Answers) (q r : LaunchQ) (c : UInt8) (h : r ≠ q) : (k.with q c) r = k r := by simp [Answers.with, h]

theorem count_keys : ∀ c ∈ (u8!"/23456789" : Str), c ≠ 0x2f → (c - 0x30).toNat = c.toNat - 48 := by decide

variable (n : Nat) (given : LaunchQ → Option UInt8) (hcount : given .count = none) (hstyle : given .style = none)
include hcount hstyle

theorem seen_style (l : Launcher) (k : Answers) (hm : keptMode l k) (ho : keptOrder l k) (t : UInt8)
    (ht : t ∈ (u8!"fgkl" : Str)) (hk : k .type = t) (list : QuestionList) (hl : listOf t (k .list) = list) (s : InStream) :
    (askStyle n l list s).seen = .ok (dialogFrom n given [.count, .style] k s) := by
  have ht' : t ∈ (u8!"fgklmp" : Str) := list_types t ht
  have hcon : (u8!"fgkl" : Str).contains t = true := List.contains_iff_mem.2 ht
  unfold askStyle
  by_cases hq : l.mode = .quiz
  · have hkm : k .mode = 0x74 := by
      rcases hm with ⟨h, _⟩ | ⟨_, h⟩
      · rw [h] at hq; cases hq
      · exact h
    rw [if_pos hq, dialogFrom_ask hcount (by unfold applies; rw [hkm, hk, hcon]; rfl), hk]
    refine seen_ask t ht' .count n s _ _ fun c hc s => ?_
    by_cases hc2 : c = 0x2f
    · rw [if_pos hc2, if_pos (show c = quitOption from hc2)]; exact seen_done _ _ _
    · rw [if_neg hc2, if_neg (show ¬ c = quitOption from hc2),
        dialogFrom_ask hstyle (by
          unfold applies
          rw [with_other _ _ _ _ (by decide), with_other _ _ _ _ (by decide), hkm, hk, hcon]; rfl),
        with_other _ _ _ _ (by decide), hk]
      refine seen_ask t ht' .style n s _ _ fun x hx s => ?_
      by_cases hx2 : x = 0x2f
      · rw [if_pos hx2, if_pos (show x = quitOption from hx2)]; exact seen_done _ _ _
      · rw [if_neg hx2, if_neg (show ¬ x = quitOption from hx2), dialogFrom_nil, seen_done]
        unfold quizFor
        simp only [with_other _ _ _ _ (show LaunchQ.mode ≠ .style by decide),
          with_other _ _ _ _ (show LaunchQ.mode ≠ .count by decide), with_other _ _ _ _ (show LaunchQ.order ≠ .style by decide),
          with_other _ _ _ _ (show LaunchQ.order ≠ .count by decide), with_other _ _ _ _ (show LaunchQ.type ≠ .style by decide),
          with_other _ _ _ _ (show LaunchQ.type ≠ .count by decide), with_other _ _ _ _ (show LaunchQ.list ≠ .style by decide),
          with_other _ _ _ _ (show LaunchQ.list ≠ .count by decide)]
        rw [keptMode_if hm, keptOrder_if ho, hk]
        unfold chosenQuiz
        rw [if_pos ht, if_pos hq, hl, with_same, with_other _ _ _ _ (show LaunchQ.count ≠ .style by decide), with_same,
          count_keys c (by simpa [launchKeys] using hc) hc2]
  · have hkm : k .mode = 0x72 := by
      rcases hm with ⟨_, h⟩ | ⟨h, _⟩
      · exact h
      · exact absurd h hq
    have hna : ∀ q, q = .count ∨ q = .style → applies k q = false := by
      rintro q (rfl | rfl) <;> (unfold applies; rw [hkm]; rfl)
    rw [if_neg hq, dialogFrom_skip hcount (hna _ (.inl rfl)), dialogFrom_skip hstyle (hna _ (.inr rfl)), dialogFrom_nil, seen_done]
    unfold quizFor
    rw [keptMode_if hm, keptOrder_if ho, hk]
    unfold chosenQuiz
    rw [if_pos ht, if_neg hq, hl]

/-- After the list is known. -/
theorem seen_chosen (l : Launcher) (k : Answers) (hm : keptMode l k) (ho : keptOrder l k) (t : UInt8)
    (ht : t ∈ (u8!"fgklmp" : Str)) (hk : k .type = t) (c : UInt8) (hc : c ∈ offeredLists t) (hkc : k .list = c) (s : InStream) :
    (t ∈ (u8!"fgkl" : Str) →
      LaunchRun.seen ((selectList t c).bind fun list => askStyle n l list s) = .ok (dialogFrom n given [.count, .style] k s)) ∧
    (t ∉ (u8!"fgkl" : Str) →
      (launchDone {} (.group l.mode l.order (t == 0x70) (selectMemberType c)) s).seen =
        .ok (dialogFrom n given [.count, .style] k s)) := by
  constructor
  · intro htl
    rw [selectList_documented t htl c hc]
    exact seen_style n given hcount hstyle l k hm ho t htl hk _ (by rw [hkc]) s
  · intro htl
    have hna : ∀ q, q = .count ∨ q = .style → applies k q = false := by
      have : (u8!"fgkl" : Str).contains t = false := by rw [Bool.eq_false_iff, ne_eq, List.contains_iff_mem]; exact htl
      rintro q (rfl | rfl) <;> (unfold applies; rw [hk, this]; exact Bool.and_false _)
    rw [dialogFrom_skip hcount (hna _ (.inl rfl)), dialogFrom_skip hstyle (hna _ (.inr rfl)), dialogFrom_nil, seen_done]
    unfold quizFor
    rw [keptMode_if hm, keptOrder_if ho, hk, hkc]
    unfold chosenQuiz
    have hc4 : c ∈ (u8!"1234" : Str) := by
      have : ∀ t ∈ (u8!"fgklmp" : Str), t ∉ (u8!"fgkl" : Str) → ∀ c ∈ offeredLists t, c ∈ (u8!"1234" : Str) := by decide +kernel
      exact this t ht htl c hc
    rw [if_neg htl, selectMembers_documented c hc4]

theorem seen_list (l : Launcher) (k : Answers) (hm : keptMode l k) (ho : keptOrder l k) (t : UInt8)
    (ht : t ∈ (u8!"fgklmp" : Str)) (hk : k .type = t) (hq : ∀ c, given .list = some c → c ∈ offeredLists t) (s : InStream) :
    (askList n l (given .list) t s).seen = .ok (dialogFrom n given [.list, .count, .style] k s) := by
  have go (c : UInt8) (hc : c ∈ offeredLists t) (s : InStream) :=
    seen_chosen n given hcount hstyle l (k.with .list c) (by simpa [keptMode, with_other] using hm)
      (by simpa [keptOrder, with_other] using ho) t ht (by rw [with_other _ _ _ _ (by decide), hk]) c hc (with_same _ _ _) s
  have hiff : (t = 0x66 ∨ t = 0x67 ∨ t = 0x6b ∨ t = 0x6c) ↔ t ∈ (u8!"fgkl" : Str) := by simp
  have hmp : t ∉ (u8!"fgkl" : Str) → t = 0x6d ∨ t = 0x70 := by revert t; intro t ht; revert ht; simp; grind
  have hkeys : ∀ c ∈ launchKeys t .list, c ≠ 0x2f → c ∈ offeredLists t := by
    intro c hc hne
    rw [C156_lists t ht] at hc
    rcases List.mem_cons.1 hc with h | h
    · exact absurd h hne
    · exact h
  unfold askList
  by_cases htl : t ∈ (u8!"fgkl" : Str)
  · rw [if_pos (hiff.2 htl)]
    cases hg : given .list with
    | some c =>
      rw [dialogFrom_given hg]
      unfold Ask.unless
      have hc := hq c hg
      simp only
      rw [if_neg (show ¬ c = quitOption from fun h => offered_no_quit t ht ((show c = 0x2f from h) ▸ hc))]
      exact (go c hc s).1 htl
    | none =>
      rw [dialogFrom_ask hg rfl, hk]
      unfold Ask.unless
      refine seen_ask t ht .list n s _ _ fun c hc s => ?_
      by_cases hc2 : c = 0x2f
      · rw [if_pos hc2, if_pos (show c = quitOption from hc2)]; exact seen_done _ _ _
      · rw [if_neg hc2, if_neg (show ¬ c = quitOption from hc2)]
        exact (go c (hkeys c hc hc2) s).1 htl
  · rw [if_neg (fun h => htl (hiff.1 h)), if_pos (hmp htl)]
    cases hg : given .list with
    | some c =>
      rw [dialogFrom_given hg]
      unfold Ask.unless
      have hc := hq c hg
      simp only
      rw [if_neg (show ¬ c = quitOption from fun h => offered_no_quit t ht ((show c = 0x2f from h) ▸ hc))]
      exact (go c hc s).2 htl
    | none =>
      rw [dialogFrom_ask hg rfl, hk]
      unfold Ask.unless
      refine seen_ask t ht .list n s _ _ fun c hc s => ?_
      by_cases hc2 : c = 0x2f
      · rw [if_pos hc2, if_pos (show c = quitOption from hc2)]; exact seen_done _ _ _
      · rw [if_neg hc2, if_neg (show ¬ c = quitOption from hc2)]
        exact (go c (hkeys c hc hc2) s).2 htl

theorem seen_type (l : Launcher) (k : Answers) (hm : keptMode l k) (ho : keptOrder l k)
    (ht : ∀ t, given .type = some t → t ∈ (u8!"fgklmp" : Str))
    (hq : ∀ c, given .list = some c → ∃ t, given .type = some t ∧ c ∈ offeredLists t) (s : InStream) :
    LaunchRun.seen (typeAsk.unless (given .type) n s (askList n l (given .list))) =
      .ok (dialogFrom n given [.type, .list, .count, .style] k s) := by
  have go (t : UInt8) (ht : t ∈ (u8!"fgklmp" : Str)) (hq : ∀ c, given .list = some c → c ∈ offeredLists t) (s : InStream) :=
    seen_list n given hcount hstyle l (k.with .type t) (by simpa [keptMode, with_other] using hm)
      (by simpa [keptOrder, with_other] using ho) t ht (with_same _ _ _) hq s
  cases hg : given .type with
  | some t =>
    rw [dialogFrom_given hg]
    refine go t (ht t hg) (fun c hc => ?_) s
    obtain ⟨t', h1, h2⟩ := hq c hc
    rw [hg] at h1
    cases h1
    exact h2
  | none =>
    have hl : given .list = none := by
      cases hl : given .list with
      | none => rfl
      | some c => obtain ⟨t, h, _⟩ := hq c hl; rw [hg] at h; cases h
    obtain ⟨-, e1, e2, e3⟩ := askOf_type .type (by decide) (k .type) 0x67
    rw [dialogFrom_ask hg rfl, e1, e2, e3]
    refine seen_ask 0x67 (by decide) .type n s _ _ fun c hc s => ?_
    by_cases hc2 : c = 0x2f
    · rw [if_pos hc2, hc2]
      exact seen_done _ _ _
    · rw [if_neg hc2]
      have : ∀ c ∈ launchKeys 0x67 .type, c ≠ 0x2f → c ∈ (u8!"fgklmp" : Str) := by decide
      exact go c (this c hc hc2) (by rw [hl]; intro c h; cases h) s

theorem seen_order (l : Launcher) (k : Answers) (hm : keptMode l k)
    (ho : given .order = givenBy { launcher := l } .order)
    (ht : ∀ t, given .type = some t → t ∈ (u8!"fgklmp" : Str))
    (hq : ∀ c, given .list = some c → ∃ t, given .type = some t ∧ c ∈ offeredLists t) (s : InStream) :
    LaunchRun.seen (askOrder n l (given .type) (given .list) s) =
      .ok (dialogFrom n given [.order, .type, .list, .count, .style] k s) := by
  have go (l' : Launcher) (hl : l'.mode = l.mode) (c : UInt8) (h : keptOrder l' (k.with .order c)) (s : InStream) :=
    seen_type n given hcount hstyle l' (k.with .order c) (by rw [keptMode, hl]; simpa [keptMode, with_other] using hm) h ht hq s
  unfold askOrder
  obtain ⟨m, o⟩ := l
  cases o with
  | notAssigned =>
    have hg : given .order = none := ho
    obtain ⟨-, e1, e2, e3⟩ := askOf_type .order (by decide) (k .type) 0x67
    rw [if_pos rfl, dialogFrom_ask hg rfl, e1, e2, e3]
    refine seen_ask 0x67 (by decide) .order n s _ _ fun c hc s => ?_
    have : c = 0x2f ∨ c = 0x62 ∨ c = 0x65 ∨ c = 0x72 := by simpa [launchKeys] using hc
    rcases this with rfl | rfl | rfl | rfl
    · exact seen_done _ _ _
    · exact go ⟨m, .fromBeginning⟩ rfl 0x62 (.inl ⟨rfl, rfl⟩) s
    · exact go ⟨m, .fromEnd⟩ rfl 0x65 (.inr (.inl ⟨rfl, rfl⟩)) s
    · exact go ⟨m, .random⟩ rfl 0x72 (.inr (.inr ⟨rfl, rfl⟩)) s
  | fromBeginning =>
    rw [if_neg (by simp), dialogFrom_given (c := 0x62) ho]
    exact go _ rfl 0x62 (.inl ⟨rfl, rfl⟩) s
  | fromEnd =>
    rw [if_neg (by simp), dialogFrom_given (c := 0x65) ho]
    exact go _ rfl 0x65 (.inr (.inl ⟨rfl, rfl⟩)) s
  | random =>
    rw [if_neg (by simp), dialogFrom_given (c := 0x72) ho]
    exact go _ rfl 0x72 (.inr (.inr ⟨rfl, rfl⟩)) s

omit hcount hstyle

/-- For any input the dialog writes what is specified, chooses the quiz specified and leaves the rest of the input. -/
theorem C166_dialog (a : LaunchArgs) (ha : ArgsInv a) (s : InStream) :
    LaunchRun.seen (a.launcher.ask n a.quizType a.qList s) = .ok (dialog n a s) := by
  have go (l : Launcher) (hl : l.order = a.launcher.order) (k : Answers) (hm : keptMode l k) (s : InStream) :=
    seen_order n (givenBy a) rfl rfl l k hm (by simp only [givenBy, hl]) ha.type ha.list s
  show _ = Res.ok (dialogFrom n (givenBy a) [.mode, .order, .type, .list, .count, .style] (fun _ => 0) s)
  unfold Launcher.ask
  obtain ⟨⟨m, o⟩, quizType, qList, question, showMeanings⟩ := a
  cases m with
  | notAssigned =>
    obtain ⟨-, e1, e2, e3⟩ := askOf_type .mode (by decide) 0 0x67
    rw [if_pos rfl, dialogFrom_ask rfl rfl, e1, e2, e3]
    refine seen_ask 0x67 (by decide) .mode n s _ _ fun c hc s => ?_
    have : c = 0x2f ∨ c = 0x72 ∨ c = 0x74 := by simpa [launchKeys] using hc
    rcases this with rfl | rfl | rfl
    · exact seen_done _ _ _
    · exact go ⟨.review, o⟩ rfl _ (.inl ⟨rfl, rfl⟩) s
    · exact go ⟨.quiz, o⟩ rfl _ (.inr ⟨rfl, rfl⟩) s
  | review =>
    rw [if_neg (by simp), dialogFrom_given (c := 0x72) rfl]
    exact go _ rfl _ (.inl ⟨rfl, rfl⟩) s
  | quiz =>
    rw [if_neg (by simp), dialogFrom_given (c := 0x74) rfl]
    exact go _ rfl _ (.inr ⟨rfl, rfl⟩) s

/-- The dialog of the program started with `-t` and the input `b`, `x`, `f`, `2`: `x` is asked again, then the input
ends while the number of choices is asked for. -/
example : (dialog 6 (settings [u8!"-t"]) { rest := u8!"b\nx\nf\n2\n" }).1 =
    (u8!"List order (/=quit, b=from beginning, e=from end, r=random) def 'r': ") ++
    (u8!"Type (/=quit, f=freq, g=grade, k=kyu, l=JLPT, m=meaning, p=pattern) def 'g': ") ++
    (u8!"Type (/=quit, f=freq, g=grade, k=kyu, l=JLPT, m=meaning, p=pattern) def 'g': ") ++
    (u8!"Choose frequency list (/=quit, 0=top 250 Kanji, 1-9): ") ++
    (u8!"Number of choices (/=quit, 2-9) def '4': ") ++
    (u8!"Quiz style (/=quit, k=kanji to reading, r=reading to kanji) def 'k': ") := by decide +kernel

end KT
