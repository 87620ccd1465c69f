import Verif.Props.Choice
import Verif.Props.ListSession
import Verif.Props.QuizLauncher
import Verif.Spec.LaunchSession
/-!
# C156: the questions before a quiz, from input to output
-/
namespace KT
open Spec

/-! ## Prompts -/

/-- The call of `get` for each question. -/
def askOf (t : UInt8) : LaunchQ → Ask
  | .mode => modeAsk
  | .order => orderAsk
  | .type => typeAsk
  | .list => listAsk t
  | .count => countAsk
  | .style => styleAsk

def allQuestions : List LaunchQ := [.mode, .order, .type, .list, .count, .style]

theorem prompts_all : ∀ q ∈ allQuestions, ∀ t ∈ (u8!"fgklmp" : Str),
    offerResult (askOf t q).prepare = some (launchKeys t q, launchPrompt t q) ∧ (askOf t q).dflt = launchDefault t q := by
  decide +kernel

theorem mem_allQuestions (q : LaunchQ) : q ∈ allQuestions := by cases q <;> decide

/-- No prompt fails, and each has the text, the accepted keys and the default of the specification. -/
theorem C156_prompts (q : LaunchQ) (t : UInt8) (ht : t ∈ (u8!"fgklmp" : Str)) :
    ∃ cs, (askOf t q).prepare = .ok (cs, launchPrompt t q) ∧ cs.map (·.1) = launchKeys t q ∧
      (askOf t q).dflt = launchDefault t q := by
  have h := prompts_all q (mem_allQuestions q) t ht
  obtain ⟨h, hd⟩ := h
  unfold offerResult at h
  split at h
  · next cs text h' =>
    simp only [Option.some.injEq, Prod.mk.injEq] at h
    exact ⟨cs, by rw [h', h.2], h.1, hd⟩
  · cases h

/-- The questions before the list don't depend on the quiz type. -/
theorem askOf_type (q : LaunchQ) (hq : q ≠ .list) (t u : UInt8) :
    askOf t q = askOf u q ∧ launchPrompt t q = launchPrompt u q ∧ launchKeys t q = launchKeys u q ∧
      launchDefault t q = launchDefault u q := by
  cases q <;> first | exact ⟨rfl, rfl, rfl, rfl⟩ | exact absurd rfl hq

/-- The keys of the prompt for a list are those of the options and the key to quit. -/
theorem C156_lists (t : UInt8) (ht : t ∈ (u8!"fgklmp" : Str)) : launchKeys t .list = 0x2f :: offeredLists t := by
  revert t; decide +kernel

theorem defaults_all : ∀ q ∈ allQuestions, ∀ t ∈ (u8!"fgklmp" : Str),
    ((launchDefault t q).all fun k => (launchKeys t q).contains k) = true := by decide +kernel

/-- A default is one of the keys. -/
theorem default_offered (q : LaunchQ) (t : UInt8) (ht : t ∈ (u8!"fgklmp" : Str)) (k : UInt8)
    (h : launchDefault t q = some k) : k ∈ launchKeys t q := by
  have := defaults_all q (mem_allQuestions q) t ht
  rw [h] at this
  simpa using this

/-! ## One question -/

theorem answer_gives (cs : Choices) (dflt : Option UInt8) (l : Str) (k : UInt8) :
    Choice.answer cs dflt l = some k ↔ gives (cs.map (·.1)) dflt l k := by
  unfold gives
  constructor
  · intro h
    rcases answer_offered h with ⟨h1, h2⟩ | ⟨h1, h2⟩
    · exact .inr ⟨h1, h2⟩
    · exact .inl ⟨h1, (has_keys cs k).1 h2⟩
  · intro h
    rcases h with ⟨rfl, h⟩ | ⟨rfl, rfl⟩
    · simp only [Choice.answer, (has_keys cs k).2 h, if_true]
    · rfl

theorem answer_none (cs : Choices) (dflt : Option UInt8) (l : Str) (h : ∀ k, ¬ gives (cs.map (·.1)) dflt l k) :
    Choice.answer cs dflt l = none := by
  cases ha : Choice.answer cs dflt l with
  | none => rfl
  | some k => exact absurd ((answer_gives cs dflt l k).1 ha) (h k)

theorem quit_no_newline : ∀ q ∈ allQuestions, ∀ t ∈ (u8!"fgklmp" : Str), 0x0a ∉ launchKeys t q := by decide +kernel

/-- Asking one question: the prompt is written for every line, and the rest goes on with the answer and the input
after it. -/
theorem C156_question (t : UInt8) (ht : t ∈ (u8!"fgklmp" : Str)) (q : LaunchQ) (r : Reply)
    (hr : r.fits (launchKeys t q) (launchDefault t q)) (n : Nat) (hn : r.bad.length < n) (rest : Str)
    (f : UInt8 → InStream → LaunchRun) :
    (askOf t q).andThen n { rest := r.input ++ rest } f =
      (f r.key { rest := rest }).bind fun x =>
        .ok ((List.replicate (r.bad.length + 1) (launchPrompt t q)).flatten ++ x.1, x.2) := by
  obtain ⟨cs, hp, hk, hd⟩ := C156_prompts q t ht
  obtain ⟨hg, hb⟩ := hr
  rw [← hk, ← hd] at hg
  have hline : 0x0a ∉ r.line := by
    rcases hg with ⟨h, hm⟩ | ⟨h, _⟩
    · rw [h]
      intro h'
      rw [List.mem_singleton] at h'
      rw [hk, ← h'] at hm
      exact quit_no_newline q (mem_allQuestions q) t ht hm
    · rw [h]; simp
  have := C149_prompts (launchPrompt t q) cs (askOf t q).dflt r.key r.line rest hline
    ((answer_gives _ _ _ _).2 hg) r.bad n []
    (fun l hl => ⟨(hb l hl).1, answer_none _ _ _ (by rw [hk, hd]; exact (hb l hl).2)⟩) hn
  unfold Ask.andThen Ask.run
  rw [hp]
  simp only [Res.bind]
  rw [show r.input ++ rest = (r.bad.map (· ++ [0x0a])).flatten ++ r.line ++ 0x0a :: rest by
    simp [Reply.input, List.append_assoc], this]

/-! ## The dialog -/

section
variable (reply : LaunchQ → Reply)

/-- The answers. -/
def keyOf (q : LaunchQ) : UInt8 := (reply q).key

/-- One more question in a dialog. -/
theorem dialog_step (t : UInt8) (ht : t ∈ (u8!"fgklmp" : Str)) (q : LaunchQ) (qs : List LaunchQ)
    (hr : (reply q).fits (launchKeys t q) (launchDefault t q)) (n : Nat) (hn : (reply q).bad.length < n) (rest : Str)
    (f : UInt8 → InStream → LaunchRun) (u : UInt8) (hu : q = .list → t = u) (lq : Launcher) (out : Launcher × Chosen)
    (hq : keyOf reply q = 0x2f → ∀ s, f 0x2f s = launchDone lq .quit s)
    (hgo : keyOf reply q ≠ 0x2f → f (keyOf reply q) { rest := talk reply (upToQuit (keyOf reply) qs) ++ rest } =
      .ok (shownText reply u (upToQuit (keyOf reply) qs), some (out.1, out.2, { rest := rest }))) :
    (askOf t q).andThen n { rest := talk reply (upToQuit (keyOf reply) (q :: qs)) ++ rest } f =
      .ok (shownText reply u (upToQuit (keyOf reply) (q :: qs)),
        if keyOf reply q = 0x2f then some (lq, .quit, { rest := rest }) else some (out.1, out.2, { rest := rest })) := by
  have hpr : launchPrompt t q = launchPrompt u q := by
    by_cases h : q = .list
    · rw [hu h]
    · exact (askOf_type q h t u).2.1
  by_cases hk : keyOf reply q = 0x2f
  · rw [if_pos hk]
    simp only [upToQuit, if_pos hk, talk, shownText, List.map_cons, List.map_nil, List.flatten_cons, List.flatten_nil,
      List.append_nil]
    rw [C156_question t ht q _ hr n hn, show (reply q).key = 0x2f from hk, hq hk, hpr]
    simp [launchDone, Res.bind]
  · rw [if_neg hk]
    have hgo := hgo hk
    simp only [upToQuit, if_neg hk]
    simp only [talk, shownText, List.map_cons, List.flatten_cons, List.append_assoc] at hgo ⊢
    rw [C156_question t ht q _ hr n hn, show (reply q).key = keyOf reply q from rfl, hgo, hpr]
    simp [Res.bind]

theorem list_types : ∀ t ∈ (u8!"fgkl" : Str), t ∈ (u8!"fgklmp" : Str) := by decide

theorem style_dialog (t : UInt8) (ht : t ∈ (u8!"fgkl" : Str)) (n : Nat) (l : Launcher) (list : QuestionList) (rest : Str)
    (hfit : ∀ q ∈ upToQuit (keyOf reply) (neededFrom (l.mode == .quiz) t),
      (reply q).fits (launchKeys t q) (launchDefault t q) ∧ (reply q).bad.length < n) :
    askStyle n l list { rest := talk reply (upToQuit (keyOf reply) (neededFrom (l.mode == .quiz) t)) ++ rest } =
      .ok (shownText reply t (upToQuit (keyOf reply) (neededFrom (l.mode == .quiz) t)),
        if l.mode = .quiz ∧ (keyOf reply .count = 0x2f ∨ keyOf reply .style = 0x2f) then
          some ({}, .quit, { rest := rest })
        else if l.mode = .quiz then
          some ({}, .list l.mode l.order list ((keyOf reply .count).toNat - 48) (keyOf reply .style == 0x6b), { rest := rest })
        else some ({}, .list l.mode l.order list 1 true, { rest := rest })) := by
  have ht' : t ∈ (u8!"fgklmp" : Str) := list_types t ht
  unfold askStyle
  by_cases hm : l.mode = .quiz
  · have hne : neededFrom (l.mode == .quiz) t = [.count, .style] := by
      unfold neededFrom; rw [if_pos ⟨by rw [hm]; rfl, ht⟩]
    rw [hne] at hfit ⊢
    rw [if_pos hm]
    have h1 := hfit .count (by unfold upToQuit; split <;> simp)
    rw [show countAsk = askOf t .count from rfl]
    rw [dialog_step reply t ht' .count [.style] h1.1 n h1.2 rest _ t (fun _ => rfl) {}
      (if keyOf reply .style = 0x2f then ({}, .quit) else
        ({}, .list l.mode l.order list ((keyOf reply .count).toNat - 48) (keyOf reply .style == 0x6b)))
      (by intro _ s; rw [if_pos (by decide)])]
    · by_cases hc : keyOf reply .count = 0x2f
      · simp [hc, hm]
      · by_cases hs : keyOf reply .style = 0x2f <;> simp [hc, hs, hm]
    · intro hc
      have hc' : ¬ keyOf reply .count = quitOption := hc
      rw [if_neg hc']
      have h2 := hfit .style (by simp [upToQuit, hc])
      rw [show styleAsk = askOf t .style from rfl]
      have hcount : (keyOf reply .count - 0x30).toNat = (keyOf reply .count).toNat - 48 := by
        have hk : keyOf reply .count ∈ (u8!"/23456789" : Str) := by
          rcases h1.1.1 with ⟨_, h⟩ | ⟨_, h⟩
          · exact h
          · have : (0x34 : UInt8) = (reply .count).key := Option.some.inj h
            rw [keyOf, ← this]; decide
        revert hk hc
        generalize keyOf reply .count = k
        intro hc hk
        have : ∀ k ∈ (u8!"/23456789" : Str), k ≠ 0x2f → (k - 0x30).toNat = k.toNat - 48 := by decide
        exact this k hk hc
      rw [dialog_step reply t ht' .style [] h2.1 n h2.2 rest _ t (fun _ => rfl) {}
        ({}, .list l.mode l.order list ((keyOf reply .count).toNat - 48) (keyOf reply .style == 0x6b))
        (by intro _ s; rw [if_pos (by decide)])]
      · by_cases hs : keyOf reply .style = 0x2f <;> simp [hs]
      · intro hs
        have hs' : ¬ keyOf reply .style = quitOption := hs
        rw [if_neg hs', hcount]
        simp [launchDone, upToQuit, talk, shownText]
  · have hne : neededFrom (l.mode == .quiz) t = [] := by
      unfold neededFrom; rw [if_neg]; simp [hm]
    rw [hne, if_neg hm, if_neg (fun h => hm h.1), if_neg hm]
    simp [launchDone, upToQuit, talk, shownText]

/-- The documented list is selected. -/
theorem selectList_documented : ∀ t ∈ (u8!"fgkl" : Str), ∀ c ∈ offeredLists t, selectList t c = .ok (listOf t c) := by
  decide +kernel

theorem selectMembers_documented : ∀ c ∈ (u8!"1234" : Str), selectMemberType c = documentedMembers.lookup c := by
  decide +kernel

/-- What follows the type of quiz. -/
def endFrom (mode : ProgramMode) (order : QuestionOrder) (qList : Option UInt8) (t c : UInt8) : Launcher × Chosen :=
  if (qList = none ∧ keyOf reply .list = 0x2f) ∨
      (mode = .quiz ∧ t ∈ (u8!"fgkl" : Str) ∧ (keyOf reply .count = 0x2f ∨ keyOf reply .style = 0x2f)) then ({}, .quit)
  else ({}, chosenQuiz mode order (keyOf reply) t c)

theorem offered_no_quit : ∀ t ∈ (u8!"fgklmp" : Str), 0x2f ∉ offeredLists t := by decide +kernel

/-- After the list is known. -/
theorem chosen_dialog (t : UInt8) (ht : t ∈ (u8!"fgklmp" : Str)) (n : Nat) (l : Launcher) (c : UInt8)
    (hc : c ∈ offeredLists t) (rest : Str)
    (hfit : ∀ q ∈ upToQuit (keyOf reply) (neededFrom (l.mode == .quiz) t),
      (reply q).fits (launchKeys t q) (launchDefault t q) ∧ (reply q).bad.length < n) :
    (if t = 0x66 ∨ t = 0x67 ∨ t = 0x6b ∨ t = 0x6c then
        (selectList t c).bind fun list => askStyle n l list
          { rest := talk reply (upToQuit (keyOf reply) (neededFrom (l.mode == .quiz) t)) ++ rest }
      else launchDone {} (.group l.mode l.order (t == 0x70) (selectMemberType c))
          { rest := talk reply (upToQuit (keyOf reply) (neededFrom (l.mode == .quiz) t)) ++ rest }) =
      .ok (shownText reply t (upToQuit (keyOf reply) (neededFrom (l.mode == .quiz) t)),
        some ((endFrom reply l.mode l.order (some c) t c).1, (endFrom reply l.mode l.order (some c) t c).2,
          { rest := rest })) := by
  have hiff : (t = 0x66 ∨ t = 0x67 ∨ t = 0x6b ∨ t = 0x6c) ↔ t ∈ (u8!"fgkl" : Str) := by
    simp
  by_cases hl : t ∈ (u8!"fgkl" : Str)
  · rw [if_pos (hiff.2 hl), selectList_documented t hl c hc]
    simp only [Res.bind]
    rw [style_dialog reply t hl n l _ rest hfit]
    unfold endFrom chosenQuiz
    rw [if_pos hl]
    by_cases hm : l.mode = .quiz
    · by_cases hk : keyOf reply .count = 0x2f ∨ keyOf reply .style = 0x2f
      · rw [if_pos ⟨hm, hk⟩, if_pos (.inr ⟨hm, hl, hk⟩)]
      · rw [if_neg (fun h => hk h.2), if_pos hm, if_pos hm, if_neg]
        rintro (⟨h, _⟩ | ⟨_, _, h⟩)
        · cases h
        · exact hk h
    · rw [if_neg (fun h => hm h.1), if_neg hm, if_neg hm, if_neg]
      rintro (⟨h, _⟩ | ⟨h, _⟩)
      · cases h
      · exact hm h
  · rw [if_neg (fun h => hl (hiff.1 h))]
    have hne : neededFrom (l.mode == .quiz) t = [] := by
      unfold neededFrom; rw [if_neg (fun h => hl h.2)]
    have hc' : c ∈ (u8!"1234" : Str) := by
      have : ∀ t ∈ (u8!"fgklmp" : Str), t ∉ (u8!"fgkl" : Str) → offeredLists t = u8!"1234" := by decide +kernel
      rw [this t ht hl] at hc
      exact hc
    rw [hne, selectMembers_documented c hc']
    unfold endFrom chosenQuiz
    rw [if_neg hl, if_neg]
    · simp [launchDone, upToQuit, talk, shownText]
    · rintro (⟨h, _⟩ | ⟨_, h, _⟩)
      · cases h
      · exact hl h

theorem list_dialog (t : UInt8) (ht : t ∈ (u8!"fgklmp" : Str)) (n : Nat) (l : Launcher) (qList : Option UInt8)
    (hq : ∀ c, qList = some c → c ∈ offeredLists t) (rest : Str)
    (hfit : ∀ q ∈ upToQuit (keyOf reply) (neededList qList (l.mode == .quiz) t),
      (reply q).fits (launchKeys t q) (launchDefault t q) ∧ (reply q).bad.length < n) :
    askList n l qList t { rest := talk reply (upToQuit (keyOf reply) (neededList qList (l.mode == .quiz) t)) ++ rest } =
      .ok (shownText reply t (upToQuit (keyOf reply) (neededList qList (l.mode == .quiz) t)),
        some ((endFrom reply l.mode l.order qList t (qList.getD (keyOf reply .list))).1,
          (endFrom reply l.mode l.order qList t (qList.getD (keyOf reply .list))).2, { rest := rest })) := by
  have hmerge : ∀ s, askList n l qList t s = (listAsk t).unless qList n s fun c s =>
      if c = quitOption then launchDone {} .quit s
      else if t = 0x66 ∨ t = 0x67 ∨ t = 0x6b ∨ t = 0x6c then (selectList t c).bind fun list => askStyle n l list s
      else launchDone {} (.group l.mode l.order (t == 0x70) (selectMemberType c)) s := by
    intro s
    unfold askList
    by_cases h : t = 0x66 ∨ t = 0x67 ∨ t = 0x6b ∨ t = 0x6c
    · simp only [if_pos h]
    · have h' : t = 0x6d ∨ t = 0x70 := by
        have : t = 0x66 ∨ t = 0x67 ∨ t = 0x6b ∨ t = 0x6c ∨ t = 0x6d ∨ t = 0x70 := by simpa using ht
        grind
      simp only [if_neg h, if_pos h']
  rw [hmerge]
  cases qList with
  | some c =>
    have hc := hq c rfl
    have hcq : c ≠ quitOption := by
      intro h; exact offered_no_quit t ht (by rw [h] at hc; exact hc)
    have hne : neededList (some c) (l.mode == .quiz) t = neededFrom (l.mode == .quiz) t := by
      unfold neededList; simp
    rw [hne] at hfit ⊢
    simp only [Ask.unless, if_neg hcq, Option.getD_some]
    exact chosen_dialog reply t ht n l c hc rest hfit
  | none =>
    have hne : neededList none (l.mode == .quiz) t = .list :: neededFrom (l.mode == .quiz) t := by
      unfold neededList; simp
    rw [hne] at hfit ⊢
    simp only [Ask.unless, Option.getD_none]
    have h1 := hfit .list (by unfold upToQuit; split <;> simp)
    rw [show listAsk t = askOf t .list from rfl]
    rw [dialog_step reply t ht .list (neededFrom (l.mode == .quiz) t) h1.1 n h1.2 rest _ t (fun _ => rfl) {}
      (endFrom reply l.mode l.order (some (keyOf reply .list)) t (keyOf reply .list))
      (by intro _ s; rw [if_pos (by decide)])]
    · unfold endFrom
      by_cases hc : keyOf reply .list = 0x2f
      · simp [hc]
      · simp [hc]
    · intro hc
      have hc' : ¬ keyOf reply .list = quitOption := hc
      rw [if_neg hc']
      have hmem : keyOf reply .list ∈ offeredLists t := by
        have hk : keyOf reply .list ∈ launchKeys t .list := by
          rcases h1.1.1 with ⟨_, h⟩ | ⟨_, h⟩
          · exact h
          · exact default_offered .list t ht _ h
        rw [C156_lists t ht] at hk
        rcases List.mem_cons.1 hk with h | h
        · exact absurd h hc
        · exact h
      exact chosen_dialog reply t ht n l _ hmem rest (fun q hq => hfit q (by
        simp only [upToQuit, if_neg hc]; exact List.mem_cons_of_mem _ hq))

theorem type_dialog (n : Nat) (l : Launcher) (quizType qList : Option UInt8)
    (hqt : ∀ t, quizType = some t → t ∈ (u8!"fgklmp" : Str))
    (hq : ∀ c, qList = some c → ∃ t, quizType = some t ∧ c ∈ offeredLists t) (rest : Str) (t c : UInt8)
    (ht : t = quizType.getD (keyOf reply .type)) (hc : c = qList.getD (keyOf reply .list))
    (hfit : ∀ q ∈ upToQuit (keyOf reply) (neededType quizType qList (l.mode == .quiz) t),
      (reply q).fits (launchKeys t q) (launchDefault t q) ∧ (reply q).bad.length < n) :
    typeAsk.unless quizType n
        { rest := talk reply (upToQuit (keyOf reply) (neededType quizType qList (l.mode == .quiz) t)) ++ rest }
        (askList n l qList) =
      .ok (shownText reply t (upToQuit (keyOf reply) (neededType quizType qList (l.mode == .quiz) t)),
        if quizType = none ∧ keyOf reply .type = 0x2f then some ({}, .quit, { rest := rest })
        else some ((endFrom reply l.mode l.order qList t c).1, (endFrom reply l.mode l.order qList t c).2,
          { rest := rest })) := by
  cases quizType with
  | some t' =>
    simp only [Option.getD_some] at ht
    subst ht
    have hne : neededType (some t) qList (l.mode == .quiz) t = neededList qList (l.mode == .quiz) t := by
      unfold neededType; simp
    rw [hne] at hfit ⊢
    rw [if_neg (by rintro ⟨h, _⟩; cases h), hc]
    simp only [Ask.unless]
    refine list_dialog reply t (hqt t rfl) n l qList ?_ rest hfit
    intro c h
    obtain ⟨t', h1, h2⟩ := hq c h
    cases h1
    exact h2
  | none =>
    simp only [Option.getD_none] at ht
    have hql : qList = none := by
      cases qList with
      | none => rfl
      | some c => obtain ⟨t', h1, _⟩ := hq c rfl; cases h1
    have hne : neededType none qList (l.mode == .quiz) t = .type :: neededList qList (l.mode == .quiz) t := by
      unfold neededType; simp
    rw [hne] at hfit ⊢
    simp only [Ask.unless]
    have h1 := hfit .type (by unfold upToQuit; split <;> simp)
    have hg : (0x67 : UInt8) ∈ (u8!"fgklmp" : Str) := by decide
    rw [show typeAsk = askOf 0x67 .type from rfl]
    rw [dialog_step reply 0x67 hg .type (neededList qList (l.mode == .quiz) t) h1.1 n h1.2 rest _ t (by intro h; cases h) {}
      (endFrom reply l.mode l.order qList t c)]
    · by_cases hk : keyOf reply .type = 0x2f <;> simp [hk]
    · intro _ s
      rfl
    · intro hk
      have hmem : t ∈ (u8!"fgklmp" : Str) := by
        have : keyOf reply .type ∈ (u8!"/fgklmp" : Str) := by
          rcases h1.1.1 with ⟨_, h⟩ | ⟨_, h⟩
          · exact h
          · have : (0x67 : UInt8) = (reply .type).key := Option.some.inj h
            rw [keyOf, ← this]; decide
        rw [ht]
        revert this hk
        generalize keyOf reply .type = k
        intro hk h
        have : ∀ k ∈ (u8!"/fgklmp" : Str), k ≠ 0x2f → k ∈ (u8!"fgklmp" : Str) := by decide
        exact this k h hk
      rw [← ht, hc]
      exact list_dialog reply t hmem n l qList (by intro c h; rw [hql] at h; cases h) rest (fun q hq => hfit q (by
        simp only [upToQuit, if_neg hk]; exact List.mem_cons_of_mem _ hq))

/-- The questions from the order on. -/
def neededOrder (l : Launcher) (quizType qList : Option UInt8) (quiz : Bool) (t : UInt8) : List LaunchQ :=
  (if l.order = .notAssigned then [.order] else []) ++ neededType quizType qList quiz t

theorem order_dialog (n : Nat) (l : Launcher) (quizType qList : Option UInt8)
    (hqt : ∀ t, quizType = some t → t ∈ (u8!"fgklmp" : Str))
    (hq : ∀ c, qList = some c → ∃ t, quizType = some t ∧ c ∈ offeredLists t) (rest : Str) (t c : UInt8)
    (ht : t = quizType.getD (keyOf reply .type)) (hc : c = qList.getD (keyOf reply .list))
    (hfit : ∀ q ∈ upToQuit (keyOf reply) (neededOrder l quizType qList (l.mode == .quiz) t),
      (reply q).fits (launchKeys t q) (launchDefault t q) ∧ (reply q).bad.length < n) :
    askOrder n l quizType qList
        { rest := talk reply (upToQuit (keyOf reply) (neededOrder l quizType qList (l.mode == .quiz) t)) ++ rest } =
      .ok (shownText reply t (upToQuit (keyOf reply) (neededOrder l quizType qList (l.mode == .quiz) t)),
        if l.order = .notAssigned ∧ keyOf reply .order = 0x2f then some (l, .quit, { rest := rest })
        else if quizType = none ∧ keyOf reply .type = 0x2f then some ({}, .quit, { rest := rest })
        else some ((endFrom reply l.mode (chosenOrder l (keyOf reply)) qList t c).1,
          (endFrom reply l.mode (chosenOrder l (keyOf reply)) qList t c).2, { rest := rest })) := by
  unfold askOrder
  by_cases ho : l.order = .notAssigned
  · have hne : neededOrder l quizType qList (l.mode == .quiz) t =
        .order :: neededType quizType qList (l.mode == .quiz) t := by
      unfold neededOrder; simp [ho]
    rw [hne] at hfit ⊢
    rw [if_pos ho]
    have h1 := hfit .order (by unfold upToQuit; split <;> simp)
    have hg : (0x67 : UInt8) ∈ (u8!"fgklmp" : Str) := by decide
    rw [show orderAsk = askOf 0x67 .order from rfl]
    rw [dialog_step reply 0x67 hg .order (neededType quizType qList (l.mode == .quiz) t) h1.1 n h1.2 rest _ t
      (by intro h; cases h) l
      (if quizType = none ∧ keyOf reply .type = 0x2f then ({}, .quit)
        else endFrom reply l.mode (chosenOrder l (keyOf reply)) qList t c)]
    · by_cases hk : keyOf reply .order = 0x2f
      · simp [hk, ho]
      · by_cases ht : quizType = none ∧ keyOf reply .type = 0x2f
        · simp [hk, ht]
        · simp only [if_neg hk, if_neg ht]
          rw [if_neg (fun h => hk h.2)]
    · intro _ s
      rfl
    · intro hk
      have hmem : keyOf reply .order ∈ (u8!"ber" : Str) := by
        have : keyOf reply .order ∈ (u8!"/ber" : Str) := by
          rcases h1.1.1 with ⟨_, h⟩ | ⟨_, h⟩
          · exact h
          · have : (0x72 : UInt8) = (reply .order).key := Option.some.inj h
            rw [keyOf, ← this]; decide
        revert this hk
        generalize keyOf reply .order = k
        intro hk h
        have : ∀ k ∈ (u8!"/ber" : Str), k ≠ 0x2f → k ∈ (u8!"ber" : Str) := by decide
        exact this k h hk
      have hgo : ∀ o : QuestionOrder, chosenOrder l (keyOf reply) = o →
          typeAsk.unless quizType n
            { rest := talk reply (upToQuit (keyOf reply) (neededType quizType qList (l.mode == .quiz) t)) ++ rest }
            (askList n { l with order := o } qList) = _ := fun o _ =>
        type_dialog reply n { l with order := o } quizType qList hqt hq rest t c ht hc (fun q hq => hfit q (by
          simp only [upToQuit, if_neg hk]; exact List.mem_cons_of_mem _ hq))
      have hcases : keyOf reply .order = 0x62 ∨ keyOf reply .order = 0x65 ∨ keyOf reply .order = 0x72 := by
        simpa using hmem
      rcases hcases with h | h | h
      · have hch : chosenOrder l (keyOf reply) = .fromBeginning := by simp [chosenOrder, ho, h]
        rw [if_pos h, hgo _ hch, hch]
        by_cases hx : quizType = none ∧ keyOf reply .type = 0x2f <;> simp only [hx, if_true, if_false] <;> rfl
      · have hch : chosenOrder l (keyOf reply) = .fromEnd := by simp [chosenOrder, ho, h]
        rw [if_neg (by rw [h]; decide), if_pos h, hgo _ hch, hch]
        by_cases hx : quizType = none ∧ keyOf reply .type = 0x2f <;> simp only [hx, if_true, if_false] <;> rfl
      · have hch : chosenOrder l (keyOf reply) = .random := by simp [chosenOrder, ho, h]
        rw [if_neg (by rw [h]; decide), if_neg (by rw [h]; decide), if_pos h, hgo _ hch, hch]
        by_cases hx : quizType = none ∧ keyOf reply .type = 0x2f <;> simp only [hx, if_true, if_false] <;> rfl
  · have hne : neededOrder l quizType qList (l.mode == .quiz) t = neededType quizType qList (l.mode == .quiz) t := by
      unfold neededOrder; simp [ho]
    rw [hne] at hfit ⊢
    rw [if_neg ho, if_neg (fun h => ho h.1), type_dialog reply n l quizType qList hqt hq rest t c ht hc hfit]
    have hch : chosenOrder l (keyOf reply) = l.order := by simp [chosenOrder, ho]
    rw [hch]

/-- The whole dialog.  For replies to the questions that are needed (up to the first one answered by quitting), each
given after any number of lines that aren't accepted, the text written is the prompt of each question once for each
line, and the mode, order, list, number of choices and style are those that the answers denote. -/
theorem C156_dialog (n : Nat) (l : Launcher) (quizType qList : Option UInt8)
    (hqt : ∀ t, quizType = some t → t ∈ (u8!"fgklmp" : Str))
    (hq : ∀ c, qList = some c → ∃ t, quizType = some t ∧ c ∈ offeredLists t) (rest : Str) (t c : UInt8)
    (ht : t = quizType.getD (keyOf reply .type)) (hc : c = qList.getD (keyOf reply .list)) (qs : List LaunchQ)
    (hqs : qs = upToQuit (keyOf reply)
      (needed l quizType qList (chosenMode l (keyOf reply) == .quiz) t))
    (hfit : ∀ q ∈ qs, (reply q).fits (launchKeys t q) (launchDefault t q) ∧ (reply q).bad.length < n) :
    l.ask n quizType qList { rest := talk reply qs ++ rest } =
      .ok (shownText reply t qs,
        some ((launchEnd l (keyOf reply) quizType qList t c).1, (launchEnd l (keyOf reply) quizType qList t c).2,
          { rest := rest })) := by
  subst hqs
  have hend : ∀ l' : Launcher, l'.order = l.order → l'.mode = chosenMode l (keyOf reply) →
      ¬ (l.mode = .notAssigned ∧ keyOf reply .mode = 0x2f) → ({ l with mode := l'.mode } = l') →
      (if l'.order = .notAssigned ∧ keyOf reply .order = 0x2f then some (l', Chosen.quit, ({ rest := rest } : InStream))
        else if quizType = none ∧ keyOf reply .type = 0x2f then some ({}, .quit, { rest := rest })
        else some ((endFrom reply l'.mode (chosenOrder l' (keyOf reply)) qList t c).1,
          (endFrom reply l'.mode (chosenOrder l' (keyOf reply)) qList t c).2, { rest := rest })) =
      some ((launchEnd l (keyOf reply) quizType qList t c).1, (launchEnd l (keyOf reply) quizType qList t c).2,
          { rest := rest }) := by
    intro l' h1 h2 h3 h4
    unfold launchEnd
    have hch : chosenOrder l' (keyOf reply) = chosenOrder l (keyOf reply) := by unfold chosenOrder; rw [h1]
    rw [h2] at h4
    simp only [if_neg h3, h1, h2, hch, h4]
    by_cases ho : l.order = .notAssigned ∧ keyOf reply .order = 0x2f
    · rw [if_pos ho, if_pos ho]
    · rw [if_neg ho, if_neg ho]
      unfold endFrom
      by_cases hx : quizType = none ∧ keyOf reply .type = 0x2f
      · rw [if_pos hx, if_pos (.inl hx)]
      · rw [if_neg hx]
        by_cases hy : (qList = none ∧ keyOf reply .list = 0x2f) ∨ (chosenMode l (keyOf reply) = .quiz ∧
            t ∈ (u8!"fgkl" : Str) ∧ (keyOf reply .count = 0x2f ∨ keyOf reply .style = 0x2f))
        · rw [if_pos hy, if_pos (.inr hy)]
        · rw [if_neg hy, if_neg]
          rintro (h | h)
          · exact hx h
          · exact hy h
  unfold Launcher.ask
  by_cases hm : l.mode = .notAssigned
  · have hne : needed l quizType qList (chosenMode l (keyOf reply) == .quiz) t =
        .mode :: neededOrder l quizType qList (chosenMode l (keyOf reply) == .quiz) t := by
      unfold needed neededOrder; simp [hm]
    rw [hne] at hfit ⊢
    rw [if_pos hm]
    have h1 := hfit .mode (by unfold upToQuit; split <;> simp)
    have hg : (0x67 : UInt8) ∈ (u8!"fgklmp" : Str) := by decide
    rw [show modeAsk = askOf 0x67 .mode from rfl]
    rw [dialog_step reply 0x67 hg .mode (neededOrder l quizType qList (chosenMode l (keyOf reply) == .quiz) t) h1.1 n h1.2
      rest _ t (by intro h; cases h) l (launchEnd l (keyOf reply) quizType qList t c)]
    · by_cases hk : keyOf reply .mode = 0x2f
      · rw [if_pos hk]; unfold launchEnd; simp only [hm, hk, and_self, if_true]
      · rw [if_neg hk]
    · intro _ s
      rfl
    · intro hk
      have hk' : ¬ keyOf reply .mode = quitOption := hk
      rw [if_neg hk']
      have hch : chosenMode l (keyOf reply) = (if keyOf reply .mode = 0x72 then ProgramMode.review else .quiz) := by
        unfold chosenMode; rw [if_pos hm]
      rw [← hch]
      have := order_dialog reply n { l with mode := chosenMode l (keyOf reply) } quizType qList hqt hq rest t c ht hc
        (fun q hq => hfit q (by simp only [upToQuit, if_neg hk]; exact List.mem_cons_of_mem _ hq))
      rw [show neededOrder { l with mode := chosenMode l (keyOf reply) } quizType qList
        (chosenMode l (keyOf reply) == .quiz) t = neededOrder l quizType qList (chosenMode l (keyOf reply) == .quiz) t from rfl]
        at this
      rw [this, hend { l with mode := chosenMode l (keyOf reply) } rfl rfl (fun h => hk h.2) rfl]
  · have hch : chosenMode l (keyOf reply) = l.mode := by unfold chosenMode; rw [if_neg hm]
    have hne : needed l quizType qList (chosenMode l (keyOf reply) == .quiz) t =
        neededOrder l quizType qList (l.mode == .quiz) t := by
      unfold needed neededOrder; rw [hch]; simp [hm]
    rw [hne] at hfit ⊢
    rw [if_neg hm, order_dialog reply n l quizType qList hqt hq rest t c ht hc hfit,
      hend l rfl hch.symm (fun h => hm h.1) rfl]

end

/-! ## Any input -/

/-- What can be chosen: a list quiz for one of the documented lists, with 2 to 9 choices in a test and in one direction
in a review, or a group quiz for one of the documented kinds of members. -/
def Chosen.valid (ch : Chosen) : Prop :=
  match ch with
  | .quit => True
  | .list mode order ls count toReading =>
    mode ≠ ProgramMode.notAssigned ∧ order ≠ QuestionOrder.notAssigned ∧
      (∃ t ∈ (u8!"fgkl" : Str), ∃ c ∈ offeredLists t, ls = listOf t c) ∧
      ((mode = ProgramMode.quiz ∧ 2 ≤ count ∧ count ≤ 9) ∨ (mode = ProgramMode.review ∧ count = 1 ∧ toReading = true))
  | .group mode order _ members =>
    mode ≠ ProgramMode.notAssigned ∧ order ≠ QuestionOrder.notAssigned ∧
      ∃ c ∈ (u8!"1234" : Str), members = documentedMembers.lookup c ∧ members.isSome = true

/-- A run without an error that, if it is finished, chose something valid. -/
def fine (r : LaunchRun) : Prop := ∃ text o, r = .ok (text, o) ∧ ∀ x, o = some x → x.2.1.valid

theorem fine_done (l : Launcher) (c : Chosen) (h : c.valid) (s : InStream) : fine (launchDone l c s) :=
  ⟨[], _, rfl, by intro x hx; cases hx; exact h⟩

theorem fine_quit (l : Launcher) (s : InStream) : fine (launchDone l .quit s) := fine_done l .quit trivial s

theorem ask_key {prompt : Str} {cs : Choices} {dflt : Option UInt8} (hd : ∀ d, dflt = some d → cs.has d = true) :
    ∀ {fuel : Nat} {s : InStream} {line text : Str} {a : UInt8} {s' : InStream},
    Choice.ask prompt cs dflt fuel s line = (text, some (a, s')) → cs.has a = true := by
  intro fuel
  induction fuel with
  | zero => intro s line text a s' h; simp [Choice.ask] at h
  | succ n ih =>
    intro s line text a s' h
    simp only [Choice.ask] at h
    cases hb : Choice.answer cs dflt (s.getline line).2 with
    | some b =>
      rw [hb] at h
      simp only [Prod.mk.injEq, Option.some.injEq] at h
      rcases answer_offered hb with ⟨_, h2⟩ | ⟨_, h2⟩
      · rw [← h.2.1]; exact hd b h2
      · rw [← h.2.1]; exact h2
    | none =>
      rw [hb] at h
      simp only [Prod.mk.injEq] at h
      exact ih (text := (Choice.ask prompt cs dflt n (s.getline line).1 (s.getline line).2).1)
        (Prod.ext rfl h.2)

theorem fine_ask (t : UInt8) (ht : t ∈ (u8!"fgklmp" : Str)) (q : LaunchQ) (n : Nat) (s : InStream)
    (f : UInt8 → InStream → LaunchRun) (hf : ∀ c ∈ launchKeys t q, ∀ s, fine (f c s)) :
    fine ((askOf t q).andThen n s f) := by
  obtain ⟨cs, hp, hk, hd⟩ := C156_prompts q t ht
  unfold Ask.andThen Ask.run
  rw [hp]
  simp only [Res.bind]
  cases ha : Choice.ask (launchPrompt t q) cs (askOf t q).dflt n s [] with
  | mk text o =>
    cases o with
    | none => exact ⟨text, none, rfl, by intro x hx; cases hx⟩
    | some p =>
      obtain ⟨c, s'⟩ := p
      have hc := ask_key (by
        intro d h
        rw [has_keys, hk]
        rw [hd] at h
        exact default_offered q t ht d h) ha
      rw [has_keys, hk] at hc
      obtain ⟨text', o', h1, h2⟩ := hf c hc s'
      simp only [h1]
      exact ⟨text ++ text', o', rfl, h2⟩

theorem key_split {k : UInt8} {r : Str} {c : UInt8} (h : c ∈ k :: r) (hc : ¬ c = k) : c ∈ r := by
  rcases List.mem_cons.1 h with h | h
  · exact absurd h hc
  · exact h

theorem fine_style (n : Nat) (l : Launcher) (hm : l.mode ≠ .notAssigned) (ho : l.order ≠ .notAssigned) (t : UInt8)
    (ht : t ∈ (u8!"fgkl" : Str)) (c : UInt8) (hc : c ∈ offeredLists t) (s : InStream) :
    fine (askStyle n l (listOf t c) s) := by
  have ht' := list_types t ht
  unfold askStyle
  by_cases hq : l.mode = .quiz
  · rw [if_pos hq]
    refine fine_ask t ht' .count n s _ fun k hk s => ?_
    by_cases hk1 : k = quitOption
    · rw [if_pos hk1]; exact fine_quit _ _
    · rw [if_neg hk1]
      refine fine_ask t ht' .style n s _ fun k' hk' s => ?_
      by_cases hk2 : k' = quitOption
      · rw [if_pos hk2]; exact fine_quit _ _
      · rw [if_neg hk2]
        refine fine_done _ _ ?_ _
        refine ⟨hm, ho, ⟨t, ht, c, hc, rfl⟩, .inl ⟨hq, ?_⟩⟩
        have : ∀ k ∈ (u8!"/23456789" : Str), ¬ k = quitOption → 2 ≤ (k - 0x30).toNat ∧ (k - 0x30).toNat ≤ 9 := by decide
        exact this k hk hk1
  · rw [if_neg hq]
    refine fine_done _ _ ?_ _
    refine ⟨hm, ho, ⟨t, ht, c, hc, rfl⟩, .inr ⟨?_, rfl, rfl⟩⟩
    cases h : l.mode <;> simp_all

theorem fine_list (n : Nat) (l : Launcher) (hm : l.mode ≠ .notAssigned) (ho : l.order ≠ .notAssigned) (t : UInt8)
    (ht : t ∈ (u8!"fgklmp" : Str)) (qList : Option UInt8) (hq : ∀ c, qList = some c → c ∈ offeredLists t) (s : InStream) :
    fine (askList n l qList t s) := by
  have hunless : ∀ f : UInt8 → InStream → LaunchRun, (∀ c ∈ 0x2f :: offeredLists t, ∀ s, fine (f c s)) →
      fine ((listAsk t).unless qList n s f) := by
    intro f hf
    cases qList with
    | some c => exact hf c (List.mem_cons_of_mem _ (hq c rfl)) s
    | none => exact fine_ask t ht .list n s f (by rw [C156_lists t ht]; exact hf)
  unfold askList
  by_cases hl : t = 0x66 ∨ t = 0x67 ∨ t = 0x6b ∨ t = 0x6c
  · rw [if_pos hl]
    have ht2 : t ∈ (u8!"fgkl" : Str) := by simpa using hl
    refine hunless _ fun c hc s => ?_
    by_cases hk : c = quitOption
    · rw [if_pos hk]; exact fine_quit _ _
    · have hc' := key_split hc hk
      rw [if_neg hk, selectList_documented t ht2 c hc']
      exact fine_style n l hm ho t ht2 c hc' s
  · have h' : t = 0x6d ∨ t = 0x70 := by
      have : t = 0x66 ∨ t = 0x67 ∨ t = 0x6b ∨ t = 0x6c ∨ t = 0x6d ∨ t = 0x70 := by simpa using ht
      grind
    rw [if_neg hl, if_pos h']
    refine hunless _ fun c hc s => ?_
    by_cases hk : c = quitOption
    · rw [if_pos hk]; exact fine_quit _ _
    · have hc' := key_split hc hk
      have hoff : offeredLists t = u8!"1234" := by rcases h' with rfl | rfl <;> rfl
      rw [hoff] at hc'
      rw [if_neg hk, selectMembers_documented c hc']
      refine fine_done _ _ ?_ _
      refine ⟨hm, ho, c, hc', rfl, ?_⟩
      have : ∀ c ∈ (u8!"1234" : Str), (documentedMembers.lookup c).isSome = true := by decide
      exact this c hc'

theorem fine_type (n : Nat) (l : Launcher) (hm : l.mode ≠ .notAssigned) (ho : l.order ≠ .notAssigned)
    (quizType qList : Option UInt8) (hqt : ∀ t, quizType = some t → t ∈ (u8!"fgklmp" : Str))
    (hq : ∀ c, qList = some c → ∃ t, quizType = some t ∧ c ∈ offeredLists t) (s : InStream) :
    fine (typeAsk.unless quizType n s (askList n l qList)) := by
  cases quizType with
  | some t =>
    refine fine_list n l hm ho t (hqt t rfl) qList ?_ s
    intro c h
    obtain ⟨t', h1, h2⟩ := hq c h
    cases h1
    exact h2
  | none =>
    refine fine_ask 0x67 (by decide) .type n s _ fun t ht s => ?_
    by_cases hk : t = 0x2f
    · subst hk
      exact fine_quit _ _
    · refine fine_list n l hm ho t (key_split ht hk) qList ?_ s
      intro c h
      obtain ⟨t', h1, _⟩ := hq c h
      cases h1

theorem fine_order (n : Nat) (l : Launcher) (hm : l.mode ≠ .notAssigned)
    (quizType qList : Option UInt8) (hqt : ∀ t, quizType = some t → t ∈ (u8!"fgklmp" : Str))
    (hq : ∀ c, qList = some c → ∃ t, quizType = some t ∧ c ∈ offeredLists t) (s : InStream) :
    fine (askOrder n l quizType qList s) := by
  unfold askOrder
  by_cases ho : l.order = .notAssigned
  · rw [if_pos ho]
    refine fine_ask 0x67 (by decide) .order n s _ fun c _ s => ?_
    split
    · exact fine_type n { l with order := .fromBeginning } hm (by simp) quizType qList hqt hq s
    · split
      · exact fine_type n { l with order := .fromEnd } hm (by simp) quizType qList hqt hq s
      · split
        · exact fine_type n { l with order := .random } hm (by simp) quizType qList hqt hq s
        · exact fine_quit _ _
  · rw [if_neg ho]
    exact fine_type n l hm ho quizType qList hqt hq s

/-- Whatever is typed in, there is no error, and if the dialog comes to an end then it was left or something valid was
chosen. -/
theorem C156_valid (n : Nat) (l : Launcher) (quizType qList : Option UInt8)
    (hqt : ∀ t, quizType = some t → t ∈ (u8!"fgklmp" : Str))
    (hq : ∀ c, qList = some c → ∃ t, quizType = some t ∧ c ∈ offeredLists t) (s : InStream) :
    ∃ text o, l.ask n quizType qList s = .ok (text, o) ∧ ∀ l' ch s', o = some (l', ch, s') → ch.valid := by
  have : fine (l.ask n quizType qList s) := by
    unfold Launcher.ask
    by_cases hm : l.mode = .notAssigned
    · rw [if_pos hm]
      refine fine_ask 0x67 (by decide) .mode n s _ fun c _ s => ?_
      by_cases hk : c = quitOption
      · rw [if_pos hk]; exact fine_quit _ _
      · rw [if_neg hk]
        exact fine_order n _ (by simp only; split <;> simp) quizType qList hqt hq s
    · rw [if_neg hm]
      exact fine_order n l hm quizType qList hqt hq s
  obtain ⟨text, o, h1, h2⟩ := this
  exact ⟨text, o, h1, fun l' ch s' h => h2 _ h⟩

/-- So this holds after any options on the command line. -/
theorem C156_options (args : List Str) (a : LaunchArgs) (h : launchLoop false {} args = .ok (.start a)) (n : Nat)
    (s : InStream) : ∃ text o, a.launcher.ask n a.quizType a.qList s = .ok (text, o) ∧
      ∀ l' ch s', o = some (l', ch, s') → ch.valid :=
  C156_valid n a.launcher a.quizType a.qList (C81_valid args a h).1 (C81_valid args a h).2.1 s

/-- A list for which a documented letter was chosen is never the empty list for a missing enumerator. -/
theorem C156_some (t : UInt8) (ht : t ∈ (u8!"fgkl" : Str)) (c : UInt8) (hc : c ∈ offeredLists t) :
    listOf t c ≠ .frequency none ∧ listOf t c ≠ .grade none ∧ listOf t c ≠ .kyu none ∧ listOf t c ≠ .level none := by
  revert t c; decide +kernel

/-! ## Examples -/

/-- What was written and chosen, for examples. -/
def askResult : LaunchRun → Option (Str × Option (Launcher × Chosen × Str))
  | .ok (text, some (l, c, s)) => some (text, some (l, c, s.rest))
  | .ok (text, none) => some (text, none)
  | _ => none

/-- A test with the frequency list 3 and the defaults otherwise. -/
example : askResult (Launcher.ask 5 {} none none { rest := u8!"t\n\nf\nx\n3\n\n\n1\n" }) =
    some ((u8!"Mode (/=quit, r=review, t=test) def 't': ") ++
      (u8!"List order (/=quit, b=from beginning, e=from end, r=random) def 'r': ") ++
      (u8!"Type (/=quit, f=freq, g=grade, k=kyu, l=JLPT, m=meaning, p=pattern) def 'g': ") ++
      (u8!"Choose frequency list (/=quit, 0=top 250 Kanji, 1-9): Choose frequency list (/=quit, 0=top 250 Kanji, 1-9): ") ++
      (u8!"Number of choices (/=quit, 2-9) def '4': ") ++
      (u8!"Quiz style (/=quit, k=kanji to reading, r=reading to kanji) def 'k': "),
      some ({}, .list .quiz .random (.frequency (some 3)) 4 true, u8!"1\n")) := by decide +kernel
/-- A review of patterns, with the mode and type given as options. -/
example : askResult (Launcher.ask 5 ⟨.review, .notAssigned⟩ (some 0x70) none { rest := u8!"e\n4\n" }) =
    some ((u8!"List order (/=quit, b=from beginning, e=from end, r=random) def 'r': ") ++
      (u8!"Kanji type (/=quit, 1=Jōyō, 2=1+JLPT, 3=2+Freq., 4=all) def '2': "),
      some ({}, .group .review .fromEnd true (some .all), [])) := by decide +kernel
/-- Quitting when asked for the order. -/
example : askResult (Launcher.ask 5 {} none none { rest := u8!"r\n/\n" }) =
    some ((u8!"Mode (/=quit, r=review, t=test) def 't': ") ++
      (u8!"List order (/=quit, b=from beginning, e=from end, r=random) def 'r': "),
      some (⟨.review, .notAssigned⟩, .quit, [])) := by decide +kernel

end KT
