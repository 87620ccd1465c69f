import Verif.Model.QuizLauncher
import Verif.Spec.Quiz
import Verif.Props.ColumnFile
import Verif.Lemmas.UnicodeBlock
/-!
# Properties of the quiz launcher (C59, C60, C67, C81, C82)
-/
namespace KT
open Spec

/-! ## C59 -/

theorem readNumber_digits (s : Str) (h : s.all isDigitChar = true) (hne : s ≠ []) :
    readNumber 10 s = some (decimalValue s) := by
  have := decimal_read s 0 h
  rw [readNumber, if_neg (by simpa using hne)]
  simpa [decimalValue] using this

theorem readNumber_not (s : Str) (h : s.all isDigitChar = false) : readNumber 10 s = none := by
  cases hr : readNumber 10 s with
  | none => rfl
  | some n =>
    have hn' : readFrom 10 0 s = some n := by
      rw [readNumber] at hr; split at hr
      · simp at hr
      · exact hr
    rw [read_all_digits s 0 n hn'] at h; cases h

theorem takeWhile_all {s : Str} (h : s.all isDigitChar = true) : s.takeWhile isDigitChar = s := by
  have := takeWhile_append_stop s [] h (by simp)
  simpa using this

theorem stoul_digits (s : Str) (h : s.all isDigitChar = true) :
    stoul s = if s = [] then none else if decimalValue s ≥ 2 ^ 64 then none else some (decimalValue s) := by
  cases s with
  | nil => rfl
  | cons b r =>
    have hb : isDigitChar b = true := by
      rw [List.all_cons, Bool.and_eq_true] at h; exact h.1
    obtain ⟨n1, n2, n3⟩ := digit_not_special b hb
    have hd : (b :: r).dropWhile isSpaceChar = b :: r := by simp [n1]
    have h1 : ((b :: r : Str).head? == some 0x2d) = false := by simpa using n2
    have h2 : ((b :: r : Str).head? == some 0x2b) = false := by simpa using n3
    have ht := takeWhile_all h
    rw [if_neg (by simp)]
    unfold stoul
    rw [hd]
    simp only []
    rw [h1, h2]
    simp only [Bool.or_false, Bool.false_eq_true, if_false, ht, List.isEmpty_cons]

/-- The outcome for the number of a mode option. -/
theorem modeNumber_spec (s : Str) :
    modeNumber s =
      match startNumber s with
      | some n => .ok n
      | none => if s = [] ∨ (s.all isDigitChar = true ∧ decimalValue s ≥ 2 ^ 64) then .throw .std
        else .throw .usage := by
  unfold modeNumber startNumber
  cases h : s.all isDigitChar with
  | false =>
    rw [readNumber_not s h]
    have : s ≠ [] := by rintro rfl; simp at h
    simp [this]
  | true =>
    rw [stoul_digits s h]
    by_cases hs : s = []
    · subst hs; simp [readNumber]
    · rw [readNumber_digits s h hs, if_neg hs]
      by_cases h64 : decimalValue s ≥ 2 ^ 64
      · rw [if_pos h64]
        have : ¬ decimalValue s ≤ 65535 := by omega
        simp [Option.filter, this, h64]
      · rw [if_neg h64]
        by_cases h16 : decimalValue s ≤ 65535
        · simp [Option.filter, h16]
        · simp [Option.filter, h16, hs]; omega

/-- Every mode option yields the mode, order and position it denotes, or a usage error (a
`DomainError`). -/
def C59_statement : Prop :=
  ∀ (m : UInt8) (rest : Str), m = 0x72 ∨ m = 0x74 →
    processProgramModeArg {} m rest =
      match modeOption rest with
      | some (o, n) => .ok (⟨if m = 0x72 then .review else .quiz, o⟩, n)
      | none => .throw .usage

/-- `-t-` fails with `std::invalid_argument`. -/
theorem C59_violated : ¬ C59_statement := by
  intro h
  have := h 0x74 (u8!"-") (Or.inr rfl)
  revert this
  decide

/-- The part of the option that `std::stoul` is used for. -/
def modeDigits : Str → Str
  | 0x2d :: ds => ds
  | 0x2b :: ds => ds
  | ds => ds

/-- The outcome for every option: as denoted, or an error.  The error is a usage error except when the
number is missing after a sign or doesn't fit into 64 bits, when it is an exception of
`std::stoul`. -/
theorem C59_outcome_partial (m : UInt8) (rest : Str) :
    processProgramModeArg {} m rest =
      match modeOption rest with
      | some (o, n) => .ok (⟨if m = 0x72 then .review else .quiz, o⟩, n)
      | none =>
        if modeDigits rest = [] ∨
            ((modeDigits rest).all isDigitChar = true ∧ decimalValue (modeDigits rest) ≥ 2 ^ 64) then
          .throw .std
        else .throw .usage := by
  unfold processProgramModeArg
  rw [if_neg (by simp)]
  cases rest with
  | nil => simp [modeOption]
  | cons c r =>
    simp only []
    by_cases h0 : r = [] ∧ c = 0x30
    · obtain ⟨rfl, rfl⟩ := h0
      rw [if_pos ⟨rfl, rfl⟩]
      rfl
    · rw [if_neg h0]
      by_cases h1 : c = 0x2d
      · subst h1
        simp only [true_or, if_true, modeOption, modeDigits]
        rw [modeNumber_spec]
        cases startNumber r with
        | none => simp only [Option.map_none]; split <;> rfl
        | some n => rfl
      · by_cases h2 : c = 0x2b
        · subst h2
          simp only [or_true, if_true, modeOption, modeDigits]
          rw [modeNumber_spec]
          cases startNumber r with
          | none => simp only [Option.map_none]; split <;> rfl
          | some n => rfl
        · rw [if_neg h1, if_neg (by simp [h1, h2])]
          have hm : modeOption (c :: r) = (startNumber (c :: r)).map fun n => (.fromBeginning, n) := by
            unfold modeOption
            split <;> simp_all
          have hd : modeDigits (c :: r) = c :: r := by
            unfold modeDigits
            split <;> simp_all
          rw [hm, hd, modeNumber_spec]
          cases startNumber (c :: r) with
          | none => simp only [Option.map_none]; split <;> rfl
          | some n => rfl

/-- Giving a mode twice is a usage error. -/
theorem C59_twice (l : Launcher) (h : l.mode ≠ .notAssigned) (m : UInt8) (rest : Str) :
    processProgramModeArg l m rest = .throw .usage := by
  rw [processProgramModeArg, if_pos h]

example : processProgramModeArg {} 0x74 (u8!"-20") = .ok (⟨.quiz, .fromEnd⟩, 20) := by decide
example : processProgramModeArg {} 0x72 (u8!"0") = .ok (⟨.review, .random⟩, 0) := by decide
example : processProgramModeArg {} 0x72 (u8!"99999999999999999999") = .throw .std := by decide

/-! ## C60 -/

/-- Every letter of a prompt selects the list that is documented for it, without an index error. -/
theorem C60_lists :
    (offeredLists 0x66 = (List.range 10).map (fun i => UInt8.ofNat (0x30 + i)) ∧
      ∀ i, i < 10 → selectFrequency (UInt8.ofNat (0x30 + i)) = some i) ∧
    (offeredLists 0x67 = documentedGrades.map (·.1) ∧
      ∀ p ∈ documentedGrades, selectGrade p.1 = .ok (some p.2)) ∧
    (offeredLists 0x6c = documentedLevels.map (·.1) ∧
      ∀ p ∈ documentedLevels, selectLevel p.1 = .ok (some p.2)) ∧
    (offeredLists 0x6b = documentedKyus.map (·.1) ∧
      ∀ p ∈ documentedKyus, selectKyu p.1 = .ok (some p.2)) ∧
    (offeredLists 0x6d = documentedMembers.map (·.1) ∧ offeredLists 0x70 = documentedMembers.map (·.1) ∧
      ∀ p ∈ documentedMembers, selectMemberType p.1 = some p.2) := by
  decide

/-- Different letters select different lists, and every grade, level and kyu has a letter. -/
theorem C60_distinct :
    (documentedGrades.map (·.2)).Nodup ∧ (∀ g : KanjiGrade, g ∈ documentedGrades.map (·.2)) ∧
    (documentedLevels.map (·.2)).Nodup ∧ (∀ l : JlptLevel, l ∈ documentedLevels.map (·.2)) ∧
    (documentedKyus.map (·.2)).Nodup ∧ (∀ k : KenteiKyu, k ∈ documentedKyus.map (·.2)) ∧
    (documentedMembers.map (·.2)).Nodup ∧ (∀ t : MemberType, t ∈ documentedMembers.map (·.2)) := by
  refine ⟨by decide, ?_, by decide, ?_, by decide, ?_, by decide, ?_⟩ <;> intro x <;> cases x <;> decide

/-- The options accept exactly the letters of the prompts. -/
theorem C60_options (t c : UInt8) (ht : t ∈ (u8!"fgklmp" : Str)) :
    listAllowed t c = true ↔ c ∈ offeredLists t := by
  have : ∀ t ∈ (u8!"fgklmp" : Str), ∀ n : Fin 256,
      (listAllowed t (UInt8.ofNat n.val) = true ↔ UInt8.ofNat n.val ∈ offeredLists t) := by decide +kernel
  have h := this t ht ⟨c.toNat, c.toNat_lt⟩
  simpa using h

/-! ## C81 -/

/-- What the options establish. -/
structure ArgsInv (a : LaunchArgs) : Prop where
  type : ∀ t, a.quizType = some t → t ∈ (u8!"fgklmp" : Str)
  list : ∀ c, a.qList = some c → ∃ t, a.quizType = some t ∧ c ∈ offeredLists t
  order : a.launcher.order ≠ .notAssigned → a.launcher.mode ≠ .notAssigned
  question : a.question ≤ 65535

theorem modeNumber_le {s : Str} {n : Nat} (h : modeNumber s = .ok n) : n ≤ 65535 := by
  unfold modeNumber at h
  split at h
  · cases h
  · split at h
    · cases h
    · split at h
      · cases h; assumption
      · cases h

theorem processArg_inv {a a' : LaunchArgs} (h : ArgsInv a) (t : UInt8) (rest : Str)
    (ha : processArg a t rest = .ok a') : ArgsInv a' := by
  unfold processArg at ha
  by_cases h1 : t = 0x72 ∨ t = 0x74
  · rw [if_pos h1] at ha
    cases hp : processProgramModeArg a.launcher t rest with
    | throw e => simp [hp, Res.bind] at ha
    | ub => simp [hp, Res.bind] at ha
    | ok p =>
      simp only [hp, Res.bind, Res.ok.injEq] at ha
      subst ha
      have key : p.1.mode ≠ .notAssigned ∧ p.2 ≤ 65535 := by
        unfold processProgramModeArg at hp
        split at hp
        · cases hp
        · have hm : (if t = 0x72 then ProgramMode.review else ProgramMode.quiz) ≠ .notAssigned := by
            split <;> simp
          simp only [] at hp
          split at hp
          · cases hp; exact ⟨hm, by simp⟩
          · split at hp
            · cases hp; exact ⟨hm, by simp⟩
            · rename_i c r _
              cases hn : modeNumber (if c = 0x2d ∨ c = 0x2b then r else c :: r) with
              | throw e => simp [hn, Res.bind] at hp
              | ub => simp [hn, Res.bind] at hp
              | ok n =>
                simp only [hn, Res.bind, Res.ok.injEq] at hp
                subst hp
                exact ⟨hm, modeNumber_le hn⟩
      exact ⟨h.type, h.list, fun _ => key.1, key.2⟩
  · rw [if_neg h1] at ha
    by_cases h2 : t = 0x66 ∨ t = 0x67 ∨ t = 0x6b ∨ t = 0x6c ∨ t = 0x6d ∨ t = 0x70
    · rw [if_pos h2] at ha
      have ht : t ∈ (u8!"fgklmp" : Str) := by
        rcases h2 with rfl | rfl | rfl | rfl | rfl | rfl <;> decide
      cases hs : setQuizType a.quizType t rest with
      | throw e => simp [hs, Res.bind] at ha
      | ub => simp [hs, Res.bind] at ha
      | ok p =>
        simp only [hs, Res.bind, Res.ok.injEq] at ha
        subst ha
        unfold setQuizType at hs
        split at hs
        · cases hs
        · rename_i hq
          have hq' : a.quizType = none := by simpa using hq
          have hqn : a.qList = none := by
            cases hl : a.qList with
            | none => rfl
            | some c => obtain ⟨t', h', _⟩ := h.list c hl; rw [hq'] at h'; cases h'
          split at hs
          · cases hs
            exact ⟨fun t' h' => by cases h'; exact ht, fun c hc => by simp [hqn] at hc, h.order, h.question⟩
          · split at hs
            · rename_i c hal
              cases hs
              exact ⟨fun t' h' => by cases h'; exact ht,
                fun c' hc => ⟨t, rfl, by cases hc; exact (C60_options t c ht).1 hal⟩, h.order, h.question⟩
            · cases hs
          · cases hs
    · rw [if_neg h2] at ha; cases ha

theorem launchLoop_inv : ∀ (args : List Str) (e : Bool) (a : LaunchArgs), ArgsInv a →
    ∀ b, launchLoop e a args = .ok (.start b) → ArgsInv b := by
  intro args
  induction args with
  | nil => intro e a h b hb; simp only [launchLoop, Res.ok.injEq, Launch.start.injEq] at hb; exact hb ▸ h
  | cons arg r ih =>
    intro e a h b hb
    unfold launchLoop at hb
    split at hb
    · rename_i t rest
      split at hb
      · cases hb
      · split at hb
        · cases hb
        · split at hb
          · exact ih _ _ h b hb
          · split at hb
            · exact ih _ { a with showMeanings := true } ⟨h.type, h.list, h.order, h.question⟩ b hb
            · cases hp : processArg a t rest with
              | throw e => simp [hp, Res.bind] at hb
              | ub => simp [hp, Res.bind] at hb
              | ok a' =>
                simp only [hp, Res.bind] at hb
                exact ih _ _ (processArg_inv h t rest hp) b hb
    · cases hb

/-- When the arguments lead to a quiz then the quiz type is one of the prompt and the list letter, if
there is one, is offered for that quiz type; so with C60 it selects a list.  An order is only set
together with a mode and the start position fits into 16 bits. -/
theorem C81_valid (args : List Str) (a : LaunchArgs) (h : launchLoop false {} args = .ok (.start a)) :
    (∀ t, a.quizType = some t → t ∈ (u8!"fgklmp" : Str)) ∧
    (∀ c, a.qList = some c → ∃ t, a.quizType = some t ∧ c ∈ offeredLists t) ∧
    (a.launcher.order ≠ .notAssigned → a.launcher.mode ≠ .notAssigned) ∧ a.question ≤ 65535 := by
  have := launchLoop_inv args false {} ⟨by simp, by simp, by simp, by simp⟩ a h
  exact ⟨this.type, this.list, this.order, this.question⟩

/-- An argument is an option if it starts with `-` and has at least two bytes. -/
def isOptionArg (s : Str) : Bool := s.head? == some 0x2d && s.length ≥ 2

/-- A kanji is shown exactly for the first argument that isn't an option, or the one after `--`, if the
options before it are accepted; later arguments don't matter. -/
theorem C81_kanji (e : Bool) (a : LaunchArgs) (arg : Str) (r : List Str) :
    (isOptionArg arg = false ∨ e = true → launchLoop e a (arg :: r) = .ok (.kanji arg)) ∧
    (isOptionArg arg = true → e = false → arg = u8!"--" → launchLoop e a (arg :: r) = launchLoop true a r) ∧
    (e = false → arg = u8!"-h" → launchLoop e a (arg :: r) = .ok .help) ∧
    (e = false → arg = u8!"-s" → launchLoop e a (arg :: r) = launchLoop e { a with showMeanings := true } r) := by
  refine ⟨?_, ?_, ?_, ?_⟩
  · intro h
    unfold launchLoop
    split
    · rename_i t rest
      rcases h with h | h
      · simp [isOptionArg] at h
      · simp [h]
    · rfl
  · rintro _ rfl rfl
    simp [launchLoop]
  · rintro rfl rfl
    simp [launchLoop]
  · rintro rfl rfl
    simp [launchLoop]

/-- A quiz type can be given once only. -/
theorem C81_once (a : LaunchArgs) (t : UInt8) (rest : Str) (hq : a.quizType ≠ none)
    (ht : t ∈ (u8!"fgklmp" : Str)) : processArg a t rest = .throw .usage := by
  have h1 : ¬ (t = 0x72 ∨ t = 0x74) := by rintro (rfl | rfl) <;> revert ht <;> decide
  have h2 : t = 0x66 ∨ t = 0x67 ∨ t = 0x6b ∨ t = 0x6c ∨ t = 0x6d ∨ t = 0x70 := by simpa using ht
  have hs : a.quizType.isSome = true := by
    cases h : a.quizType with
    | none => exact absurd h hq
    | some x => rfl
  rw [processArg, if_neg h1, if_pos h2]
  unfold setQuizType
  rw [if_pos hs]; rfl

example : launchLoop false {} [u8!"-r40", u8!"-l1", u8!"-s"] =
    .ok (.start ⟨⟨.review, .fromBeginning⟩, some 0x6c, some 0x31, 40, true⟩) := by decide
example : launchLoop false {} [u8!"-g6", u8!"-l1"] = .throw .usage := by decide

/-! ## C67 -/

/-- Launchers that can exist: an order is only set together with a mode. -/
def Launcher.ok (l : Launcher) : Prop := l.order ≠ .notAssigned → l.mode ≠ .notAssigned

/-- After a session returns nothing is set, so that the next session prompts for both settings. -/
def C67_statement : Prop :=
  ∀ (l : Launcher) (quizType qList : Option UInt8) (inp : List UInt8) (l' : Launcher)
    (shown : List LaunchPrompt), l.ok → l.start quizType qList inp = .returned l' shown →
    l'.mode = .notAssigned ∧ l'.order = .notAssigned

/-- Choosing review mode and then quitting at the prompt for the order leaves the mode set. -/
theorem C67_violated : ¬ C67_statement := by
  intro h
  have := (h {} none none (u8!"r/") ⟨.review, .notAssigned⟩ [.mode, .order] (by simp [Launcher.ok])
    (by decide)).1
  cases this

theorem startList_returned {l : Launcher} {t : UInt8} {qList : Option UInt8} {shown : List LaunchPrompt}
    {inp : List UInt8} {l' : Launcher} {s' : List LaunchPrompt}
    (h : startList l t qList shown inp = .returned l' s') : l' = {} := by
  unfold startList at h
  repeat' split at h
  all_goals first | (cases h; rfl) | (cases h; done)

theorem startType_returned {l : Launcher} {quizType qList : Option UInt8} {shown : List LaunchPrompt}
    {inp : List UInt8} {l' : Launcher} {s' : List LaunchPrompt}
    (h : startType l quizType qList shown inp = .returned l' s') : l' = {} := by
  unfold startType at h
  repeat' split at h
  all_goals first | exact startList_returned h | (cases h; done)

theorem startOrder_returned {l : Launcher} {quizType qList : Option UInt8} {shown : List LaunchPrompt}
    {inp : List UInt8} {l' : Launcher} {s' : List LaunchPrompt}
    (h : startOrder l quizType qList shown inp = .returned l' s') :
    l' = {} ∨ (l.order = .notAssigned ∧ inp.head? = some quitOption ∧ l' = l) := by
  unfold startOrder at h
  by_cases ho : l.order = .notAssigned
  · rw [if_pos ho] at h
    cases inp with
    | nil => cases h
    | cons c r =>
      simp only [] at h
      by_cases h1 : c = 0x62
      · rw [if_pos h1] at h; exact Or.inl (startType_returned h)
      rw [if_neg h1] at h
      by_cases h2 : c = 0x65
      · rw [if_pos h2] at h; exact Or.inl (startType_returned h)
      rw [if_neg h2] at h
      by_cases h3 : c = 0x72
      · rw [if_pos h3] at h; exact Or.inl (startType_returned h)
      rw [if_neg h3] at h
      by_cases h4 : c = quitOption
      · rw [if_pos h4] at h
        cases h
        exact Or.inr ⟨ho, by simp [h4], rfl⟩
      · rw [if_neg h4] at h; cases h
  · rw [if_neg ho] at h
    exact Or.inl (startType_returned h)

/-- Everything is reset unless the user quits at the prompt for the order, when the mode stays set. -/
theorem C67_reset_partial (l : Launcher) (hl : l.ok) (quizType qList : Option UInt8) (inp : List UInt8)
    (l' : Launcher) (shown : List LaunchPrompt)
    (h : l.start quizType qList inp = .returned l' shown) :
    l' = {} ∨
    (l'.order = .notAssigned ∧ l.order = .notAssigned ∧
      ((l.mode ≠ .notAssigned ∧ inp.head? = some quitOption ∧ l' = l) ∨
       (l.mode = .notAssigned ∧ (inp.drop 1).head? = some quitOption))) := by
  unfold Launcher.start at h
  by_cases hm : l.mode = .notAssigned
  · rw [if_pos hm] at h
    have ho : l.order = .notAssigned := by
      apply Classical.byContradiction
      intro h'
      exact hl h' hm
    cases inp with
    | nil => cases h
    | cons c r =>
      simp only [] at h
      by_cases h1 : c = quitOption
      · rw [if_pos h1] at h
        cases h
        left
        obtain ⟨m, o⟩ := l
        simp only at hm ho
        rw [hm, ho]
      rw [if_neg h1] at h
      by_cases h2 : c = 0x72
      · rw [if_pos h2] at h
        rcases startOrder_returned h with h' | ⟨h3, h4, h5⟩
        · exact Or.inl h'
        · subst h5
          exact Or.inr ⟨ho, ho, Or.inr ⟨hm, by simpa using h4⟩⟩
      rw [if_neg h2] at h
      by_cases h3 : c = 0x74
      · rw [if_pos h3] at h
        rcases startOrder_returned h with h' | ⟨h3, h4, h5⟩
        · exact Or.inl h'
        · subst h5
          exact Or.inr ⟨ho, ho, Or.inr ⟨hm, by simpa using h4⟩⟩
      · rw [if_neg h3] at h; cases h
  · rw [if_neg hm] at h
    rcases startOrder_returned h with h' | ⟨h3, h4, h5⟩
    · exact Or.inl h'
    · subst h5
      exact Or.inr ⟨h3, h3, Or.inl ⟨hm, h4, rfl⟩⟩

/-- A session of a launcher where nothing is set starts with the prompt for the mode, and unless the user
quits there the prompt for the order follows. -/
theorem C67_prompts (quizType qList : Option UInt8) :
    Launcher.start {} quizType qList [] = .waiting .mode {} ∧
    Launcher.start {} quizType qList [0x72] = .waiting .order ⟨.review, .notAssigned⟩ ∧
    Launcher.start {} quizType qList [0x74] = .waiting .order ⟨.quiz, .notAssigned⟩ ∧
    ∀ inp l shown, Launcher.start {} quizType qList inp = .returned l shown → shown.head? = some .mode := by
  refine ⟨rfl, rfl, rfl, ?_⟩
  have hlist : ∀ (l : Launcher) t sh inp l' s', sh.head? = some .mode →
      startList l t qList sh inp = .returned l' s' → s'.head? = some .mode := by
    intro l t sh inp l' s' hs h
    cases sh with
    | nil => cases hs
    | cons x xs =>
      unfold startList at h
      repeat' split at h
      all_goals first | (cases h; exact hs) | (cases h; done)
  have htype : ∀ (l : Launcher) sh inp l' s', sh.head? = some .mode →
      startType l quizType qList sh inp = .returned l' s' → s'.head? = some .mode := by
    intro l sh inp l' s' hs h
    cases sh with
    | nil => cases hs
    | cons x xs =>
      unfold startType at h
      repeat' split at h
      all_goals first | exact hlist _ _ _ _ _ _ (by simpa using hs) h | (cases h; done)
  have horder : ∀ (l : Launcher) inp l' s',
      startOrder l quizType qList [.mode] inp = .returned l' s' → s'.head? = some .mode := by
    intro l inp l' s' h
    unfold startOrder at h
    repeat' split at h
    all_goals first | exact htype _ _ _ _ _ (by simp) h | (cases h; rfl) | (cases h; done)
  intro inp l shown h
  unfold Launcher.start at h
  repeat' split at h
  all_goals first | exact horder _ _ _ _ h | (cases h; rfl) | (cases h; done) | (rename_i h'; exact absurd rfl h')

/-! ## C82 -/

theorem hexDigit_value (b : UInt8) (h : isHexChar b = true) :
    digitValue b = some (hexDigit b) ∧ hexDigit b < 16 := by
  have : ∀ n : Fin 256, isHexChar (UInt8.ofNat n.val) = true →
      digitValue (UInt8.ofNat n.val) = some (hexDigit (UInt8.ofNat n.val)) ∧
      hexDigit (UInt8.ofNat n.val) < 16 := by decide +kernel
  have h' := this ⟨b.toNat, b.toNat_lt⟩ (by simpa using h)
  simpa using h'

theorem hexValue_read : ∀ (s : Str) (a : Nat), s.all isHexChar = true →
    readFrom 16 a s = some (s.foldl (fun a b => a * 16 + hexDigit b) a) := by
  intro s
  induction s with
  | nil => intro a _; rfl
  | cons b r ih =>
    intro a h
    rw [List.all_cons, Bool.and_eq_true] at h
    obtain ⟨h1, h2⟩ := hexDigit_value b h.1
    simp only [readFrom, h1, h2, if_true, List.foldl_cons]
    exact ih _ h.2

/-- A text that starts with an ASCII character isn't a kanji. -/
theorem isKanji_first {b : UInt8} {r : Str} (h : isKanji (b :: r) = true) : 128 ≤ b.toNat := by
  apply Classical.byContradiction
  intro hb
  obtain ⟨c, cs, hd, hc⟩ := inWCharRange_first decides_kanji h
  by_cases h0 : b.toNat = 0
  · have hb0 : b = 0 := UInt8.toNat_inj.1 h0
    subst hb0
    have hc0 : cStr (0 :: r) = [] := by simp [cStr]
    have h1 := decodes_decode (0 :: r)
    rw [hc0] at h1
    rw [hd] at h1
    have h2 := decodes_decode ([] : Str)
    have h3 : decode ([] : Str) = [] := by decide
    rw [h3] at h2
    have := h1.unique h2
    cases this
  · have he : b :: r = enc b.toNat ++ r := by
      rw [enc, if_pos (by omega)]; simp
    rw [he, decode_enc_append (Or.inl (by omega)) h0] at hd
    cases hd
    rcases hc with hc | hc
    · unfold CommonKanji at hc; omega
    · unfold RareKanji at hc; omega

theorem readFrom_hex : ∀ (s : Str) (a n : Nat), readFrom 16 a s = some n → s.all isHexChar = true := by
  have hx : ∀ n : Fin 256, (digitValue (UInt8.ofNat n.val)).isSome = true →
      isHexChar (UInt8.ofNat n.val) = true := by decide +kernel
  intro s
  induction s with
  | nil => intro _ _ _; rfl
  | cons b r ih =>
    intro a n h
    simp only [readFrom] at h
    cases hd : digitValue b with
    | none => simp [hd] at h
    | some d =>
      simp only [hd] at h
      split at h
      · rw [List.all_cons, ih _ _ h, Bool.and_true]
        have := hx ⟨b.toNat, b.toNat_lt⟩ (by simp [hd])
        simpa using this
      · cases h

/-- The documented forms of a kanji argument: a frequency, `m` and a Morohashi id, `n` and a Nelson id,
`u` and a code of four or five hex digits (five only with a first digit 1 or 2), or a single kanji;
numbers are read in full and must fit into 16 bits. -/
theorem C82_forms (s : Str) :
    (∀ n, readNumber 10 s = some n →
      processKanjiArg s = if n ≤ 65535 then .ok (.frequency n) else .throw .usage) ∧
    (∀ id, MorohashiId.parse s = .ok id → processKanjiArg (0x6d :: s) = .ok (.morohashi id)) ∧
    (∀ n, readNumber 10 s = some n →
      processKanjiArg (0x6e :: s) = if n ≤ 65535 then .ok (.nelson n) else .throw .usage) ∧
    (∀ n, readNumber 16 s = some n → (s.length = 4 ∨ (s.length = 5 ∧
        (s.head? = some 0x31 ∨ s.head? = some 0x32))) →
      processKanjiArg (0x75 :: s) = .ok (.unicode n)) ∧
    (isKanji s = true → processKanjiArg s = .ok (.name s)) := by
  have hdig : ∀ n, readNumber 10 s = some n → s ≠ [] ∧ s.all isDigitChar = true ∧ decimalValue s = n := by
    intro n hn
    have hne : s ≠ [] := by rintro rfl; simp [readNumber] at hn
    cases hall : s.all isDigitChar with
    | false => rw [readNumber_not s hall] at hn; cases hn
    | true =>
      rw [readNumber_digits s hall hne] at hn
      exact ⟨hne, rfl, by simpa using hn⟩
  refine ⟨?_, ?_, ?_, ?_, ?_⟩
  · intro n hn
    obtain ⟨h1, h2, h3⟩ := hdig n hn
    rw [processKanjiArg, if_pos h2, quizGetId, if_neg h1, h3]
    by_cases h : n > 65535
    · rw [if_pos h, if_neg (by omega)]; rfl
    · rw [if_neg h, if_pos (by omega)]; rfl
  · intro id hid
    have : (0x6d :: s).all isDigitChar = false := by simp [isDigitChar]
    rw [processKanjiArg, if_neg (by simp [this]), if_pos (by simp), List.tail_cons, hid]; rfl
  · intro n hn
    obtain ⟨h1, h2, h3⟩ := hdig n hn
    have : (0x6e :: s).all isDigitChar = false := by simp [isDigitChar]
    have h2' : List.all s isDigitChar ≠ false := by simp [h2]
    by_cases h : n ≤ 65535
    · rw [if_pos h]
      simp [processKanjiArg, this, h1, h2, quizGetId, h3, Nat.not_lt.2 h, Res.bind]
    · rw [if_neg h]
      simp [processKanjiArg, this, h1, h2, quizGetId, h3, Nat.lt_of_not_le h, Res.bind]
  · intro n hn hlen
    have hhex : s.all isHexChar = true := by
      rw [readNumber] at hn
      split at hn
      · cases hn
      · exact readFrom_hex s 0 n hn
    have : (0x75 :: s).all isDigitChar = false := by simp [isDigitChar]
    have hv : hexValue s = n := by
      have hne : s.isEmpty = false := by
        cases s with
        | nil => simp at hlen
        | cons => rfl
      rw [readNumber, hne, if_neg (by simp), hexValue_read s 0 hhex] at hn
      simpa [hexValue] using hn
    rw [processKanjiArg, if_neg (by simp [this]), if_neg (by simp), if_neg (by simp), if_pos (by simp)]
    refine (if_neg ?_).trans (by rw [List.tail_cons, hv])
    rw [List.tail_cons]
    rintro (h | h | h | h)
    · omega
    · omega
    · rcases hlen with hl | hl
      · omega
      · rcases hl.2 with h' | h'
        · exact h.2.1 h'
        · exact h.2.2 h'
    · rw [hhex] at h; cases h
  · intro hk
    have hfirst : ∃ b r, s = b :: r ∧ 128 ≤ b.toNat := by
      cases s with
      | nil => simp [isKanji, inWCharRange] at hk
      | cons b r => exact ⟨b, r, rfl, isKanji_first hk⟩
    obtain ⟨b, r, rfl, hb⟩ := hfirst
    have hne : ∀ c : UInt8, c.toNat < 128 → (b :: r).head? ≠ some c := by
      intro c hc he
      simp only [List.head?_cons, Option.some.injEq] at he
      rw [he] at hb; omega
    have h1 := hne 0x6d (by decide)
    have h2 := hne 0x6e (by decide)
    have h3 := hne 0x75 (by decide)
    have h4 : (b :: r).all isDigitChar = false := by
      have : ¬ b ≤ 0x39 := by
        rw [UInt8.le_iff_toNat_le]
        have : (0x39 : UInt8).toNat = 57 := rfl
        omega
      simp [isDigitChar, this]
    rw [processKanjiArg, if_neg (by simp [h4]), if_neg h1, if_neg h2, if_neg h3, if_pos hk]

/-- Nothing else is looked up: other arguments are errors. -/
theorem C82_only (s : Str) (q : KanjiQuery) (h : processKanjiArg s = .ok q) :
    match q with
    | .frequency n => readNumber 10 s = some n ∧ n ≤ 65535
    | .morohashi id => s.head? = some 0x6d ∧ MorohashiId.parse s.tail = .ok id
    | .nelson n => s.head? = some 0x6e ∧ readNumber 10 s.tail = some n ∧ n ≤ 65535
    | .unicode n => s.head? = some 0x75 ∧ readNumber 16 s.tail = some n ∧
        (s.tail.length = 4 ∨ (s.tail.length = 5 ∧ (s.tail.head? = some 0x31 ∨ s.tail.head? = some 0x32)))
    | .name t => t = s ∧ isKanji s = true := by
  have hget : ∀ (t : Str) n, t.all isDigitChar = true → quizGetId t = .ok n →
      readNumber 10 t = some n ∧ n ≤ 65535 := by
    intro t n hall hg
    unfold quizGetId at hg
    split at hg
    · cases hg
    · rename_i hne
      split at hg
      · cases hg
      · cases hg
        exact ⟨readNumber_digits t hall hne, by omega⟩
  unfold processKanjiArg at h
  by_cases h1 : s.all isDigitChar = true
  · rw [if_pos h1] at h
    cases hg : quizGetId s with
    | throw e => simp [hg, Res.bind] at h
    | ub => simp [hg, Res.bind] at h
    | ok n =>
      simp only [hg, Res.bind, Res.ok.injEq] at h
      subst h
      exact hget s n h1 hg
  rw [if_neg h1] at h
  by_cases h2 : s.head? = some 0x6d
  · rw [if_pos h2] at h
    cases hg : MorohashiId.parse s.tail with
    | throw e => simp [hg, Res.bind] at h
    | ub => simp [hg, Res.bind] at h
    | ok n =>
      simp only [hg, Res.bind, Res.ok.injEq] at h
      subst h
      exact ⟨h2, by first | exact hg | rfl⟩
  rw [if_neg h2] at h
  by_cases h3 : s.head? = some 0x6e
  · rw [if_pos h3] at h
    simp only [] at h
    by_cases h4 : s.tail = [] ∨ s.tail.all isDigitChar = false
    · rw [if_pos h4] at h; cases h
    rw [if_neg h4] at h
    cases hg : quizGetId s.tail with
    | throw e => simp [hg, Res.bind] at h
    | ub => simp [hg, Res.bind] at h
    | ok n =>
      simp only [hg, Res.bind, Res.ok.injEq] at h
      subst h
      have : s.tail.all isDigitChar = true := by
        cases hx : s.tail.all isDigitChar with
        | true => rfl
        | false => exact absurd (Or.inr hx) h4
      exact ⟨h3, hget _ n this hg⟩
  rw [if_neg h3] at h
  by_cases h4 : s.head? = some 0x75
  · rw [if_pos h4] at h
    simp only [] at h
    split at h
    · cases h
    · rename_i hc
      cases h
      simp only [not_or, not_and, Bool.not_eq_false] at hc
      obtain ⟨c1, c2, c3, c4⟩ := hc
      refine ⟨h4, ?_, ?_⟩
      · have hne : s.tail.isEmpty = false := by
          cases ht : s.tail with
          | nil => rw [ht] at c1; simp at c1
          | cons => rfl
        rw [readNumber, hne, if_neg (by simp), hexValue_read _ 0 c4]; rfl
      · by_cases h5 : s.tail.length = 5
        · right
          refine ⟨h5, ?_⟩
          by_cases h6 : s.tail.head? = some 0x31
          · exact Or.inl h6
          · exact Or.inr (Classical.byContradiction fun h7 => c3 h5 h6 h7)
        · left; omega
  rw [if_neg h4] at h
  by_cases h5 : isKanji s = true
  · rw [if_pos h5] at h
    cases h
    exact ⟨rfl, h5⟩
  · rw [if_neg h5] at h; cases h

example : processKanjiArg (u8!"奉") = .ok (.name (u8!"奉")) := by decide +kernel
example : processKanjiArg (u8!"1624") = .ok (.frequency 1624) := by decide
example : processKanjiArg (u8!"m5894") = .ok (.morohashi ⟨5894, .plain⟩) := by decide
example : processKanjiArg (u8!"n212") = .ok (.nelson 212) := by decide
example : processKanjiArg (u8!"u5949") = .ok (.unicode 0x5949) := by decide
example : processKanjiArg (u8!"u3abcd") = .throw .usage := by decide

end KT
