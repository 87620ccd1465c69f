import Verif.Spec.LaunchText
import Verif.Props.QuizLauncher
/-!
# Properties of the options of kanjiQuiz and the messages for wrong ones (C165)
-/
namespace KT
open Spec

/-! ## The messages belong to the exceptions -/

/-- The same result, or an exception. -/
def SameLaunch {α : Type} : Except Str α → Res α → Prop
  | .ok a, .ok b => a = b
  | .error _, .throw _ => True
  | _, _ => False

theorem modeNumber_why (e : StoulTexts) (m : UInt8) (s : Str) : SameLaunch (modeNumberWhy e m s) (modeNumber s) := by
  unfold modeNumberWhy modeNumber
  cases s.all isDigitChar with
  | false => exact trivial
  | true =>
    cases stoul s with
    | none => exact trivial
    | some i => by_cases h : i ≤ 65535 <;> simp [h, SameLaunch]

theorem modeArg_why (e : StoulTexts) (l : Launcher) (m : UInt8) (rest : Str) :
    SameLaunch (processProgramModeArgWhy e l m rest) (processProgramModeArg l m rest) := by
  unfold processProgramModeArgWhy processProgramModeArg
  by_cases h : l.mode ≠ .notAssigned
  · rw [if_pos h, if_pos h]; exact trivial
  · rw [if_neg h, if_neg h]
    cases rest with
    | nil => exact rfl
    | cons c r =>
      simp only
      by_cases h0 : r = [] ∧ c = 0x30
      · rw [if_pos h0, if_pos h0]; exact rfl
      · rw [if_neg h0, if_neg h0]
        have := modeNumber_why e m (if c = 0x2d ∨ c = 0x2b then r else c :: r)
        revert this
        cases modeNumberWhy e m (if c = 0x2d ∨ c = 0x2b then r else c :: r) <;>
          cases modeNumber (if c = 0x2d ∨ c = 0x2b then r else c :: r) <;> simp [SameLaunch, Res.bind]

theorem setType_why (q : Option UInt8) (t : UInt8) (rest : Str) :
    SameLaunch (setQuizTypeWhy q t rest) (setQuizType q t rest) := by
  unfold setQuizTypeWhy setQuizType
  cases q with
  | some _ => exact trivial
  | none =>
    simp only [Option.isSome_none, Bool.false_eq_true, if_false]
    match rest with
    | [] => exact rfl
    | [c] => by_cases h : listAllowed t c = true <;> simp [h, SameLaunch]
    | _ :: _ :: _ => exact trivial

theorem arg_why (e : StoulTexts) (a : LaunchArgs) (t : UInt8) (rest : Str) :
    SameLaunch (processArgWhy e a t rest) (processArg a t rest) := by
  unfold processArgWhy processArg
  by_cases h1 : t = 0x72 ∨ t = 0x74
  · rw [if_pos h1, if_pos h1]
    have := modeArg_why e a.launcher t rest
    revert this
    cases processProgramModeArgWhy e a.launcher t rest <;> cases processProgramModeArg a.launcher t rest <;>
      simp [SameLaunch, Res.bind]
    intro h; simp [h]
  · rw [if_neg h1, if_neg h1]
    by_cases h2 : t = 0x66 ∨ t = 0x67 ∨ t = 0x6b ∨ t = 0x6c ∨ t = 0x6d ∨ t = 0x70
    · rw [if_pos h2, if_pos h2]
      have := setType_why a.quizType t rest
      revert this
      cases setQuizTypeWhy a.quizType t rest <;> cases setQuizType a.quizType t rest <;> simp [SameLaunch, Res.bind]
      intro h; simp [h]
      rfl
    · rw [if_neg h2, if_neg h2]; exact trivial

/-- There is a message exactly when the program throws, otherwise it does the same. -/
theorem C165_messages (e : StoulTexts) : ∀ (args : List Str) (b : Bool) (a : LaunchArgs),
    SameLaunch (launchWhy e b a args) (launchLoop b a args) := by
  intro args
  induction args with
  | nil => intro b a; exact rfl
  | cons arg r ih =>
    intro b a
    unfold launchWhy launchLoop
    split
    · next t rest =>
      show SameLaunch _ (if b = true then _ else _)
      by_cases h1 : b = true
      · rw [if_pos h1, if_pos h1]; exact rfl
      · rw [if_neg h1, if_neg h1]
        by_cases h2 : (0x2d :: t :: rest : Str) = u8!"-h"
        · rw [if_pos h2, if_pos h2]; exact rfl
        · rw [if_neg h2, if_neg h2]
          by_cases h3 : (0x2d :: t :: rest : Str) = u8!"--"
          · rw [if_pos h3, if_pos h3]; exact ih _ _
          · rw [if_neg h3, if_neg h3]
            by_cases h4 : (0x2d :: t :: rest : Str) = u8!"-s"
            · rw [if_pos h4, if_pos h4]; exact ih _ _
            · rw [if_neg h4, if_neg h4]
              have := arg_why e a t rest
              revert this
              cases processArgWhy e a t rest <;> cases processArg a t rest <;> simp [SameLaunch, Res.bind]
              intro h; subst h; exact ih _ _
    · next hno =>
      split
      · next t rest => exact absurd rfl (hno t rest)
      · exact rfl

/-! ## The options -/

theorem optionsWith_append (letters : Str) (a b : List Str) :
    optionsWith letters (a ++ b) = optionsWith letters a ++ optionsWith letters b := by
  simp [optionsWith, List.filterMap_append]

theorem optionsWith_one (letters : Str) (c : UInt8) (rest : Str) :
    optionsWith letters [0x2d :: c :: rest] = if c ∈ letters then [(c, rest)] else [] := by
  unfold optionsWith
  by_cases h : c ∈ letters <;> simp [h]

theorem modeNumber_problem (e : StoulTexts) (m : UInt8) (s : Str) :
    modeNumberWhy e m s = match numberProblem e m s with
      | some w => .error w
      | none => .ok ((startNumber s).getD 0) := by
  unfold modeNumberWhy numberProblem startNumber
  cases h : s.all isDigitChar with
  | false =>
    have hs : s ≠ [] := by rintro rfl; simp at h
    rw [readNumber_not s h]
    obtain ⟨c, r, rfl⟩ : ∃ (c : UInt8) (r : Str), s = c :: r := by
      cases s with | nil => exact absurd rfl hs | cons c r => exact ⟨c, r, rfl⟩
    rfl
  | true =>
    rw [stoul_digits s h]
    cases s with
    | nil => simp
    | cons c r =>
      rw [readNumber_digits _ h (by simp)]
      simp only [Bool.not_true, Bool.false_eq_true, if_false, reduceCtorEq]
      by_cases h16 : decimalValue (c :: r) ≤ 65535
      · have : ¬ decimalValue (c :: r) ≥ 2 ^ 64 := by omega
        simp [h16, this, Option.filter]
      · by_cases h64 : decimalValue (c :: r) ≥ 2 ^ 64
        · have : ¬ decimalValue (c :: r) < 2 ^ 64 := by omega
          simp [h16, h64, this]
        · have : decimalValue (c :: r) < 2 ^ 64 := by omega
          simp [h16, h64, this]

/-- The texts of the messages. -/
theorem mode_problem (e : StoulTexts) (m : UInt8) (rest : Str) :
    processProgramModeArgWhy e {} m rest =
      match modeProblem e m rest with
      | some w => .error w
      | none => .ok (⟨if m = 0x72 then .review else .quiz, match modeOption rest with | some x => x.1 | none => .notAssigned⟩,
          match modeOption rest with | some x => x.2 | none => 0) := by
  unfold processProgramModeArgWhy
  rw [if_neg (by simp)]
  have number (w : Str) (h : numberProblem e m w = none) : ∃ n, startNumber w = some n := by
    unfold numberProblem at h
    unfold startNumber
    split at h
    · cases h
    · split at h
      · cases h
      · next n hn =>
        rw [hn]
        by_cases h16 : n ≤ 65535
        · exact ⟨n, by simp [Option.filter, h16]⟩
        · rw [if_neg h16] at h
          split at h <;> cases h
  cases rest with
  | nil => rfl
  | cons c r =>
    simp only
    by_cases h0 : r = [] ∧ c = 0x30
    · obtain ⟨rfl, rfl⟩ := h0
      rw [if_pos ⟨rfl, rfl⟩]
      rfl
    · rw [if_neg h0]
      by_cases h1 : c = 0x2d
      · subst h1
        simp only [true_or, if_true, modeOption, modeProblem]
        rw [modeNumber_problem]
        cases hp : numberProblem e m r with
        | some w => rfl
        | none =>
          obtain ⟨n, hn⟩ := number r hp
          rw [hn]; rfl
      · by_cases h2 : c = 0x2b
        · subst h2
          simp only [or_true, if_true, modeOption, modeProblem]
          rw [modeNumber_problem]
          cases hp : numberProblem e m r with
          | some w => rfl
          | none =>
            obtain ⟨n, hn⟩ := number r hp
            rw [hn]; rfl
        · rw [if_neg h1, if_neg (by simp [h1, h2])]
          have hm : modeOption (c :: r) = (startNumber (c :: r)).map fun n => (.fromBeginning, n) := by
            unfold modeOption
            split <;> simp_all
          have hd : modeProblem e m (c :: r) = numberProblem e m (c :: r) := by
            unfold modeProblem
            split <;> simp_all
          rw [hm, hd, modeNumber_problem]
          cases hp : numberProblem e m (c :: r) with
          | some w => rfl
          | none =>
            obtain ⟨n, hn⟩ := number (c :: r) hp
            rw [hn]; rfl

theorem listAllowed_offered (t : UInt8) (ht : t ∈ (u8!"fgklmp" : Str)) (c : UInt8) :
    listAllowed t c = true ↔ c ∈ offeredLists t := by
  have : ∀ t ∈ (u8!"fgklmp" : Str), ∀ n < 256, listAllowed t (UInt8.ofNat n) = (offeredLists t).contains (UInt8.ofNat n) := by
    decide +kernel
  have := this t ht c.toNat c.toNat_lt
  rw [UInt8.ofNat_toNat] at this
  rw [this]; simp

/-- An option after others without problems: its problem, or the settings with it. -/
theorem option_step (e : StoulTexts) (before : List Str) (c : UInt8) (rest : Str)
    (hs : (0x2d :: c :: rest : Str) ≠ u8!"-s") :
    processArgWhy e (settings before) c rest =
      match optionProblem e before (0x2d :: c :: rest) with
      | some w => .error w
      | none => .ok (settings (before ++ [0x2d :: c :: rest])) := by
  have hshow : (before ++ [0x2d :: c :: rest]).contains (u8!"-s") = before.contains (u8!"-s") := by
    have h2 : ((u8!"-s" : Str) == 0x2d :: c :: rest) = false := beq_false_of_ne (Ne.symm hs)
    rw [List.contains_append]
    simp only [List.contains_cons, h2, List.contains_nil, Bool.or_false]
  unfold processArgWhy optionProblem
  by_cases h1 : c = 0x72 ∨ c = 0x74
  · have hc : c ∈ (u8!"rt" : Str) := by rcases h1 with rfl | rfl <;> decide
    have hc' : c ∉ (u8!"fgklmp" : Str) := by rcases h1 with rfl | rfl <;> decide
    rw [if_pos h1]
    simp only [hc, if_true]
    cases hb : optionsWith (u8!"rt") before with
    | cons x xs =>
      rw [if_pos (by simp)]
      have : (settings before).launcher.mode ≠ .notAssigned := by
        unfold settings
        simp only [hb]
        split <;> simp
      unfold processProgramModeArgWhy
      rw [if_pos this]
      rfl
    | nil =>
      rw [if_neg (by simp)]
      have hl : (settings before).launcher = {} := by unfold settings; simp only [hb]
      rw [hl, mode_problem]
      cases modeProblem e c rest with
      | some w => rfl
      | none =>
        simp only [Except.ok.injEq]
        unfold settings
        rw [optionsWith_append, optionsWith_append, optionsWith_one, optionsWith_one, if_pos hc, if_neg hc', hb, hshow]
        simp
        exact ⟨rfl, rfl⟩
  · have hc : c ∉ (u8!"rt" : Str) := by
      intro h; apply h1; simpa using h
    rw [if_neg h1]
    simp only [hc, if_false]
    by_cases h2 : c = 0x66 ∨ c = 0x67 ∨ c = 0x6b ∨ c = 0x6c ∨ c = 0x6d ∨ c = 0x70
    · have hc' : c ∈ (u8!"fgklmp" : Str) := by simpa using h2
      rw [if_pos h2]
      simp only [hc', if_true]
      cases hb : optionsWith (u8!"fgklmp") before with
      | cons x xs =>
        rw [if_pos (by simp)]
        have : (settings before).quizType.isSome = true := by unfold settings; simp [hb]
        unfold setQuizTypeWhy
        rw [if_pos this]
        rfl
      | nil =>
        rw [if_neg (by simp)]
        have hq : (settings before).quizType = none := by unfold settings; simp [hb]
        have hl : (settings before).qList = none := by unfold settings; simp [hb]
        unfold setQuizTypeWhy
        rw [hq, hl]
        have hset : settings (before ++ [0x2d :: c :: rest]) = { settings before with quizType := some c, qList := rest.head? } := by
          unfold settings
          rw [optionsWith_append, optionsWith_append, optionsWith_one, optionsWith_one, if_neg hc, if_pos hc', hb, hshow]
          simp
        rw [hset]
        match rest with
        | [] => simp
        | [k] =>
          have := listAllowed_offered c hc' k
          by_cases hk : listAllowed c k = true
          · simp [hk, this.1 hk]
          · have hk' : k ∉ offeredLists c := fun h => hk (this.2 h)
            simp [hk, hk', useHelp]
        | x :: y :: r => simp [useHelp]
    · have hc' : c ∉ (u8!"fgklmp" : Str) := by
        intro h; apply h2; simpa using h
      rw [if_neg h2]
      simp only [hc', if_false, hs]
      simp [useHelp]

theorem settings_shown (before : List Str) :
    settings (before ++ [u8!"-s"]) = { settings before with showMeanings := true } := by
  unfold settings
  rw [optionsWith_append, optionsWith_append, optionsWith_one, optionsWith_one, if_neg (by decide), if_neg (by decide)]
  simp

/-- After `--` everything is a kanji. -/
theorem after_options (e : StoulTexts) (a : LaunchArgs) (r : List Str) :
    launchWhy e true a r = match r with | [] => .ok (.start a) | k :: _ => .ok (.kanji k) := by
  cases r with
  | nil => rfl
  | cons k r =>
    unfold launchWhy
    split <;> rfl

theorem understood_from (e : StoulTexts) : ∀ (args before : List Str),
    launchWhy e false (settings before) args =
      match firstOptionProblem e before (args.takeWhile setsOption) with
      | some w => .error w
      | none =>
        match args.dropWhile setsOption with
        | [] => .ok (.start (settings (before ++ args.takeWhile setsOption)))
        | arg :: r =>
          if arg = u8!"-h" then .ok .help
          else if arg = u8!"--" then
            match r with
            | [] => .ok (.start (settings (before ++ args.takeWhile setsOption)))
            | k :: _ => .ok (.kanji k)
          else .ok (.kanji arg) := by
  intro args
  induction args with
  | nil => intro before; simp [launchWhy, firstOptionProblem]
  | cons arg r ih =>
    intro before
    unfold launchWhy
    split
    · next t rest =>
      simp only [Bool.false_eq_true, if_false]
      by_cases h2 : (0x2d :: t :: rest : Str) = u8!"-h"
      · have ho : setsOption (0x2d :: t :: rest) = false := by rw [h2]; decide
        rw [if_pos h2, List.takeWhile_cons_of_neg (by simp [ho]), List.dropWhile_cons_of_neg (by simp [ho])]
        simp only [firstOptionProblem, h2, if_true]
      · rw [if_neg h2]
        by_cases h3 : (0x2d :: t :: rest : Str) = u8!"--"
        · have ho : setsOption (0x2d :: t :: rest) = false := by rw [h3]; decide
          rw [if_pos h3, List.takeWhile_cons_of_neg (by simp [ho]), List.dropWhile_cons_of_neg (by simp [ho]), after_options]
          simp only [firstOptionProblem, h3, if_true, List.append_nil]
          rw [if_neg (by decide)]
        · rw [if_neg h3]
          have ho : setsOption (0x2d :: t :: rest) = true := by
            unfold setsOption
            cases rest with
            | cons _ _ => rfl
            | nil =>
              have n1 : t ≠ 0x68 := by rintro rfl; exact h2 rfl
              have n2 : t ≠ 0x2d := by rintro rfl; exact h3 rfl
              simp [n1, n2]
          rw [List.takeWhile_cons_of_pos ho, List.dropWhile_cons_of_pos ho]
          simp only [firstOptionProblem]
          by_cases h4 : (0x2d :: t :: rest : Str) = u8!"-s"
          · rw [if_pos h4, h4, ← settings_shown, ih]
            have : optionProblem e before (u8!"-s") = none := rfl
            simp only [this, List.append_assoc, List.singleton_append]
          · rw [if_neg h4, option_step e before t rest h4]
            cases optionProblem e before (0x2d :: t :: rest) with
            | some w => rfl
            | none =>
              simp only
              rw [ih]
              simp only [List.append_assoc, List.singleton_append]
    · next hno =>
      have ho : setsOption arg = false := by
        unfold setsOption
        split
        · next c rest => exact absurd rfl (hno c rest)
        · rfl
      rw [List.takeWhile_cons_of_neg (by simp [ho]), List.dropWhile_cons_of_neg (by simp [ho])]
      have n1 : arg ≠ u8!"-h" := by rintro rfl; exact hno _ _ rfl
      have n2 : arg ≠ u8!"--" := by rintro rfl; exact hno _ _ rfl
      simp only [firstOptionProblem, n1, n2, if_false]

/-- For all arguments the program does what they say or fails with the message specified. -/
theorem C165_arguments (e : StoulTexts) (args : List Str) : launchWhy e false {} args = understood e args := by
  have := understood_from e args []
  have h0 : settings [] = {} := rfl
  rw [h0] at this
  rw [this]
  rfl

/-- Settings that a quiz starts with are those of options without problems. -/
theorem C165_settings (args : List Str) (a : LaunchArgs) (h : launchLoop false {} args = .ok (.start a)) :
    a = settings (args.takeWhile setsOption) := by
  have h1 := C165_messages ⟨[], []⟩ args false {}
  rw [h, C165_arguments] at h1
  cases hu : understood ⟨[], []⟩ args with
  | error w => rw [hu] at h1; exact h1.elim
  | ok l =>
    rw [hu] at h1
    have h1 : l = .start a := h1
    subst h1
    unfold understood at hu
    simp only at hu
    split at hu
    · cases hu
    · split at hu
      · cases hu; rfl
      · split at hu
        · cases hu
        · split at hu
          · split at hu
            · cases hu; rfl
            · cases hu
          · cases hu

/-! ## Examples (testQuizLauncher.cpp) -/

def exTexts : StoulTexts := ⟨u8!"stoul: no conversion", u8!"stoul: out of range"⟩

def whyOf {α : Type} : Except Str α → Option Str
  | .error w => some w
  | .ok _ => none

example : whyOf (launchWhy exTexts false {} [u8!"-x"]) = some (u8!"illegal option '-x', use -h for help") := by decide +kernel
example : whyOf (launchWhy exTexts false {} [u8!"-r", u8!"-t"]) =
    some (u8!"only one mode (-r or -t) can be specified, use -h for help") := by decide +kernel
example : whyOf (launchWhy exTexts false {} [u8!"-f", u8!"-g"]) =
    some (u8!"only one quiz type can be specified, use -h for help") := by decide +kernel
example : whyOf (launchWhy exTexts false {} [u8!"-ra"]) = some (u8!"invalid format for '-r', use -h for help") := by decide +kernel
example : whyOf (launchWhy exTexts false {} [u8!"-t65536"]) = some (u8!"value for '-t' exceeds limit") := by decide +kernel
example : whyOf (launchWhy exTexts false {} [u8!"-t+"]) = some (u8!"stoul: no conversion") := by decide +kernel
example : whyOf (launchWhy exTexts false {} [u8!"-s", u8!"-g7"]) =
    some (u8!"invalid format for '-g', use -h for help") := by decide +kernel
example : (launchWhy exTexts false {} [u8!"-s", u8!"-t-5", u8!"-gs"]).toOption =
    some (.start ⟨⟨.quiz, .fromEnd⟩, some 0x67, some 0x73, 5, true⟩) := by decide +kernel
example : (understood exTexts [u8!"-s", u8!"--", u8!"-h"]).toOption = some (.kanji (u8!"-h")) := by decide +kernel

end KT
