import Verif.Model.QuizLauncher
/-!
# Model of the messages for the options of kanjiQuiz (libs/quiz/src/QuizLauncher.cpp)
-/
namespace KT

/-- What `what()` returns for the two exceptions of `std::stoul`, which depends on the library. -/
structure StoulTexts where
  noNumber : Str
  tooLarge : Str
  deriving DecidableEq, Repr

/-- The end of most messages (QuizLauncher.cpp:257, 264, 280, 302 and 311). -/
def useHelp : Str := u8!", use -h for help"

/-- `modeNumber` (QuizLauncher.cpp:278-286) with the messages. -/
def modeNumberWhy (e : StoulTexts) (m : UInt8) (s : Str) : Except Str Nat :=
  if !s.all isDigitChar then .error (u8!"invalid format for '-" ++ [m] ++ u8!"'" ++ useHelp)
  else match stoul s with
    | none => .error (if s.isEmpty then e.noNumber else e.tooLarge)
    | some i => if i ≤ 65535 then .ok i else .error (u8!"value for '-" ++ [m] ++ u8!"' exceeds limit")

/-- `processProgramModeArg` (QuizLauncher.cpp:261-289) with the messages. -/
def processProgramModeArgWhy (e : StoulTexts) (l : Launcher) (m : UInt8) (rest : Str) : Except Str (Launcher × Nat) :=
  if l.mode ≠ .notAssigned then .error (u8!"only one mode (-r or -t) can be specified" ++ useHelp)
  else
    let l := { l with mode := (if m = 0x72 then ProgramMode.review else ProgramMode.quiz) }
    match rest with
    | [] => .ok (l, 0)
    | c :: r =>
      if r = [] ∧ c = 0x30 then .ok ({ l with order := .random }, 0)
      else
        let order := if c = 0x2d then QuestionOrder.fromEnd else QuestionOrder.fromBeginning
        let s := if c = 0x2d ∨ c = 0x2b then r else c :: r
        match modeNumberWhy e m s with
        | .ok n => .ok ({ l with order := order }, n)
        | .error w => .error w

/-- `setQuizType` (QuizLauncher.cpp:298-313) with the messages. -/
def setQuizTypeWhy (quizType : Option UInt8) (t : UInt8) (rest : Str) : Except Str (UInt8 × Option UInt8) :=
  if quizType.isSome then .error (u8!"only one quiz type can be specified" ++ useHelp)
  else
    let bad : Str := u8!"invalid format for '-" ++ [t] ++ u8!"'" ++ useHelp
    match rest with
    | [] => .ok (t, none)
    | [c] => if listAllowed t c then .ok (t, some c) else .error bad
    | _ => .error bad

/-- `processArg` (QuizLauncher.cpp:245-259) followed by lines 97-98, with the messages. -/
def processArgWhy (e : StoulTexts) (a : LaunchArgs) (t : UInt8) (rest : Str) : Except Str LaunchArgs :=
  if t = 0x72 ∨ t = 0x74 then
    match processProgramModeArgWhy e a.launcher t rest with
    | .ok p => .ok { a with launcher := p.1, question := p.2 }
    | .error w => .error w
  else if t = 0x66 ∨ t = 0x67 ∨ t = 0x6b ∨ t = 0x6c ∨ t = 0x6d ∨ t = 0x70 then
    match setQuizTypeWhy a.quizType t rest with
    | .ok p => .ok { a with quizType := some p.1, qList := (match p.2 with | some c => some c | none => a.qList) }
    | .error w => .error w
  else .error (u8!"illegal option '-" ++ t :: rest ++ u8!"'" ++ useHelp)

/-- The loop of the constructor (QuizLauncher.cpp:83-98) with the messages. -/
def launchWhy (e : StoulTexts) : Bool → LaunchArgs → List Str → Except Str Launch
  | _, a, [] => .ok (.start a)
  | endOptions, a, arg :: r =>
    match arg with
    | 0x2d :: t :: rest =>
      if endOptions then .ok (.kanji arg)
      else if arg = u8!"-h" then .ok .help
      else if arg = u8!"--" then launchWhy e true a r
      else if arg = u8!"-s" then launchWhy e endOptions { a with showMeanings := true } r
      else match processArgWhy e a t rest with
        | .ok a => launchWhy e endOptions a r
        | .error w => .error w
    | _ => .ok (.kanji arg)

end KT
