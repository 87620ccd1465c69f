import Verif.Model.ListSession
import Verif.Model.QuizLauncher
/-!
# Model of the prompts of QuizLauncher.cpp (libs/quiz/src) from input to output
-/
namespace KT

/-- The arguments of a call of `Choice::get` (QuizLauncher.cpp:51-76): message, range, choices and default. -/
structure Ask where
  msg : Str
  range : Option (UInt8 × UInt8)
  choices : Choices
  dflt : Option UInt8
  deriving DecidableEq, Repr

/-- QuizLauncher.cpp:105 with 51 and 71. -/
def modeAsk : Ask := ⟨u8!"Mode", none, [(0x72, u8!"review"), (0x74, u8!"test")], some 0x74⟩

/-- QuizLauncher.cpp:386 with 52-53 and 71. -/
def orderAsk : Ask :=
  ⟨u8!"List order", none, [(0x62, u8!"from beginning"), (0x65, u8!"from end"), (0x72, u8!"random")], some 0x72⟩

/-- QuizLauncher.cpp:446 with 54-55. -/
def typeAsk : Ask :=
  ⟨u8!"Type", none, [(0x66, u8!"freq"), (0x67, u8!"grade"), (0x6b, u8!"kyu"), (0x6c, u8!"JLPT"), (0x6d, u8!"meaning"),
    (0x70, u8!"pattern")], some 0x67⟩

/-- The prompt for the list of each quiz type (QuizLauncher.cpp:449-466 and 236-239 with 56-66). -/
def listAsk (quizType : UInt8) : Ask :=
  if quizType = 0x66 then ⟨u8!"Choose frequency list", some (0x31, 0x39), [(0x30, u8!"top 250 Kanji")], none⟩
  else if quizType = 0x67 then ⟨u8!"Choose grade", some (0x31, 0x36), [(0x73, u8!"Secondary School")], some 0x36⟩
  else if quizType = 0x6b then
    ⟨u8!"Choose kyu", some (0x31, 0x39), [(0x61, u8!"10"), (0x62, u8!"準１級"), (0x63, u8!"準２級")], some 0x32⟩
  else if quizType = 0x6c then
    ⟨u8!"Choose level", none, [(0x31, u8!"N1"), (0x32, u8!"N2"), (0x33, u8!"N3"), (0x34, u8!"N4"), (0x35, u8!"N5")], none⟩
  else ⟨u8!"Kanji type", none, [(0x31, u8!"Jōyō"), (0x32, u8!"1+JLPT"), (0x33, u8!"2+Freq."), (0x34, u8!"all")], some 0x32⟩

/-- QuizLauncher.cpp:224 with 68 and 72. -/
def countAsk : Ask := ⟨u8!"Number of choices", some (0x32, 0x39), [], some 0x34⟩

/-- QuizLauncher.cpp:227 with 62 and 72. -/
def styleAsk : Ask := ⟨u8!"Quiz style", none, [(0x6b, u8!"kanji to reading"), (0x72, u8!"reading to kanji")], some 0x6b⟩

/-- The range is added to the choices (Choice.cpp:85-101). -/
def Ask.offered (a : Ask) : Res Choices :=
  match a.range with
  | none => .ok a.choices
  | some (first, last) => Choice.rangeChoices first last a.choices

/-- The two overloads of `get` (Choice.cpp:32-52 and 85-101). -/
def Ask.prepare (a : Ask) : Res (Choices × Str) :=
  a.offered.bind fun cs => Choice.prepare quizQuit a.msg true cs a.dflt

/-- Asking with at most `n` lines of input: what is written and the answer, `none` if it is still waiting. -/
def Ask.run (a : Ask) (n : Nat) (s : InStream) : Res (Str × Option (UInt8 × InStream)) :=
  a.prepare.bind fun o => .ok (Choice.ask o.2 o.1 a.dflt n s [])

/-- The list of a list quiz; `none` is an empty list (see `enumOf`). -/
inductive QuestionList where
  | frequency (bucket : Option Nat)
  | grade (g : Option KanjiGrade)
  | kyu (k : Option KenteiKyu)
  | level (j : Option JlptLevel)
  deriving DecidableEq, Repr

/-- What `start` does after the prompts. -/
inductive Chosen where
  | quit
  | list (mode : ProgramMode) (order : QuestionOrder) (list : QuestionList) (count : Nat) (toReading : Bool)
  | group (mode : ProgramMode) (order : QuestionOrder) (patterns : Bool) (members : Option MemberType)
  deriving DecidableEq, Repr

/-- The result of a run: what was written and, unless it is waiting, the launcher afterwards, what was chosen and the
input that is left. -/
abbrev LaunchRun := Res (Str × Option (Launcher × Chosen × InStream))

/-- Returning from `start` without further output. -/
def launchDone (l : Launcher) (c : Chosen) (s : InStream) : LaunchRun := .ok ([], some (l, c, s))

/-- Ask and go on with the answer. -/
def Ask.andThen (a : Ask) (n : Nat) (s : InStream) (f : UInt8 → InStream → LaunchRun) : LaunchRun :=
  (a.run n s).bind fun r =>
    match r.2 with
    | none => .ok (r.1, none)
    | some (c, s) => (f c s).bind fun q => .ok (r.1 ++ q.1, q.2)

/-- Ask unless an option gave the answer (`qList ? *qList : _choice.get(…)`). -/
def Ask.unless (a : Ask) (given : Option UInt8) (n : Nat) (s : InStream) (f : UInt8 → InStream → LaunchRun) : LaunchRun :=
  match given with
  | some c => f c s
  | none => a.andThen n s f

/-- The list for an answer (QuizLauncher.cpp:121-140). -/
def selectList (quizType c : UInt8) : Res QuestionList :=
  if quizType = 0x66 then .ok (.frequency (selectFrequency c))
  else if quizType = 0x67 then (selectGrade c).bind fun g => .ok (.grade g)
  else if quizType = 0x6b then (selectKyu c).bind fun k => .ok (.kyu k)
  else (selectLevel c).bind fun j => .ok (.level j)

/-- `startListQuiz` (QuizLauncher.cpp:218-232). -/
def askStyle (n : Nat) (l : Launcher) (list : QuestionList) (s : InStream) : LaunchRun :=
  if l.mode = .quiz then
    countAsk.andThen n s fun c s =>
      if c = quitOption then launchDone {} .quit s
      else styleAsk.andThen n s fun k s =>
        if k = quitOption then launchDone {} .quit s
        else launchDone {} (.list l.mode l.order list (c - 0x30).toNat (k == 0x6b)) s
  else launchDone {} (.list l.mode l.order list 1 true) s

/-- The `switch` of `start` (QuizLauncher.cpp:119-143) with `startGroupQuiz` (234-243). -/
def askList (n : Nat) (l : Launcher) (qList : Option UInt8) (t : UInt8) (s : InStream) : LaunchRun :=
  if t = 0x66 ∨ t = 0x67 ∨ t = 0x6b ∨ t = 0x6c then
    (listAsk t).unless qList n s fun c s =>
      if c = quitOption then launchDone {} .quit s
      else (selectList t c).bind fun list => askStyle n l list s
  else if t = 0x6d ∨ t = 0x70 then
    (listAsk t).unless qList n s fun c s =>
      if c = quitOption then launchDone {} .quit s
      else launchDone {} (.group l.mode l.order (t == 0x70) (selectMemberType c)) s
  else launchDone {} .quit s

/-- `getQuestionOrder` (QuizLauncher.cpp:384-393) and the rest of `start`. -/
def askOrder (n : Nat) (l : Launcher) (quizType qList : Option UInt8) (s : InStream) : LaunchRun :=
  if l.order = .notAssigned then
    orderAsk.andThen n s fun c s =>
      if c = 0x62 then typeAsk.unless quizType n s (askList n { l with order := .fromBeginning } qList)
      else if c = 0x65 then typeAsk.unless quizType n s (askList n { l with order := .fromEnd } qList)
      else if c = 0x72 then typeAsk.unless quizType n s (askList n { l with order := .random } qList)
      else launchDone l .quit s
  else typeAsk.unless quizType n s (askList n l qList)

/-- `start` (QuizLauncher.cpp:102-148) up to the quiz; each prompt reads at most `n` lines. -/
def Launcher.ask (n : Nat) (l : Launcher) (quizType qList : Option UInt8) (s : InStream) : LaunchRun :=
  if l.mode = .notAssigned then
    modeAsk.andThen n s fun c s =>
      if c = quitOption then launchDone l .quit s
      else askOrder n { l with mode := (if c = 0x72 then ProgramMode.review else ProgramMode.quiz) } quizType qList s
  else askOrder n l quizType qList s

end KT
