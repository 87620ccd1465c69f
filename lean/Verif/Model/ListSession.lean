import Verif.Model.Choice
import Verif.Model.ListQuiz
import Verif.Model.QuizScreen
/-!
# Model of a list quiz from its input to its output (ListQuiz.cpp and Quiz.cpp in libs/quiz/src)

What is shown of a kanji is given as texts, see QuizDetails for how they are made.
-/
namespace KT

/-! ## Asking -/

/-- The loop of `get` (Choice.cpp:53-69) as in `Choice.loop`, with what it writes. -/
def Choice.ask (prompt : Str) (cs : Choices) (dflt : Option UInt8) :
    Nat → InStream → Str → Str × Option (UInt8 × InStream)
  | 0, _, _ => ([], none)
  | fuel + 1, s, line =>
    let (s, line) := s.getline line
    match Choice.answer cs dflt line with
    | some b => (prompt, some (b, s))
    | none =>
      let (text, r) := Choice.ask prompt cs dflt fuel s line
      (prompt ++ text, r)

/-- `QuitOption` of the launcher (QuizLauncher.h:18) with the default description (Choice.h:22). -/
def quizQuit : Quit := some (0x2f, u8!"quit")

/-- Quiz.cpp:8. -/
def meaningsText (shown : Bool) : Str := if shown then u8!"hide meanings" else u8!"show meanings"

/-- The text of `SkipOption` (Quiz.cpp:83-85); `_currentQuestion + 1U` doesn't overflow. -/
def skipText (quizMode : Bool) (current : UInt16) (total : Nat) : Str :=
  if current.toNat + 1 = total then u8!"finish" else if !quizMode then u8!"next" else u8!"skip"

/-- `getDefaultChoices` (Quiz.cpp:80-88). -/
def quizChoices (quizMode : Bool) (current : UInt16) (total : Nat) (shown : Bool) : Choices :=
  let c := (Choices.insert [] 0x2d (meaningsText shown)).insert 0x2e (skipText quizMode current total)
  if !quizMode && current != 0 then c.insert 0x2c (u8!"prev") else c

/-- The assignment in `toggleMeanings` (Quiz.cpp:92). -/
def Choices.setText (cs : Choices) (c : UInt8) (d : Str) : Choices :=
  cs.map fun p => if p.1 = c then (c, d) else p

/-! ## Questions -/

/-- What is used of a kanji: `info(_infoFields)`, what `printExtraTypeInfo` and `printReviewDetails` write. -/
structure ListItem where
  name : Str
  reading : Str
  info : Str := []
  extra : Str := []
  meaning : Option Str := none
  details : Str := []
  deriving DecidableEq, Repr

/-- `isQuizMode()`, `isKanjiToReading()` and `_choiceCount`. -/
structure ListStyle where
  quizMode : Bool
  toReading : Bool
  count : Nat
  deriving DecidableEq, Repr

/-- `getPrompt` (ListQuiz.cpp:65-69). -/
def ListStyle.prompt (y : ListStyle) : Str :=
  if y.quizMode then (if y.toReading then u8!"  Select correct reading" else u8!"  Select correct kanji")
  else u8!"  Select"

/-- `beginQuestionMessage` (Quiz.cpp:64-67). -/
def questionHead (quizMode : Bool) (current : UInt16) (total : Nat) : Str :=
  (if quizMode then u8!"\nQuestion " else u8!"\n") ++ toDec (current.toNat + 1) ++ u8!"/" ++ toDec total ++ u8!":  "

/-- `printQuestion` (ListQuiz.cpp:96-105). -/
def ListStyle.question (y : ListStyle) (shown : Bool) (i : ListItem) : Str :=
  (if y.toReading then
    i.name ++ (if i.info = [] then [] else u8!"  " ++ i.info) ++ (if y.quizMode then [] else i.extra)
   else u8!"Reading:  " ++ i.reading) ++
  printMeaning i.meaning (!y.quizMode) shown

/-- What is shown of an answer (ListQuiz.cpp:111-112). -/
def ListStyle.answerText (y : ListStyle) (i : ListItem) : Str := if y.toReading then i.reading else i.name

/-- One line of the loop of `printChoices` (ListQuiz.cpp:110-113), `i` counts from zero. -/
def ListStyle.answerLine (y : ListStyle) (i : Nat) (item : ListItem) : Str :=
  u8!"    " ++ toDec (i + 1) ++ u8!".  " ++ y.answerText item ++ u8!"\n"

/-- The loop of `printChoices` from position `i` on. -/
def ListStyle.answerLines (y : ListStyle) (items : List ListItem) : Nat → List Nat → Res Str
  | _, [] => .ok []
  | i, a :: r =>
    match items[a]? with
    | none => .ub
    | some item => (y.answerLines items (i + 1) r).bind fun t => .ok (y.answerLine i item ++ t)

/-- `printChoices` (ListQuiz.cpp:107-117). -/
def ListStyle.choiceText (y : ListStyle) (items : List ListItem) (answers : List Nat) (i : ListItem) : Res Str :=
  if y.quizMode then y.answerLines items 0 answers else .ok i.details

/-- The choices and the prompt of `getAnswer` (ListQuiz.cpp:121-123): `_choiceEnd` is `'0' + _choiceCount`. -/
def ListStyle.offer (y : ListStyle) (choices : Choices) : Res (Choices × Str) :=
  if y.quizMode then
    (Choice.rangeChoices 0x31 (0x30 + UInt8.ofNat y.count) choices).bind fun cs =>
      Choice.prepare quizQuit y.prompt true cs none
  else Choice.prepare quizQuit y.prompt true choices none

/-! ## Judging -/

/-- The variables of a quiz (Quiz.h:69-73) and `stopQuiz`. -/
structure ListState where
  current : UInt16
  correct : UInt16 := 0
  mistakes : List Str := []
  shown : Bool := false
  stop : Bool := false
  deriving DecidableEq, Repr

/-- `correctMessage` (Quiz.cpp:71-74) with the incremented count. -/
def correctMessage (correct current : UInt16) : Str :=
  u8!"  Correct! (" ++ toDec correct.toNat ++ u8!"/" ++ toDec (current.toNat + 1) ++ u8!")\n"

/-- `incorrectMessage` (Quiz.cpp:76-79) with ListQuiz.cpp:134. -/
def incorrectText (c : UInt8) : Str := u8!"  Incorrect (correct answer is " ++ [c] ++ u8!")\n"

/-- `getAnswer` (ListQuiz.cpp:124-136) after the question was answered: what is written, the new state and the value
returned. -/
def ListState.judge (st : ListState) (correct : Nat) (name : Str) (answer : UInt8) : Str × ListState × Bool :=
  if answer = 0x2d then ([], { st with shown := !st.shown }, false)
  else if answer = quitOption then ([], { st with stop := true }, true)
  else if answer = 0x2c then ([], { st with current := st.current - 2 }, true)
  else if 0x31 + UInt8.ofNat correct = answer then
    (correctMessage (st.correct + 1) st.current, { st with correct := st.correct + 1 }, true)
  else if answer ≠ 0x2e then
    (incorrectText (0x31 + UInt8.ofNat correct), { st with mistakes := st.mistakes ++ [name] }, true)
  else ([], st, true)

/-- The `do` loop for a question (ListQuiz.cpp:55-59), at most `fuel` rounds each with at most `n` lines of input:
what is written and, unless it is waiting for input, the state and the input that is left. -/
def listRounds (y : ListStyle) (items : List ListItem) (item : ListItem) (correct : Nat) (answers : List Nat) (n : Nat) :
    Nat → Choices → ListState → InStream → Res (Str × Option (ListState × InStream))
  | 0, _, _, _ => .ok ([], none)
  | fuel + 1, choices, st, s =>
    (y.choiceText items answers item).bind fun lines =>
      (y.offer choices).bind fun o =>
        let screen := questionHead y.quizMode st.current items.length ++ y.question st.shown item ++ lines
        match Choice.ask o.2 o.1 none n s [] with
        | (text, none) => .ok (screen ++ text, none)
        | (text, some (a, s)) =>
          match st.judge correct item.name a with
          | (out, st, true) => .ok (screen ++ text ++ out, some (st, s))
          | (out, st, false) =>
            (listRounds y items item correct answers n fuel (choices.setText 0x2d (meaningsText st.shown)) st s).bind fun r =>
              .ok (screen ++ text ++ out ++ r.1, r.2)

/-- `start` (ListQuiz.cpp:48-63) with the numbers drawn for each question: the position of the correct answer and the
numbers drawn by `randomReading`.  The result has no state if numbers or input are used up. -/
def listSession (y : ListStyle) (items : List ListItem) (n : Nat) :
    List (Nat × List Nat) → ListState → InStream → Res (Str × Option (ListState × InStream))
  | draws, st, s =>
    if st.stop then .ok ([], some ({ st with current := st.current - 1 }, s))
    else match items[st.current.toNat]? with
      | none => .ok ([], some (st, s))
      | some item =>
        match draws with
        | [] => .ok ([], none)
        | (correct, ds) :: draws =>
          (populateAnswers (items.map (·.reading)) st.current.toNat y.count correct ds).bind fun o =>
            match o with
            | none => .ok ([], none)
            | some answers =>
              (listRounds y items item correct answers n n (quizChoices y.quizMode st.current items.length st.shown) st s).bind
                fun r =>
                  match r.2 with
                  | none => .ok (r.1, none)
                  | some (st, s) =>
                    (listSession y items n draws { st with current := st.current + 1 } s).bind fun q => .ok (r.1 ++ q.1, q.2)

/-! ## The whole quiz -/

/-- `beginQuizMessage` (Quiz.cpp:49-62) and ListQuiz.cpp:43; `log(true)` starts with two lines (KanjiData.cpp:142-144). -/
def beginText (quizMode : Bool) (total : Nat) : Str :=
  u8!">>>\n>>> Starting " ++ (if quizMode then u8!"quiz" else u8!"review") ++ u8!" for " ++ toDec total ++ u8!" kanji\n>>>\n"

/-- The destructor (Quiz.cpp:22-37). -/
def ListState.finish (quizMode : Bool) (st : ListState) : Str :=
  if quizMode then finalMessage st.correct.toNat st.current.toNat st.mistakes else []

/-- The constructor of `ListQuiz` for a list in the order of its questions (ListQuiz.cpp:22-46) and the destructor: what
is written, and the exception that is thrown or the input that is left, `none` if it is still waiting.  When the
constructor throws, `Quiz` was already constructed, so its destructor runs. -/
def listQuiz (y : ListStyle) (legend : Str) (items : List ListItem) (question : UInt16) (shown : Bool) (n : Nat)
    (draws : List (Nat × List Nat)) (s : InStream) : Res (Str × Option (Except Exc InStream)) :=
  if items.any fun i => i.reading = [] then
    .ok (ListState.finish y.quizMode { current := question, shown := shown }, some (.error .domain))
  else match beginQuiz question items.length with
    | .ub => .ub
    | .throw e => .ok (ListState.finish y.quizMode { current := question, shown := shown }, some (.error e))
    | .ok b =>
      (listSession y items n draws { current := b.current, shown := shown } s).bind fun r =>
        let text := beginText y.quizMode items.length ++ (if y.toReading then legend else []) ++ r.1
        match r.2 with
        | none => .ok (text, none)
        | some (st, s) => .ok (text ++ st.finish y.quizMode, some (.ok s))

end KT
