import Verif.Model.Basic
import Verif.Model.GroupQuiz
/-!
# Model of Quiz.cpp and ListQuiz.cpp (libs/quiz/src)
-/
namespace KT

/-! ## Choosing the answers -/

/-- The largest number drawn by `randomReading` (ListQuiz.cpp:77-78): the size as `uint16_t`, minus one
(an `int`), as `uint16_t`. -/
def drawMax (size : Nat) : Nat := (size % 65536 + 65535) % 65536

/-- The loop `while (i != correct)` (ListQuiz.cpp:87-92) for one answer with the numbers drawn: the
choice, the set `sameReading` and the remaining numbers; `none` if the numbers are used up, that is,
the loop is still running. -/
def drawChoice (readings : List Str) (seen : List Str) : List Nat → Res (Option (Nat × List Str × List Nat))
  | [] => .ok none
  | choice :: draws =>
    match readings[choice]? with
    | none => .ub
    | some r => if seen.contains r then drawChoice readings seen draws
      else .ok (some (choice, r :: seen, draws))

/-- The loop over `i` (ListQuiz.cpp:86-92), `n` answers to go: the values of `_answers` from `i` on. -/
def populateLoop (readings : List Str) (current correct : Nat) :
    Nat → Nat → List Str → List Nat → Res (Option (List Nat))
  | 0, _, _, _ => .ok (some [])
  | n + 1, i, seen, draws =>
    if i = correct then
      (populateLoop readings current correct n (i + 1) seen draws).bind fun l =>
        .ok (l.map (current :: ·))
    else
      (drawChoice readings seen draws).bind fun c =>
        match c with
        | none => .ok none
        | some (choice, seen, draws) =>
          (populateLoop readings current correct n (i + 1) seen draws).bind fun l =>
            .ok (l.map (choice :: ·))

/-- `populateAnswers` (ListQuiz.cpp:75-94): the readings of the list of questions, the current
question, the number of choices, the position drawn for the correct answer (0 if answers aren't
randomized) and the numbers drawn by `randomReading`.  `none` means that more numbers are drawn. -/
def populateAnswers (readings : List Str) (current count correct : Nat) (draws : List Nat) :
    Res (Option (List Nat)) :=
  match readings[current]? with
  | none => .ub
  | some r => populateLoop readings current correct count 0 [r] draws

/-! ## The quiz loop -/

/-- What can happen for a question (toggling meanings or, in a group quiz, editing and refreshing repeats the
question without changing these variables). -/
inductive QuizAction where
  | quit | prev | skip | right | wrong
  deriving DecidableEq, Repr

/-- `_currentQuestion` and `_correctAnswers` are `uint16_t` (Quiz.h:71-73), `mistakes` is
`_mistakes.size()`. -/
structure QuizScore where
  current : UInt16
  correct : UInt16 := 0
  mistakes : Nat := 0
  stop : Bool := false
  deriving DecidableEq, Repr

/-- Which actions are offered (Quiz.cpp:81-89, ListQuiz.cpp:120-123, GroupQuiz.cpp:179): answers only in
quiz mode, `prev` only in review mode and not for the first question. -/
def QuizAction.offered (quizMode : Bool) (st : QuizScore) : QuizAction → Bool
  | .quit => true
  | .skip => true
  | .prev => !quizMode && st.current != 0
  | .right => quizMode
  | .wrong => quizMode

/-- The body of the loop (ListQuiz.cpp:124-135 or GroupQuiz.cpp:139-143, 205-213, 271-274) followed by
`++currentQuestion()`. -/
def QuizScore.step (st : QuizScore) : QuizAction → QuizScore
  | .quit => { st with stop := true, current := st.current + 1 }
  | .prev => { st with current := st.current - 2 + 1 }
  | .skip => { st with current := st.current + 1 }
  | .right => { st with correct := st.correct + 1, current := st.current + 1 }
  | .wrong => { st with mistakes := st.mistakes + 1, current := st.current + 1 }

/-- A quiz that got some actions: not possible, waiting at a question, or finished. -/
inductive QuizRun where
  | invalid
  | waiting (st : QuizScore)
  | finished (st : QuizScore)
  deriving DecidableEq, Repr

/-- `start` (ListQuiz.cpp:48-63, GroupQuiz.cpp:109-146). -/
def quizLoop (quizMode : Bool) (size : Nat) (st : QuizScore) : List QuizAction → QuizRun
  | [] =>
    if !st.stop && decide (st.current.toNat < size) then .waiting st
    else .finished (if st.stop then { st with current := st.current - 1 } else st)
  | a :: r =>
    if !st.stop && decide (st.current.toNat < size) then
      if a.offered quizMode st then quizLoop quizMode size (st.step a) r else .invalid
    else .finished (if st.stop then { st with current := st.current - 1 } else st)

/-- `beginQuizMessage` (Quiz.cpp:49-62): where to start. -/
def beginQuiz (question : UInt16) (size : Nat) : Res QuizScore :=
  if question = 0 then .ok { current := 0 }
  else if question.toNat > size then .throw .usage
  else .ok { current := question - 1 }

/-- The final score (Quiz.cpp:22-36): right answers, questions and skipped ones, a `size_t`. -/
def finalScore (st : QuizScore) : Nat × Nat × Nat :=
  (st.correct.toNat, st.current.toNat,
    (((st.current.toNat : Int) - st.correct.toNat - st.mistakes) % 2 ^ 64).toNat)

end KT
