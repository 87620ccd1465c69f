import Verif.Spec.GroupSession
import Verif.Props.Choice
/-!
# Specification of the dialog for a question of a group quiz

What is offered is computed from the answers so far and from whether meanings are shown, and nothing can fail.
-/
namespace Spec
open KT

/-- What is written and, unless it waits for input, the result and the input that is left. -/
abbrev Talk (α : Type) := Str × Option (α × InStream)

/-- Go on with the result. -/
def Talk.next {α β : Type} (r : Talk α) (f : α → InStream → Talk β) : Talk β :=
  match r.2 with
  | none => (r.1, none)
  | some (a, s) => (r.1 ++ (f a s).1, (f a s).2)

/-- Write a text first. -/
def Talk.begin {α : Type} (text : Str) (r : Talk α) : Talk α := (text ++ r.1, r.2)

/-- Prompt until one of the choices is entered, with at most `n` lines of input. -/
def readKey (n : Nat) (msg : Str) (cs : List (UInt8 × Str)) (dflt : Option UInt8) (s : InStream) : Talk UInt8 :=
  Choice.ask (promptText msg cs dflt) cs dflt n s []

/-- Choices without a description. -/
def plain (l : List UInt8) : List (UInt8 × Str) := l.map fun c => (c, [])

/-- The number of the question whose answer is to be changed, counted from 0. -/
def talkEntry (count n : Nat) (answers : List UInt8) (s : InStream) : Talk Nat :=
  if answers.length = 1 then ([], some (0, s))
  else (readKey n (u8!"    Answer to edit: ") (plain ((sortedLetters count).filter answers.contains)) none s).next
    fun c s => ([], some (answers.idxOf c, s))

/-- Change an answer: the letters that weren't chosen and the old one, which is the default, are offered. -/
def talkEdit (count n : Nat) (answers : List UInt8) (s : InStream) : Talk (List UInt8) :=
  (talkEntry count n answers s).next fun e s =>
    (readKey n (u8!"    New reading for Entry: " ++ toDec (e + 1))
      (plain ((sortedLetters count).filter fun c => answers[e]? == some c || !answers.contains c)) answers[e]? s).next
        fun c s => ([], some (answers.set e c, s))

/-- How a question is left, the answers and whether meanings are shown. -/
abbrev Left (α : Type) := α × List UInt8 × Bool

/-- Ask for the next answer. -/
def talkAnswer (quizMode first last : Bool) (count n : Nat) : Nat → List UInt8 → Bool → InStream → Talk (Left AnswerOutcome)
  | 0, _, _, _ => ([], none)
  | fuel + 1, answers, shown, s =>
    Talk.begin (if answers = [] then [] else u8!"    " ++
        (u8!" ").intercalate (answers.zipIdx.map fun p => toDec (p.2 + 1) ++ u8!"->" ++ [p.1]) ++ u8!"\n")
      ((readKey n (if quizMode then u8!"  Reading for: " ++ toDec (answers.length + 1) else u8!"  Select")
          (groupOffered quizMode first last shown count answers) none s).next fun c s =>
        if c = 0x27 then ([], some ((.refresh, answers, shown), s))
        else if c = 0x2a then
          (talkEdit count n answers s).next fun answers s => talkAnswer quizMode first last count n fuel answers shown s
        else if c = 0x2c then ([], some ((.prev, answers, shown), s))
        else if c = 0x2d then ([], some ((.refresh, answers, !shown), s))
        else if c = 0x2e then ([], some ((.skip, answers, shown), s))
        else if c = 0x2f then ([], some ((.quit, answers, shown), s))
        else ([], some ((.answered, answers ++ [c], shown), s)))

/-- Ask for answers until there are `k` more. -/
def talkAnswers (quizMode first last : Bool) (count n : Nat) :
    Nat → List UInt8 → Bool → InStream → Talk (Left AnswersOutcome)
  | 0, answers, shown, s => ([], some ((.complete, answers, shown), s))
  | k + 1, answers, shown, s =>
    (talkAnswer quizMode first last count n n answers shown s).next fun x s =>
      match x.1 with
      | .answered => talkAnswers quizMode first last count n k x.2.1 x.2.2 s
      | .refresh => ([], some ((.refresh, x.2), s))
      | .skip => ([], some ((.skip, x.2), s))
      | .prev => ([], some ((.prev, x.2), s))
      | .quit => ([], some ((.stop, x.2), s))

/-- A question: the group is shown again with the current answers when asked to. -/
def talkQuestion (quizMode first last : Bool) (count n : Nat) (screen : List UInt8 → Bool → Str) :
    Nat → List UInt8 → Bool → InStream → Talk (Left AnswersOutcome)
  | 0, _, _, _ => ([], none)
  | fuel + 1, answers, shown, s =>
    Talk.begin (screen answers shown)
      ((talkAnswers quizMode first last count n (count - answers.length) answers shown s).next fun x s =>
        if x.1 = .refresh then talkQuestion quizMode first last count n screen fuel x.2.1 x.2.2 s
        else ([], some (x, s)))

end Spec
