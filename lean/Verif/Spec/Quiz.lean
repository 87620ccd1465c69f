import Verif.Model.GroupQuiz
import Verif.Model.QuizLauncher
import Verif.Spec.Digits
/-!
# What is expected of quizzes and their options
-/
namespace Spec
open KT

/-- While entry `e` is edited its old letter is offered again. -/
def beingEdited (p : GroupPrompt) (st : GroupState) (c : UInt8) : Prop :=
  ∃ e, p = .newReading e ∧ st.answers[e]? = some c

/-- The answers are distinct letters and exactly the other letters are offered. -/
def consistent (letters : List UInt8) (p : GroupPrompt) (st : GroupState) : Prop :=
  st.answers.Nodup ∧ (∀ a ∈ st.answers, a ∈ letters) ∧
    ∀ c ∈ letters, c ∈ st.choices ↔ (c ∉ st.answers ∨ beingEdited p st c)

/-- A number from 0 to 65535. -/
def startNumber (s : Str) : Option Nat := (readNumber 10 s).filter (· ≤ 65535)

/-- What the text after `-r` or `-t` denotes: nothing, `0` for a random order, a number (after an
optional `+`) for a start from the beginning or `-` and a number for a start from the end. -/
def modeOption : Str → Option (QuestionOrder × Nat)
  | [] => some (.notAssigned, 0)
  | [0x30] => some (.random, 0)
  | 0x2d :: ds => (startNumber ds).map fun n => (.fromEnd, n)
  | 0x2b :: ds => (startNumber ds).map fun n => (.fromBeginning, n)
  | ds => (startNumber ds).map fun n => (.fromBeginning, n)

/-- The lists of the prompts as documented in the help text and in the names of the choices. -/
def documentedGrades : List (UInt8 × KanjiGrade) :=
  [(0x31, .g1), (0x32, .g2), (0x33, .g3), (0x34, .g4), (0x35, .g5), (0x36, .g6), (0x73, .s)]
def documentedLevels : List (UInt8 × JlptLevel) :=
  [(0x31, .n1), (0x32, .n2), (0x33, .n3), (0x34, .n4), (0x35, .n5)]
def documentedKyus : List (UInt8 × KenteiKyu) :=
  [(0x31, .k1), (0x32, .k2), (0x33, .k3), (0x34, .k4), (0x35, .k5), (0x36, .k6), (0x37, .k7), (0x38, .k8),
   (0x39, .k9), (0x61, .k10), (0x62, .kj1), (0x63, .kj2)]
def documentedMembers : List (UInt8 × MemberType) :=
  [(0x31, .jouyou), (0x32, .jlpt), (0x33, .frequency), (0x34, .all)]

end Spec
