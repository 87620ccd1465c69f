import Verif.Spec.Quiz
import Verif.Model.LaunchSession
/-!
# What kanjiQuiz asks before a quiz
-/
namespace Spec
open KT

/-- The questions. -/
inductive LaunchQ where
  | mode | order | type | list | count | style
  deriving DecidableEq, Repr

/-- The text of each question, for the quiz type `t`. -/
def launchPrompt (t : UInt8) : LaunchQ → Str
  | .mode => u8!"Mode (/=quit, r=review, t=test) def 't': "
  | .order => u8!"List order (/=quit, b=from beginning, e=from end, r=random) def 'r': "
  | .type => u8!"Type (/=quit, f=freq, g=grade, k=kyu, l=JLPT, m=meaning, p=pattern) def 'g': "
  | .list =>
    if t = 0x66 then u8!"Choose frequency list (/=quit, 0=top 250 Kanji, 1-9): "
    else if t = 0x67 then u8!"Choose grade (/=quit, 1-6, s=Secondary School) def '6': "
    else if t = 0x6b then u8!"Choose kyu (/=quit, 1-9, a=10, b=準１級, c=準２級) def '2': "
    else if t = 0x6c then u8!"Choose level (/=quit, 1=N1, 2=N2, 3=N3, 4=N4, 5=N5): "
    else u8!"Kanji type (/=quit, 1=Jōyō, 2=1+JLPT, 3=2+Freq., 4=all) def '2': "
  | .count => u8!"Number of choices (/=quit, 2-9) def '4': "
  | .style => u8!"Quiz style (/=quit, k=kanji to reading, r=reading to kanji) def 'k': "

/-- The answers that are accepted. -/
def launchKeys (t : UInt8) : LaunchQ → Str
  | .mode => u8!"/rt"
  | .order => u8!"/ber"
  | .type => u8!"/fgklmp"
  | .list =>
    if t = 0x66 then u8!"/0123456789"
    else if t = 0x67 then u8!"/123456s"
    else if t = 0x6b then u8!"/123456789abc"
    else if t = 0x6c then u8!"/12345"
    else u8!"/1234"
  | .count => u8!"/23456789"
  | .style => u8!"/kr"

/-- The answer given by an empty line. -/
def launchDefault (t : UInt8) : LaunchQ → Option UInt8
  | .mode => some 0x74
  | .order => some 0x72
  | .type => some 0x67
  | .list => if t = 0x67 then some 0x36 else if t = 0x6b then some 0x32 else if t = 0x66 ∨ t = 0x6c then none else some 0x32
  | .count => some 0x34
  | .style => some 0x6b

/-- What is typed in at a question: lines that aren't accepted and then the line with the answer. -/
structure Reply where
  bad : List Str
  line : Str
  key : UInt8

def Reply.input (r : Reply) : Str := (r.bad.map (· ++ [0x0a])).flatten ++ r.line ++ [0x0a]

/-- The answer `key` is given by a line with just it, or the default by an empty line. -/
def gives (keys : Str) (dflt : Option UInt8) (line : Str) (key : UInt8) : Prop :=
  (line = [key] ∧ key ∈ keys) ∨ (line = [] ∧ dflt = some key)

def Reply.fits (r : Reply) (keys : Str) (dflt : Option UInt8) : Prop :=
  gives keys dflt r.line r.key ∧ ∀ l ∈ r.bad, 0x0a ∉ l ∧ ∀ k, ¬ gives keys dflt l k

/-- The questions up to the first where the answer is to quit. -/
def upToQuit (key : LaunchQ → UInt8) : List LaunchQ → List LaunchQ
  | [] => []
  | q :: r => if key q = 0x2f then [q] else q :: upToQuit key r

/-- The questions that are needed: mode, order, type and list if they aren't given by options, and two more for tests
with lists. -/
def neededFrom (quiz : Bool) (t : UInt8) : List LaunchQ :=
  if quiz = true ∧ t ∈ u8!"fgkl" then [.count, .style] else []
def neededList (qList : Option UInt8) (quiz : Bool) (t : UInt8) : List LaunchQ :=
  (if qList = none then [.list] else []) ++ neededFrom quiz t
def neededType (quizType qList : Option UInt8) (quiz : Bool) (t : UInt8) : List LaunchQ :=
  (if quizType = none then [.type] else []) ++ neededList qList quiz t
def needed (l : Launcher) (quizType qList : Option UInt8) (quiz : Bool) (t : UInt8) : List LaunchQ :=
  (if l.mode = .notAssigned then [.mode] else []) ++ (if l.order = .notAssigned then [.order] else []) ++
    neededType quizType qList quiz t

/-- The settings that the answers denote. -/
def chosenMode (l : Launcher) (key : LaunchQ → UInt8) : ProgramMode :=
  if l.mode = .notAssigned then (if key .mode = 0x72 then .review else .quiz) else l.mode
def chosenOrder (l : Launcher) (key : LaunchQ → UInt8) : QuestionOrder :=
  if l.order = .notAssigned then
    (if key .order = 0x62 then .fromBeginning else if key .order = 0x65 then .fromEnd else .random)
  else l.order
def listOf (t c : UInt8) : QuestionList :=
  if t = 0x66 then .frequency (some (c.toNat - 48))
  else if t = 0x67 then .grade (documentedGrades.lookup c)
  else if t = 0x6b then .kyu (documentedKyus.lookup c)
  else .level (documentedLevels.lookup c)

/-- The quiz for a type and list letter. -/
def chosenQuiz (mode : ProgramMode) (order : QuestionOrder) (key : LaunchQ → UInt8) (t c : UInt8) : Chosen :=
  if t ∈ u8!"fgkl" then
    if mode = .quiz then .list mode order (listOf t c) ((key .count).toNat - 48) (key .style == 0x6b)
    else .list mode order (listOf t c) 1 true
  else .group mode order (t == 0x70) (documentedMembers.lookup c)

/-- The input for some questions. -/
def talk (reply : LaunchQ → Reply) (qs : List LaunchQ) : Str := (qs.map fun q => (reply q).input).flatten

/-- What is written: the prompt of each question, once for each line typed in. -/
def shownText (reply : LaunchQ → Reply) (t : UInt8) (qs : List LaunchQ) : Str :=
  (qs.map fun q => (List.replicate ((reply q).bad.length + 1) (launchPrompt t q)).flatten).flatten

/-- How it ends.  After quitting at the first two questions the settings are kept, otherwise they are reset. -/
def launchEnd (l : Launcher) (key : LaunchQ → UInt8) (quizType qList : Option UInt8) (t c : UInt8) : Launcher × Chosen :=
  let mode := chosenMode l key
  let quits q := key q = 0x2f
  if l.mode = .notAssigned ∧ quits .mode then (l, .quit)
  else if l.order = .notAssigned ∧ quits .order then ({ l with mode := mode }, .quit)
  else if (quizType = none ∧ quits .type) ∨ (qList = none ∧ quits .list) ∨
      (mode = .quiz ∧ t ∈ u8!"fgkl" ∧ (quits .count ∨ quits .style)) then ({}, .quit)
  else ({}, chosenQuiz mode (chosenOrder l key) key t c)

end Spec
