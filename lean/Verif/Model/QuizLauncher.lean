import Verif.Model.ColumnFile
import Verif.Model.Enum
import Verif.Model.GroupQuiz
import Verif.Model.Kanji
import Verif.Model.MorohashiId
import Verif.Model.UnicodeBlock
/-!
# Model of QuizLauncher.cpp (libs/quiz/src)

`KanjiData::usage` throws a `DomainError`; it is `.throw .usage` here.
-/
namespace KT

/-- QuizLauncher.h:47-59. -/
inductive ProgramMode where
  | review | quiz | notAssigned
  deriving DecidableEq, Repr
inductive QuestionOrder where
  | fromBeginning | fromEnd | random | notAssigned
  deriving DecidableEq, Repr

/-- `_programMode` and `_questionOrder` (QuizLauncher.h:145-146). -/
structure Launcher where
  mode : ProgramMode := .notAssigned
  order : QuestionOrder := .notAssigned
  deriving DecidableEq, Repr

/-! ## Options -/

/-- The number in a mode option (QuizLauncher.cpp:278-285).  `isdigit` is that of the "C" locale for all
`char` values (the standard leaves negative ones undefined).  Exceptions of `std::stoul` aren't caught:
`.throw .std`. -/
def modeNumber (s : Str) : Res Nat :=
  if !s.all isDigitChar then .throw .usage
  else match stoul s with
    | none => .throw .std
    | some i => if i ≤ 65535 then .ok i else .throw .usage

/-- `processProgramModeArg` (QuizLauncher.cpp:261-289) for the argument `-` `m` `rest`. -/
def processProgramModeArg (l : Launcher) (m : UInt8) (rest : Str) : Res (Launcher × Nat) :=
  if l.mode ≠ .notAssigned then .throw .usage
  else
    let l := { l with mode := (if m = 0x72 then ProgramMode.review else ProgramMode.quiz) }
    match rest with
    | [] => .ok (l, 0)
    | c :: r =>
      if r = [] ∧ c = 0x30 then .ok ({ l with order := .random }, 0)
      else
        let order := if c = 0x2d then QuestionOrder.fromEnd else QuestionOrder.fromBeginning
        let s := if c = 0x2d ∨ c = 0x2b then r else c :: r
        (modeNumber s).bind fun n => .ok ({ l with order := order }, n)

/-- The letters of the prompt for the list of a quiz type (QuizLauncher.cpp:55-67 and 445-466, 239): the
choices and, if there is one, the range. -/
def offeredLists (quizType : UInt8) : List UInt8 :=
  if quizType = 0x66 then u8!"0123456789"
  else if quizType = 0x67 then u8!"123456s"
  else if quizType = 0x6b then u8!"123456789abc"
  else if quizType = 0x6c then u8!"12345"
  else if quizType = 0x6d ∨ quizType = 0x70 then u8!"1234"
  else []

/-- `choices.contains(c) || r && r->first <= c && r->second >= c` (QuizLauncher.cpp:307) with the choices
and range given for each option at lines 250-255. -/
def listAllowed (quizType c : UInt8) : Bool :=
  if quizType = 0x66 then c == 0x30 || (0x31 ≤ c && c ≤ 0x39)
  else if quizType = 0x67 then c == 0x73 || (0x31 ≤ c && c ≤ 0x36)
  else if quizType = 0x6b then c == 0x61 || c == 0x62 || c == 0x63 || (0x31 ≤ c && c ≤ 0x39)
  else if quizType = 0x6c then (u8!"12345").contains c
  else (u8!"1234").contains c

/-- `setQuizType` (QuizLauncher.cpp:298-313): the new quiz type and the question list. -/
def setQuizType (quizType : Option UInt8) (t : UInt8) (rest : Str) : Res (UInt8 × Option UInt8) :=
  if quizType.isSome then .throw .usage
  else match rest with
    | [] => .ok (t, none)
    | [c] => if listAllowed t c then .ok (t, some c) else .throw .usage
    | _ => .throw .usage

/-- The variables set by the options (QuizLauncher.cpp:80-82). -/
structure LaunchArgs where
  launcher : Launcher := {}
  quizType : Option UInt8 := none
  qList : Option UInt8 := none
  question : Nat := 0
  showMeanings : Bool := false
  deriving DecidableEq, Repr

/-- `processArg` (QuizLauncher.cpp:245-259) followed by lines 97-98. -/
def processArg (a : LaunchArgs) (t : UInt8) (rest : Str) : Res LaunchArgs :=
  if t = 0x72 ∨ t = 0x74 then
    (processProgramModeArg a.launcher t rest).bind fun p => .ok { a with launcher := p.1, question := p.2 }
  else if t = 0x66 ∨ t = 0x67 ∨ t = 0x6b ∨ t = 0x6c ∨ t = 0x6d ∨ t = 0x70 then
    (setQuizType a.quizType t rest).bind fun p =>
      .ok { a with quizType := some p.1, qList := (match p.2 with | some c => some c | none => a.qList) }
  else .throw .usage

/-- What the constructor does. -/
inductive Launch where
  | kanji (arg : Str)
  | help
  | start (a : LaunchArgs)
  deriving DecidableEq, Repr

/-- The loop of the constructor (QuizLauncher.cpp:83-98) over the arguments visited (see `visitArgs`). -/
def launchLoop : Bool → LaunchArgs → List Str → Res Launch
  | _, a, [] => .ok (.start a)
  | endOptions, a, arg :: r =>
    match arg with
    | 0x2d :: t :: rest =>
      if endOptions then .ok (.kanji arg)
      else if arg = u8!"-h" then .ok .help
      else if arg = u8!"--" then launchLoop true a r
      else if arg = u8!"-s" then launchLoop endOptions { a with showMeanings := true } r
      else (processArg a t rest).bind fun a => launchLoop endOptions a r
    | _ => .ok (.kanji arg)

/-! ## Lists -/

/-- `frequencyList(c - '0')` (QuizLauncher.cpp:124-125, KanjiData.cpp:91-94): the bucket; the
difference is converted to `size_t`; `none` is the empty list returned when out of range. -/
def selectFrequency (c : UInt8) : Option Nat :=
  let i : Int := (c.toNat : Int) - 0x30
  if 0 ≤ i ∧ i < 10 then some i.toNat else none

/-- The enumerators in order (KanjiEnums.h:29-94). -/
def allGrades : List KanjiGrade := [.g1, .g2, .g3, .g4, .g5, .g6, .s]
def allLevels : List JlptLevel := [.n5, .n4, .n3, .n2, .n1]
def allKyus : List KenteiKyu := [.k10, .k9, .k8, .k7, .k6, .k5, .k4, .k3, .kj2, .k2, .kj1, .k1]

/-- `to_enum` of an index that was checked; the index after the last one is `None` (EnumList.h:226), for which the maps
of KanjiData return the empty list. -/
def enumOf {α : Type} (l : List α) (i : Nat) : Res (Option α) := .ok l[i]?

/-- QuizLauncher.cpp:131. -/
def selectGrade (c : UInt8) : Res (Option KanjiGrade) :=
  if c = 0x73 then .ok (some .s) else (enumListAt 8 ((c.toNat : Int) - 0x31)).bind (enumOf allGrades)

/-- QuizLauncher.cpp:140. -/
def selectLevel (c : UInt8) : Res (Option JlptLevel) :=
  (enumListAt 6 (4 - ((c.toNat : Int) - 0x31))).bind (enumOf allLevels)

/-- `getKyuList` (QuizLauncher.cpp:468-477). -/
def selectKyu (c : UInt8) : Res (Option KenteiKyu) :=
  if c = 0x61 then .ok (some .k10)
  else if c = 0x63 then .ok (some .kj2)
  else if c = 0x32 then .ok (some .k2)
  else if c = 0x62 then .ok (some .kj1)
  else if c = 0x31 then .ok (some .k1)
  else (enumListAt 13 (7 - ((c.toNat : Int) - 0x33))).bind (enumOf allKyus)

/-- `to_enum<MemberType>(c - '1')` (QuizLauncher.cpp:242); other values aren't enumerators. -/
def selectMemberType (c : UInt8) : Option MemberType :=
  let i : Int := (c.toNat : Int) - 0x31
  if i = 0 then some .jouyou else if i = 1 then some .jlpt else if i = 2 then some .frequency
  else if i = 3 then some .all else none

/-! ## Sessions -/

/-- The prompts of `start`, up to the start of the quiz. -/
inductive LaunchPrompt where
  | mode | order | type | list
  deriving DecidableEq, Repr

/-- A run of `start` with the characters returned by `Choice::get`: not possible, waiting at a prompt, or
returned with the prompts that were shown. -/
inductive StartRun where
  | invalid
  | waiting (p : LaunchPrompt) (l : Launcher)
  | returned (l : Launcher) (shown : List LaunchPrompt)
  deriving DecidableEq, Repr

/-- Choosing the list and the quiz itself (QuizLauncher.cpp:119-147), then the reset.  The rest of the
inputs belongs to the quiz, which is taken to return (see C54-C58). -/
def startList (l : Launcher) (t : UInt8) (qList : Option UInt8) (shown : List LaunchPrompt)
    (inp : List UInt8) : StartRun :=
  if t = quitOption ∨ qList.isSome then .returned {} shown
  else match inp with
    | [] => .waiting .list l
    | c :: _ => if (quitOption :: offeredLists t).contains c then .returned {} (shown ++ [.list]) else .invalid

/-- Choosing the quiz type (QuizLauncher.cpp:119 and 445-447). -/
def startType (l : Launcher) (quizType qList : Option UInt8) (shown : List LaunchPrompt)
    (inp : List UInt8) : StartRun :=
  match quizType with
  | some t => startList l t qList shown inp
  | none =>
    match inp with
    | [] => .waiting .type l
    | c :: r => if (u8!"/fgklmp").contains c then startList l c qList (shown ++ [.type]) r else .invalid

/-- `getQuestionOrder` and the rest (QuizLauncher.cpp:109 and 384-393). -/
def startOrder (l : Launcher) (quizType qList : Option UInt8) (shown : List LaunchPrompt)
    (inp : List UInt8) : StartRun :=
  if l.order = .notAssigned then
    match inp with
    | [] => .waiting .order l
    | c :: r =>
      if c = 0x62 then startType { l with order := .fromBeginning } quizType qList (shown ++ [.order]) r
      else if c = 0x65 then startType { l with order := .fromEnd } quizType qList (shown ++ [.order]) r
      else if c = 0x72 then startType { l with order := .random } quizType qList (shown ++ [.order]) r
      else if c = quitOption then .returned l (shown ++ [.order])
      else .invalid
  else startType l quizType qList shown inp

/-- `start` (QuizLauncher.cpp:102-148). -/
def Launcher.start (l : Launcher) (quizType qList : Option UInt8) (inp : List UInt8) : StartRun :=
  if l.mode = .notAssigned then
    match inp with
    | [] => .waiting .mode l
    | c :: r =>
      if c = quitOption then .returned l [.mode]
      else if c = 0x72 then startOrder { l with mode := .review } quizType qList [.mode] r
      else if c = 0x74 then startOrder { l with mode := .quiz } quizType qList [.mode] r
      else .invalid
  else startOrder l quizType qList [] inp

/-! ## Showing a kanji -/

/-- What is looked up for a kanji argument. -/
inductive KanjiQuery where
  | frequency (n : Nat)
  | morohashi (id : MorohashiId)
  | nelson (n : Nat)
  | unicode (code : Nat)
  | name (s : Str)
  deriving DecidableEq, Repr

/-- `getId` (QuizLauncher.cpp:291-296) for a string of digits: reading a `uint16_t` fails when there is
no digit or when the number is too large. -/
def quizGetId (s : Str) : Res Nat :=
  if s = [] then .throw .usage
  else if decimalValue s > 65535 then .throw .usage
  else .ok (decimalValue s)

/-- `::ishexnumber`. -/
def isHexChar (b : UInt8) : Bool :=
  (0x30 ≤ b && b ≤ 0x39) || (0x41 ≤ b && b ≤ 0x46) || (0x61 ≤ b && b ≤ 0x66)

def hexDigit (b : UInt8) : Nat :=
  if b ≤ 0x39 then b.toNat - 0x30 else if b ≤ 0x46 then b.toNat - 0x41 + 10 else b.toNat - 0x61 + 10

/-- `std::stoi(id, nullptr, 16)` for a string of hex digits; at most five, so there is no overflow. -/
def hexValue (s : Str) : Nat := s.foldl (fun a b => a * 16 + hexDigit b) 0

/-- `processKanjiArg` (QuizLauncher.cpp:315-344) up to the lookup. -/
def processKanjiArg (arg : Str) : Res KanjiQuery :=
  if arg.all isDigitChar then (quizGetId arg).bind fun n => .ok (.frequency n)
  else if arg.head? = some 0x6d then (MorohashiId.parse arg.tail).bind fun id => .ok (.morohashi id)
  else if arg.head? = some 0x6e then
    let id := arg.tail
    if id = [] ∨ id.all isDigitChar = false then .throw .usage
    else (quizGetId id).bind fun n => .ok (.nelson n)
  else if arg.head? = some 0x75 then
    let id := arg.tail
    if id.length < 4 ∨ id.length > 5 ∨ (id.length = 5 ∧ id.head? ≠ some 0x31 ∧ id.head? ≠ some 0x32) ∨
        id.all isHexChar = false then .throw .usage
    else .ok (.unicode (hexValue id))
  else if isKanji arg then .ok (.name arg)
  else .throw .usage

end KT
