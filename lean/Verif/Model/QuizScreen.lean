import Verif.Model.QuizDetails
import Verif.Model.GroupQuiz
import Verif.Model.ListQuiz
import Verif.Model.QuizLauncher
/-!
# Model of the screens of quizzes (GroupQuiz.cpp, ListQuiz.cpp, Quiz.cpp and Group.cpp in libs/quiz/src)
-/
namespace KT

/-! ## Which groups are asked -/

/-- The texts of `PatternGroupChoices` (GroupQuiz.cpp:14-15) for the characters `1` to `6`. -/
def patternGroupChoices : List Str := [u8!"ア", u8!"カ", u8!"サ", u8!"タ、ナ", u8!"ハ、マ", u8!"ヤ、ラ、ワ"]

/-- The constructor of `GroupQuiz` (GroupQuiz.cpp:28-42) without reversing or shuffling the list; `bucket` is the
choice for pattern groups and `fromBeginning` is the test of the order of questions. -/
def groupsAsked (t : MemberType) (bucket : Option Nat) (fromBeginning : Bool) (list : List QuizGroup) :
    Res (List QuizGroup) :=
  match bucket with
  | some b => prepareList t (some b) list
  | none => if fromBeginning && t == .all then .ok list else prepareList t none list

/-! ## Showing a group -/

/-- `addPinyin` (GroupQuiz.cpp:49-57): the length of the blanks is a `size_t`, and a `std::string` can't have more
than `2^63 - 1` characters. -/
def addPinyin (pinyin : Option Str) (s : Str) : Res Str :=
  match pinyin with
  | some name =>
    let p := u8!"  (" ++ name ++ u8!")"
    let blanks := (12 + 2 ^ 64 - displaySize p) % 2 ^ 64
    if blanks > 2 ^ 63 - 1 then .throw .std else .ok (s ++ p ++ List.replicate blanks 0x20)
  | none => .ok (s ++ List.replicate 12 0x20)

/-- `addOtherGroupName` (GroupQuiz.cpp:95-107); `other` is the number of the group found in the other map. -/
def addOtherGroupName (t : GroupType) (other : Option Nat) (s : Str) : Str :=
  match other with
  | some n => s ++ (match t with | .meaning => u8!"p" | .pattern => u8!"m") ++ u8!":" ++ toDec n
  | none => s

/-- `printAssignedAnswer` (GroupQuiz.cpp:157-162), from position `i`. -/
def assignedFrom : Nat → List UInt8 → UInt8 → Str
  | _, [], _ => u8!"    "
  | i, a :: r, c => if a = c then setwRight 2 (toDec (i + 1)) ++ u8!"->" else assignedFrom (i + 1) r c

/-- `printAssignedAnswers` (GroupQuiz.cpp:148-155). -/
def printAssignedAnswers (answers : List UInt8) : Str :=
  if answers.isEmpty then []
  else u8!"   " ++ (answers.zipIdx.map fun p => u8!" " ++ toDec (p.2 + 1) ++ u8!"->" ++ [p.1]).flatten ++ u8!"\n"

/-- What is shown of a member on the left. -/
structure ShownMember where
  qualifiedName : Str
  pinyin : Option Str
  other : Option Nat
  deriving DecidableEq, Repr

/-- The letter of a line (GroupQuiz.cpp:167-170). -/
def lineLetter (quizMode : Bool) (count : Nat) : UInt8 := if quizMode then groupLetter count else 0x20

/-- The left part of a line up to the letter (GroupQuiz.cpp:171-177). -/
def groupLineLeft (quizMode : Bool) (t : GroupType) (answers : List UInt8) (count : Nat) (q : ShownMember) : Res Str :=
  (addPinyin q.pinyin q.qualifiedName).bind fun s =>
    let s := if quizMode then s else addOtherGroupName t q.other s
    .ok (setwRight 4 (toDec (count + 1)) ++ u8!":  " ++ setwLeft (wideSetw s 22) s ++
      assignedFrom 0 answers (lineLetter quizMode count))

/-- `showGroup` (GroupQuiz.cpp:164-182); `right` has what follows the letter of each line: the reading and what
`printMeaning` writes. -/
def showGroup (quizMode : Bool) (t : GroupType) (answers : List UInt8) :
    Nat → List ShownMember → List (Str × Str) → Res Str
  | _, [], _ => .ok (u8!"\n")
  | _, _ :: _, [] => .ub
  | count, q :: qs, (reading, meaning) :: rs =>
    (groupLineLeft quizMode t answers count q).bind fun left =>
      (showGroup quizMode t answers (count + 1) qs rs).bind fun rest =>
        .ok (left ++ [lineLetter quizMode count] ++ u8!":  " ++ reading ++ meaning ++ rest)

/-- `operator<<` for groups (Group.cpp:55-63). -/
def groupTitle (p : PatternType) (name : Str) (members : List Str) : Str :=
  u8!"[" ++ (if p = .peer then u8!"Peers " ++ members.head?.getD [] else []) ++ name ++ u8!"]"

/-! ## The final score -/

/-- The text written at the end of a quiz (Quiz.cpp:22-37). -/
def finalMessage (correct current : Nat) (mistakes : List Str) : Str :=
  u8!"\nFinal score: " ++ toDec correct ++ u8!"/" ++ toDec current ++
    (if current ≠ 0 then
      let skipped := (((current : Int) - correct - mistakes.length) % 2 ^ 64).toNat
      (if skipped ≠ 0 then u8!", skipped: " ++ toDec skipped else []) ++
      (if !mistakes.isEmpty then u8!" - mistakes:" ++ (mistakes.map fun i => u8!" " ++ i).flatten
       else if skipped = 0 then u8!" - Perfect!" else [])
     else []) ++ u8!"\n"

end KT
