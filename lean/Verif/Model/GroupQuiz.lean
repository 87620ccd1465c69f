import Verif.Model.Basic
import Verif.Model.Stats
/-!
# Model of Group.cpp and GroupQuiz.cpp (libs/quiz/src)
-/
namespace KT

/-! ## Groups -/

/-- The names found twice (Group.cpp:15-17): `names` holds the names seen so far. -/
def groupDups : List Str → List Str → List Str
  | _, [] => []
  | names, m :: r => if names.contains m then m :: groupDups names r else groupDups (m :: names) r

/-- Constructor `Group` (Group.cpp:9-26) with the names of the members; `error` throws a
`DomainError`. `MaxGroupSize` is 58 (Group.h:26). -/
def createGroup (members : List Str) : Res (List Str) :=
  if members = [] then .throw .domain
  else if members.length = 1 then .throw .domain
  else if members.length > 58 then .throw .domain
  else if groupDups [] members ≠ [] then .throw .domain
  else .ok members

/-! ## Letters -/

/-- The members that matter here: what is compared by `checkAnswers`. -/
structure QuizMember where
  name : Str
  reading : Str
  meaning : Str
  deriving DecidableEq, Repr

/-- The letter shown in quiz mode beside the reading at position `count` (GroupQuiz.cpp:167-170),
`TotalLetters` is 26 (line 24). `toChar` keeps the low byte. -/
def groupLetter (count : Nat) : UInt8 :=
  UInt8.ofNat (if count < 26 then 0x61 + count else 0x41 + count - 26)

/-- The index computed by `checkAnswers` (GroupQuiz.cpp:260-261) before its conversion to `size_t`. -/
def answerIndex (i : UInt8) : Int :=
  if i ≤ 0x7a then (i.toNat : Int) - 0x61 else (i.toNat : Int) - 0x41 + 26

/-- `readings[answer]` (GroupQuiz.cpp:264): a negative value becomes a huge `size_t`, so anything that
isn't a position of the list is undefined behaviour. -/
def selectedMember (readings : List QuizMember) (i : UInt8) : Res QuizMember :=
  if answerIndex i < 0 then .ub
  else match readings[(answerIndex i).toNat]? with
    | some m => .ok m
    | none => .ub

/-- The loop of `checkAnswers` (GroupQuiz.cpp:258-269) from the answer at position `count`: the number
of correct answers. -/
def checkAnswersLoop (showMeanings : Bool) (readings : List QuizMember) :
    List QuizMember → List UInt8 → Res Nat
  | _, [] => .ok 0
  | [], _ :: _ => .ub
  | q :: qs, i :: r =>
    (selectedMember readings i).bind fun m =>
      (checkAnswersLoop showMeanings readings qs r).bind fun n =>
        .ok (if q.reading = m.reading ∧ (showMeanings = false ∨ q.meaning = m.meaning) then n + 1 else n)

/-! ## Answering -/

/-- Quiz.h:130, GroupQuiz.cpp:22, QuizLauncher.h:18. -/
def meaningsOption : UInt8 := 0x2d
def prevOption : UInt8 := 0x2c
def skipOption : UInt8 := 0x2e
def refreshOption : UInt8 := 0x27
def editOption : UInt8 := 0x2a
def quitOption : UInt8 := 0x2f

/-- `_answers` and the keys of `choices`. -/
structure GroupState where
  answers : List UInt8
  choices : List UInt8
  deriving DecidableEq, Repr

/-- The prompts of a question. -/
inductive GroupPrompt where
  | reading
  | answerToEdit
  | newReading (entry : Nat)
  deriving DecidableEq, Repr

/-- The result of running a part of a question with a list of inputs, where an input is what
`Choice::get` returns (one of the offered characters, see C34): the inputs aren't possible, undefined
behaviour, the run waits at a prompt for more input, or the part returned.  `fuel` means that the
bound on the number of loops was too small, which C54 shows never to happen. -/
inductive Run (α : Type) where
  | invalid
  | fuel
  | ub
  | waiting (p : GroupPrompt) (st : GroupState)
  | ok (a : α) (st : GroupState) (rest : List UInt8)
  deriving DecidableEq, Repr

def Run.bind {α β : Type} (r : Run α) (f : α → GroupState → List UInt8 → Run β) : Run β :=
  match r with
  | .invalid => .invalid
  | .fuel => .fuel
  | .ub => .ub
  | .waiting p st => .waiting p st
  | .ok a st rest => f a st rest

/-- `get` with the offered characters. -/
def groupGet (p : GroupPrompt) (offered : List UInt8) (st : GroupState) : List UInt8 → Run UInt8
  | [] => .waiting p st
  | c :: r => if offered.contains c then .ok c st r else .invalid

/-- `choices[c] = ...`. -/
def addKey (c : UInt8) (cs : List UInt8) : List UInt8 := if cs.contains c then cs else c :: cs
/-- `choices.erase(c)`. -/
def eraseKey (c : UInt8) (cs : List UInt8) : List UInt8 := cs.filter (· != c)

/-- `getAnswerToEdit` (GroupQuiz.cpp:244-254); a failing assertion is undefined behaviour. -/
def getAnswerToEdit (st : GroupState) (inp : List UInt8) : Run Nat :=
  if st.answers.length = 1 then .ok 0 st inp
  else (groupGet .answerToEdit st.answers st inp).bind fun c st inp =>
    match st.answers.findIdx? (· == c) with
    | some i => .ok i st inp
    | none => .ub

/-- `editAnswer` (GroupQuiz.cpp:228-242). The default of the prompt (an empty input) is
`_answers[entry]`, which was put back into the choices. -/
def editAnswer (st : GroupState) (inp : List UInt8) : Run Unit :=
  (getAnswerToEdit st inp).bind fun entry st inp =>
    match st.answers[entry]? with
    | none => .ub
    | some old =>
      let choices := addKey old st.choices
      let newChoices := eraseKey skipOption (eraseKey refreshOption (eraseKey meaningsOption
        (eraseKey editOption choices)))
      (groupGet (.newReading entry) newChoices { st with choices := choices } inp).bind fun c st inp =>
        .ok () { answers := st.answers.set entry c, choices := eraseKey c st.choices } inp

/-- How `getAnswer` returns: `answered` is `true`, the others are `false` with `refresh`, `skipGroup`
(`prev` also changed the current question) or neither. -/
inductive AnswerOutcome where
  | answered | refresh | skip | prev | quit
  deriving DecidableEq, Repr

/-- `getAnswer` (GroupQuiz.cpp:196-226).  `fuel` bounds the number of times around the loop, each of
which takes an input. -/
def getAnswer : Nat → GroupState → List UInt8 → Run AnswerOutcome
  | 0, _, _ => .fuel
  | fuel + 1, st, inp =>
    (groupGet .reading (quitOption :: st.choices) st inp).bind fun answer st inp =>
      if answer = refreshOption then .ok .refresh st inp
      else if answer = meaningsOption then .ok .refresh { st with choices := addKey meaningsOption st.choices } inp
      else if answer = prevOption then .ok .prev st inp
      else if answer = skipOption then .ok .skip st inp
      else if answer = editOption then (editAnswer st inp).bind fun _ st inp => getAnswer fuel st inp
      else if answer = quitOption then .ok .quit st inp
      else
        .ok .answered
          ⟨st.answers ++ [answer],
            if st.answers.length + 1 = 1 then
              addKey refreshOption (addKey editOption (eraseKey answer st.choices))
            else eraseKey answer st.choices⟩ inp

/-- How `getAnswers` returns: `complete` is `true`. -/
inductive AnswersOutcome where
  | complete | refresh | skip | prev | stop
  deriving DecidableEq, Repr

/-- `getAnswers` (GroupQuiz.cpp:184-194) with `n` answers to go. -/
def getAnswers : Nat → GroupState → List UInt8 → Run AnswersOutcome
  | 0, st, inp => .ok .complete st inp
  | n + 1, st, inp =>
    (getAnswer (inp.length + 1) st inp).bind fun o st inp =>
      match o with
      | .answered => getAnswers n st inp
      | .refresh => .ok .refresh st inp
      | .skip => .ok .skip st inp
      | .prev => .ok .prev st inp
      | .quit => .ok .stop st inp

/-- The loop over one question (GroupQuiz.cpp:129-143); `fuel` as in `getAnswer`. -/
def groupQuestion (total : Nat) : Nat → GroupState → List UInt8 → Run AnswersOutcome
  | 0, _, _ => .fuel
  | fuel + 1, st, inp =>
    (getAnswers (total - st.answers.length) st inp).bind fun o st inp =>
      if o = .refresh then groupQuestion total fuel st inp else .ok o st inp

/-- The choices after the first `showGroup` of a question with `n` members (GroupQuiz.cpp:126-127 and
179, Quiz.cpp:81-89). -/
def groupStart (quizMode hasPrev : Bool) (n : Nat) : GroupState :=
  { answers := []
    choices := (if quizMode then (List.range n).map groupLetter else []) ++
      (if !quizMode && hasPrev then [prevOption] else []) ++ [meaningsOption, skipOption] }

/-! ## The list of groups -/

/-- `GroupQuiz::MemberType` (GroupQuiz.h:24-29). -/
inductive MemberType where
  | jouyou | jlpt | frequency | all
  deriving DecidableEq, Repr

def MemberType.toNat : MemberType → Nat
  | .jouyou => 0 | .jlpt => 1 | .frequency => 2 | .all => 3

/-- What `includeMember` looks at. -/
structure MemberInfo where
  hasReading : Bool
  isJouyou : Bool
  hasLevel : Bool
  frequency : Nat
  deriving DecidableEq, Repr

/-- `includeMember` (GroupQuiz.cpp:87-93). -/
def includeMember (t : MemberType) (k : MemberInfo) : Bool :=
  k.hasReading && (k.isJouyou ||
    (t.toNat > 0 && k.hasLevel ||
      (t.toNat > 1 && k.frequency != 0 ||
        t.toNat > 2)))

/-- A group as seen by `prepareList`. -/
structure QuizGroup where
  name : Str
  members : List MemberInfo
  deriving DecidableEq, Repr

/-- `PatternGroups` (GroupQuiz.cpp:20). -/
def patternGroups : List Str := [u8!"：カ", u8!"：サ", u8!"：タ", u8!"：ハ", u8!"：ヤ"]

/-- `name.find(p) != npos`. -/
def containsStr (p s : Str) : Bool := (strFind p s).isSome

/-- Lines 72-78: the group is taken if it has at least two members to show. -/
def enoughMembers (t : MemberType) (g : QuizGroup) : Bool := g.members.countP (includeMember t) > 1

/-- The loop of `prepareList` (GroupQuiz.cpp:63-79) with a bucket between 0 and 5 (or none). -/
def prepareLoop (t : MemberType) (bucket : Option Nat) : Bool → List QuizGroup → Res (List QuizGroup)
  | _, [] => .ok []
  | startIncluding, i :: r =>
    let next (inc : Bool) : Res (List QuizGroup) :=
      (prepareLoop t bucket inc r).bind fun l => .ok (if inc && enoughMembers t i then i :: l else l)
    if startIncluding then
      match bucket with
      | some b =>
        match patternGroups[b]? with
        | some p => if containsStr p i.name then .ok [] else next true
        | none => next true
      | none => next true
    else
      match bucket with
      | none => .ub
      | some b =>
        match patternGroups[b - 1]? with
        | none => .ub
        | some p => next (containsStr p i.name)

/-- `prepareList` (GroupQuiz.cpp:59-79) before the list is reversed or shuffled. -/
def prepareList (t : MemberType) (bucket : Option Nat) (l : List QuizGroup) : Res (List QuizGroup) :=
  prepareLoop t bucket (bucket.getD 0 == 0) l

end KT
