import Verif.Model.GroupReport
import Verif.Model.LaunchSession
/-!
# Model of a group quiz from its input to its output (GroupQuiz.cpp and Quiz.cpp in libs/quiz/src)

`Verif/Model/GroupQuiz.lean` has the same functions for answers that are already known to be valid and without what is
written.
-/
namespace KT

/-- What is used of a member; `info` decides whether it is shown, `meaning` is `none` if there isn't one. -/
structure GroupItem where
  name : Str
  reading : Str
  meaning : Option Str
  info : MemberInfo
  shown : ShownMember
  deriving DecidableEq, Repr

/-- `meaning()` is empty if there isn't one. -/
def GroupItem.member (i : GroupItem) : QuizMember := ⟨i.name, i.reading, i.meaning.getD []⟩

/-- A group, with its title as written by `operator<<` (see `groupTitle`). -/
structure GroupEntry where
  name : Str
  title : Str
  members : List GroupItem
  deriving DecidableEq, Repr

/-- The variables during a question: `_answers`, `choices` and `_showMeanings`. -/
structure GroupPlay where
  answers : List UInt8
  choices : Choices
  shown : Bool
  deriving DecidableEq, Repr

/-- A part of a question: what is written and, unless it is waiting for input, its result, the variables and the input
that is left. -/
abbrev GRun (α : Type) := Res (Str × Option (α × GroupPlay × InStream))

def GRun.done {α : Type} (a : α) (p : GroupPlay) (s : InStream) : GRun α := .ok ([], some (a, p, s))

/-- Go on if it isn't waiting. -/
def GRun.andThen {α β : Type} (r : GRun α) (f : α → GroupPlay → InStream → GRun β) : GRun β :=
  r.bind fun x =>
    match x.2 with
    | none => .ok (x.1, none)
    | some (a, p, s) => (f a p s).bind fun y => .ok (x.1 ++ y.1, y.2)

/-- Write something first. -/
def GRun.after {α : Type} (text : Str) (r : GRun α) : GRun α := r.bind fun y => .ok (text ++ y.1, y.2)

/-- `get` (Quiz.cpp:39-42). -/
def groupAsk (n : Nat) (msg : Str) (cs : Choices) (dflt : Option UInt8) (useQuit : Bool) (p : GroupPlay) (s : InStream) :
    GRun UInt8 :=
  (Choice.prepare quizQuit msg useQuit cs dflt).bind fun o =>
    match Choice.ask o.2 o.1 dflt n s [] with
    | (text, none) => .ok (text, none)
    | (text, some (a, s)) => .ok (text, some (a, p, s))

/-- `choices.erase(c)`. -/
def Choices.erase (cs : Choices) (c : UInt8) : Choices := cs.filter fun p => p.1 != c

/-- `choices[c] = d`. -/
def Choices.assign (cs : Choices) (c : UInt8) (d : Str) : Choices := (cs.erase c).insert c d

/-- `answersToEdit` (GroupQuiz.cpp:248-249). -/
def answerChoices : List UInt8 → Choices
  | [] => []
  | a :: r => (answerChoices r).assign a []

/-- `getAnswerToEdit` (GroupQuiz.cpp:244-254). -/
def askAnswerToEdit (n : Nat) (p : GroupPlay) (s : InStream) : GRun Nat :=
  if p.answers.length = 1 then .done 0 p s
  else (groupAsk n (u8!"    Answer to edit: ") (answerChoices p.answers) none false p s).andThen fun c p s =>
    match p.answers.findIdx? (· == c) with
    | some i => .done i p s
    | none => .ub

/-- `editAnswer` (GroupQuiz.cpp:228-242). -/
def askEdit (n : Nat) (p : GroupPlay) (s : InStream) : GRun Unit :=
  (askAnswerToEdit n p s).andThen fun entry p s =>
    match p.answers[entry]? with
    | none => .ub
    | some old =>
      let choices := p.choices.assign old []
      let newChoices := (((choices.erase 0x2a).erase 0x2d).erase 0x27).erase 0x2e
      (groupAsk n (u8!"    New reading for Entry: " ++ toDec (entry + 1)) newChoices (some old) false
        { p with choices := choices } s).andThen fun c p s =>
          .done () { p with answers := p.answers.set entry c, choices := p.choices.erase c } s

/-- The prompt of a question (GroupQuiz.cpp:197-199). -/
def groupMsg (quizMode : Bool) (answers : List UInt8) : Str :=
  if quizMode then u8!"  Reading for: " ++ toDec (answers.length + 1) else u8!"  Select"

/-- The choices after an answer (GroupQuiz.cpp:216-221). -/
def GroupPlay.answered (p : GroupPlay) (a : UInt8) : GroupPlay :=
  { p with
    answers := p.answers ++ [a]
    choices := (if (p.answers ++ [a]).length = 1 then
        ((p.choices.erase a).assign 0x2a (u8!"edit")).assign 0x27 (u8!"refresh")
      else p.choices.erase a) }

/-- `getAnswer` (GroupQuiz.cpp:196-226) with at most `fuel` rounds, each prompt with at most `n` lines of input.  The
change of the current question for `prev` is in `groupSession`. -/
def askAnswer (quizMode : Bool) (n : Nat) : Nat → GroupPlay → InStream → GRun AnswerOutcome
  | 0, _, _ => .ok ([], none)
  | fuel + 1, p, s =>
    ((groupAsk n (groupMsg quizMode p.answers) p.choices none true p s).andThen fun a p s =>
      if a = 0x27 then .done .refresh p s
      else if a = 0x2d then
        .done .refresh { p with choices := p.choices.assign 0x2d (meaningsText (!p.shown)), shown := !p.shown } s
      else if a = 0x2c then .done .prev p s
      else if a = 0x2e then .done .skip p s
      else if a = 0x2a then (askEdit n p s).andThen fun _ p s => askAnswer quizMode n fuel p s
      else if a = 0x2f then .done .quit p s
      else .done .answered (p.answered a) s).after (printAssignedAnswers p.answers)

/-- `getAnswers` (GroupQuiz.cpp:184-194) with `k` answers to go. -/
def askAnswers (quizMode : Bool) (n : Nat) : Nat → GroupPlay → InStream → GRun AnswersOutcome
  | 0, p, s => .done .complete p s
  | k + 1, p, s =>
    (askAnswer quizMode n n p s).andThen fun o p s =>
      match o with
      | .answered => askAnswers quizMode n k p s
      | .refresh => .done .refresh p s
      | .skip => .done .skip p s
      | .prev => .done .prev p s
      | .quit => .done .stop p s

/-! ## Questions -/

/-- The first line of a question (GroupQuiz.cpp:131-137). -/
def groupHead (quizMode : Bool) (current : UInt16) (total : Nat) (g : GroupEntry) (count : Nat) : Str :=
  questionHead quizMode current total ++ g.title ++ u8!", " ++
    (if count = g.members.length then toDec count
     else u8!"showing " ++ toDec count ++ u8!" out of " ++ toDec g.members.length) ++ u8!" members\n"

/-- What follows the letter of a line (GroupQuiz.cpp:177-178). -/
def GroupItem.right (i : GroupItem) (shown : Bool) : Str × Str := (i.reading, printMeaning i.meaning false shown)

/-- The letters added to the choices when a question is shown for the first time (GroupQuiz.cpp:179). -/
def addLetters (quizMode : Bool) (count : Nat) (cs : Choices) : Choices :=
  if quizMode then (List.range count).foldl (fun cs i => cs.assign (groupLetter i) []) cs else cs

/-- The `do` loop for a question (GroupQuiz.cpp:130-143), at most `fuel` rounds.  The letters are already in the
choices. -/
def groupRounds (quizMode : Bool) (t : GroupType) (total : Nat) (current : UInt16) (g : GroupEntry)
    (questions readings : List GroupItem) (n : Nat) : Nat → GroupPlay → InStream → GRun AnswersOutcome
  | 0, _, _ => .ok ([], none)
  | fuel + 1, p, s =>
    (showGroup quizMode t p.answers 0 (questions.map (·.shown)) (readings.map (·.right p.shown))).bind fun screen =>
      ((askAnswers quizMode n (questions.length - p.answers.length) p s).andThen fun o p s =>
        if o = .refresh then groupRounds quizMode t total current g questions readings n fuel p s
        else .done o p s).after (groupHead quizMode current total g questions.length ++ screen)

/-- `checkAnswers` (GroupQuiz.cpp:256-275): what is written and the state. -/
def checkText (st : ListState) (name : Str) (questions readings : List GroupItem) (answers : List UInt8) :
    Res (Str × ListState) :=
  (checkAnswersLoop st.shown (readings.map (·.member)) (questions.map (·.member)) answers).bind fun n =>
    .ok (if n = answers.length then (correctMessage (st.correct + 1) st.current, { st with correct := st.correct + 1 })
      else (u8!"  Incorrect (got " ++ toDec n ++ u8!" right out of " ++ toDec answers.length ++ u8!")\n",
        { st with mistakes := st.mistakes ++ [name] }))

/-- What a question does to the state (GroupQuiz.cpp:139-143, 189-192 and 208-212). -/
def groupOutcome (st : ListState) (name : Str) (questions readings : List GroupItem) (answers : List UInt8) :
    AnswersOutcome → Res (Str × ListState)
  | .complete => checkText st name questions readings answers
  | .stop => .ok ([], { st with stop := true })
  | .prev => .ok ([], { st with current := st.current - 2 })
  | .skip => .ok ([], st)
  | .refresh => .ok ([], st)

/-- The effect of `std::shuffle`: the members in the order of these positions if they are all positions. -/
def shuffled {α : Type} (idx : List Nat) (l : List α) : List α :=
  if idx.isPerm (List.range l.length) then idx.filterMap (l[·]?) else l

/-- One question (GroupQuiz.cpp:115-143); `order` has the two orders drawn for the members. -/
def groupRound (quizMode : Bool) (t : GroupType) (mt : MemberType) (total : Nat) (g : GroupEntry)
    (order : List Nat × List Nat) (n : Nat) (st : ListState) (s : InStream) : Res (Str × Option (ListState × InStream)) :=
  let shown := g.members.filter fun i => includeMember mt i.info
  let questions := if quizMode then shuffled order.1 shown else shown
  let readings := if quizMode then shuffled order.2 shown else shown
  (groupRounds quizMode t total st.current g questions readings n n
    ⟨[], addLetters quizMode questions.length (quizChoices quizMode st.current total st.shown), st.shown⟩ s).bind fun r =>
      match r.2 with
      | none => .ok (r.1, none)
      | some (o, p, s) =>
        (groupOutcome { st with shown := p.shown } g.name questions readings p.answers o).bind fun q =>
          .ok (r.1 ++ q.1, some (q.2, s))

/-- The loop of `start` (GroupQuiz.cpp:113-145) with the orders drawn for each question; the result has no state if
orders or input are used up. -/
def groupSession (quizMode : Bool) (t : GroupType) (mt : MemberType) (groups : List GroupEntry) (n : Nat) :
    List (List Nat × List Nat) → ListState → InStream → Res (Str × Option (ListState × InStream))
  | orders, st, s =>
    if st.stop then .ok ([], some ({ st with current := st.current - 1 }, s))
    else match groups[st.current.toNat]? with
      | none => .ok ([], some (st, s))
      | some g =>
        match orders with
        | [] => .ok ([], none)
        | order :: orders =>
          (groupRound quizMode t mt groups.length g order n st s).bind fun r =>
            match r.2 with
            | none => .ok (r.1, none)
            | some (st, s) =>
              (groupSession quizMode t mt groups n orders { st with current := st.current + 1 } s).bind fun q =>
                .ok (r.1 ++ q.1, q.2)

/-! ## The whole quiz -/

/-- GroupQuiz.cpp:110-111 with `Kanji::Legend`, Quiz.cpp:60-61 and Group.cpp:5-7. -/
def groupBegin (quizMode : Bool) (t : GroupType) (mt : MemberType) (total : Nat) : Str :=
  u8!">>>\n>>> Starting " ++ (if quizMode then u8!"quiz" else u8!"review") ++ u8!" for " ++ toDec total ++ u8!" " ++
    (match t with | .meaning => u8!"Meaning" | .pattern => u8!"Pattern") ++ u8!" groups\n" ++
    (if mt.toNat > 0 then u8!">>>   " ++ kanjiLegend ++ u8!"\n" else [])

/-- The prompt for the part of the pattern groups (GroupQuiz.cpp:14-15 and 34). -/
def patternAsk : Ask :=
  ⟨u8!"Pattern name", none, [(0x31, u8!"ア"), (0x32, u8!"カ"), (0x33, u8!"サ"), (0x34, u8!"タ、ナ"), (0x35, u8!"ハ、マ"),
    (0x36, u8!"ヤ、ラ、ワ")], some 0x31⟩

/-- `start` (GroupQuiz.cpp:109-146) for the groups in the order of the questions, and the destructor: what is written,
and the exception that is thrown or the input that is left, `none` if it is still waiting. -/
def groupStartQuiz (quizMode : Bool) (t : GroupType) (mt : MemberType) (groups : List GroupEntry) (question : UInt16)
    (shown : Bool) (n : Nat) (orders : List (List Nat × List Nat)) (s : InStream) :
    Res (Str × Option (Except Exc InStream)) :=
  match beginQuiz question groups.length with
  | .ub => .ub
  | .throw e => .ok (ListState.finish quizMode { current := question, shown := shown }, some (.error e))
  | .ok b =>
    (groupSession quizMode t mt groups n orders { current := b.current, shown := shown } s).bind fun r =>
      let text := groupBegin quizMode t mt groups.length ++ r.1
      match r.2 with
      | none => .ok (text, none)
      | some (st, s) => .ok (text ++ st.finish quizMode, some (.ok s))

/-- The constructor of `GroupQuiz` (GroupQuiz.cpp:28-47) and the destructor.  `select` gives the groups in the order of
the questions, for a part of the pattern groups or for all groups. -/
def groupQuiz (quizMode : Bool) (t : GroupType) (mt : MemberType) (list : List GroupEntry)
    (select : Option Nat → List GroupEntry) (question : UInt16)
    (shown : Bool) (n : Nat) (orders : List (List Nat × List Nat)) (s : InStream) :
    Res (Str × Option (Except Exc InStream)) :=
  let finish := ListState.finish quizMode { current := question, shown := shown }
  if list = [] then .ok (finish, some (.error .domain))
  else match t with
    | .meaning => groupStartQuiz quizMode t mt (select none) question shown n orders s
    | .pattern =>
      (patternAsk.run n s).bind fun r =>
        match r.2 with
        | none => .ok (r.1, none)
        | some (c, s) =>
          if c = quitOption then .ok (r.1 ++ finish, some (.ok s))
          else (groupStartQuiz quizMode t mt (select (some (c - 0x31).toNat)) question shown n orders s).bind fun q =>
            .ok (r.1 ++ q.1, q.2)

end KT
