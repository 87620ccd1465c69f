import Verif.Model.Bitmask
import Verif.Model.GroupSession
import Verif.Model.HelpText
import Verif.Model.KanjiDetails
import Verif.Model.LaunchText
/-!
# Model of kanjiQuiz from its arguments and input to its output (libs/quiz/src and apps/quizMain.cpp)

The data is loaded already.  What is shown of kanji is computed before a quiz instead of during it; C167 shows that this
can't fail.
-/
namespace KT

/-- What a run writes and, unless it is waiting for input, the message of the exception that ended it or the input that is
left. -/
abbrev Output := Str × Option (Except Str InStream)

/-- The numbers drawn by `RandomGen`: an order for the questions, numbers for the answers of each question of a list quiz,
and orders for the members of each question of a group quiz. -/
structure Drawn where
  order : List Nat := []
  answers : List (Nat × List Nat) := []
  members : List (List Nat × List Nat) := []

/-- The kanji that are asked in a list quiz (QuizLauncher.cpp:119-140, KanjiData.cpp:91-94). -/
def QuestionList.kanji (d : KanjiStore) : QuestionList → List KanjiRec
  | .frequency (some i) => d.frequencies.buckets.getD i []
  | .grade (some g) => d.grades g
  | .kyu (some k) => d.kyus k
  | .level (some j) => d.levels j
  | _ => []

/-- The field that isn't shown (QuizLauncher.cpp:119-140). -/
def QuestionList.excluded : QuestionList → Nat
  | .frequency _ => infoFreq
  | .grade _ => infoGrade
  | .kyu _ => infoKyu
  | .level _ => infoLevel

/-- The order of the questions (ListQuiz.cpp:36-39 and GroupQuiz.cpp:80-83). -/
def QuestionOrder.arrange {α : Type} (o : QuestionOrder) (drawn : List Nat) (l : List α) : List α :=
  match o with
  | .fromEnd => l.reverse
  | .random => shuffled drawn l
  | _ => l

/-- Do something for each entry of a list. -/
def Res.each {α β : Type} (f : α → Res β) : List α → Res (List β)
  | [] => .ok []
  | a :: l => (f a).bind fun b => (Res.each f l).bind fun bs => .ok (b :: bs)

/-- The message of the exception at Quiz.cpp:54-57. -/
def entryMessage (question : UInt16) (total : Nat) : Str :=
  u8!"entry num '" ++ toDec question.toNat ++ u8!"' is larger than total questions: " ++ toDec total

/-- A run of a quiz in which the only exception is that of `beginQuizMessage`. -/
def withMessage (message : Str) (r : Res (Str × Option (Except Exc InStream))) : Res Output :=
  r.bind fun z => .ok (z.1, z.2.map fun x => match x with | .ok s => .ok s | .error _ => .error message)

/-! ## List quizzes -/

/-- What is shown of a kanji in a list quiz (ListQuiz.cpp:96-117). -/
def listItem (sort : List KanjiRec → List KanjiRec) (d : DetailStore) (f : InfoFields) (k : KanjiRec) : Res ListItem :=
  (k.kanji.info f).bind fun info =>
    (printReviewDetails sort d.detail k).bind fun details =>
      .ok ⟨k.kanji.name, d.detail.reading k, info, printExtraTypeInfo k.kanji.type (d.extra k), d.detail.meaning k, details⟩

/-- `ListQuiz` (ListQuiz.cpp:22-46, called at QuizLauncher.cpp:230-231).  `std::uniform_int_distribution` is a number drawn
modulo the size of the range. -/
def runList (sort : List KanjiRec → List KanjiRec) (d : DetailStore) (mode : ProgramMode) (order : QuestionOrder)
    (list : QuestionList) (count : Nat) (toReading : Bool) (question : UInt16) (meanings : Bool) (n : Nat) (r : Drawn)
    (s : InStream) : Res Output :=
  let quizMode := mode == .quiz
  let kanji := list.kanji d.store
  match kanji.find? fun k => d.detail.reading k = [] with
  | some k => .ok (ListState.finish quizMode { current := question, shown := meanings },
      some (.error (k.kanji.name ++ u8!" has no reading")))
  | none =>
    let fields := fieldsOfBits (shownFields list.excluded)
    (Res.each (listItem sort d fields) (order.arrange r.order kanji)).bind fun items =>
      withMessage (entryMessage question items.length)
        (listQuiz ⟨quizMode, toReading, count⟩ (printLegend fields) items question meanings n
          (r.answers.map fun a => (a.1 % count, a.2.map (· % items.length))) s)

/-! ## Group quizzes -/

/-- The number of the group in the other map (GroupQuiz.cpp:95-107); `find` of a multimap is taken to find the first
entry, as libraries do. -/
def otherGroup (d : DetailData) (t : GroupType) (name : Str) : Option Nat :=
  match t with
  | .meaning => (d.patterns.map.lookup name).map (·.number)
  | .pattern => (d.meanings.map.lookup name).map (·.number)

/-- What is used of a member (GroupQuiz.cpp:49-57, 87-107 and 164-182). -/
def groupItem (d : DetailData) (t : GroupType) (k : KanjiRec) : Res GroupItem :=
  k.kanji.qualifiedName.bind fun q =>
    .ok ⟨k.kanji.name, d.reading k, d.meaning k,
      ⟨d.reading k != [], k.kanji.type == .jouyou, k.kanji.level.isSome, k.kanji.frequency.toNat⟩,
      ⟨q, k.kanji.pinyin, otherGroup d t k.kanji.name⟩⟩

/-- A group with what is used of its members. -/
def groupEntry (d : DetailData) (t : GroupType) (g : Group) : Res GroupEntry :=
  (Res.each (groupItem d t) g.members).bind fun members =>
    .ok ⟨g.name, groupTitle g.patternType g.name (g.members.map (·.kanji.name)), members⟩

/-- `includeMember` for at least two members (GroupQuiz.cpp:72-78). -/
def enoughShown (mt : MemberType) (g : GroupEntry) : Bool := g.members.countP (fun i => includeMember mt i.info) > 1

/-- The loop of `prepareList` (GroupQuiz.cpp:63-79) as `prepareLoop`. -/
def selectLoop (mt : MemberType) (bucket : Option Nat) : Bool → List GroupEntry → Res (List GroupEntry)
  | _, [] => .ok []
  | startIncluding, i :: r =>
    let next (inc : Bool) : Res (List GroupEntry) :=
      (selectLoop mt bucket inc r).bind fun l => .ok (if inc && enoughShown mt i then i :: l else l)
    if startIncluding then
      match bucket with
      | some b =>
        match patternGroups[b]? with
        | some p => if containsStr p i.name then .ok [] else next true
        | none => next true
      | none => next true
    else
      match bucket with
      | none => .ub
      | some b =>
        match patternGroups[b - 1]? with
        | none => .ub
        | some p => next (containsStr p i.name)

/-- `prepareList` (GroupQuiz.cpp:59-85) as `prepareList`, with the order. -/
def selectGroups (mt : MemberType) (order : QuestionOrder) (drawn : List Nat) (bucket : Option Nat) (l : List GroupEntry) :
    Res (List GroupEntry) :=
  (selectLoop mt bucket (bucket.getD 0 == 0) l).bind fun r => .ok (order.arrange drawn r)

/-- `start` and the destructor, with the message. -/
def runGroups (quizMode : Bool) (t : GroupType) (mt : MemberType) (groups : List GroupEntry) (question : UInt16)
    (meanings : Bool) (n : Nat) (r : Drawn) (s : InStream) : Res Output :=
  withMessage (entryMessage question groups.length)
    (groupStartQuiz quizMode t mt groups question meanings n r.members s)

/-- `GroupQuiz` (GroupQuiz.cpp:28-47, called at QuizLauncher.cpp:234-243); a member type that isn't an enumerator is
`.ub`. -/
def runGroup (d : DetailStore) (mode : ProgramMode) (order : QuestionOrder) (patterns : Bool) (members : Option MemberType)
    (question : UInt16) (meanings : Bool) (n : Nat) (r : Drawn) (s : InStream) : Res Output :=
  let quizMode := mode == .quiz
  let finish := ListState.finish quizMode { current := question, shown := meanings }
  let t := if patterns then GroupType.pattern else GroupType.meaning
  match members with
  | none => .ub
  | some mt =>
    (Res.each (groupEntry d.detail t) (if patterns then d.detail.patterns.groups else d.detail.meanings.groups)).bind
      fun list =>
        if list = [] then .ok (finish, some (.error (u8!"empty group list")))
        else if patterns then
          (patternAsk.run n s).bind fun a =>
            match a.2 with
            | none => .ok (a.1, none)
            | some (c, s) =>
              if c = quitOption then .ok (a.1 ++ finish, some (.ok s))
              else (selectGroups mt order r.order (some (c - 0x31).toNat) list).bind fun groups =>
                (runGroups quizMode t mt groups question meanings n r s).bind fun q => .ok (a.1 ++ q.1, q.2)
        else if order = .fromBeginning ∧ mt = .all then runGroups quizMode t mt list question meanings n r s
        else (selectGroups mt order r.order none list).bind fun groups =>
          runGroups quizMode t mt groups question meanings n r s

/-! ## The program -/

/-- `start` (QuizLauncher.cpp:102-148). -/
def runQuiz (sort : List KanjiRec → List KanjiRec) (d : DetailStore) (a : LaunchArgs) (n : Nat) (r : Drawn) (s : InStream) :
    Res Output :=
  (a.launcher.ask n a.quizType a.qList s).bind fun x =>
    match x.2 with
    | none => .ok (x.1, none)
    | some (_, ch, s) =>
      (match ch with
       | .quit => .ok ([], some (.ok s))
       | .list mode order list count toReading =>
         runList sort d mode order list count toReading (UInt16.ofNat a.question) a.showMeanings n r s
       | .group mode order patterns members =>
         runGroup d mode order patterns members (UInt16.ofNat a.question) a.showMeanings n r s : Res Output).bind fun q =>
        .ok (x.1 ++ q.1, q.2)

/-- The constructor of `QuizLauncher` (QuizLauncher.cpp:78-101) for the arguments visited, without `in` as in `Quiz::run`
(Quiz.cpp:12-16), with `debug()` of the data. -/
def runProgram (sort : List KanjiRec → List KanjiRec) (d : DetailStore) (e : StoulTexts) (debug : Bool) (args : List Str)
    (n : Nat) (r : Drawn) (s : InStream) : Res Output :=
  match launchWhy e false {} args with
  | .error m => .ok ([], some (.error m))
  | .ok .help => .ok (textOf quizHelp, some (.ok s))
  | .ok (.kanji arg) =>
    match showKanji sort d arg with
    | .text t => .ok (t, some (.ok s))
    | .error m => .ok ([], some (.error m))
    | .ub => .ub
  | .ok (.start a) => if debug then .ok ([], some (.ok s)) else runQuiz sort d a n r s

/-- `main` (apps/quizMain.cpp:3-11): what is written to `std::cout` and, unless it is waiting for input, what is written to
`std::cerr` and the exit code. -/
def mainQuiz (sort : List KanjiRec → List KanjiRec) (d : DetailStore) (e : StoulTexts) (debug : Bool) (argv : List Str)
    (n : Nat) (r : Drawn) (s : InStream) : Option (Res (Str × Option (Str × Nat))) :=
  (visitArgs argv (argv.length + 1) 0).map fun v =>
    v.bind fun args =>
      (runProgram sort d e debug args n r s).bind fun o =>
        .ok (o.1, o.2.map fun x =>
          match x with
          | .ok _ => ([], 0)
          | .error m => (m ++ u8!"\n", 1))

end KT
