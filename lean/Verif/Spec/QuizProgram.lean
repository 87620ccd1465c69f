import Verif.Spec.KanjiDetails
import Verif.Spec.LaunchDialog
import Verif.Spec.LaunchText
import Verif.Spec.ListTranscript
import Verif.Spec.Args
import Verif.Props.Kanji
import Verif.Model.QuizProgram
/-!
# Specification of kanjiQuiz: everything written for any arguments and any input
-/
namespace Spec
open KT

/-! ## Results -/

/-- A dialog that ends without an error. -/
def Talk.output {α : Type} (r : Talk α) : Output := (r.1, r.2.map fun x => .ok x.2)

/-- Go on with the result of a dialog. -/
def Talk.finish {α : Type} (r : Talk α) (f : α → InStream → Output) : Output :=
  match r.2 with
  | none => (r.1, none)
  | some (a, s) => (r.1 ++ (f a s).1, (f a s).2)

/-- The end of a quiz that couldn't begin: the final score counts the questions up to the one asked for. -/
def notBegun (quizMode : Bool) (question : Nat) : Str := if quizMode then lastLine ⟨question, 0, [], false⟩ else []

/-- A quiz begins unless the question asked for doesn't exist. -/
def beginAt (quizMode : Bool) (question total : Nat) (r : Talk Unit) : Output :=
  if question ≤ total then r.output
  else (notBegun quizMode question,
    some (.error (u8!"entry num '" ++ toDec question ++ u8!"' is larger than total questions: " ++ toDec total)))

/-- Questions in the order chosen. -/
def arranged {α : Type} (o : QuestionOrder) (drawn : List Nat) (l : List α) : List α :=
  match o with
  | .fromEnd => l.reverse
  | .random => if drawn.Perm (List.range l.length) then drawn.filterMap (l[·]?) else l
  | _ => l

/-! ## Kanji -/

/-- The mark after the name of a kanji. -/
def kanjiMark (k : KT.Kanji) : UInt8 :=
  if k.type = .jouyou then 0x2e                 -- .
  else if k.level ≠ none then 0x27              -- '
  else if k.frequency ≠ 0 then 0x22             -- "
  else match k.type with
    | .jinmei => 0x5e                           -- ^
    | .linkedJinmei => 0x7e                     -- ~
    | .linkedOld => 0x25                        -- %
    | .extra => 0x2b                            -- +
    | .ucd => 0x2a                              -- *
    | _ => if k.kyu = some .k1 then 0x23 else 0x40  -- # or @

/-- Kanji of the same pattern. -/
def similarText (sort : List KanjiRec → List KanjiRec) (d : DetailData) (k : KanjiRec) : Str :=
  match d.patterns.map.lookup k.kanji.name with
  | some g =>
    if g.patternType = .reading then []
    else u8!"    Similar:" ++ (((sort g.members).filter fun j => j.kanji.name ≠ k.kanji.name).map fun j =>
      u8!" " ++ j.kanji.name ++ [kanjiMark j.kanji]).flatten ++ u8!"\n"
  | none => []

/-- What a review shows of a kanji after the question. -/
def reviewText (sort : List KanjiRec → List KanjiRec) (d : DetailData) (k : KanjiRec) : Str :=
  u8!"    Reading: " ++ d.reading k ++ u8!"\n" ++ similarText sort d k ++ idLines k ++ categoryLine d.meanings k ++
    printJukugo k.kanji.grade (d.jukugo.find k.kanji.name)

/-- The field that all kanji of a list have in common, or that tells the order of the list, isn't shown. -/
def fieldsFor : QuestionList → InfoFields
  | .frequency _ => { freq := false }
  | .grade _ => { grade := false }
  | .kyu _ => { kyu := false }
  | .level _ => { level := false }

/-- The explanation of the fields shown. -/
def legendFor (l : QuestionList) : Str :=
  u8!">>> Legend:\nFields:" ++
    (match l with
     | .frequency _ => u8!" N[1-5]=JLPT Level, K[1-10]=Kentei Kyu, G[1-6]=Grade (S=Secondary School)"
     | .grade _ => u8!" N[1-5]=JLPT Level, K[1-10]=Kentei Kyu"
     | .kyu _ => u8!" N[1-5]=JLPT Level, G[1-6]=Grade (S=Secondary School)"
     | .level _ => u8!" K[1-10]=Kentei Kyu, G[1-6]=Grade (S=Secondary School)") ++
    u8!"\nSuffix: .=常用 '=JLPT \"=Freq ^=人名用 ~=LinkJ %=LinkO +=Extra @=検定 #=1級 *=Ucd\n"

/-- The kanji of a list. -/
def listedKanji (d : KanjiStore) : QuestionList → List KanjiRec
  | .frequency i => (i.bind fun i => d.frequencies.buckets[i]?).getD []
  | .grade g => (g.map d.grades).getD []
  | .kyu k => (k.map d.kyus).getD []
  | .level j => (j.map d.levels).getD []

/-- What is shown of a kanji in a list quiz. -/
def itemFor (sort : List KanjiRec → List KanjiRec) (d : DetailStore) (l : QuestionList) (k : KanjiRec) : ListItem :=
  ⟨k.kanji.name, d.detail.reading k, joinText (u8!", ") (infoParts k.kanji (fieldsFor l)),
    u8!", " ++ kanjiTypeText k.kanji.type ++ (match d.extra k with | some i => u8!" (" ++ i ++ u8!")" | none => []),
    d.detail.meaning k, reviewText sort d.detail k⟩

/-- A list quiz. -/
def listOutput (sort : List KanjiRec → List KanjiRec) (d : DetailStore) (mode : ProgramMode) (order : QuestionOrder)
    (l : QuestionList) (count : Nat) (toReading : Bool) (question : Nat) (meanings : Bool) (n : Nat) (r : Drawn)
    (s : InStream) : Output :=
  let quizMode := mode == .quiz
  let kanji := listedKanji d.store l
  match kanji.find? fun k => d.detail.reading k = [] with
  | some k => (notBegun quizMode question, some (.error (k.kanji.name ++ u8!" has no reading")))
  | none =>
    beginAt quizMode question kanji.length
      (playList ⟨quizMode, toReading, count⟩ (legendFor l) ((arranged order r.order kanji).map (itemFor sort d l)) question
        meanings n (r.answers.map fun a => (a.1 % count, a.2.map (· % kanji.length))) s)

/-! ## Groups -/

/-- What is shown of a member. -/
def memberFor (d : DetailData) (t : GroupType) (k : KanjiRec) : GroupItem :=
  ⟨k.kanji.name, d.reading k, d.meaning k,
    ⟨decide (d.reading k ≠ []), decide (k.kanji.type = .jouyou), decide (k.kanji.level ≠ none), k.kanji.frequency.toNat⟩,
    ⟨k.kanji.name ++ [kanjiMark k.kanji], k.kanji.pinyin,
      ((if t = .meaning then d.patterns.map else d.meanings.map).lookup k.kanji.name).map (·.number)⟩⟩

/-- What is shown of a group. -/
def entryFor (d : DetailData) (t : GroupType) (g : Group) : GroupEntry :=
  ⟨g.name,
    u8!"[" ++ (if g.patternType = .peer then u8!"Peers " ++ (match g.members with | k :: _ => k.kanji.name | [] => []) else []) ++
      g.name ++ u8!"]",
    g.members.map (memberFor d t)⟩

/-- The texts in the names of the first groups of the second to the sixth part. -/
def partStarts : List Str := [u8!"：カ", u8!"：サ", u8!"：タ", u8!"：ハ", u8!"：ヤ"]

/-- A part of the pattern groups: from the first group with its text to before the next group with the text of the next
part. -/
def groupPart (part : Nat) (l : List GroupEntry) : List GroupEntry :=
  let before (i : Nat) (g : GroupEntry) : Bool :=
    match partStarts[i]? with
    | some p => !containsStr p g.name
    | none => true
  match part with
  | 0 => l.takeWhile (before 0)
  | i + 1 =>
    match l.dropWhile (before i) with
    | [] => []
    | g :: r => g :: r.takeWhile (before (i + 1))

/-- Groups of which at least two members are shown. -/
def worthAsking (mt : MemberType) (l : List GroupEntry) : List GroupEntry := l.filter fun g => decide (2 ≤ (shownMembers mt g).length)

/-- The groups of a file. -/
def groupsOf (d : DetailData) (t : GroupType) : List GroupEntry :=
  (if t = .pattern then d.patterns.groups else d.meanings.groups).map (entryFor d t)

/-- A group quiz. -/
def groupOutput (d : DetailStore) (mode : ProgramMode) (order : QuestionOrder) (patterns : Bool) (mt : MemberType)
    (question : Nat) (meanings : Bool) (n : Nat) (r : Drawn) (s : InStream) : Output :=
  let quizMode := mode == .quiz
  let t := if patterns then GroupType.pattern else GroupType.meaning
  let all := groupsOf d.detail t
  let play (groups : List GroupEntry) (s : InStream) : Output :=
    beginAt quizMode question groups.length (playQuiz quizMode t mt groups question meanings n r.members s)
  if all = [] then (notBegun quizMode question, some (.error (u8!"empty group list")))
  else if patterns then
    (typedOr (u8!"Pattern name (/=quit, 1=ア, 2=カ, 3=サ, 4=タ、ナ, 5=ハ、マ, 6=ヤ、ラ、ワ) def '1': ") (u8!"/123456") (some 0x31) n s
        []).finish fun c s =>
      if c = 0x2f then (notBegun quizMode question, some (.ok s))
      else play (arranged order r.order (worthAsking mt (groupPart (c.toNat - 49) all))) s
  else if order = .fromBeginning ∧ mt = .all then play all s
  else play (arranged order r.order (worthAsking mt all)) s

/-! ## The program -/

/-- The quiz that was chosen. -/
def quizOutput (sort : List KanjiRec → List KanjiRec) (d : DetailStore) (question : Nat) (meanings : Bool) (n : Nat) (r : Drawn) :
    Chosen → InStream → Output
  | .quit, s => ([], some (.ok s))
  | .list mode order l count toReading, s => listOutput sort d mode order l count toReading question meanings n r s
  | .group mode order patterns mt, s => groupOutput d mode order patterns (mt.getD .all) question meanings n r s

/-- What the program writes for its arguments; `card` is what is known about a name, `ranked` the kanji with a frequency
(see `kanjiPage`). -/
def programOutput (sort : List KanjiRec → List KanjiRec) (d : DetailStore) (card : Str → Str) (ranked : Nat → Option KanjiRec)
    (e : StoulTexts) (debug : Bool) (args : List Str) (n : Nat) (r : Drawn) (s : InStream) : Output :=
  match understood e args with
  | .error m => ([], some (.error m))
  | .ok .help => (textOf quizHelp, some (.ok s))
  | .ok (.kanji arg) =>
    match kanjiPage card ranked d.store arg with
    | .text t => (t, some (.ok s))
    | .error m => ([], some (.error m))
    | .ub => ([], none)
  | .ok (.start a) =>
    if debug then ([], some (.ok s))
    else (dialog n a s).finish (quizOutput sort d a.question a.showMeanings n r)

/-- What is written to the two streams, and the exit code. -/
def mainOutput (o : Output) : Str × Option (Str × Nat) :=
  (o.1, o.2.map fun x => match x with | .ok _ => ([], 0) | .error m => (m ++ u8!"\n", 1))

end Spec
