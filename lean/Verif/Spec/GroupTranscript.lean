import Verif.Spec.GroupTalk
import Verif.Model.DisplaySize
/-!
# Specification of a whole group quiz: everything written for any input

For groups of which at most 26 members are shown.  Numbers are natural numbers and nothing can fail.
-/
namespace Spec
open KT

/-- Blanks up to a number of columns. -/
def fillTo (w : Nat) (s : Str) : Str := s ++ List.replicate (w - displaySize s) 0x20

/-- Aligned to the right. -/
def rightTo (w : Nat) (s : Str) : Str := List.replicate (w - s.length) 0x20 ++ s

/-- The letter of a line, a blank in a review. -/
def rowLetter (quizMode : Bool) (k : Nat) : UInt8 := if quizMode then UInt8.ofNat (97 + k) else 0x20

/-- The number of the question a letter was chosen for. -/
def rowMark (answers : List UInt8) (c : UInt8) : Str :=
  match answers.findIdx? (· == c) with
  | some i => rightTo 2 (toDec (i + 1)) ++ u8!"->"
  | none => u8!"    "

/-- The pinyin of a member. -/
def rowPinyin : Option Str → Str
  | some p => u8!"  (" ++ p ++ u8!")"
  | none => []

/-- The number of the group of the other type. -/
def rowOther (t : GroupType) : Option Nat → Str
  | some n => (if t = .meaning then u8!"p:" else u8!"m:") ++ toDec n
  | none => []

/-- A line: the member on the left belongs to the question, the one on the right to the letter. -/
def groupRow (quizMode : Bool) (t : GroupType) (answers : List UInt8) (meanings : Bool) (k : Nat) (q r : GroupItem) : Str :=
  rightTo 4 (toDec (k + 1)) ++ u8!":  " ++
    fillTo 22 (q.shown.qualifiedName ++ fillTo 12 (rowPinyin q.shown.pinyin) ++
      (if quizMode then [] else rowOther t q.shown.other)) ++
    rowMark answers (rowLetter quizMode k) ++ [rowLetter quizMode k] ++ u8!":  " ++ r.reading ++
    (match r.meaning with | some m => if meanings then u8!" : " ++ m else [] | none => []) ++ u8!"\n"

/-- The lines from number `k` on. -/
def groupRows (quizMode : Bool) (t : GroupType) (answers : List UInt8) (meanings : Bool) :
    Nat → List GroupItem → List GroupItem → Str
  | k, q :: qs, r :: rs => groupRow quizMode t answers meanings k q r ++ groupRows quizMode t answers meanings (k + 1) qs rs
  | _, _, _ => []

/-- What is shown of a question. -/
def groupPage (quizMode : Bool) (t : GroupType) (number total : Nat) (g : GroupEntry) (qs rs : List GroupItem)
    (answers : List UInt8) (meanings : Bool) : Str :=
  (if quizMode then u8!"\nQuestion " else u8!"\n") ++ toDec number ++ u8!"/" ++ toDec total ++ u8!":  " ++ g.title ++
    u8!", " ++ (if qs.length = g.members.length then toDec qs.length
      else u8!"showing " ++ toDec qs.length ++ u8!" out of " ++ toDec g.members.length) ++ u8!" members\n" ++
    groupRows quizMode t answers meanings 0 qs rs ++ u8!"\n"

/-- Where a quiz is: the questions before the current one, right answers, names of groups answered wrong, and whether
meanings are shown. -/
structure Standing where
  before : Nat
  right : Nat
  wrong : List Str
  meanings : Bool

/-- A question and its verdict; the result tells whether the quiz was quit. -/
def playGroup (quizMode : Bool) (t : GroupType) (total : Nat) (g : GroupEntry) (qs rs : List GroupItem) (n : Nat)
    (z : Standing) (s : InStream) : Talk (Standing × Bool) :=
  (talkQuestion quizMode (z.before == 0) (z.before + 1 == total) qs.length n
      (groupPage quizMode t (z.before + 1) total g qs rs) n [] z.meanings s).next fun x s =>
    let z := { z with meanings := x.2.2 }
    match x.1 with
    | .complete =>
      let right := rightCount z.meanings qs rs (x.2.1.map fun c => c.toNat - 97)
      (verdict right qs.length (z.right + 1) (z.before + 1),
        some ((if right = qs.length then { z with before := z.before + 1, right := z.right + 1 }
          else { z with before := z.before + 1, wrong := z.wrong ++ [g.name] }, false), s))
    | .stop => ([], some ((z, true), s))
    | .prev => ([], some (({ z with before := z.before - 1 }, false), s))
    | .skip => ([], some (({ z with before := z.before + 1 }, false), s))
    | .refresh => ([], some ((z, false), s))

/-- Members in an order that was drawn. -/
def mixed (quizMode : Bool) (idx : List Nat) (l : List GroupItem) : List GroupItem :=
  if quizMode = true ∧ idx.Perm (List.range l.length) then inOrder idx l else l

/-- Questions until the last one or until the quiz is quit. -/
def playGroups (quizMode : Bool) (t : GroupType) (mt : MemberType) (groups : List GroupEntry) (n : Nat) :
    List (List Nat × List Nat) → Standing → InStream → Talk Standing
  | orders, z, s =>
    match groups[z.before]? with
    | none => ([], some (z, s))
    | some g =>
      match orders with
      | [] => ([], none)
      | order :: orders =>
        (playGroup quizMode t groups.length g (mixed quizMode order.1 (shownMembers mt g))
            (mixed quizMode order.2 (shownMembers mt g)) n z s).next fun x s =>
          if x.2 then ([], some (x.1, s)) else playGroups quizMode t mt groups n orders x.1 s

/-- The last line of a quiz. -/
def lastLine (z : Standing) : Str :=
  let skipped := z.before - z.right - z.wrong.length
  u8!"\nFinal score: " ++ toDec z.right ++ u8!"/" ++ toDec z.before ++
    (if skipped = 0 then [] else u8!", skipped: " ++ toDec skipped) ++
    (if z.wrong ≠ [] then u8!" - mistakes:" ++ (z.wrong.map fun i => u8!" " ++ i).flatten
     else if z.before ≠ 0 ∧ skipped = 0 then u8!" - Perfect!" else []) ++ u8!"\n"

/-- The first lines. -/
def firstLines (quizMode : Bool) (t : GroupType) (mt : MemberType) (total : Nat) : Str :=
  u8!">>>\n>>> Starting " ++ (if quizMode then u8!"quiz" else u8!"review") ++ u8!" for " ++ toDec total ++
    (if t = .meaning then u8!" Meaning" else u8!" Pattern") ++ u8!" groups\n" ++
    (if mt = .jouyou then []
     else u8!">>>   .=常用 '=JLPT \"=Freq ^=人名用 ~=LinkJ %=LinkO +=Extra @=検定 #=1級 *=Ucd\n")

/-- A quiz for these groups. -/
def playQuiz (quizMode : Bool) (t : GroupType) (mt : MemberType) (groups : List GroupEntry) (question : Nat)
    (meanings : Bool) (n : Nat) (orders : List (List Nat × List Nat)) (s : InStream) : Talk Unit :=
  Talk.begin (firstLines quizMode t mt groups.length)
    ((playGroups quizMode t mt groups n orders ⟨question - 1, 0, [], meanings⟩ s).next fun z s =>
      (if quizMode then lastLine z else [], some ((), s)))

end Spec
