import Verif.Model.GroupSession
/-!
# Specification of a group quiz: when a question is answered right
-/
namespace Spec
open KT

/-- The reading, and the meaning if meanings are shown, are the same. -/
def sameReading (shown : Bool) (q m : GroupItem) : Bool :=
  q.reading == m.reading && (!shown || q.meaning.getD [] == m.meaning.getD [])

/-- The number of right answers, where `idx` has the line chosen for each question. -/
def rightCount (shown : Bool) (questions readings : List GroupItem) (idx : List Nat) : Nat :=
  (questions.zip idx).countP fun p => (readings[p.2]?).any (sameReading shown p.1)

/-- What is written after the last answer. -/
def verdict (right count correct number : Nat) : Str :=
  if right = count then u8!"  Correct! (" ++ toDec correct ++ u8!"/" ++ toDec number ++ u8!")\n"
  else u8!"  Incorrect (got " ++ toDec right ++ u8!" right out of " ++ toDec count ++ u8!")\n"

/-- Members shown in an order that is drawn: the first position drawn is the first line. -/
def inOrder (idx : List Nat) (l : List GroupItem) : List GroupItem := idx.filterMap (l[·]?)

/-- The question for a group with these members and the way it is shown: the choices are letters in a quiz. -/
def shownMembers (mt : MemberType) (g : GroupEntry) : List GroupItem := g.members.filter fun i => includeMember mt i.info

/-- The letters of a group with this many members, in alphabetical order: `a` to `z`, then `A` and so on for more, which
come first in the order of characters. -/
def sortedLetters (count : Nat) : List UInt8 :=
  ((List.range (count - 26)).map fun i => UInt8.ofNat (65 + i)) ++
    (List.range (min count 26)).map fun i => UInt8.ofNat (97 + i)

/-- What is offered apart from letters. -/
def groupExtras (quizMode first last shown answered : Bool) : List (UInt8 × Str) :=
  (if answered then [(0x27, u8!"refresh"), (0x2a, u8!"edit")] else []) ++
  (if quizMode || first then [] else [(0x2c, u8!"prev")]) ++
  [(0x2d, if shown then u8!"hide meanings" else u8!"show meanings"),
   (0x2e, if last then u8!"finish" else if quizMode then u8!"skip" else u8!"next")]

/-- What is offered for a question with these answers so far: the letters that weren't chosen, showing or hiding
meanings, going on, quitting, and after an answer changing it or showing the group again; in a review there are no
letters, but one can go back after the first question. -/
def groupOffered (quizMode first last shown : Bool) (count : Nat) (answers : List UInt8) : List (UInt8 × Str) :=
  groupExtras quizMode first last shown (answers ≠ []) ++ [(0x2f, u8!"quit")] ++
  (if quizMode then ((sortedLetters count).filter fun c => !answers.contains c).map fun c => (c, []) else [])

end Spec
