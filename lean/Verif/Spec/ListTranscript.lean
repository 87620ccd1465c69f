import Verif.Spec.GroupTranscript
import Verif.Spec.ListSession
import Verif.Model.ListSession
/-!
# Specification of a whole list quiz: everything written for any input
-/
namespace Spec
open KT

/-- Prompt until a line is one of the keys, with at most `n` lines of input; at the end of the input the last line is
seen again. -/
def typed (prompt : Str) (keys : List UInt8) : Nat → InStream → Str → Talk UInt8
  | 0, _, _ => ([], none)
  | n + 1, s, line =>
    match s.getline line with
    | (s, [c]) => if c ∈ keys then (prompt, some (c, s)) else Talk.begin prompt (typed prompt keys n s [c])
    | (s, line) => Talk.begin prompt (typed prompt keys n s line)

/-- The numbers drawn that belong to new readings, in order. -/
def newReadings (readings : List Str) : List Str → List Nat → List Nat
  | _, [] => []
  | seen, d :: ds =>
    let r := readings.getD d []
    if r ∈ seen then newReadings readings seen ds else d :: newReadings readings (r :: seen) ds

/-- The answers shown: the question itself at the position drawn, and around it numbers drawn that have new readings. -/
def shownAnswers (readings : List Str) (question count correct : Nat) (draws : List Nat) : Option (List Nat) :=
  let others := newReadings readings [readings.getD question []] draws
  if others.length + 1 < count then none
  else some (others.take correct ++ question :: (others.drop correct).take (count - 1 - correct))

/-- The question. -/
def askedText (y : ListStyle) (i : ListItem) (meanings : Bool) : Str :=
  (if y.toReading then i.name ++ (if i.info = [] then [] else u8!"  " ++ i.info) ++ (if y.quizMode then [] else i.extra)
   else u8!"Reading:  " ++ i.reading) ++
  (match i.meaning with
   | some m => if meanings then (if y.quizMode then u8!" : " else u8!"\n    Meaning: ") ++ m else []
   | none => []) ++ u8!"\n"

/-- The numbered answers in a quiz, details in a review. -/
def answersText (y : ListStyle) (items : List ListItem) (answers : List Nat) (i : ListItem) : Str :=
  if y.quizMode then
    ((answers.filterMap (items[·]?)).zipIdx.map fun p =>
      u8!"    " ++ toDec (p.2 + 1) ++ u8!".  " ++ (if y.toReading then p.1.reading else p.1.name) ++ u8!"\n").flatten
  else i.details

/-- What is shown of a question. -/
def listPage (y : ListStyle) (number : Nat) (items : List ListItem) (answers : List Nat) (i : ListItem) (meanings : Bool) :
    Str :=
  (if y.quizMode then u8!"\nQuestion " else u8!"\n") ++ toDec number ++ u8!"/" ++ toDec items.length ++ u8!":  " ++
    askedText y i meanings ++ answersText y items answers i

/-- A question until it is answered: it is shown again when meanings are switched. -/
def talkListQuestion (y : ListStyle) (first last : Bool) (page : Bool → Str) (n : Nat) :
    Nat → Bool → InStream → Talk (UInt8 × Bool)
  | 0, _, _ => ([], none)
  | fuel + 1, meanings, s =>
    Talk.begin (page meanings)
      ((typed (listPrompt y.quizMode y.toReading meanings first last y.count) (listKeys y.quizMode first y.count) n s []).next
        fun c s => if c = 0x2d then talkListQuestion y first last page n fuel (!meanings) s else ([], some ((c, meanings), s)))

/-- The verdict for an answer and the standing after it; the result tells whether the quiz was quit. -/
def listVerdict (name : Str) (correct : Nat) (z : Standing) (c : UInt8) : Str × Standing × Bool :=
  if c = 0x2f then ([], z, true)
  else if c = 0x2c then ([], { z with before := z.before - 1 }, false)
  else if c = 0x2e then ([], { z with before := z.before + 1 }, false)
  else if c.toNat = 49 + correct then
    (u8!"  Correct! (" ++ toDec (z.right + 1) ++ u8!"/" ++ toDec (z.before + 1) ++ u8!")\n",
      { z with before := z.before + 1, right := z.right + 1 }, false)
  else (u8!"  Incorrect (correct answer is " ++ toDec (correct + 1) ++ u8!")\n",
      { z with before := z.before + 1, wrong := z.wrong ++ [name] }, false)

/-- Questions until the last one or until the quiz is quit; `draws` has the position of the right answer and the numbers
drawn for the others of each question. -/
def playItems (y : ListStyle) (items : List ListItem) (n : Nat) :
    List (Nat × List Nat) → Standing → InStream → Talk Standing
  | draws, z, s =>
    match items[z.before]? with
    | none => ([], some (z, s))
    | some i =>
      match draws with
      | [] => ([], none)
      | (correct, ds) :: draws =>
        match shownAnswers (items.map (·.reading)) z.before y.count correct ds with
        | none => ([], none)
        | some answers =>
          (talkListQuestion y (z.before == 0) (z.before + 1 == items.length) (listPage y (z.before + 1) items answers i) n n
              z.meanings s).next fun x s =>
            let v := listVerdict i.name correct { z with meanings := x.2 } x.1
            Talk.begin v.1 (if v.2.2 then ([], some (v.2.1, s)) else playItems y items n draws v.2.1 s)

/-- A quiz for these kanji. -/
def playList (y : ListStyle) (legend : Str) (items : List ListItem) (question : Nat) (meanings : Bool) (n : Nat)
    (draws : List (Nat × List Nat)) (s : InStream) : Talk Unit :=
  Talk.begin (u8!">>>\n>>> Starting " ++ (if y.quizMode then u8!"quiz" else u8!"review") ++ u8!" for " ++ toDec items.length ++
      u8!" kanji\n>>>\n" ++ (if y.toReading then legend else []))
    ((playItems y items n draws ⟨question - 1, 0, [], meanings⟩ s).next fun z s =>
      (if y.quizMode then lastLine z else [], some ((), s)))

end Spec
