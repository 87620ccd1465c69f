import Verif.Spec.GroupTalk
import Verif.Spec.LaunchSession
/-!
# Specification of the dialog before a quiz for any input
-/
namespace Spec
open KT

/-- The answer that a line gives. -/
def keyIn (keys : List UInt8) (dflt : Option UInt8) : Str → Option UInt8
  | [] => dflt
  | [c] => if c ∈ keys then some c else none
  | _ => none

/-- Prompt until a line is one of the keys, or empty if there is a default, with at most `n` lines of input; at the end of
the input the last line is seen again. -/
def typedOr (prompt : Str) (keys : List UInt8) (dflt : Option UInt8) : Nat → InStream → Str → Talk UInt8
  | 0, _, _ => ([], none)
  | n + 1, s, line =>
    let (s, line) := s.getline line
    match keyIn keys dflt line with
    | some c => (prompt, some (c, s))
    | none => Talk.begin prompt (typedOr prompt keys dflt n s line)

/-- The answers so far. -/
abbrev Answers := LaunchQ → UInt8

def Answers.with (k : Answers) (q : LaunchQ) (c : UInt8) : Answers := fun x => if x = q then c else k x

/-- The number of choices and the style are only asked for in a test with a list. -/
def applies (k : Answers) : LaunchQ → Bool
  | .count => k .mode == 0x74 && (u8!"fgkl").contains (k .type)
  | .style => k .mode == 0x74 && (u8!"fgkl").contains (k .type)
  | _ => true

/-- Questions that options don't answer are asked, until one is answered with the key to quit. -/
def converse (n : Nat) (given : LaunchQ → Option UInt8) : List LaunchQ → Answers → InStream → Talk (Option Answers)
  | [], k, s => ([], some (some k, s))
  | q :: qs, k, s =>
    match given q with
    | some c => converse n given qs (k.with q c) s
    | none =>
      if applies k q then
        (typedOr (launchPrompt (k .type) q) (launchKeys (k .type) q) (launchDefault (k .type) q) n s []).next fun c s =>
          if c = 0x2f then ([], some (none, s)) else converse n given qs (k.with q c) s
      else converse n given qs k s

/-- The answers that settings stand for. -/
def givenBy (a : LaunchArgs) : LaunchQ → Option UInt8
  | .mode => (match a.launcher.mode with | .review => some 0x72 | .quiz => some 0x74 | .notAssigned => none)
  | .order => (match a.launcher.order with
    | .fromBeginning => some 0x62 | .fromEnd => some 0x65 | .random => some 0x72 | .notAssigned => none)
  | .type => a.quizType
  | .list => a.qList
  | _ => none

/-- The quiz that answers stand for. -/
def quizFor (k : Answers) : Chosen :=
  chosenQuiz (if k .mode = 0x72 then .review else .quiz)
    (if k .order = 0x62 then .fromBeginning else if k .order = 0x65 then .fromEnd else .random) k (k .type) (k .list)

/-- The dialog. -/
def dialog (n : Nat) (a : LaunchArgs) (s : InStream) : Talk Chosen :=
  (converse n (givenBy a) [.mode, .order, .type, .list, .count, .style] (fun _ => 0) s).next fun k s =>
    ([], some (match k with | none => .quit | some k => quizFor k, s))

end Spec
