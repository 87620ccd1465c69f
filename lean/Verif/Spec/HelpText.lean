import Verif.Model.Basic
/-!
# Reading a help text
-/
namespace Spec
open KT

/-- The option that a line explains: after blanks `-`, its letter, and a colon or a blank. -/
def explainedOption (line : Str) : Option UInt8 :=
  match line.dropWhile (· == 0x20) with
  | a :: c :: d :: _ => if a == 0x2d && (d == 0x3a || d == 0x20) then some c else none
  | _ => none

/-- The options explained by a help text. -/
def explainedOptions (help : List Str) : List UInt8 := help.filterMap explainedOption

/-- The letter that an indented line of the form `    h: text` explains. -/
def explainedLetter (line : Str) : Option UInt8 :=
  match line with
  | a :: b :: c :: d :: e :: f :: _ => if [a, b, c, d] = u8!"    " && f == 0x3a then some e else none
  | _ => none

def explainedLetters (help : List Str) : List UInt8 := help.filterMap explainedLetter

/-- What stands in brackets after `-` and a letter. -/
def bracketed (letter : UInt8) : Str → Option Str
  | a :: b :: c :: r =>
    if a == 0x2d && b == letter && c == 0x5b then some (r.takeWhile (· != 0x5d)) else bracketed letter (b :: c :: r)
  | _ => none

/-- The characters meant by a text like `1-9a-c`. -/
def expandSet : Str → List UInt8
  | a :: 0x2d :: b :: r => ((List.range 256).map UInt8.ofNat).filter (fun c => a ≤ c && c ≤ b) ++ expandSet r
  | a :: r => a :: expandSet r
  | [] => []

end Spec
