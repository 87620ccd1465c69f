import Verif.Spec.UcdEntry
import Verif.Model.Str
/-!
# Specification of the links in definitions

The words that announce another kanji in a definition, and the codes found behind them.  Of the model only the names
of codes (`toUnicode`, C09) and `fromUtf8` (C01-C05) are used, and the types of `Verif/Spec/UcdEntry.lean`.
-/
namespace Spec
open KT

/-- Words in front of another kanji, in the order in which they are searched. -/
def linkWords : List Str :=
  [u8!"variant", u8!"interchangeable", u8!"same", u8!"non-classical", u8!"Variant", u8!"standard", u8!"simplified",
   u8!"ancient"]

/-- May be between the word and the kanji: lower-case letters, digits, blanks, commas and hyphens. -/
def isBetween (b : UInt8) : Bool :=
  (0x61 ≤ b && b ≤ 0x7a) || (0x30 ≤ b && b ≤ 0x39) || [0x20, 0x2c, 0x2d].contains b

/-- Not a visible ASCII character or blank. -/
def isOther (b : UInt8) : Bool := !(0x20 ≤ b && b ≤ 0x7e)

/-- A digit of a code. -/
def isCodeDigit (b : UInt8) : Bool := (0x30 ≤ b && b ≤ 0x39) || (0x41 ≤ b && b ≤ 0x46)

/-- The parts of a definition: each ends with a closing bracket or the definition. -/
def definitionParts : Str → List Str
  | [] => [[]]
  | b :: s =>
    if b = 0x29 then [] :: definitionParts s
    else match definitionParts s with
      | [] => [[b]]
      | p :: ps => (b :: p) :: ps

/-- The texts behind each occurrence of a word, the last occurrence first. -/
def behind (w : Str) : Str → List Str
  | [] => []
  | b :: s => behind w s ++ if w.isPrefixOf (b :: s) then [(b :: s).drop w.length] else []

/-- The text behind a word without what may be between. -/
def afterFill (s : Str) : Str := s.dropWhile isBetween

/-- The characters behind the last occurrence of a word; there must be some behind one of the occurrences. -/
def namedCharacters (w part : Str) : Option Str :=
  if (behind w part).any fun s => (afterFill s).head?.any isOther then
    (behind w part).head?.map fun s => (afterFill s).takeWhile isOther
  else none

/-- The code behind the last occurrence of a word with `U+` behind it. -/
def namedCode (w part : Str) : Option Str :=
  ((behind w part).find? fun s => (u8!"U+").isPrefixOf (afterFill s)).map fun s => ((afterFill s).drop 2).takeWhile isCodeDigit

/-- The codes in a part of a definition. -/
def partCodes (w part : Str) : List Str :=
  (match namedCharacters w part with
   | some s => ((fromUtf8 s).getD []).map fun c => toUnicode c
   | none => []) ++ (namedCode w part).toList

/-- The codes in a definition: word by word, in the first three parts. -/
def definitionCodes (d : Str) : List Str :=
  linkWords.flatMap fun w => ((definitionParts d).take 3).flatMap (partCodes w)

/-- One of the words followed by a blank or a comma is in the definition. -/
def announces (d : Str) : Bool :=
  linkWords.any fun w => (behind w d).any fun s => s.head? == some 0x20 || s.head? == some 0x2c

/-- An entry that is searched for links. -/
def UcdEntry.searched (e : UcdEntry) : Bool := e.marks == 0 && announces e.definition

end Spec
