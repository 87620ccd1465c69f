import Verif.Spec.DefinitionLink
/-!
# Specification of the counts of links in definitions

Each entry with a link is counted at the place where its link is found: the word, the part of the definition, and
whether a kanji or a code is written there.
-/
namespace Spec
open KT

/-- A word, a part and whether it is a code. -/
abbrev LinkPlace := Str × Nat × Bool

/-- The places in the order of the search. -/
def linkPlaces : List LinkPlace := linkWords.flatMap fun w => [0, 1, 2].flatMap fun n => [(w, n, false), (w, n, true)]

/-- The codes at a place. -/
def codesAt (p : LinkPlace) (d : Str) : List Str :=
  match (definitionParts d)[p.2.1]? with
  | none => []
  | some part =>
    if p.2.2 then (namedCode p.1 part).toList
    else match namedCharacters p.1 part with
      | some s => ((fromUtf8 s).getD []).map fun c => toUnicode c
      | none => []

/-- The first place with a kanji that has readings. -/
def firstPlace (es : List UcdEntry) (d : Str) : Option LinkPlace :=
  linkPlaces.find? fun p => (codesAt p d).any fun c => (readingOf es c).isSome

/-- The entries whose link is found at a place. -/
def foundAt (es fs : List UcdEntry) (p : LinkPlace) : Nat :=
  fs.countP fun e => e.searched && firstPlace es e.definition == some p

/-- The entries with a link. -/
def linkedEntries (es fs : List UcdEntry) : Nat := fs.countP fun e => e.searched && (firstPlace es e.definition).isSome

/-- The links given by the script for which none is found. -/
def manualOnly (es fs : List UcdEntry) : Nat :=
  manualLinks.countP fun p => !fs.any fun e => e.cp == p.1 && e.searched && (firstPlace es e.definition).isSome

/-! ## The table -/

/-- To the left of a column. -/
def leftCell (n : Nat) (s : Str) : Str := s ++ List.replicate (n - s.length) 0x20
/-- To the right of a column. -/
def rightCell (n : Nat) (s : Str) : Str := List.replicate (n - s.length) 0x20 ++ s

/-- The line for a word. -/
def wordLine (es fs : List UcdEntry) (w : Str) : Str :=
  let n := fun k b => foundAt es fs (w, k, b)
  u8!"  " ++ leftCell 19 (u8!"  '" ++ w ++ u8!"'") ++ u8!" " ++
  rightCell 4 (toDec (n 0 false + n 0 true + (n 1 false + n 1 true) + (n 2 false + n 2 true))) ++ u8!"  " ++
  ([0, 1, 2].flatMap fun k =>
    leftCell 11 (u8!"(" ++ rightCell 3 (toDec (n k false)) ++ u8!"," ++ rightCell 3 (toDec (n k true)) ++ u8!")")) ++ u8!"\n"

/-- The number of links and the table. -/
def linkReport (es fs : List UcdEntry) (order : List Str) : Str :=
  u8!"found " ++ toDec (linkedEntries es fs + manualOnly es fs) ++ u8!"\n" ++
  u8!"  Types: 8           Total   utf uni    utf uni    utf uni   \n" ++ order.flatMap (wordLine es fs) ++
  u8!"    (manually set)    " ++ rightCell 4 (toDec (manualOnly es fs)) ++ u8!"\n"

end Spec
