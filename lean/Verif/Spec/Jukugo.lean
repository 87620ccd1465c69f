import Verif.Model.Jukugo
/-!
# Specification of jukugo files
-/
namespace Spec
open KT

/-- An entry is a name and a reading in brackets, with a space between them if there is one entry per
line. -/
def entryText (onePerLine : Bool) (name reading : Str) : Str :=
  name ++ (if onePerLine then [0x20] else []) ++ [0x28] ++ reading ++ [0x29]

/-- The bytes of a string have no brackets. -/
def NoBrackets (s : Str) : Prop := 0x28 ∉ s ∧ 0x29 ∉ s

/-- The word that an entry denotes. -/
def entryWord (onePerLine : Bool) (grade : KanjiGrade) (entry : Str) : Option Jukugo :=
  match splitEntry entry onePerLine with
  | .ok (n, r) =>
    match createJukugo n r grade with
    | .ok j => some j
    | _ => none
  | _ => none

/-- The words of a file in order, `none` if one of its entries or lines is malformed. -/
def fileWords (f : Str × KanjiGrade) : Option (List Jukugo) :=
  if f.2 ≠ .s then (fields 0x0a f.1).mapM (entryWord true f.2)
  else ((fields 0x0a f.1).mapM fun l =>
    match otherEntries l with
    | .ok es => es.mapM (entryWord false .s)
    | _ => none).map List.flatten

/-- The words of several files. -/
def allWords (fs : List (Str × KanjiGrade)) : Option (List Jukugo) := (fs.mapM fileWords).map List.flatten

/-- Words with the same name and reading have the same grade. -/
def OneGrade (ws : List Jukugo) : Prop :=
  ∀ a ∈ ws, ∀ b ∈ ws, a.name = b.name → a.reading = b.reading → a.grade = b.grade

end Spec
