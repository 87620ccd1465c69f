import Verif.Model.QuizPrint
import Verif.Spec.Jukugo
/-!
# What is printed for groups and Jukugo while the data is loaded
-/
namespace Spec
open KT

/-- How many words each file has that weren't in the files before. -/
def newWords (before : List Jukugo) : List (List Jukugo) → List Nat
  | [] => []
  | ws :: wss => (ws.filter fun j => decide (j ∉ before)).eraseDups.length :: newWords (before ++ ws) wss

/-- The lines for the files. -/
def loadedLines (files : List (Nat × KanjiGrade)) : Str :=
  (files.map fun p => u8!">>> Loaded " ++ toDec p.1 ++ u8!" for Grade: " ++ p.2.toString ++ u8!"\n").flatten

/-- The line for the kanji of a type: the type in a column of 14, the number of kanji and the first 12 of them. -/
def jukugoLine (fill : UInt8) (t : Option KanjiType) (kanji : List Str) : Str :=
  List.replicate (14 - (anyTypeText t).length) fill ++ anyTypeText t ++ u8!": " ++ toDec kanji.length ++ u8!" (" ++
    (u8!" ").intercalate (kanji.take 12) ++ u8!")\n"

/-- The lines for all types for which there are kanji. -/
def jukugoLines (fill : UInt8) (typeOf : Str → Option KanjiType) (kanji : List Str) : Str :=
  (allKanjiTypes.map fun t =>
    let ks := kanji.filter fun k => decide (typeOf k = t)
    if ks = [] then [] else jukugoLine fill t ks).flatten

/-- The messages for the members of pattern groups that are already in another one, which is the first group with the
kanji. -/
def alreadyInGroup (before : List Group) : List Group → List Str
  | [] => []
  | g :: gs =>
    (g.members.filterMap fun k =>
      (before.find? fun b => b.members.any (·.kanji.name == k.kanji.name)).map (alreadyIn k.kanji.name g)) ++
    alreadyInGroup (before ++ [g]) gs

end Spec
