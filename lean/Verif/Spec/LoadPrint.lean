import Verif.Model.LoadReport
/-!
# What is printed for the lists while the data is loaded
-/
namespace Spec
open KT

/-- A line of the report for a list: nothing if there are no names. -/
def foundLine (names : List Str) (what list : Str) : Str :=
  if names = [] then []
  else u8!">>> Found " ++ toDec names.length ++ u8!" " ++ what ++ u8!" in " ++ list ++ u8!":" ++
    (names.map fun x => u8!" " ++ x).flatten ++ u8!"\n"

/-- The entries of a list for which a kanji of type `t` was there. -/
def entriesOfType (es : List (Str × Option KanjiRec)) (t : KanjiType) : List Str :=
  (es.filter fun e => decide (e.2.map (·.kanji.type) = some t)).map (·.1)

/-- The entries of a list for which no kanji was there. -/
def entriesNew (es : List (Str × Option KanjiRec)) : List Str := (es.filter fun e => e.2.isNone).map (·.1)

/-- What is printed for a list: nothing for a Kyu, the Jinmei kanji for a JLPT level, and for the frequency list the kanji
that aren't Jouyou, those for which there is a JLPT level apart from the others. -/
def listText (level : Str → Option JlptLevel) (kind : ListKind) (es : List (Str × Option KanjiRec)) : Str :=
  match kind with
  | .kyu _ => []
  | .level l => foundLine (entriesOfType es .jinmei) (u8!"Jinmei") l.toString
  | .frequency =>
    let jlpt (t : KanjiType) := (entriesOfType es t).filter fun n => (level n).isSome
    let other (t : KanjiType) := (entriesOfType es t).filter fun n => !(level n).isSome
    foundLine (entriesOfType es .linkedOld) (u8!"Linked Old") (u8!"Frequency") ++
    foundLine (entriesNew es) (u8!"non-Jouyou/Jinmei/JLPT") (u8!"Frequency") ++
    foundLine (jlpt .jinmei) (u8!"JLPT Jinmei") (u8!"Frequency") ++
    foundLine (other .jinmei) (u8!"non-JLPT Jinmei") (u8!"Frequency") ++
    foundLine (jlpt .linkedJinmei) (u8!"JLPT Linked Jinmei") (u8!"Frequency") ++
    foundLine (other .linkedJinmei) (u8!"non-JLPT Linked Jinmei") (u8!"Frequency")

/-! ## Errors -/

/-- The messages for a kanji `x` that is inserted after the kanji `before`: one if there is a kanji with its name already,
otherwise at most one for a contradiction to its Unicode entry and one if it has a variation selector and the same
compatibility kanji as another kanji with variation selector. -/
def offerMessages (before : List KanjiRec) (x : KanjiRec × Option Ucd) : List Str :=
  if before.any (·.kanji.name == x.1.kanji.name) then [u8!"failed to insert '" ++ x.1.kanji.name ++ u8!"' into map"]
  else (sanityMessage x.1.kanji x.2).toList ++
    if x.1.kanji.variant && before.any fun y => y.kanji.variant && y.kanji.compatibilityName == x.1.kanji.compatibilityName
    then [u8!"failed to insert variant '" ++ x.1.kanji.name ++ u8!"' into map"] else []

/-- The messages for kanji that are inserted one after the other. -/
def offersMessages (before : List KanjiRec) : List (KanjiRec × Option Ucd) → List Str
  | [] => []
  | x :: xs => offerMessages before x ++
      offersMessages (if before.any (·.kanji.name == x.1.kanji.name) then before else before ++ [x.1]) xs

end Spec
