import Verif.Model.LoadData
import Verif.Spec.Text
/-!
# Data files whose names fit together

Conditions on the names in the data files under which loading them can't fail an assertion.
-/
namespace Spec
open KT

/-- The cells between separators, without an empty one at the end (as read by `std::getline`). -/
def cellsBetween (sep : UInt8) (s : Str) : List Str := dropEmptyLast (split sep s)

/-- The words of a list file. -/
def wordsIn (text : Str) : List Str := (cellsBetween 0x0a text).flatMap (cellsBetween 0x20)

/-- The old names given in a row of jouyou.txt or jinmei.txt. -/
def oldNamesIn (r : CellRow) : List Str := cellsBetween 0x2c r.oldNames

/-- The second name in a line of linked-jinmei.txt. -/
def linkedIn (line : Str) : List Str := ((cellsBetween 0x09 line).drop 1).take 1

/-- All names of linked kanji. -/
def linkedNames (f : KanjiFiles) : List Str :=
  f.linkedJinmei.flatMap linkedIn ++ (f.jouyou ++ f.jinmei).flatMap oldNamesIn

/-- The names in the rows of the kanji files. -/
def rowNames (f : KanjiFiles) : List Str := (f.jouyou ++ f.jinmei ++ f.extra).map (·.name)

/-- A word of one of the list files. -/
def ListedIn (f : DataFiles) (n : Str) : Prop :=
  (∃ l, n ∈ wordsIn (f.levels l)) ∨ n ∈ wordsIn f.frequency ∨ (∃ k, n ∈ wordsIn (f.kyus k))

/-- A name from which a kanji may be made. -/
def NamedIn (f : DataFiles) (n : Str) : Prop :=
  n ∈ rowNames f.kanji ∨ n ∈ linkedNames f.kanji ∨ ListedIn f n ∨ ∃ r ∈ f.ucd, r.name = n

/-- The names fit together: every name is one character; a kanji of a JLPT level is a Jouyou kanji or a Jinmei kanji that
isn't an official variant of another; a kanji with a frequency is not in extra.txt; and where a name has a variation selector
the entries of the Unicode file that link to the character without it are in no list. -/
structure NamesFit (f : DataFiles) : Prop where
  character : ∀ n, NamedIn f n → utf8Size n = some 1
  level : ∀ x n, n ∈ wordsIn (f.levels x) →
    n ∈ f.kanji.jouyou.map (·.name) ∨ n ∈ f.kanji.jinmei.map (·.name) ∧ n ∉ linkedNames f.kanji
  frequency : ∀ n ∈ wordsIn f.frequency, n ∉ f.kanji.extra.map (·.name)
  variants : ∀ n, NamedIn f n → isCharWithVariationSelector n = some true →
    ∀ b, noVariationSelector n = some b → ∀ r ∈ f.ucd, b ∈ cellsBetween 0x2c r.linkNames → ¬ ListedIn f r.name

end Spec
