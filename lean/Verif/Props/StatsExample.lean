import Verif.Props.StatsProgram
/-!
# kanjiStats for a small directory (C175): the whole output
-/
namespace KT
open Spec

/-- A tree with the values of a list on its right side. -/
def spineOf {α : Type} : List α → SetTree α
  | [] => .leaf
  | x :: l => .node .leaf x (spineOf l)

theorem spineOf_toList {α : Type} (l : List α) : (spineOf l).toList = l := by
  induction l with
  | nil => rfl
  | cons x l ih => rw [spineOf, SetTree.toList, ih]; rfl

/-- A set where the tree always has this shape. -/
def spineSet {α : Type} (lt : α → α → Bool) (xs : List α) : List α :=
  xs.foldl (fun v k => ((spineOf v).emplace lt k none).getD v) []

/-- It is one of the sets that the theorems are about. -/
theorem spineSet_built {α : Type} (lt : α → α → Bool) (xs : List α) : SetBuilt lt xs (spineSet lt xs) := by
  refine snoc_induction (P := fun xs => SetBuilt lt xs (spineSet lt xs)) .empty ?_ xs
  intro xs k ih
  have e : spineSet lt (xs ++ [k]) = ((spineOf (spineSet lt xs)).emplace lt k none).getD (spineSet lt xs) := by
    simp [spineSet]
  rw [e]
  cases h : (spineOf (spineSet lt xs)).emplace lt k none with
  | none => exact .present ih (spineOf_toList _) h
  | some l => exact .add ih (spineOf_toList _) h

def exampleStats : StatsData where
  findByName s := if s = u8!"漢" then some (witnessKanji .jouyou s 1487) else if s = u8!"字" then some (witnessKanji .jouyou s 485)
    else if s = u8!"鷗" then some (witnessKanji .extra s) else none
  ucd s := s = u8!"漢" || s = u8!"字" || s = u8!"鷗"
  set := spineSet (StatCount.lt 2502)

def exampleTree : Node :=
  .dir (.cons (u8!"a.txt") (.file (u8!"漢字（かんじ）とカナ。\n漢、鷗\n"))
    (.cons (u8!"sub") (.dir (.cons (u8!"b.txt") (.file (u8!"漢字（\nかんじ）はＡ𠮷")) .nil))
    (.cons (u8!"link") (.link (some (.file (u8!"漢")))) .nil)))

def exampleDisk (path : Str) : Option Node := if path = u8!"books/text/" then some exampleTree else none

/-- The whole output with a breakdown and the changed lines; the second path doesn't exist. -/
example : mainStats exampleStats false exampleDisk [u8!"kanjiStats", u8!"-b", u8!"-v", u8!"books/text/", u8!"x"] =
    some (.ok (u8!">>> Showing all Furigana replacements:
Tag 'a.txt'
  1 : 漢字（かんじ）とカナ。
    : 漢字とカナ。
Tag 'b.txt'
  2 : 漢字（かんじ）
    : 漢字
>>> Stats for: 'text' (2 files from 2 directories) - showing top 5 Kanji per type
>>> Furigana Removed: 2, Combining Marks Replaced: 0, Variation Selectors: 0
>>>         Hiragana:      2, unique:    2
>>>         Katakana:      2, unique:    2
>>>     Common Kanji:      6, unique:    3, 100.00%
>>>        [Jouyou] :      5, unique:    2,  83.33%  (漢 3, 字 2)
>>>         [Extra] :      1, unique:    1,  16.67%  (鷗 1)
>>> Showing Breakdown for 'Common Kanji':
  Rank  [Val Num] Freq, LV, Type
  1     [漢    3] 1487, --, Jouyou
  2     [字    2]  485, --, Jouyou
  3     [鷗    1]    0, --, Extra
>>>    Non-UCD Kanji:      1, unique:    1           (𠮷 1)
>>> Showing Breakdown for 'Non-UCD Kanji':
  Rank  [Val Num], Unicode, Highest Count File
  1     [𠮷    1], U+20BB7, b.txt
>>>   MB-Punctuation:      2, unique:    2
>>>        MB-Letter:      1, unique:    1
>>> Total Kana+Kanji: 11 (Hiragana: 18.2%, Katakana: 18.2%, Kanji: 63.6%)\n", u8!"file not found: x\n", 1)) := by decide +kernel

/-- Without options there is only a message. -/
example : mainStats exampleStats false exampleDisk [u8!"kanjiStats"] =
    some (.ok ([], u8!"please specify at least one option or '-h' for help\n", 1)) := by decide +kernel

end KT
