import Verif.Props.StatsFiles
import Verif.Props.StatsExample
import Verif.Props.QuizFilesExample
/-!
# C183: an example

The data files of the example of C180 in '/d/data', two texts in '/d/books', and the programs run in '/d'.
-/
namespace KT
open Spec

def bookWorld : World where
  root := .dir [(u8!"d", .dir [(u8!"data", sampleTree), (u8!"books", .dir [
    (u8!"a.txt", .file (u8!"一（いち）と三つ\n鷗\n")),
    (u8!"more", .dir [(u8!"b.txt", .file (u8!"一カ"))])])])]
  cwd := u8!"/d"

/-- A run of kanjiStats. -/
def statsRun (argv : List Str) : Option StatsEnd :=
  match kanjiStats bookWorld [] true (fun m => spineSet (StatCount.lt m)) argv with
  | some (.ok o) => some o
  | _ => none

/-- The data directory found below the current one, and the report for a directory. -/
example : statsRun [u8!"kanjiStats", u8!"-data", u8!"data", u8!"-b", u8!"books"] = some (.ran
    (u8!">>> Stats for: 'books' (2 files from 2 directories) - showing top 5 Kanji per type
>>> Furigana Removed: 1, Combining Marks Replaced: 0, Variation Selectors: 0
>>>         Hiragana:      2, unique:    2
>>>         Katakana:      1, unique:    1
>>>     Common Kanji:      3, unique:    2, 100.00%
>>>        [Jouyou] :      2, unique:    1,  66.67%  (一 2)
>>>     [Frequency] :      1, unique:    1,  33.33%  (三 1)
>>> Showing Breakdown for 'Common Kanji':
  Rank  [Val Num] Freq, LV, Type
  1     [一    2]    1, N5, Jouyou
  2     [三    1]    2, --, Frequency
>>>    Non-UCD Kanji:      1, unique:    1           (鷗 1)
>>> Showing Breakdown for 'Non-UCD Kanji':
  Rank  [Val Num], Unicode, Highest Count File
  1     [鷗    1],  U+9DD7, a.txt
>>> Total Kana+Kanji: 7 (Hiragana: 28.6%, Katakana: 14.3%, Kanji: 57.1%)\n") [] 0) := by decide +kernel

example : statsRun [u8!"kanjiStats", u8!"-data", u8!"data"] =
    some (.ran [] (u8!"please specify at least one option or '-h' for help\n") 1) := by decide +kernel
example : statsRun [u8!"kanjiStats", u8!"-data", u8!"data", u8!"-info", u8!"-info", u8!"books"] =
    some (.usage oneDebugOption) := by decide +kernel
example : statsRun [u8!"kanjiStats", u8!"-data", u8!"books", u8!"books"] =
    some (.usage (u8!"'books' does not contain 10 expected '.txt' files")) := by decide +kernel

theorem book_up : searchUp bookWorld.dirs (pathOf bookWorld.cwd) = some ⟨true, [u8!"d", u8!"data"]⟩ := by
  rw [searchUp_eq _ _ _ rfl]; decide +kernel

/-- Without '-data' the report is the same. -/
example : statsRun [u8!"kanjiStats", u8!"-b", u8!"books"] =
    statsRun [u8!"kanjiStats", u8!"-data", u8!"/d/data", u8!"-b", u8!"books"] := by
  have h := C183_below bookWorld [] true (fun m => spineSet (StatCount.lt m)) (u8!"kanjiStats") [u8!"-b", u8!"books"] _
    (by decide) (by decide) book_up
  rw [show FsPath.text ⟨true, [u8!"d", u8!"data"]⟩ = u8!"/d/data" by decide] at h
  unfold statsRun
  rw [h]

theorem spineSets_built : SetsBuilt fun m => spineSet (StatCount.lt m) := fun m xs => spineSet_built (StatCount.lt m) xs

/-! ## kanjiFormat -/

example : kanjiFormat bookWorld [u8!"kanjiFormat", u8!"books/more/../more/b.txt"] = ((u8!"一カ\n"), [], 0) := by decide +kernel
example : kanjiFormat bookWorld [u8!"kanjiFormat", u8!"books"] = ([], (u8!"file not found: books\n"), 1) := by decide +kernel

end KT
