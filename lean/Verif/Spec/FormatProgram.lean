import Verif.Model.FormatProgram
import Verif.Spec.Unicode
import Verif.Spec.Utf8
/-!
# Specification of kanjiFormat, and of what its output means
-/
namespace Spec
open KT

/-! ## Lines of characters -/

/-- The last character of a line is a kanji, maybe with a variation selector. -/
def LastIsKanji (a : List Char) : Prop :=
  ∃ c, a.getLast? = some c ∧ (Spec.Kanji c.toNat ∨ (0xfe00 ≤ c.toNat ∧ c.toNat ≤ 0xfe0f))

/-- A line of Hiragana and Katakana. -/
def OnlyKana (b : List Char) : Prop := b ≠ [] ∧ ∀ c ∈ b, Kana c.toNat

/-- A line `b` is the reading of the line `a` before it. -/
def ReadingOf (a b : List Char) : Prop := LastIsKanji a ∧ OnlyKana b

open Classical in
/-- The text that is written: readings in brackets, all other lines with a line end. -/
noncomputable def withReadings : List (List Char) → List Char
  | a :: b :: r =>
    if ReadingOf a b then a ++ ['（'] ++ b ++ ['）'] ++ withReadings r
    else a ++ ['\n'] ++ withReadings (b :: r)
  | [a] => a ++ ['\n']
  | [] => []

open Classical in
/-- The lines that aren't readings. -/
noncomputable def baseLines : List (List Char) → List (List Char)
  | a :: b :: r => if ReadingOf a b then a :: baseLines r else a :: baseLines (b :: r)
  | [a] => [a]
  | [] => []

/-- The text of a file with these lines. -/
def fileText (lines : List (List Char)) : Str := utf8Encode (lines.flatMap fun l => l ++ ['\n'])

/-- Lines of text without brackets. -/
def TextLine (l : List Char) : Prop := ∀ c ∈ l, c ≠ Char.ofNat 0 ∧ c ≠ '\n' ∧ c ≠ '（' ∧ c ≠ '）'

/-! ## The program -/

/-- What the program writes to the output and the error output, and its exit code: the text of the file given as first
argument with the readings in brackets. -/
def formatProgram (content : Str → Option Str) (format : Str → Str) : List Str → Str × Str × Nat
  | [] => ([], u8!"argc is 0, but argv is not null\n", 1)
  | [_] => ([], u8!"specify a file to format\n", 1)
  | _ :: file :: _ =>
    match content file with
    | some text => (format text, [], 0)
    | none => ([], u8!"file not found: " ++ file ++ u8!"\n", 1)

end Spec
