import Verif.Model.Format
/-!
# Specification of the format program
-/
namespace Spec
open KT

/-- What may follow a line in the output. -/
def lineEnds : List Str := [u8!"\n", u8!"（", u8!"）"]

/-- Each line followed by one of the above. -/
def KeepsLines (lines : List Str) (out : Str) : Prop :=
  ∃ ends : List Str, ends.length = lines.length ∧ (∀ e ∈ ends, e ∈ lineEnds) ∧
    out = (List.zipWith (· ++ ·) lines ends).flatten

/-- The documented output: a line that consists of kana and follows a line that ends with a kanji is put
in brackets after it. -/
def formatted : List Str → Str
  | a :: b :: r =>
    if endsWithKanji a ∧ allKanaLine b then a ++ u8!"（" ++ b ++ u8!"）" ++ formatted r
    else a ++ u8!"\n" ++ formatted (b :: r)
  | [a] => a ++ u8!"\n"
  | [] => []

end Spec
