import Verif.Model.Basic
import Verif.Spec.Text
/-!
# Specification of tables
-/
namespace Spec
open KT (Str)

/-- Text made of complete lines. -/
def textOf (lines : List Str) : Str := lines.flatMap fun l => l ++ [0x0a]

/-- The number of column separators in a line of a Markdown table: pipes not directly preceded by a
backslash (`prev` is the byte before). -/
def separators (prev : UInt8) : Str → Nat
  | [] => 0
  | b :: r => (if b = 0x7c ∧ prev ≠ 0x5c then 1 else 0) + separators b r

/-- What a Markdown cell stands for: `\|` is a pipe. -/
def unescape : Str → Str
  | [] => []
  | [b] => [b]
  | b :: c :: r => if b = 0x5c ∧ c = 0x7c then 0x7c :: unescape r else b :: unescape (c :: r)

/-- Cells of a line of a Markdown table: the text between separators. -/
def cells : UInt8 → Str → List Str
  | _, [] => [[]]
  | prev, b :: r =>
    if b = 0x7c ∧ prev ≠ 0x5c then [] :: cells b r
    else match cells b r with
      | [] => [[b]]
      | f :: fs => (b :: f) :: fs

end Spec
