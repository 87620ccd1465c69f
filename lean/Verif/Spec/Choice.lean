import Verif.Model.Basic
/-!
# Specification of prompts
-/
namespace Spec
open KT (Str)

/-- The text between newlines: `n` newlines give `n + 1` lines, the last one unfinished. -/
def inputLines : Str → List Str
  | [] => [[]]
  | b :: r =>
    if b = 0x0a then [] :: inputLines r
    else match inputLines r with
      | [] => [[b]]
      | l :: ls => (b :: l) :: ls

/-- How choices are shown: a run of consecutive characters without description, or one character with
its description. -/
inductive Seg where
  | run (first last : UInt8)
  | described (c : UInt8) (d : Str)
  deriving DecidableEq, Repr

/-- The choices of a segment. -/
def Seg.choices : Seg → List (UInt8 × Str)
  | .run f l => (List.range (l.toNat - f.toNat + 1)).map fun n => (f + UInt8.ofNat n, [])
  | .described c d => [(c, d)]

/-- `a`, `a-c` or `a=text`. -/
def Seg.text : Seg → Str
  | .run f l => if f = l then [f] else [f] ++ u8!"-" ++ [l]
  | .described c d => [c] ++ u8!"=" ++ d

/-- Segments of a list of choices, runs as long as possible. -/
def segments : List (UInt8 × Str) → List Seg
  | [] => []
  | (c, d) :: r =>
    if d ≠ [] then .described c d :: segments r
    else match segments r with
      | .run f l :: s => if f.toNat = c.toNat + 1 then .run c l :: s else .run c c :: .run f l :: s
      | s => .run c c :: s

/-- Segments separated by commas. -/
def segText : List Seg → Str
  | [] => []
  | s :: r => s.text ++ r.flatMap fun s => u8!", " ++ s.text

end Spec
