import Verif.Spec.Unicode
/-!
# Specification of the removal of Furigana
-/
namespace Spec

/-- A character that can have a reading: a kanji (or the variation selector after it) or a wide letter. -/
def HasReading (c : Nat) : Prop := Spec.Kanji c ∨ (0xfe00 ≤ c ∧ c ≤ 0xfe0f) ∨ (0xff00 ≤ c ∧ c ≤ 0xffef)

/-- A text that starts with a character followed by its reading in wide brackets; `r` is the rest of the text. -/
def StartsWithFurigana (s : List Nat) (x : Nat) (r : List Nat) : Prop :=
  HasReading x ∧ ∃ k, k ≠ [] ∧ (∀ c ∈ k, Kana c) ∧ s = x :: 0xff08 :: (k ++ 0xff09 :: r)

/-- A text that has Furigana somewhere. -/
def HasFurigana (s : List Nat) : Prop := ∃ a b x r, s = a ++ b ∧ StartsWithFurigana b x r

/-- The text without its Furigana, read from left to right. -/
inductive WithoutFurigana : List Nat → List Nat → Prop
  | nil : WithoutFurigana [] []
  | remove {s x r t} : StartsWithFurigana s x r → WithoutFurigana r t → WithoutFurigana s (x :: t)
  | keep {x r t} : (∀ y q, ¬ StartsWithFurigana (x :: r) y q) → WithoutFurigana r t →
      WithoutFurigana (x :: r) (x :: t)

end Spec
