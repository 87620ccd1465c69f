import Verif.Spec.Kana
/-!
# Specification of kana text for conversions
-/
namespace Spec

/-- Characters that a program sees one by one: no NUL, variation selectors and combining marks. -/
def Simple (c : Char) : Prop := c.toNat ≠ 0 ∧ ¬ IsSelector c ∧ ¬ IsKanaMark c

instance : DecidablePred Simple := fun c => by unfold Simple; infer_instance

/-- Letters of a script: ぁ to ゖ, or ァ to ヶ for Katakana. -/
def IsLetter (katakana : Bool) (c : Char) : Prop :=
  if katakana then 0x30a1 ≤ c.toNat ∧ c.toNat ≤ 0x30f6 else 0x3041 ≤ c.toNat ∧ c.toNat ≤ 0x3096

/-- Iteration marks of a script: ゝ and ゞ, or ヽ and ヾ. -/
def IsIterationMark (katakana : Bool) (c : Char) : Prop :=
  if katakana then c.toNat = 0x30fd ∨ c.toNat = 0x30fe else c.toNat = 0x309d ∨ c.toNat = 0x309e

instance (b : Bool) : DecidablePred (IsLetter b) := fun c => by unfold IsLetter; infer_instance
instance (b : Bool) : DecidablePred (IsIterationMark b) := fun c => by
  unfold IsIterationMark; infer_instance

/-- The same letter or mark in the other script: in Unicode Katakana is 0x60 above Hiragana. -/
def otherScript (katakana : Bool) (c : Char) : Char :=
  if IsLetter katakana c ∨ IsIterationMark katakana c then
    Char.ofNat (if katakana then c.toNat - 0x60 else c.toNat + 0x60)
  else c

/-- Small letters other than っ, ゕ and ゖ: ぁぃぅぇぉゃゅょゎ. -/
def smallCodes : List Nat :=
  [0x3041, 0x3043, 0x3045, 0x3047, 0x3049, 0x3083, 0x3085, 0x3087, 0x308e]
def IsSmall (katakana : Bool) (c : Char) : Prop :=
  c.toNat ∈ smallCodes.map (· + if katakana then 0x60 else 0)

/-- っ and ん. -/
def tsu (katakana : Bool) : Char := if katakana then 'ッ' else 'っ'
def nn (katakana : Bool) : Char := if katakana then 'ン' else 'ん'

/-- A letter of normal size other than ん. -/
def IsNormal (katakana : Bool) (c : Char) : Prop :=
  IsLetter katakana c ∧ ¬ IsSmall katakana c ∧ c ≠ tsu katakana ∧ c ≠ nn katakana

instance (b : Bool) : DecidablePred (IsSmall b) := fun c => by unfold IsSmall; infer_instance
instance (b : Bool) : DecidablePred (IsNormal b) := fun c => by unfold IsNormal; infer_instance

end Spec
