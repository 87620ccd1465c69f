import Verif.Spec.Converter
/-!
# Specification of iteration marks: the letters they stand for
-/
namespace Spec

/-- A Hiragana letter without voicing marks. -/
def plainHiragana (n : Nat) : Nat :=
  if n - 1 ∈ kstRow ∨ n - 1 ∈ hRow then n - 1
  else if n - 2 ∈ hRow then n - 2
  else if n = 0x3094 then 0x3046
  else n

/-- The letter for ゝ (without voicing marks) or for ゞ (voiced if it has no mark and can have one) after a Hiragana letter. -/
def repeatedHiragana (accented : Bool) (n : Nat) : Nat :=
  if accented then (voicedHiragana n).getD n else plainHiragana n

/-- Distance of a script from Hiragana. -/
def scriptOffset (katakana : Bool) : Nat := if katakana then 0x60 else 0

/-- The same for both scripts. -/
def repeatedLetter (katakana accented : Bool) (c : Char) : Char :=
  Char.ofNat (repeatedHiragana accented (c.toNat - scriptOffset katakana) + scriptOffset katakana)

/-- ゞ or ヾ. -/
def IsAccentedMark (m : Char) : Bool := m.toNat == 0x309e || m.toNat == 0x30fe

end Spec
