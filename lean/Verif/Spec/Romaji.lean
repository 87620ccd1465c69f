import Verif.Spec.Utf8
/-!
# Specification of Romaji: long vowels and letters that are no syllables
-/
namespace Spec

/-- Vowels: Romaji letter, letter with macron and Hiragana. -/
def vowelTable : List (UInt8 × Char × Char) :=
  [(0x61, 'ā', 'あ'), (0x69, 'ī', 'い'), (0x75, 'ū', 'う'), (0x65, 'ē', 'え'), (0x6f, 'ō', 'お')]

/-- A syllable with a macron on its last letter. -/
def withMacron (r : List UInt8) : List UInt8 :=
  match r.getLast? with
  | none => []
  | some v => r.dropLast ++ ((vowelTable.lookup v).map fun p => String.utf8EncodeChar p.1).getD [v]

/-- How a long vowel is written after the kana: by the kana of the vowel or by the mark ー. -/
def longWritten (spelled : Bool) (r : List UInt8) : List UInt8 :=
  if spelled then
    match r.getLast? with
    | none => []
    | some v => ((vowelTable.lookup v).map fun p => String.utf8EncodeChar p.2).getD []
  else String.utf8EncodeChar 'ー'

/-- Small Ascii letters other than the five vowels. -/
def IsConsonant (b : UInt8) : Prop :=
  0x61 ≤ b.toNat ∧ b.toNat ≤ 0x7a ∧ b ∉ [0x61, 0x69, 0x75, 0x65, 0x6f]

instance : DecidablePred IsConsonant := fun b => by unfold IsConsonant; infer_instance

/-- Two letters that stand for っ: any doubled consonant (except n, l and x) and "tc". -/
def IsDoubled (x y : UInt8) : Prop :=
  x = y ∧ x ∉ [0x6e, 0x6c, 0x78] ∨ x = 0x74 ∧ y = 0x63

instance (x y : UInt8) : Decidable (IsDoubled x y) := by unfold IsDoubled; infer_instance

/-- What a word without vowels becomes.  An n is ん unless just one other letter stands between it and
the next n or the end of the word.  The first of two doubled letters is っ if they are followed by a
third letter that isn't n.  Any other letter is kept. -/
def withoutVowels (n tsu : List UInt8) : List UInt8 → List UInt8
  | [] => []
  | x :: s =>
    (if x = 0x6e then
      match s with
      | [] => n
      | [y] => if y = 0x6e then n else [x]
      | y :: z :: _ => if y ≠ 0x6e ∧ z = 0x6e then [x] else n
    else match s with
      | y :: z :: _ => if IsDoubled x y ∧ z ≠ 0x6e then tsu else [x]
      | _ => [x]) ++ withoutVowels n tsu s

end Spec
