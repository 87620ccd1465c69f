import Verif.Spec.Romanization
/-!
# Specification of reading Rōmaji

Rōmaji typed by hand: each syllable may be spelled by Hepburn, by Kunrei or as the program does by default.
-/
namespace Spec

/-- A vowel in Hiragana. -/
def vowelLetter (v : Char) : Char :=
  if v = 'a' then 'あ' else if v = 'i' then 'い' else if v = 'u' then 'う' else if v = 'e' then 'え' else 'お'

/-- The syllable that a spelling stands for.  Hepburn and Kunrei do not distinguish ぢ and づ from じ and ず, nor ゐ, ゑ and を
from the vowels. -/
def Syllable.readAs (st : RomajiStyle) (s : Syllable) : Syllable :=
  if st = .unique then s
  else if s.consonant = some 'd' then
    if s.small.isSome ∨ s.vowel = 'i' then { s with letter := 'じ', consonant := some 'z' }
    else if s.vowel = 'u' then { s with letter := 'ず', consonant := some 'z' }
    else s
  else if s.consonant = some 'w' ∧ s.vowel ≠ 'a' then { s with letter := vowelLetter s.vowel, consonant := none }
  else s

/-- Parts of a text that can be typed. -/
def KanaUnit.Typable : KanaUnit → Prop
  | .syllable doubled s _ => s ∈ syllables ∧ (doubled = true → s.doubles = true)
  | .n => True
  | .other x => 128 ≤ x.toNat ∧ Simple x ∧ x ∉ "āīūēō".toList

/-- Is an apostrophe required after ん? -/
def typedBefore : List (KanaUnit × RomajiStyle) → Bool
  | (u, st) :: _ => apostropheBefore st [u]
  | [] => false

/-- Rōmaji of a text with a style for each part. -/
def typedText : List (KanaUnit × RomajiStyle) → List Char
  | [] => []
  | (u, st) :: r => u.roman st ++ (if u = .n ∧ typedBefore r = true then ['\''] else []) ++ typedText r

/-- The kana for a part; in Hiragana long vowels can be written with two letters, and spaces can be left out. -/
def KanaUnit.read (katakana twoVowels noSpaces : Bool) (st : RomajiStyle) : KanaUnit → List Char
  | .syllable doubled s long =>
    (if doubled then [tsu katakana] else []) ++ (s.readAs st).text katakana ++
      (if long then [if twoVowels && !katakana then vowelLetter s.vowel else 'ー'] else [])
  | .n => [nn katakana]
  | .other x => if x = '　' ∧ noSpaces = true then [] else [x]

end Spec
