import Verif.Model.Basic
import Verif.Spec.TypedRomaji
/-!
# Specification of kana typed with any spelling of the table
-/
namespace Spec
open KT

/-- Parts of Rōmaji as bytes: a spelling (after a letter that doubles its consonant, with a macron on its vowel), n (followed
by a separator), or another character. -/
inductive KeyUnit where
  | key (doubled : Option UInt8) (w : Str) (long : Bool)
  | n (separator : Option UInt8)
  | other (x : Char)
  deriving DecidableEq, Repr

/-- The last letter of a spelling. -/
def lastLetter (w : Str) : Char := Char.ofNat (w.getLastD 0).toNat

def KeyUnit.text : KeyUnit → Str
  | .key d w l => d.toList ++ (if l then w.dropLast ++ String.utf8EncodeChar (longVowel (lastLetter w)) else w)
  | .n s => 0x6e :: s.toList
  | .other x => String.utf8EncodeChar (narrowMark x)

/-- Consonants that can be doubled: all but l, n and x. -/
def doubledConsonants : Str := u8!"bcdfghjkmpqrstvwyz"

/-- Parts that can be typed with a table of spellings. -/
def KeyUnit.Known (isKey : Str → Prop) : KeyUnit → Prop
  | .key d w _ => isKey w ∧ w ≠ u8!"n" ∧
      ∀ y, d = some y → ∃ a ∈ doubledConsonants, w.head? = some a ∧ (y = a ∨ y = 0x74 ∧ a = 0x63)
  | .n s => ∀ y, s = some y → y = 0x27 ∨ y = 0x2d
  | .other x => KanaUnit.Typable (.other x)

/-- Would an n before this be read as a part of it? -/
def joinsN : List KeyUnit → Bool
  | .key none w _ :: _ => w.head?.any fun b => (u8!"aiueoy" : Str).contains b
  | _ => false

/-- Where necessary n is followed by a separator. -/
def Separated : List KeyUnit → Prop
  | [] => True
  | u :: r => (u = .n none → joinsN r = false) ∧ Separated r

/-- What is read. -/
def KeyUnit.read (kana : Str → Str) (katakana twoVowels noSpaces : Bool) : KeyUnit → Str
  | .key d w l => (if d.isSome then String.utf8EncodeChar (tsu katakana) else []) ++ kana w ++
      (if l then String.utf8EncodeChar (if twoVowels && !katakana then vowelLetter (lastLetter w) else 'ー') else [])
  | .n _ => String.utf8EncodeChar (nn katakana)
  | .other x => if x = '　' ∧ noSpaces = true then [] else String.utf8EncodeChar x

end Spec
