import Verif.Spec.Unicode
import Verif.Spec.StatsProgram
import Verif.Spec.Converter
/-!
# Specification: the text of a directory tree
-/
namespace Spec
open KT

mutual
/-- The text of a directory tree: what is in the files and, after each file and directory, its name; everything is
encoded as UTF-8. -/
def TreeText (name : Str) : Node → List Char → Prop
  | .file content, cs => ∃ a b, content = utf8Encode a ∧ name = utf8Encode b ∧ cs = a ++ b
  | .dir es, cs => ∃ a b, EntriesText es a ∧ name = utf8Encode b ∧ cs = a ++ b
  | .link _, cs => cs = []
  | .other, cs => cs = []

def EntriesText : Entries → List Char → Prop
  | .nil, cs => cs = []
  | .cons name n rest, cs => ∃ a b, TreeText name n a ∧ EntriesText rest b ∧ cs = a ++ b
end

/-- What the categories mean, as sets of code points. -/
def categoryCodes (ucd : Str → Bool) : List (Char → Prop) :=
  [fun c => Hiragana c.toNat,
   fun c => Katakana c.toNat,
   fun c => CommonKanji c.toNat ∧ ucd (String.utf8EncodeChar c),
   fun c => RareKanji c.toNat ∧ ucd (String.utf8EncodeChar c),
   fun c => Spec.Kanji c.toNat ∧ ¬ ucd (String.utf8EncodeChar c),
   fun c => Punctuation c.toNat ∧ c ≠ '　',
   fun c => MBSymbol c.toNat,
   fun c => MBLetter c.toNat,
   fun c => 128 ≤ c.toNat ∧ ¬ Recognized c.toNat]

end Spec
