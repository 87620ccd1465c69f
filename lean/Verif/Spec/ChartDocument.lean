import Verif.Model.HelpText
import Verif.Spec.KanaChartDoc
/-!
# The chart in the documentation (docs/KanaConversionChart.md)
-/
namespace Spec
open KT

/-- Lines 1 to 19: the notes. -/
def documentedNotes : List Str :=
  [u8!"**Notes:**",
   [],
   u8!"- Column names use some abbreviations: 'Roma' = Rōmaji, 'Hira' = Hiragana,",
   u8!"  'Kata' = Katakana, 'Uni' = Unicode, 'Hepb' = Hepburn, 'Kunr' = Kunrei",
   u8!"- 'Roma' is mainly 'Modern Hepburn', but can be 'Nihon Shiki' or 'Wāpuro'",
   u8!"- 'Hepb' and 'Kunr' are only populated when they would produce different output",
   u8!"  - Values in () means 'output-only' since inputting leads to a different Kana",
   u8!"- 'Roma Variants' are alternative key combinations that lead to the same Kana",
   u8!"- When populated, 'Roma', 'Hira' and 'Kata' columns are unique (no duplicates)",
   u8!"- Unicode values are only shown for 'monograph' (single-symbol) entries",
   u8!"- Some 'digraphs' may not be in any 'official words', but are supported by IMEs",
   u8!"- Chart output is sorted by Hiragana, so 'a, ka, sa, ta, na, ...' ordering",
   u8!"- Katakana 'dakuten w' (ヷ, ヸ, ヹ, ヺ) aren't supported (no conversions exist)",
   u8!"- Type values: P=Plain Kana, D=Dakuten (濁点), H=HanDakuten (半濁点), N=None",
   u8!"- Type 'N' includes:",
   u8!"  - Middle Dot/Interpunct (・): maps to Rōmaji '/' to match IME keyboard entry",
   u8!"  - Prolong Mark (ー): convert to/from macrons (ā, ī, ū, ē, ō)",
   u8!"  - Repeat symbols (ゝ, ゞ, ヽ, ヾ): only supported when 'target' is Rōmaji",
   []]

/-- The file. -/
def documentedFile : List Str := documentedNotes ++ documentedChart

end Spec
