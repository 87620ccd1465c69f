import Verif.Model.KanaConvert
import Verif.Model.Table
import Verif.Model.Str
import Verif.Model.Kanji
/-!
# Model of the Kana chart (libs/kana/src/KanaConvert.cpp:10-102 and 289-327)

The notes that are written before the chart (`printChartHeader`) are a fixed text and left out.
-/
namespace KT

/-- `class KanaCount` (KanaConvert.cpp:12-33); the counters have 16 bits. -/
structure KanaCount where
  dakuten : UInt16 := 0
  hanDakuten : UInt16 := 0
  plain : UInt16 := 0
  small : UInt16 := 0
  deriving DecidableEq, Repr

/-- `add` (KanaConvert.cpp:14-19). -/
def KanaCount.add (c : KanaCount) (k : Kana) : KanaCount :=
  if k.isSmall then { c with small := c.small + 1 }
  else if k.isDakuten then { c with dakuten := c.dakuten + 1 }
  else if k.isHanDakuten then { c with hanDakuten := c.hanDakuten + 1 }
  else { c with plain := c.plain + 1 }

/-- `total` (KanaConvert.cpp:26-28), of type `int`. -/
def KanaCount.total (c : KanaCount) : Nat :=
  c.dakuten.toNat + c.hanDakuten.toNat + c.plain.toNat + c.small.toNat

/-- `operator<<` (KanaConvert.cpp:35-40); a width that is set applies to the first item. -/
def KanaCount.print (width : Nat) (k : KanaCount) : Str :=
  setwRight width (toDec k.total) ++ u8!" (Plain=" ++ toDec k.plain.toNat ++ u8!", Dakuten=" ++
    toDec k.dakuten.toNat ++ u8!", HanDakuten=" ++ toDec k.hanDakuten.toNat ++
    (if k.small ≠ 0 then u8!", Small=" ++ toDec k.small.toNat else []) ++ u8!")"

/-- The lambda `print` of `printChartFooter` (KanaConvert.cpp:71-74) and the width for the next item. -/
def footerTitle (markdown : Bool) (s : Str) : Str :=
  if markdown then u8!"- **" ++ s ++ u8!":** " else setwRight 10 s ++ u8!": "
def footerWidth (markdown : Bool) : Nat := if markdown then 0 else 3

/-- `NoneTypeKana` (KanaConvert.cpp:67). -/
def noneTypeKana : Nat := 4

/-- `printChartFooter` (KanaConvert.cpp:65-90). -/
def printChartFooter (markdown : Bool) (romajiVariants : Nat) (monographs digraphs : KanaCount) : Str :=
  let w := footerWidth markdown
  let plain := monographs.small.toNat + monographs.plain.toNat + digraphs.plain.toNat
  let dakuten := monographs.dakuten.toNat + digraphs.dakuten.toNat
  let hanDakuten := monographs.hanDakuten.toNat + digraphs.hanDakuten.toNat
  let types := plain + dakuten + hanDakuten + noneTypeKana
  u8!"\n" ++ (if markdown then u8!"**Totals:**\n" else u8!">>> Totals:") ++ u8!"\n" ++
  footerTitle markdown (u8!"Monographs") ++ monographs.print w ++ u8!"\n" ++
  footerTitle markdown (u8!"Digraphs") ++ digraphs.print w ++ u8!"\n" ++
  footerTitle markdown (u8!"All Kana") ++ setwRight w (toDec (monographs.total + digraphs.total)) ++
    u8!" (Monographs=" ++ toDec monographs.total ++ u8!", Digraphs=" ++ toDec digraphs.total ++
    u8!"), Rōmaji Variants=" ++ toDec romajiVariants ++ u8!"\n" ++
  footerTitle markdown (u8!"Types") ++ setwRight w (toDec types) ++ u8!" (P=" ++ toDec plain ++
    u8!", D=" ++ toDec dakuten ++ u8!", H=" ++ toDec hanDakuten ++ u8!", N=" ++ toDec noneTypeKana ++
    u8!"), N types aren't included in 'All Kana'\n"

/-- `getHepburn` (KanaConvert.cpp:92-96); `none` as for `getRomaji`. -/
def chartHepburn (k : Kana) : Option Str :=
  (k.getRomaji { hepburn := true }).map fun h => if k.romaji = h then [] else addBrackets h .round

/-- `getKunrei` (KanaConvert.cpp:98-103). -/
def chartKunrei (k : Kana) : Option Str :=
  (k.getRomaji { kunrei := true }).map fun r =>
    if k.romaji = r then [] else if k.rec'.kunreiVariant then r else addBrackets r .round

/-- Insertion into a `std::map` that is ordered by `std::less<String>`; the keys of the Hiragana map are
all different (`C25_keys_unique`). -/
def kanaInsert (k : Kana) : List Kana → List Kana
  | [] => [k]
  | j :: r => if strLt k.hiragana j.hiragana then k :: j :: r else j :: kanaInsert k r

/-- The values of `Kana::getMap(CharType::Hiragana)` in the order of iteration. -/
def kanaByHiragana : List Kana := allKana.foldl (fun m k => kanaInsert k m) []

/-- The loop at KanaConvert.cpp:303-307. -/
def chartVariants : List Str → Str → Str
  | [], vars => vars
  | j :: r, vars => chartVariants r ((if vars = [] then vars else vars ++ u8!", ") ++ j)

/-- `groups` (KanaConvert.cpp:292-293). -/
def chartGroups : List Str :=
  [u8!"la", u8!"ka", u8!"sa", u8!"ta", u8!"na", u8!"ha", u8!"ma", u8!"lya", u8!"ra", u8!"lwa"]

/-- `getUni` (KanaConvert.cpp:309-311). -/
def chartUnicode (k : Kana) (s : Str) : Str := if k.isMonograph then toUnicodeStr s else []

/-- `type` (KanaConvert.cpp:298). -/
def chartType (k : Kana) : Str := if k.isDakuten then u8!"D" else if k.isHanDakuten then u8!"H" else u8!"P"

/-- One row of the chart (KanaConvert.cpp:298-313); `none` as for `getRomaji`. -/
def chartRow (k : Kana) : Option Row :=
  (chartHepburn k).bind fun h => (chartKunrei k).map fun r =>
    [chartType k, k.romaji, k.hiragana, k.katakana, chartUnicode k k.hiragana, chartUnicode k k.katakana,
      h, r, chartVariants k.rec'.variants []]

/-- The local variables of `printKanaChart`. -/
structure KanaChart where
  romajiVariants : Nat := 0
  monographs : KanaCount := {}
  digraphs : KanaCount := {}
  table : Table
  deriving DecidableEq, Repr

/-- The body of the loop (KanaConvert.cpp:294-314). -/
def KanaChart.add (c : KanaChart) (k : Kana) : Res KanaChart :=
  match chartRow k with
  | none => .ub
  | some row => .ok
    { romajiVariants := c.romajiVariants + k.rec'.variants.length
      monographs := if k.isMonograph then c.monographs.add k else c.monographs
      digraphs := if k.isMonograph then c.digraphs else c.digraphs.add k
      table := c.table.add row (chartGroups.contains k.romaji) }

/-- The loop of `printKanaChart` (KanaConvert.cpp:294-314). -/
def KanaChart.loop : List Kana → KanaChart → Res KanaChart
  | [], c => .ok c
  | k :: r, c => (c.add k).bind (KanaChart.loop r)

/-- The columns (KanaConvert.cpp:286-288). -/
def chartTitle : Row :=
  [u8!"No.", u8!"Type", u8!"Roma", u8!"Hira", u8!"Kata", u8!"HUni", u8!"KUni", u8!"Hepb", u8!"Kunr",
    u8!"Roma Variants"]

/-- The rows for the special marks (KanaConvert.cpp:316-323). -/
def chartSpecial (t : Table) : Table :=
  let t := t.add [u8!"N", u8!"/", [], u8!"・", [], toUnicodeStr (u8!"・")] true
  let t := t.add [u8!"N", [], [], prolongMark, [], toUnicodeStr prolongMark] false
  [repeatPlain, repeatAccented].foldl (fun t i =>
    t.add [u8!"N", [], i.hiragana, i.katakana, toUnicodeStr i.hiragana, toUnicodeStr i.katakana] false) t

/-- The chart before it is printed (KanaConvert.cpp:283-323). -/
def kanaChart : Res KanaChart :=
  (KanaChart.loop kanaByHiragana { table := { title := chartTitle, countInFirstColumn := true } }).bind
    fun c => .ok { c with table := chartSpecial c.table }

/-- `printKanaChart` (KanaConvert.cpp:281-326): what is written after the notes. -/
def printKanaChart (markdown : Bool) : Res Str :=
  kanaChart.bind fun c =>
  (if markdown then .ok c.table.printMarkdown else c.table.print).bind fun t =>
  .ok (t ++ printChartFooter markdown c.romajiVariants c.monographs c.digraphs)

end KT
