import Verif.Model.Stats
import Verif.Model.Str
import Verif.Model.Decimal
import Verif.Model.DisplaySize
/-!
# Model of the report of libs/stats/src/Stats.cpp (51-91, 119-273)

Percentages are floating point numbers, so their texts are given by a parameter `percent` (precision, amount, total).
-/
namespace KT

/-! ## `std::set` with a comparison that may not be an order

The C++ standard leaves the behaviour open if the comparison isn't a strict weak order.  Here a set is any binary
tree: a value is put where the comparisons on the way down lead (`_M_get_insert_unique_pos` of libstdc++), after each
insertion the tree may have been rebalanced to any other shape with the same sequence of values. -/

inductive SetTree (α : Type) where
  | leaf
  | node (l : SetTree α) (x : α) (r : SetTree α)

def SetTree.toList {α : Type} : SetTree α → List α
  | .leaf => []
  | .node l x r => l.toList ++ x :: r.toList

/-- `emplace`: the sequence of values afterwards, `none` if the value isn't added.  `pred` is the last value on the way
down that isn't greater, it has to be less than the new value. -/
def SetTree.emplace {α : Type} (lt : α → α → Bool) (k : α) : SetTree α → (pred : Option α) → Option (List α)
  | .leaf, none => some [k]
  | .leaf, some p => if lt p k then some [k] else none
  | .node l x r, pred =>
    if lt k x then (l.emplace lt k pred).map fun l' => l' ++ x :: r.toList
    else (r.emplace lt k (some x)).map fun r' => l.toList ++ x :: r'

/-- The sequences of values that a set can have after values have been added one after the other. -/
inductive SetBuilt {α : Type} (lt : α → α → Bool) : (added : List α) → (values : List α) → Prop
  | empty : SetBuilt lt [] []
  | add {xs v l : List α} {t : SetTree α} {k : α} : SetBuilt lt xs v → t.toList = v →
      t.emplace lt k none = some l → SetBuilt lt (xs ++ [k]) l
  | present {xs v : List α} {t : SetTree α} {k : α} : SetBuilt lt xs v → t.toList = v →
      t.emplace lt k none = none → SetBuilt lt (xs ++ [k]) v

/-! ## Texts -/

/-- `KanjiTypes` as text (KanjiEnums.h:26). -/
def kanjiTypeText : KanjiType → Str
  | .jouyou => u8!"Jouyou" | .jinmei => u8!"Jinmei" | .linkedJinmei => u8!"LinkedJinmei" | .linkedOld => u8!"LinkedOld"
  | .frequency => u8!"Frequency" | .extra => u8!"Extra" | .kentei => u8!"Kentei" | .ucd => u8!"Ucd"

/-- `toString` of a `KanjiTypes` value, with `None` (EnumList.h:233-235). -/
def anyTypeText : Option KanjiType → Str
  | some t => kanjiTypeText t
  | none => u8!"None"

/-- The values that an iteration over `AllKanjiTypes` gives (KanjiEnums.h:25-27): `None` is the last one, as the container
has `N + 1` values (EnumList.h:226). -/
def allKanjiTypes : List (Option KanjiType) :=
  [some .jouyou, some .jinmei, some .linkedJinmei, some .linkedOld, some .frequency, some .extra, some .kentei,
   some .ucd, none]

/-- `operator<<` for `Stats::Count` (Stats.cpp:119-131). -/
def countText (c : StatCount) : Str :=
  u8!"[" ++ c.name ++ u8!" " ++ setwRight 4 (toDec c.count) ++ u8!"]" ++
    match c.entry with
    | some k => setwRight 5 (toDec k.frequency.toNat) ++ u8!", " ++
        (match k.level with
          | some l => l.toString
          | none => u8!"--") ++ u8!", " ++ kanjiTypeText k.type
    | none => u8!", " ++ setwRight 7 (u8!"U+" ++ toUnicodeStr c.name)

/-- `printTotalAndUnique` (Stats.cpp:201-206). -/
def totalAndUnique (name : Str) (total unique : Nat) : Str :=
  u8!">>> " ++ setwRight 16 name ++ u8!": " ++ setwRight 6 (toDec total) ++ u8!", unique: " ++
    setwRight 4 (toDec unique)

/-- `MaxExamples` (Stats.h). -/
def maxExamples : Nat := 5

/-- Names and counts separated by commas (Stats.cpp:227-230 and 239-243). -/
def exampleTexts : List StatCount → Str
  | [] => []
  | [c] => c.name ++ u8!" " ++ toDec c.count
  | c :: cs => c.name ++ u8!" " ++ toDec c.count ++ u8!", " ++ exampleTexts cs

/-- What is collected for one type: `totalKanjiPerType`, `uniqueKanjiPerType` and `found` (Stats.cpp:209-210). -/
structure TypeCounts where
  total : Nat := 0
  unique : Nat := 0
  found : List StatCount := []
  deriving DecidableEq, Repr

/-- Lines 213-215. -/
def TypeCounts.add (a : TypeCounts) (c : StatCount) : TypeCounts :=
  { total := a.total + c.count
    unique := a.unique + 1
    found := if a.found.length < maxExamples then a.found ++ [c] else a.found }

/-- The three maps of lines 209-210 by type. -/
abbrev TypeMap := List (Option KanjiType × TypeCounts)

def TypeMap.add : TypeMap → Option KanjiType → StatCount → TypeMap
  | [], t, c => [(t, ({} : TypeCounts).add c)]
  | (u, a) :: m, t, c => if u = t then (u, a.add c) :: m else (u, a) :: TypeMap.add m t c

/-- The loop of lines 211-216. -/
def typeMap (l : List StatCount) : TypeMap :=
  l.foldl (fun m c => m.add (c.entry.map (·.type)) c) []

/-- One line of `printKanjiTypeCounts` (Stats.cpp:220-231). -/
def typeLine (percent : Nat → Nat → Nat → Str) (total : Nat) (t : Option KanjiType) (a : TypeCounts) : Str :=
  totalAndUnique (u8!"[" ++ anyTypeText t ++ u8!"] ") a.total a.unique ++ u8!", " ++
    setwRight 6 (percent 2 a.total total) ++ u8!"%  (" ++ exampleTexts a.found ++ u8!")\n"

/-- `printKanjiTypeCounts` (Stats.cpp:208-233): the lines. -/
def typeLines (percent : Nat → Nat → Nat → Str) (total : Nat) (l : List StatCount) : List Str :=
  allKanjiTypes.filterMap fun t => ((typeMap l).lookup t).map (typeLine percent total t)

/-- `printRareExamples` (Stats.cpp:235-245). -/
def rareExamples (l : List StatCount) : Str :=
  setwRight 12 (u8!"(") ++ exampleTexts (l.take maxExamples) ++ u8!")\n"

/-- The file with the highest count (Stats.cpp:262-267); `tags` is in the order of the names. -/
def highestTag (tags : List (Str × Nat)) : Str :=
  (tags.foldl (fun (best : Nat × Str) j => if j.2 > best.1 then (j.2, j.1) else best) (0, [])).2

/-- A line of `printBreakdown` (Stats.cpp:255-272); `tags` is what `count.tags` returns. -/
def breakdownLine (showBreakdown : Bool) (tags : Str → Option (List (Str × Nat))) (rank : Nat) (c : StatCount) : Str :=
  u8!"  " ++ (if showBreakdown then setwLeft 5 (toDec rank) ++ u8!" " else []) ++ countText c ++
    (if c.entry.isNone then
      match tags c.name with
      | some ts => u8!", " ++ highestTag ts
      | none => []
    else []) ++ u8!"\n"

/-- `printBreakdown` (Stats.cpp:247-273): the lines after the heading. -/
def breakdownLines (showBreakdown : Bool) (tags : Str → Option (List (Str × Nat))) (l : List StatCount) : List Str :=
  (l.zipIdx 1).map fun p => breakdownLine showBreakdown tags p.2 p.1

/-- The heading of `printBreakdown` (Stats.cpp:249-253). -/
def breakdownHeading (name : Str) (isKanji : Bool) : Str :=
  u8!">>> Showing Breakdown for '" ++ name ++ u8!"':\n  Rank  [Val Num]" ++
    (if isKanji && !(u8!"Non-UCD").isPrefixOf name then u8!" Freq, LV, Type"
     else u8!", Unicode, Highest Count File") ++ u8!"\n"

/-- `printHeaderInfo` (Stats.cpp:181-199) for the name shown. -/
def headerInfo (file : Str) (files directories : Nat) (st : CountState) : Str :=
  u8!">>> Stats for: '" ++ file ++ u8!"'" ++
    (if files > 1 then
      u8!" (" ++ toDec files ++ (if files > 1 then u8!" files" else u8!" file") ++
        (if directories > 1 then u8!" from " ++ toDec directories ++ u8!" directories" else []) ++ u8!")"
    else []) ++ u8!" - showing top " ++ toDec maxExamples ++ u8!" Kanji per type" ++
    (if st.replacements ≠ 0 ∨ st.combiningMarks ≠ 0 ∨ st.variants ≠ 0 then
      u8!"\n>>> Furigana Removed: " ++ toDec st.replacements ++ u8!", Combining Marks Replaced: " ++
        toDec st.combiningMarks ++ u8!", Variation Selectors: " ++ toDec st.variants
    else []) ++ (if st.errors ≠ 0 then u8!", Errors: " ++ toDec st.errors else []) ++ u8!"\n"

/-- `Pred::Pred` (Stats.cpp:135-138): `_isKanji`. -/
def predIsKanji (name : Str) : Bool := (u8!"Kanji").isSuffixOf name

/-- The values added to `frequency` (Stats.cpp:160-164) for the entries of `count.map()` in their order. -/
def predCounts (findByName : Str → Option Kanji) (isKanji : Bool) (entries : List (Str × Nat)) : List StatCount :=
  entries.map fun e => { count := e.2, name := e.1, entry := if isKanji then findByName e.1 else none }

/-- `_total` after the loop. -/
def predTotal (entries : List (Str × Nat)) : Nat := entries.foldl (fun n e => n + e.2) 0

/-- `Pred::run` (Stats.cpp:140-179) after the header: the text for a set with the values `l`. -/
def predText (percent : Nat → Nat → Nat → Str) (name : Str) (showBreakdown : Bool)
    (tags : Str → Option (List (Str × Nat))) (total : Nat) (l : List StatCount) : Str :=
  let isKanji := predIsKanji name
  let isUnrecognized := decide (name = u8!"Unrecognized")
  let isCommonKanji := isKanji && (u8!"Common").isPrefixOf name
  if total = 0 then []
  else
    totalAndUnique name total l.length ++
    (if isCommonKanji then u8!", 100.00%\n" ++ (typeLines percent total l).flatten
     else if isKanji then rareExamples l
     else u8!"\n") ++
    (if isUnrecognized || isKanji && showBreakdown then
      breakdownHeading name isKanji ++ (breakdownLines showBreakdown tags l).flatten
     else [])

/-- The names given to `f` in `countKanji` (Stats.cpp:64-75). -/
def predNames : List Str :=
  [u8!"Hiragana", u8!"Katakana", u8!"Common Kanji", u8!"Rare Kanji", u8!"Non-UCD Kanji", u8!"MB-Punctuation",
   u8!"MB-Symbol", u8!"MB-Letter", u8!"Unrecognized"]

/-- `IncludeInTotals` (Stats.h). -/
def includeInTotals : Nat := 5

/-- Lines 77-91 of `countKanji` for the names and totals; `>>> ` is written by `log`. -/
def totalLine (percent : Nat → Nat → Nat → Str) (totals : List (Str × Nat)) : Str :=
  let shown := totals.take includeInTotals
  let total := shown.foldl (fun n p => n + p.2) 0
  u8!">>> Total Kana+Kanji: " ++ toDec total ++
    (if total ≠ 0 then
      let r := shown.foldl (fun (acc : Nat × Str) p =>
        if predIsKanji p.1 then (acc.1 + p.2, acc.2)
        else if p.2 ≠ 0 then (acc.1, acc.2 ++ p.1 ++ u8!": " ++ percent 1 p.2 total ++ u8!"%, ")
        else acc) (0, [])
      u8!" (" ++ r.2 ++ u8!"Kanji: " ++ percent 1 r.1 total ++ u8!"%)"
    else []) ++ u8!"\n"

end KT
