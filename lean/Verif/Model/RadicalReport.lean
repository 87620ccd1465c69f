import Verif.Model.Radical
import Verif.Model.TextKanjiData
import Verif.Model.StatsReport
import Verif.Model.DisplaySize
/-!
# Model of the report on radicals (libs/kanji/src/RadicalData.cpp:13-29, 69-121, Radical.cpp:19-22)

Texts sent to `data.log()` begin with `">>> "`, those sent to `data.out()` do not (KanjiData.cpp, `log`).
-/
namespace KT

/-- `os << std::right << std::setfill('0') << std::setw(3) << number` (Radical.cpp:20-21). -/
def setwZero (n : Nat) (s : Str) : Str := List.replicate (n - s.length) 0x30 ++ s

/-- `operator<<` of a radical (Radical.cpp:19-22). -/
def radicalText (number : Nat) (name : Str) : Str := u8!"[" ++ setwZero 3 (toDec number) ++ u8!"] " ++ name

/-- An entry of `RadicalLists` (RadicalData.h): the number and the name of the `Radical` that is the key, and the list.
`operator<` of `Radical` compares only numbers (Radical.cpp:15-17). -/
structure RadicalEntry where
  number : Nat
  name : Str
  list : List KanjiRec
  deriving DecidableEq, Repr

/-- `radicals[k->radical()].emplace_back(k)` (RadicalData.cpp:82) for a map sorted by number. -/
def addToRadical : List RadicalEntry → KanjiRec → List RadicalEntry
  | [], k => [⟨k.kanji.radicalNumber, k.kanji.radicalName, [k]⟩]
  | e :: m, k =>
    if k.kanji.radicalNumber < e.number then ⟨k.kanji.radicalNumber, k.kanji.radicalName, [k]⟩ :: e :: m
    else if e.number < k.kanji.radicalNumber then e :: addToRadical m k
    else { e with list := e.list ++ [k] } :: m

/-- The loop of RadicalData.cpp:78-82; `kanji` has the values of `nameMap` in the order of iteration. -/
def radicalLists (kanji : List KanjiRec) : List RadicalEntry :=
  kanji.foldl (fun m k => if isCommonKanji k.kanji.name then addToRadical m k else m) []

/-- `++count[type]` (RadicalData.cpp:94-95).  The numbers are `int`s in the code. -/
def incType : List (KanjiType × Nat) → KanjiType → List (KanjiType × Nat)
  | [], t => [(t, 1)]
  | (u, n) :: c, t => if u = t then (u, n + 1) :: c else (u, n) :: incType c t

/-- The types before `None` (the loops of RadicalData.cpp:19-26, 71-75 stop there). -/
def typesBeforeNone : List KanjiType :=
  [.jouyou, .jinmei, .linkedJinmei, .linkedOld, .frequency, .extra, .kentei, .ucd]

/-- The loop of `printCounts` (RadicalData.cpp:19-26); `first` is `i == AllKanjiTypes[0]`. -/
def printTypeCounts (c : List (KanjiType × Nat)) (summary : Bool) : Bool → List KanjiType → Str
  | _, [] => []
  | first, t :: ts =>
    (if summary then (if first then [] else u8!" ") ++ toDec ((c.lookup t).getD 0)
     else setwRight 4 (toDec ((c.lookup t).getD 0))) ++ printTypeCounts c summary false ts

/-- `printCounts` (RadicalData.cpp:15-28). -/
def printRadicalCounts (c : List (KanjiType × Nat)) (summary : Bool) : Str :=
  setwRight 4 (toDec (c.foldl (fun x y => x + y.2) 0)) ++ u8!" (" ++ printTypeCounts c summary true typesBeforeNone ++
    (if summary then u8!")\n" else u8!") :")

/-- Lines 99-102: `j` examples are still to be printed. -/
def radicalExamples : Nat → List KanjiRec → Str
  | _, [] => []
  | 0, _ :: _ => u8!" ..."
  | j + 1, k :: l => u8!" " ++ k.kanji.name ++ radicalExamples j l

/-- The body of the loop of `printRadicalLists` (RadicalData.cpp:89-104) for the sorted list of an entry: the new
`total` and the line.  `MaxExamples` is 12 (RadicalData.h:47). -/
def radicalLine (total : List (KanjiType × Nat)) (e : RadicalEntry) (l : List KanjiRec) : List (KanjiType × Nat) × Str :=
  let count := l.foldl (fun c k => incType c k.kanji.type) []
  (l.foldl (fun c k => incType c k.kanji.type) total,
   radicalText e.number e.name ++ u8!":" ++ printRadicalCounts count false ++ radicalExamples 12 l ++ u8!"\n")

/-- The loop of `printRadicalLists` (RadicalData.cpp:88-104); `sort` is `std::sort` with `OrderByStrokes`. -/
def radicalLines (sort : List KanjiRec → List KanjiRec) :
    List RadicalEntry → List (KanjiType × Nat) → List (KanjiType × Nat) × Str
  | [], total => (total, [])
  | e :: m, total =>
    let line := radicalLine total e (sort e.list)
    let rest := radicalLines sort m line.1
    (rest.1, line.2 ++ rest.2)

/-- `printRadicalLists` (RadicalData.cpp:86-107). -/
def printRadicalLists (sort : List KanjiRec → List KanjiRec) (m : List RadicalEntry) : Str :=
  let lines := radicalLines sort m []
  lines.2 ++ u8!">>> " ++ u8!"  Total for " ++ toDec m.length ++ u8!" radicals: " ++ printRadicalCounts lines.1 true

/-- The radicals collected by lines 117-118; `find` compares numbers. -/
def missingRadicals (radicals : List Radical) (m : List RadicalEntry) : List Radical :=
  radicals.filter fun r => !(m.any fun e => e.number == r.number)

/-- `printMissingRadicals` (RadicalData.cpp:114-125). -/
def printMissingRadicals (radicals : List Radical) (m : List RadicalEntry) : Str :=
  let missing := missingRadicals radicals m
  if missing.isEmpty then []
  else u8!">>> " ++ u8!"  Found " ++ toDec missing.length ++ u8!" radical" ++
    (if missing.length > 1 then u8!"s" else u8!"") ++ u8!" with no Kanji:" ++
    (missing.map fun r => u8!" " ++ radicalText r.number r.name).flatten ++ u8!"\n"

/-- The loop of RadicalData.cpp:71-75. -/
def radicalTypes : List KanjiType → Str
  | [] => []
  | [t] => kanjiTypeText t
  | t :: ts => kanjiTypeText t ++ u8!" " ++ radicalTypes ts

/-- `print` (RadicalData.cpp:69-84). -/
def RadicalData.print (d : RadicalData) (sort : List KanjiRec → List KanjiRec) (store : KanjiStore) : Str :=
  let radicals := radicalLists (mapOrder store.nameMap)
  u8!">>> " ++ u8!"Common Kanji Radicals (" ++ radicalTypes typesBeforeNone ++ u8!"):\n" ++
    printRadicalLists sort radicals ++ printMissingRadicals d.radicals radicals

end KT
