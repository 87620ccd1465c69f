import Verif.Model.KanjiData
import Verif.Model.Decimal
import Verif.Model.StatsReport
import Verif.Model.QuizLauncher
/-!
# Model of the counts printed after loading (libs/kanji/src/KanjiData.cpp:158-170, 343-472)
-/
namespace KT

/-- `_types` has a list for each type except `None`; the loops go through it and through `AllKanjiTypes` in parallel
(KanjiData.cpp:345, 372, 438). -/
def KanjiStore.typeLists (d : KanjiStore) : List (KanjiType × List KanjiRec) :=
  [.jouyou, .jinmei, .linkedJinmei, .linkedOld, .frequency, .extra, .kentei, .ucd].map fun t => (t, d.types t)

/-- The loop of KanjiData.cpp:345-348; `first` is `i == AllKanjiTypes.begin()`. -/
def loadedTypes : Bool → List (KanjiType × List KanjiRec) → Str
  | _, [] => []
  | first, (t, l) :: r =>
    (if first then [] else u8!" ") ++ kanjiTypeText t ++ u8!" " ++ toDec l.length ++ loadedTypes false r

/-- KanjiData.cpp:344-349. -/
def loadedLine (d : KanjiStore) : Str :=
  u8!">>> Loaded " ++ toDec d.nameMap.length ++ u8!" Kanji (" ++ loadedTypes true d.typeLists ++ u8!")\n"

/-- Texts with counts, separated as long as some of the total remains: `total -= count; if (total) out << ", "`
(KanjiData.cpp:388-393, 419-423, 454-463).  The subtraction is on natural numbers, no count is greater than what
remains. -/
def separatedCounts : Nat → List (Nat × Str) → Str
  | _, [] => []
  | total, (count, text) :: r =>
    text ++ (if total - count ≠ 0 then u8!", " else []) ++ separatedCounts (total - count) r

/-- The loop of KanjiData.cpp:375-379: number of kanji counted and examples. -/
def exampleLoop (pred : Kanji → Bool) (printExamples : Nat) : List KanjiRec → Nat × List Str → Nat × List Str
  | [], r => r
  | k :: ks, (count, examples) =>
    if pred k.kanji then
      exampleLoop pred printExamples ks
        (count + 1, if count + 1 ≤ printExamples then examples ++ [k.kanji.name] else examples)
    else exampleLoop pred printExamples ks (count, examples)

/-- KanjiData.cpp:373-381. -/
def countAndExamples (pred : Kanji → Bool) (printExamples : Nat) (l : List KanjiRec) : Nat × List Str :=
  if printExamples ≠ 0 then exampleLoop pred printExamples l (0, [])
  else (l.countP fun k => pred k.kanji, [])

/-- `printCount` (KanjiData.cpp:367-397). -/
def printCount (d : KanjiStore) (pred : Kanji → Bool) (name : Str) (printExamples : Nat) : Str :=
  let counts := (d.typeLists.map fun p => (p.1, countAndExamples pred printExamples p.2)).filter fun p => p.2.1 ≠ 0
  let total := counts.foldl (fun n p => n + p.2.1) 0
  if total ≠ 0 then
    u8!">>> " ++ name ++ u8!" " ++ toDec total ++ u8!" (" ++
      separatedCounts total (counts.map fun p =>
        (p.2.1, kanjiTypeText p.1 ++ u8!" " ++ toDec p.2.1 ++ (p.2.2.map fun e => u8!" " ++ e).flatten)) ++ u8!")\n"
  else []

/-- The counts with their names and numbers of examples (KanjiData.cpp:351-364). -/
def printedCounts : List (Str × (Kanji → Bool) × Nat) :=
  [(u8!"  Has JLPT level", fun k => k.level.isSome, 0),
   (u8!"  Has frequency and not in Jouyou or JLPT",
     fun k => k.frequency ≠ 0 && k.type ≠ .jouyou && !k.level.isSome, 0),
   (u8!"  Jinmei with no frequency and not JLPT",
     fun k => k.type = .jinmei && k.frequency = 0 && !k.level.isSome, 0),
   (u8!"  NF (no-frequency)", fun k => k.frequency = 0, 0),
   (u8!"  Has Variant Strokes", fun k => k.strokes.variant ≠ 0, 0),
   (u8!"  Has Variation Selectors", fun k => k.variant, 5),
   (u8!"Old Forms", fun k => k.oldNames ≠ [], 0)]

/-- `printCountsAndStats` (KanjiData.cpp:343-365). -/
def printCountsAndStats (fullDebug : Bool) (d : KanjiStore) : Str :=
  loadedLine d ++
    if fullDebug then (printedCounts.map fun p => printCount d p.2.1 p.1 p.2.2).flatten else []

/-- `noFreq` (KanjiData.cpp:463-472). -/
def noFreq (f : Nat) (brackets : Bool) : Str :=
  if f ≠ 0 then (if brackets then u8!" (" else u8!" ") ++ u8!"nf " ++ toDec f ++ (if brackets then u8!")" else []) else []

/-- The values of an enum list with `None` (EnumList.h:226, 233-235) and their texts. -/
def withNone {α : Type} (l : List α) : List (Option α) := l.map some ++ [none]

@[inherit_doc withNone]
def orNone {α : Type} (text : α → Str) : Option α → Str
  | some x => text x
  | none => u8!"None"

/-- The line of a grade and the number of kanji in it (KanjiData.cpp:403-427). -/
def gradeLine (jouyou : List KanjiRec) (g : Option KanjiGrade) : Nat × Str :=
  let grade : KanjiRec → Bool := fun x => x.kanji.grade = g
  let gradeCount := jouyou.countP grade
  if gradeCount ≠ 0 then
    (gradeCount,
      u8!">>> " ++ u8!"  Total for grade " ++ orNone KanjiGrade.toString g ++ u8!": " ++ toDec gradeCount ++
      noFreq (jouyou.countP fun x => grade x && x.kanji.frequency = 0) true ++ u8!" (" ++
      separatedCounts gradeCount
        ((withNone allLevels).filterMap fun level =>
          let count := jouyou.countP fun x => grade x && x.kanji.level = level
          if count ≠ 0 then some (count, orNone JlptLevel.toString level ++ u8!" " ++ toDec count) else none) ++
      u8!")\n")
  else (0, [])

/-- `printGrades` (KanjiData.cpp:399-430). -/
def printGrades (d : KanjiStore) : Str :=
  let lines := (withNone allGrades).map (gradeLine (d.types .jouyou))
  u8!">>> " ++ u8!"Grade breakdown:\n" ++ (lines.map (·.2)).flatten ++
    u8!">>> " ++ u8!"  Total for all grades: " ++ toDec (lines.foldl (fun n l => n + l.1) 0) ++ u8!"\n"

/-- The line of a value (KanjiData.cpp:436-465); `field` is the member function `F`. -/
def listStatsLine {α : Type} [DecidableEq α] (d : KanjiStore) (field : Kanji → Option α) (text : α → Str) (name : Str)
    (showNoFreq : Bool) (i : Option α) : Nat × Str :=
  let counts := (d.typeLists.map fun p => (p.1, p.2.countP fun x => field x.kanji = i)).filter fun p => p.2 ≠ 0
  let iTotal := counts.foldl (fun n p => n + p.2) 0
  if iTotal ≠ 0 then
    (iTotal,
      u8!">>> " ++ u8!"  Total for " ++ name ++ u8!" " ++ orNone text i ++ u8!": " ++ toDec iTotal ++ u8!" (" ++
      separatedCounts iTotal (counts.map fun p =>
        (p.2, kanjiTypeText p.1 ++ u8!" " ++ toDec p.2 ++
          (if showNoFreq then
            noFreq ((d.types p.1).countP fun x => field x.kanji = i && x.kanji.frequency = 0) false
          else []))) ++
      u8!")\n")
  else (0, [])

/-- `printListStats` (KanjiData.cpp:432-461). -/
def printListStats {α : Type} [DecidableEq α] (d : KanjiStore) (field : Kanji → Option α) (list : List α)
    (text : α → Str) (name : Str) (showNoFreq : Bool) : Str :=
  let lines := (withNone list).map (listStatsLine d field text name showNoFreq)
  u8!">>> " ++ name ++ u8!" breakdown:\n" ++ (lines.map (·.2)).flatten ++
    u8!">>> " ++ u8!"  Total for all " ++ name ++ u8!"s: " ++ toDec (lines.foldl (fun n l => n + l.1) 0) ++ u8!"\n"

/-- What `finishedLoadingData` prints after the data was loaded (KanjiData.cpp:160-170), without the summaries of the
radicals and of the Unicode data. -/
def printLoaded (mode : DebugMode) (d : KanjiStore) : Str :=
  (if mode = .full then u8!">>>\n>>> " ++ u8!"Finished Loading Data\n>>>\n" else []) ++
    if mode ≠ .none then
      printCountsAndStats (mode = .full) d ++ printGrades d ++
        if mode = .full then
          printListStats d (·.level) allLevels JlptLevel.toString (u8!"Level") true ++
            printListStats d (·.kyu) allKyus KenteiKyu.toString (u8!"Kyu") false
        else []
    else []

end KT
