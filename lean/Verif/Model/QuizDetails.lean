import Verif.Model.DisplaySize
import Verif.Model.Jukugo
import Verif.Model.GroupData
/-!
# Model of what libs/quiz/src/QuizLauncher.cpp shows about a kanji

Texts written to `out()` are given as one text.
-/
namespace KT

/-! ## Jukugo -/

/-- `nameAndReading` (Jukugo.cpp:21). -/
def Jukugo.nameAndReading (j : Jukugo) : Str := j.name ++ u8!"（" ++ j.reading ++ u8!"）"

/-- `MaxJukugoSize` (QuizLauncher.cpp); `JukugoPerLine` is 3. -/
def maxJukugoSize : Nat := 30

/-- The new width of a column after an entry (QuizLauncher.cpp:429-433). -/
def jukugoColumn (width : Nat) (s : Str) : Nat :=
  if width < maxJukugoSize then
    let size := displaySize s + 2
    if size > width then (if size < maxJukugoSize then size else maxJukugoSize) else width
  else width

/-- The loop over all entries (QuizLauncher.cpp:428-433) from position `i`. -/
def jukugoColumns : Nat → List Str → List Nat → List Nat
  | _, [], ws => ws
  | i, s :: r, ws => jukugoColumns (i + 1) r (ws.modify (i % 3) (jukugoColumn · s))

/-- The loop that writes the entries (QuizLauncher.cpp:434-439) from position `i`. -/
def jukugoRows (ws : List Nat) : Nat → List Str → Str
  | _, [] => []
  | i, s :: r =>
    (if i % 3 = 0 then u8!"\n" else []) ++ setwLeft (wideSetw s (ws.getD (i % 3) 0)) s ++ jukugoRows ws (i + 1) r

/-- `printJukugoList` (QuizLauncher.cpp:419-442). -/
def printJukugoList (name : Str) (list : List Jukugo) : Str :=
  let entries := list.map Jukugo.nameAndReading
  u8!"    " ++ name ++ u8!":" ++
    (if list.length ≤ 3 then (entries.map fun s => u8!" " ++ s).flatten
     else u8!" " ++ toDec list.length ++ jukugoRows (jukugoColumns 0 entries [0, 0, 0]) 0 entries) ++ u8!"\n"

/-- `printJukugo` (QuizLauncher.cpp:394-417) for a kanji with this grade and these Jukugo. -/
def printJukugo (grade : Option KanjiGrade) (list : List Jukugo) : Str :=
  (if list.isEmpty then []
   else match grade with
    | some g =>
      if list.length > 3 then
        let same := list.filter fun j => g == j.grade
        let other := list.filter fun j => !(g == j.grade)
        if other.isEmpty then printJukugoList (u8!" Jukugo") list
        else printJukugoList (u8!"Same Grade Jukugo") same ++ printJukugoList (u8!"Other Grade Jukugo") other
      else printJukugoList (u8!" Jukugo") list
    | none => printJukugoList (u8!" Jukugo") list) ++ u8!"\n"

/-! ## Similar kanji, IDs and categories -/

/-- The qualified names written for the similar kanji (QuizLauncher.cpp:194-195). -/
def similarNames (k : KanjiRec) : List KanjiRec → Res Str
  | [] => .ok []
  | j :: js =>
    if j.kanji.name = k.kanji.name then similarNames k js
    else j.kanji.qualifiedName.bind fun q => (similarNames k js).bind fun r => .ok (u8!" " ++ q ++ r)

/-- QuizLauncher.cpp:187-197; `sort` is the call of `std::sort`. -/
def similarLine (sort : List KanjiRec → List KanjiRec) (d : PatternGroups) (k : KanjiRec) : Res Str :=
  match d.map.lookup k.kanji.name with
  | some g =>
    if g.patternType = .reading then .ok []
    else (similarNames k (sort g.members)).bind fun r => .ok (u8!"    Similar:" ++ r ++ u8!"\n")
  | none => .ok []

/-- QuizLauncher.cpp:199-205. -/
def idLines (k : KanjiRec) : Str :=
  (if k.morohashiId.id ≠ 0 then u8!"  Morohashi: " ++ k.morohashiId.toString ++ u8!"\n" else []) ++
  (if k.nelsonIds.isEmpty then []
   else (if k.nelsonIds.length = 1 then u8!"  Nelson ID:" else u8!" Nelson IDs:") ++
     (k.nelsonIds.map fun i => u8!" " ++ toDec i.toNat).flatten ++ u8!"\n")

/-- The loop over the categories (QuizLauncher.cpp:211-214); `first` is `j == i.first`. -/
def categoryNames : Bool → List Group → Str
  | _, [] => []
  | first, g :: gs => (if first then [] else u8!", ") ++ u8!"[" ++ g.name ++ u8!"]" ++ categoryNames false gs

/-- QuizLauncher.cpp:207-216; `equal_range` of the multimap are the entries with this key. -/
def categoryLine (d : MeaningGroups) (k : KanjiRec) : Str :=
  let range := (d.map.filter (·.1 == k.kanji.name)).map (·.2)
  if range.isEmpty then []
  else (if range.length = 1 then u8!"   Category: " else u8!" Categories: ") ++ categoryNames true range ++ u8!"\n"

/-- What `printReviewDetails` uses of the program's data. -/
structure DetailData where
  patterns : PatternGroups := {}
  meanings : MeaningGroups := {}
  jukugo : JukugoStore := {}
  reading : KanjiRec → Str
  meaning : KanjiRec → Option Str

/-- `printReviewDetails` (QuizLauncher.cpp:184-218). -/
def printReviewDetails (sort : List KanjiRec → List KanjiRec) (d : DetailData) (k : KanjiRec) : Res Str :=
  (similarLine sort d.patterns k).bind fun similar =>
    .ok (u8!"    Reading: " ++ d.reading k ++ u8!"\n" ++ similar ++ idLines k ++ categoryLine d.meanings k ++
      printJukugo k.kanji.grade (d.jukugo.find k.kanji.name))

/-- `printMeaning` (QuizLauncher.cpp:177-182); `meaning` is `none` if `hasMeaning` is false. -/
def printMeaning (meaning : Option Str) (useNewLine showMeaning : Bool) : Str :=
  (match meaning with
   | some m => if showMeaning then (if useNewLine then u8!"\n    Meaning: " else u8!" : ") ++ m else []
   | none => []) ++ u8!"\n"

/-- `printLegend` (QuizLauncher.cpp:163-175); `log()` begins the text with `>>> ` (KanjiData.cpp:142-144). -/
def printLegend (f : InfoFields) : Str :=
  let s : Str := if f.level then u8!" N[1-5]=JLPT Level" else []
  let s := if f.kyu then (if s.isEmpty then s else s ++ u8!",") ++ u8!" K[1-10]=Kentei Kyu" else s
  let s := if f.grade then (if s.isEmpty then s else s ++ u8!",") ++ u8!" G[1-6]=Grade (S=Secondary School)" else s
  u8!">>> Legend:\nFields:" ++ s ++ u8!"\nSuffix: .=常用 '=JLPT \"=Freq ^=人名用 ~=LinkJ %=LinkO +=Extra @=検定 #=1級 *=Ucd\n"

/-- `getNelsonIds` (KanjiData.cpp:54-64): the numbers read by `ss >> id` from the text with commas replaced by
blanks.  Reading a number skips blanks and takes the digits; without digits, or for a number that doesn't fit,
it fails and the loop ends.  (A sign before the digits isn't modelled: reading stops.) -/
def readNelsonIds : Nat → Str → List UInt16
  | 0, _ => []
  | fuel + 1, s =>
    let s := s.dropWhile (· == 0x20)
    let ds := s.takeWhile isDigitChar
    if ds.isEmpty then []
    else if decimalValue ds > 65535 then []
    else UInt16.ofNat (decimalValue ds) :: readNelsonIds fuel (s.drop ds.length)

@[inherit_doc readNelsonIds]
def getNelsonIds (s : Str) : List UInt16 :=
  let s := s.map fun b => if b = 0x2c then 0x20 else b
  readNelsonIds (s.length + 1) s

/-- `printDetails` (QuizLauncher.cpp:359-381) for one kanji; `found` is what is written about it (from line 365). -/
def printOneDetail (found : Str → Res Str) (arg : Str) (showLegend : Bool) : Res Str :=
  (found arg).bind fun text =>
    .ok ((if showLegend then printLegend {} ++
      u8!"Sources: G=China / Singapore, H=Hong Kong, J=Japan, K=Korea, T=Taiwan, V=Vietnam\n\n" else []) ++ text)

/-- The loop of `printDetails` over the kanji with an ID (QuizLauncher.cpp:356). -/
def printEach (found : Str → Res Str) (showLegend : Bool) : List Str → Res Str
  | [] => .ok []
  | k :: ks => (printOneDetail found k showLegend).bind fun a => (printEach found showLegend ks).bind fun b => .ok (a ++ b)

/-- `printDetails` (QuizLauncher.cpp:346-357) for the kanji with an ID. -/
def printMatches (found : Str → Res Str) (list : List Str) (name arg : Str) : Res Str :=
  (printEach found (list.length == 1) list).bind fun texts =>
    .ok ((if list.length ≠ 1 then
      (if list.length > 1 then printLegend {} ++ u8!"\n" else []) ++
        u8!"Found " ++ toDec list.length ++ u8!" matches for " ++ name ++ u8!" ID " ++ arg ++
        (if list.isEmpty then u8!"\n" else u8!":\n\n")
     else []) ++ texts)

end KT
