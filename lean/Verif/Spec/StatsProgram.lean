import Verif.Model.StatsProgram
import Verif.Spec.Stats
/-!
# Specification of kanjiStats: what is read, what is counted, what is written
-/
namespace Spec
open KT

/-! ## What is read -/

/-- The strings of a file: its lines, put together where Furigana goes over a line end if `joined` (C51). -/
def stringsOf (joined : Bool) (content : Str) : List Str :=
  match fileStrings joined content with
  | .ok r => r
  | _ => []

mutual
/-- Everything that is read in a directory tree, with the name of the file or directory it comes from: the strings of the
files, and after each file and directory its name. -/
def nodeTexts (joined : Bool) (name : Str) : Node → List (Str × Str)
  | .file content => (stringsOf joined content).map (fun s => (s, name)) ++ [(name, name)]
  | .dir es => entryTexts joined es ++ [(name, name)]
  | .link _ => []
  | .other => []

def entryTexts (joined : Bool) : Entries → List (Str × Str)
  | .nil => []
  | .cons name n rest => nodeTexts joined name n ++ entryTexts joined rest
end

mutual
/-- The numbers of files and directories in a directory tree. -/
def nodeSize : Node → Nat × Nat
  | .file _ => (1, 0)
  | .dir es => ((entriesSize es).1, (entriesSize es).2 + 1)
  | .link _ => (0, 0)
  | .other => (0, 0)

def entriesSize : Entries → Nat × Nat
  | .nil => (0, 0)
  | .cons _ n rest => ((nodeSize n).1 + (entriesSize rest).1, (nodeSize n).2 + (entriesSize rest).2)
end

/-- What a path leads to: a link is followed, `none` if there is nothing. -/
def atPath : Option Node → Option Node
  | some (.link t) => t
  | n => n

/-- The characters of the texts that are in a category, each with its source. -/
def charsIn (furigana : Bool) (allow : Str → Bool) (texts : List (Str × Str)) : List (Str × Str) :=
  texts.flatMap fun t =>
    ((charsOf (if furigana then none else some furiganaFind) t.1).filter allow).map fun c => (c, t.2)

/-! ## Counts -/

/-- A value put into an increasing list without repetition. -/
def insertNew (s : Str) : List Str → List Str
  | [] => [s]
  | t :: l => if strLt s t then s :: t :: l else if s = t then t :: l else t :: insertNew s l

/-- The different values of a list, increasing. -/
def different (l : List Str) : List Str := l.foldr insertNew []

/-- The different values of a list with the numbers of times that they are in it. -/
def tally (l : List Str) : List (Str × Nat) := (different l).map fun s => (s, l.count s)

/-- The first value that is at least as often in the list as any other. -/
def mostFrequent (l : List Str) : Str :=
  ((different l).find? fun s => (different l).all fun t => l.count t ≤ l.count s).getD []

/-! ## The report -/

/-- `>>>` and a name, the number of characters and the number of different ones. -/
def summary (name : Str) (total unique : Nat) : Str :=
  u8!">>> " ++ setwRight 16 name ++ u8!": " ++ setwRight 6 (toDec total) ++ u8!", unique: " ++ setwRight 4 (toDec unique)

/-- Up to five characters with their counts. -/
def fewExamples (l : List StatCount) : Str :=
  (List.intersperse (u8!", ") ((l.take 5).map fun c => c.name ++ u8!" " ++ toDec c.count)).flatten

/-- A category of characters. -/
structure Category where
  name : Str
  allow : Str → Bool
  /-- Readings in brackets count. -/
  furigana : Bool
  kanji : Bool := false
  common : Bool := false
  listed : Bool := false

/-- The categories in the order of the report. -/
def categories (ucd : Str → Bool) : List Category :=
  [{ name := u8!"Hiragana", allow := isHiragana, furigana := false },
   { name := u8!"Katakana", allow := isKatakana, furigana := false },
   { name := u8!"Common Kanji", allow := fun x => isCommonKanji x && ucd x, furigana := true, kanji := true, common := true },
   { name := u8!"Rare Kanji", allow := fun x => isRareKanji x && ucd x, furigana := true, kanji := true },
   { name := u8!"Non-UCD Kanji", allow := fun x => isKanji x && !ucd x, furigana := true, kanji := true },
   { name := u8!"MB-Punctuation", allow := isMBPunctuation, furigana := true },
   { name := u8!"MB-Symbol", allow := isMBSymbol, furigana := true },
   { name := u8!"MB-Letter", allow := isMBLetter, furigana := false },
   { name := u8!"Unrecognized", allow := fun x => !isRecognizedUtf8 x, furigana := true, listed := true }]

/-- The characters of a category that are in a directory tree. -/
def Category.chars (c : Category) (name : Str) (n : Node) : List (Str × Str) :=
  charsIn c.furigana c.allow (nodeTexts (!c.furigana) name n)

/-- A line for the kanji of a type: how many of the characters have this type, which part of all that is, and the first
ones in the order of the set. -/
def typeSummary (find : Str → Option Kanji) (cs : List Str) (shown : List StatCount) (t : Option KanjiType) : Str :=
  let mine := cs.filter fun c => (find c).map (·.type) = t
  if mine = [] then []
  else summary (u8!"[" ++ anyTypeText t ++ u8!"] ") mine.length (different mine).length ++ u8!", " ++
    setwRight 6 (percentText 2 mine.length cs.length) ++ u8!"%  (" ++
    fewExamples (shown.filter fun c => c.entry.map (·.type) = t) ++ u8!")\n"

/-- A line of the list of all characters; the file where it is found most often is shown if it isn't a known kanji. -/
def listLine (breakdown : Bool) (cs : List (Str × Str)) (rank : Nat) (c : StatCount) : Str :=
  u8!"  " ++ (if breakdown then setwLeft 5 (toDec rank) ++ u8!" " else []) ++ countText c ++
    (if c.entry = none then u8!", " ++ mostFrequent ((cs.filter fun x => x.1 == c.name).map (·.2)) else []) ++ u8!"\n"

/-- The part of the report for a category. -/
def Category.report (c : Category) (d : StatsData) (breakdown : Bool) (cs : List (Str × Str)) : Str :=
  let names := cs.map (·.1)
  let shown := d.set ((tally names).map fun p => ⟨p.2, p.1, if c.kanji then d.findByName p.1 else none⟩)
  if cs = [] then []
  else
    summary c.name cs.length (different names).length ++
    (if c.common then u8!", 100.00%\n" ++ allKanjiTypes.flatMap (typeSummary d.findByName names shown)
     else if c.kanji then setwRight 12 (u8!"(") ++ fewExamples shown ++ u8!")\n"
     else u8!"\n") ++
    (if c.listed || c.kanji && breakdown then
      u8!">>> Showing Breakdown for '" ++ c.name ++ u8!"':\n  Rank  [Val Num]" ++
      (if c.kanji && c.name != u8!"Non-UCD Kanji" then u8!" Freq, LV, Type" else u8!", Unicode, Highest Count File") ++
      u8!"\n" ++ ((shown.zipIdx 1).map fun p => listLine breakdown cs p.2 p.1).flatten
     else [])

/-- The lines changed by the removal of Furigana, numbered, with a heading when the source changes. -/
def replacementList : (number : Nat) → (last : Str) → (texts : List (Str × Str)) → Str
  | _, _, [] => []
  | i, last, (s, source) :: r =>
    if furiganaFind s = s then replacementList i last r
    else
      (if source = last then [] else u8!"Tag '" ++ source ++ u8!"'\n") ++
      u8!"  " ++ toDec i ++ u8!" : " ++ s ++ u8!"\n" ++
      setwRight (Int.ofNat ((toDec i).length + 5)) (u8!": ") ++ furiganaFind s ++ u8!"\n" ++
      replacementList (i + 1) source r

/-- The heading: numbers of files and directories, and what was noticed while reading without Furigana. -/
def heading (name : Str) (n : Node) (texts : List (Str × Str)) : Str :=
  let size := nodeSize n
  let sum (f : Utf8CharState → Nat) : Nat := (texts.map fun t => f (endState (some furiganaFind) t.1)).sum
  let changed := texts.countP fun t => furiganaFind t.1 != t.1
  u8!">>> Stats for: '" ++ name ++ u8!"'" ++
    (if size.1 ≤ 1 then []
     else if size.2 ≤ 1 then u8!" (" ++ toDec size.1 ++ u8!" files)"
     else u8!" (" ++ toDec size.1 ++ u8!" files from " ++ toDec size.2 ++ u8!" directories)") ++
    u8!" - showing top 5 Kanji per type" ++
    (if changed = 0 ∧ sum (·.combiningMarks) = 0 ∧ sum (·.variants) = 0 then []
     else u8!"\n>>> Furigana Removed: " ++ toDec changed ++ u8!", Combining Marks Replaced: " ++
      toDec (sum (·.combiningMarks)) ++ u8!", Variation Selectors: " ++ toDec (sum (·.variants))) ++
    (if sum (·.errors) = 0 then [] else u8!", Errors: " ++ toDec (sum (·.errors))) ++ u8!"\n"

/-- The last line, for the numbers of Hiragana, Katakana and Kanji. -/
def totals (h k c : Nat) : Str :=
  let total := h + k + c
  u8!">>> Total Kana+Kanji: " ++ toDec total ++
    (if total = 0 then []
     else u8!" (" ++ (if h = 0 then [] else u8!"Hiragana: " ++ percentText 1 h total ++ u8!"%, ") ++
       (if k = 0 then [] else u8!"Katakana: " ++ percentText 1 k total ++ u8!"%, ") ++
       u8!"Kanji: " ++ percentText 1 c total ++ u8!"%)") ++ u8!"\n"

/-- The parts of a path. -/
def pathParts (path : Str) : List Str := path.splitOn 0x2f

/-- The last part of a path, and the last part that isn't empty. -/
def lastPart (path : Str) : Str := (pathParts path).getLastD []
def lastName (path : Str) : Str := ((pathParts path).filter (· ≠ [])).getLastD []

/-- The report for a file or directory. -/
def statsReport (d : StatsData) (breakdown verbose : Bool) (path : Str) (n : Node) : Str :=
  let texts := nodeTexts true (lastPart path) n
  let count (c : Category) : Nat := (c.chars (lastPart path) n).length
  (if verbose then u8!">>> Showing all Furigana replacements:\n" ++ replacementList 1 [] texts else []) ++
  heading (lastName path) n texts ++
  (categories d.ucd).flatMap (fun c => c.report d breakdown (c.chars (lastPart path) n)) ++
  totals (count ⟨u8!"Hiragana", isHiragana, false, false, false, false⟩)
    (count ⟨u8!"Katakana", isKatakana, false, false, false, false⟩)
    (((categories d.ucd).filter (·.kanji)).map count).sum

/-! ## The program -/

/-- The reports for the paths up to the first one where there is nothing. -/
def statsReports (d : StatsData) (breakdown verbose : Bool) (fs : Str → Option Node) : List Str → Str × Option Str
  | [] => ([], none)
  | f :: r =>
    match atPath (fs f) with
    | none => ([], some (u8!"file not found: " ++ f))
    | some n =>
      (statsReport d breakdown verbose f n ++ (statsReports d breakdown verbose fs r).1,
        (statsReports d breakdown verbose fs r).2)

end Spec
