import Verif.Model.UnicodeBlock
import Verif.Model.ColumnFile
/-!
# Model of libs/utils/include/kt_utils/BlockRange.h and apps/formatMain.cpp
-/
namespace KT

/-- `BaseBlockRange::fill` (BlockRange.h:13-24): the characters of a range. -/
def blockRange (blocks : List Block) : List Nat := blocks.flatMap fun b => [b.start, 0x2d, b.stop]

/-- `operator[]` with `checkIndex` (BlockRange.h:59-61, BlockRange.cpp:6-12); the array ends with a
null. -/
def blockRangeAt (blocks : List Block) (i : Nat) : Res Nat :=
  let size := blocks.length * 3
  if i > size then .throw .range
  else match (blockRange blocks ++ [0])[i]? with
    | none => .ub
    | some c => .ok c

/-- `CommonKanaBlock` (UnicodeBlock.h:163-165). -/
def commonKanaBlock : Block := ⟨0x3040, 0x30ff⟩

/-- The ranges (BlockRange.h:82-99), which index the tables of blocks. -/
def kanjiRange : List Block :=
  [commonKanjiBlocks[0], commonKanjiBlocks[1], commonKanjiBlocks[2], commonKanjiBlocks[3],
   nonSpacingBlocks[0], rareKanjiBlocks[0], rareKanjiBlocks[1], rareKanjiBlocks[2], rareKanjiBlocks[3]]
def wideLetterRange : List Block := [letterBlocks[6]]
def hiraganaRange : List Block := [hiraganaBlocks[0]]
def katakanaRange : List Block := [katakanaBlocks[0], katakanaBlocks[1]]
def kanaRange : List Block := [commonKanaBlock, katakanaBlocks[1]]

/-- Whether a character matches the class `[text]` of a regular expression: the text consists of ranges
`a-b` and of single characters (ECMAScript grammar, without escapes, classes and negation, which don't
occur in the texts used). -/
def classMatches : List Nat → Nat → Bool
  | a :: 0x2d :: b :: r, c => (decide (a ≤ c) && decide (c ≤ b)) || classMatches r c
  | a :: r, c => a == c || classMatches r c
  | [], _ => false

/-- `std::regex_search(wline, endsWithKanji)` for `[KanjiRange]{1}$` (formatMain.cpp:18).  As `$` only the
end of the line is considered (no multiline matching). -/
def endsWithKanji (line : Str) : Bool :=
  match (decode line).getLast? with
  | none => false
  | some c => classMatches (blockRange kanjiRange) c

/-- `std::regex_search(wline, allKana)` for `^[KanaRange]+$` (formatMain.cpp:19). -/
def allKanaLine (line : Str) : Bool :=
  !(decode line).isEmpty && (decode line).all (classMatches (blockRange kanaRange))

/-- The loop over the lines (formatMain.cpp:23-42): what is written to `std::cout`. -/
def formatLoop (prevLine : Str) (prevLineEndedWithKanji : Bool) : List Str → Str
  | [] => []
  | line :: rest =>
    if prevLineEndedWithKanji then
      if allKanaLine line then
        prevLine ++ u8!"（" ++ line ++ u8!"）" ++ formatLoop line false rest
      else if !endsWithKanji line then
        prevLine ++ u8!"\n" ++ line ++ u8!"\n" ++ formatLoop line false rest
      else prevLine ++ u8!"\n" ++ formatLoop line true rest
    else if endsWithKanji line then formatLoop line true rest
    else line ++ u8!"\n" ++ formatLoop line false rest

/-- `format` (formatMain.cpp:12-43) for the text of the file. -/
def formatFile (text : Str) : Str := formatLoop [] false (fields 0x0a text)

end KT
