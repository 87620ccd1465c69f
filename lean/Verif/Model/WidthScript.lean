import Verif.Model.DisplaySize
import Verif.Model.QuizLauncher
/-!
# Model of scripts/parseEastAsianWidth.sh

The script reads the Unicode file `EastAsianWidth.txt` and prints the C++ table `WideBlocks` of
DisplaySize.h.  Left out: the expansion of file name patterns and the options of `echo` in `echo $i`
(line 79; they only concern lines that are not in the format of the file), variables with the names
`prevStart` and `prevEnd` in the environment, and a file that cannot be read.  A line whose numbers
are no hex numbers, where bash reports errors and goes on, is `.ub`.
-/
namespace KT

/-- Blanks between the words of a line (the default `IFS` without the newline). -/
def isShBlank (b : UInt8) : Bool := b == 0x20 || b == 0x09

/-- Word splitting; `w` is the word read so far. -/
def shWordsLoop : Str → Str → List Str
  | [], w => if w = [] then [] else [w]
  | b :: s, w =>
    if isShBlank b then (if w = [] then shWordsLoop s [] else w :: shWordsLoop s [])
    else shWordsLoop s (w ++ [b])

/-- The words of an unquoted expansion. -/
def shWords (s : Str) : List Str := shWordsLoop s []

/-- `while read -r i` (lines 77, 86): only lines that end with a newline enter the loop. -/
def shLines : Str → Str → List Str
  | [], _ => []
  | b :: s, l => if b == 0x0a then l :: shLines s [] else shLines s (l ++ [b])

/-- `echo $i | sed 's/^\([^#]*\).*/\1/'` (line 79). -/
def withoutComment (i : Str) : Str := ((u8!" ").intercalate (shWords i)).takeWhile (· != 0x23)

/-- `grep -q ';[FW]'` (line 80). -/
def hasWideClass : Str → Bool
  | a :: b :: s => (a == 0x3b && (b == 0x46 || b == 0x57)) || hasWideClass (b :: s)
  | _ => false

/-- `${line%c*}`. -/
def beforeLast (c : UInt8) (s : Str) : Str :=
  if s.contains c then ((s.reverse.dropWhile (· != c)).drop 1).reverse else s

/-- `${line%%c*}`. -/
def beforeFirst (c : UInt8) (s : Str) : Str := s.takeWhile (· != c)

/-- `${line##*c}`. -/
def afterLast (c : UInt8) (s : Str) : Str := (s.reverse.takeWhile (· != c)).reverse

/-- The global variables: `prevStart` and `prevEnd` (`none` when empty) and `blocks` with the two
arguments of `out` (lines 25-31). -/
structure WidthState where
  prev : Option (Str × Str) := none
  blocks : List (Str × Str) := []
  deriving DecidableEq, Repr

/-- `one_bigger` (lines 33-37). -/
def oneBigger (a b : Str) : Bool := (hexValue a : Int) - (hexValue b : Int) == 1

/-- `process` (lines 39-71). -/
def WidthState.process (st : WidthState) (a b : Str) : WidthState :=
  if a ≠ b then
    match st.prev with
    | some (s, e) =>
      if oneBigger a e then { st with prev := some (s, b) }
      else { prev := some (a, b), blocks := st.blocks ++ [(s, e)] }
    | none => { st with prev := some (a, b) }
  else
    match st.prev with
    | some (s, e) =>
      if oneBigger a e then { st with prev := some (s, a) }
      else { prev := some (a, a), blocks := st.blocks ++ [(s, e)] }
    | none => { st with prev := some (a, a) }

/-- Hex numbers that fit the arithmetic of bash. -/
def isShHex (s : Str) : Bool := s != [] && s.all isHexChar && s.length ≤ 15

/-- One round of the loop (lines 78-85). -/
def WidthState.line (st : WidthState) (i : Str) : Res WidthState :=
  let line := withoutComment i
  if line ≠ [] ∧ hasWideClass line = true then
    let line := beforeLast 0x3b line
    match shWords (beforeFirst 0x2e line) ++ shWords (afterLast 0x2e line) with
    | a :: b :: _ => if isShHex a && isShHex b then .ok (st.process a b) else .ub
    | _ => .ub
  else .ok st

/-- The loop over the lines (lines 77-86). -/
def WidthState.lines : List Str → WidthState → Res WidthState
  | [], st => .ok st
  | i :: is, st => (st.line i).bind fun st' => WidthState.lines is st'

/-- The last range (line 88). -/
def WidthState.finish (st : WidthState) : WidthState :=
  match st.prev with
  | some (s, e) => st.process s e
  | none => st

/-- `blocks` at the end, for the text of the file. -/
def widthBlocks (text : Str) : Res (List (Str × Str)) :=
  (WidthState.lines (shLines text []) {}).bind fun st => .ok st.finish.blocks

/-- The texts that `out` stores (line 28). -/
def widthBlockText (b : Str × Str) : Str :=
  if b.1 = b.2 then u8!"<0x" ++ b.1 ++ u8!">()" else u8!"<0x" ++ b.1 ++ u8!", 0x" ++ b.2 ++ u8!">()"

/-- The loop that prints the blocks (lines 90-96); `len` is the number of blocks to come. -/
def widthPrintLoop : List (Str × Str) → Nat → Str
  | [], _ => []
  | b :: bs, len =>
    u8!"  makeBlock" ++ widthBlockText b ++ (if len - 1 = 0 then [] else u8!",") ++ u8!"\n" ++
      widthPrintLoop bs (len - 1)

/-- `msg` (lines 17-19). -/
def widthMsg (s : Str) : Str :=
  u8!"// --- " ++ s ++ u8!" generated code from 'parseEastAsiaWidth.sh' ---\n"

/-- The program: its output and its exit status, for the text of the file given as first argument. -/
def widthScript (file : Option Str) : Res (Str × Nat) :=
  match file with
  | none => .ok (u8!"please specify 'EastAsiaWidth.txt' file to parse\n", 1)
  | some text =>
    (widthBlocks text).bind fun bs =>
      .ok (widthMsg (u8!"begin") ++ u8!"inline constexpr std::array WideBlocks{\n" ++
        widthPrintLoop bs bs.length ++ u8!"};\n" ++ widthMsg (u8!"end"), 0)

end KT
