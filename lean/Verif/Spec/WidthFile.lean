import Verif.Model.WidthScript
/-!
The format of `EastAsianWidth.txt` (Unicode 14) and the blocks of wide characters it describes.
-/
namespace Spec
open KT

/-- Lines of the file: an entry for one code or for a range (`start..stop`), with a class and
whatever follows it, or a line without an entry. -/
inductive WidthLine where
  | entry (start : Str) (stop : Option Str) (cls rest : Str)
  | other (text : Str)

/-- Blanks only, or blanks and a comment. -/
def Remark (s : Str) : Prop :=
  0x0a ∉ s ∧ ∃ blanks c, s = blanks ++ c ∧ (∀ b ∈ blanks, b = 0x20 ∨ b = 0x09) ∧
    (c = [] ∨ ∃ t, c = 0x23 :: t)

def WidthLine.text : WidthLine → Str
  | .entry start none cls rest => start ++ u8!";" ++ cls ++ rest ++ u8!"\n"
  | .entry start (some stop) cls rest => start ++ u8!".." ++ stop ++ u8!";" ++ cls ++ rest ++ u8!"\n"
  | .other t => t ++ u8!"\n"

/-- Four to six hex digits. -/
def WidthCode (s : Str) : Prop := 4 ≤ s.length ∧ s.length ≤ 6 ∧ ∀ b ∈ s, isHexChar b = true

def WidthLine.Fits : WidthLine → Prop
  | .entry start stop cls rest =>
    WidthCode start ∧ (∀ e, stop = some e → WidthCode e ∧ hexValue start ≤ hexValue e) ∧
    cls ∈ [u8!"N", u8!"A", u8!"H", u8!"W", u8!"F", u8!"Na"] ∧ Remark rest
  | .other t => Remark t

/-- The codes of an entry with the class `F` (full) or `W` (wide). -/
def WidthLine.wide : WidthLine → Option Block
  | .entry start stop cls _ =>
    if cls = u8!"F" ∨ cls = u8!"W" then some ⟨hexValue start, hexValue (stop.getD start)⟩ else none
  | .other _ => none

/-- The numbers of such an entry as they are spelled. -/
def wideCodes : WidthLine → Option (Str × Str)
  | .entry start stop cls _ =>
    if cls = u8!"F" ∨ cls = u8!"W" then some (start, stop.getD start) else none
  | .other _ => none

def wideRows (ls : List WidthLine) : List Block := ls.filterMap WidthLine.wide

def widthText (ls : List WidthLine) : Str := (ls.map WidthLine.text).flatten

/-- The code `c` is in one of the blocks. -/
def Covers (bs : List Block) (c : Nat) : Prop := ∃ b ∈ bs, b.start ≤ c ∧ c ≤ b.stop

/-- The entries are in ascending order and do not overlap. -/
def Ascending (bs : List Block) : Prop := bs.Pairwise fun a b => a.stop < b.start

/-- Maximal blocks in ascending order: at least one code is missing between a block and the next. -/
def Apart (bs : List Block) : Prop :=
  (∀ b ∈ bs, b.start ≤ b.stop) ∧ bs.Pairwise fun a b => a.stop + 1 < b.start

/-- The block that a line of the C++ table stands for. -/
def printedBlock (b : Str × Str) : Block := ⟨hexValue b.1, hexValue b.2⟩

/-- `makeBlock` with one or two template arguments. -/
def blockCode (b : Str × Str) : Str :=
  if b.1 = b.2 then u8!"<0x" ++ b.1 ++ u8!">()" else u8!"<0x" ++ b.1 ++ u8!", 0x" ++ b.2 ++ u8!">()"

/-- The C++ text of the table. -/
def widthTable (bs : List (Str × Str)) : Str :=
  u8!"// --- begin generated code from 'parseEastAsiaWidth.sh' ---\n" ++
  u8!"inline constexpr std::array WideBlocks{\n" ++
  (if bs = [] then []
   else (u8!",\n").intercalate (bs.map fun b => u8!"  makeBlock" ++ blockCode b) ++ u8!"\n") ++
  u8!"};\n" ++ u8!"// --- end generated code from 'parseEastAsiaWidth.sh' ---\n"

end Spec
