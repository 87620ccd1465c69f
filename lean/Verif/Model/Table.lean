import Verif.Model.DisplaySize
import Verif.Model.Decimal
/-!
# Model of class Table (libs/kana/src/Table.cpp)
-/
namespace KT

abbrev Row := List Str

/-- Fields of class Table (Table.h:89-92). -/
structure Table where
  title : Row := []
  countInFirstColumn : Bool := false
  rows : List Row := []
  sections : List Nat := []
  deriving DecidableEq, Repr

/-- `add` (Table.cpp:8-16). -/
def Table.add (t : Table) (row : Row) (startNewSection : Bool) : Table :=
  { t with
    sections := if startNewSection then t.rows.length :: t.sections else t.sections
    rows := t.rows ++ [if t.countInFirstColumn then toDec (t.rows.length + 1) :: row else row] }

/-- The inner loop at Table.cpp:22-28. -/
def mergeWidths : List Nat → Row → List Nat
  | ws, [] => ws
  | [], c :: r => displaySize c :: mergeWidths [] r
  | w :: ws, c :: r => (if w < displaySize c then displaySize c else w) :: mergeWidths ws r

/-- `widths` after Table.cpp:19-28. -/
def Table.widths (t : Table) : List Nat := t.rows.foldl mergeWidths (t.title.map displaySize)

/-- `os << std::left << std::setfill(fill) << std::setw(n) << s`. -/
def setwFill (fill : UInt8) (n : Int) (s : Str) : Str := s ++ List.replicate (n - s.length).toNat fill

/-- The lambda `cell` (Table.cpp:57-59); adding 1 to the largest `int` overflows. -/
def tableCell (fill delim : UInt8) (w : Nat) (s : Str) : Res Str :=
  if toInt32 w = 2 ^ 31 - 1 then .ub
  else .ok (delim :: fill :: setwFill fill (toInt32 w + 1) s)

/-- `printRow` (Table.cpp:55-69); the `size_t` arithmetic is modulo `2^64`. -/
def printRow (fill delim : UInt8) : List Nat → Row → Res Str
  | [], _ => .ok [delim, 0x0a]
  | w :: ws, [] => do
    let c ← tableCell fill delim w []
    let rest ← printRow fill delim ws []
    .ok (c ++ rest)
  | w :: ws, s :: r => do
    let c ← tableCell fill delim ((w + s.length + 2 ^ 64 - displaySize s) % 2 ^ 64) s
    let rest ← printRow fill delim ws r
    .ok (c ++ rest)

/-- `border` (Table.cpp:71-73). -/
def printBorder (ws : List Nat) : Res Str := printRow 0x2d 0x2b ws []

/-- The loop at Table.cpp:32-35, from row `i` on. -/
def printRows (ws : List Nat) (sections : List Nat) : Nat → List Row → Res Str
  | _, [] => .ok []
  | i, row :: rows => do
    let b ← if sections.contains i then printBorder ws else .ok []
    let r ← printRow 0x20 0x7c ws row
    let rest ← printRows ws sections (i + 1) rows
    .ok (b ++ r ++ rest)

/-- `print` (Table.cpp:18-38): the text written. -/
def Table.print (t : Table) : Res Str :=
  if t.widths = [] then .ok []
  else do
    let b ← printBorder t.widths
    let ti ← if t.title = [] then .ok [] else printRow 0x20 0x7c t.widths t.title
    let r ← printRows t.widths t.sections 0 t.rows
    .ok (b ++ ti ++ r ++ b)

/-- `RowType` (Table.h:83). -/
inductive RowType where
  | normal | header | section_
  deriving DecidableEq, Repr

/-- The loop at Table.cpp:83-87. -/
def escapePipes : Str → Str
  | [] => []
  | c :: r => (if c = 0x7c then [0x5c, 0x7c] else [c]) ++ escapePipes r

/-- `printMarkdownRow` (Table.cpp:75-96), columns from `i` on; `empty` is `row.empty()` and `row` is
the part of the row from column `i`. -/
def markdownCells (ty : RowType) (empty : Bool) : Nat → Row → Str
  | 0, _ => u8!"|\n"
  | n + 1, row =>
    u8!"| " ++ (if ty = .header ∧ empty = true then u8!"---" else []) ++
      (match row with
        | [] => []
        | s :: _ =>
          let out := escapePipes s
          if out = [] ∨ ty ≠ .section_ then out else u8!"**" ++ out ++ u8!"**") ++
      u8!" " ++ markdownCells ty empty n row.tail

def markdownRow (ty : RowType) (n : Nat) (row : Row) : Str := markdownCells ty (row = []) n row

/-- `maxColumns` (Table.cpp:41-42). -/
def Table.maxColumns (t : Table) : Nat := t.rows.foldl (fun m r => max m r.length) t.title.length

/-- The loop at Table.cpp:49-51. -/
def markdownRows (n : Nat) (sections : List Nat) : Nat → List Row → Str
  | _, [] => []
  | i, row :: rows =>
    markdownRow (if sections.contains i then .section_ else .normal) n row ++
      markdownRows n sections (i + 1) rows

/-- `printMarkdown` (Table.cpp:40-53). -/
def Table.printMarkdown (t : Table) : Str :=
  if t.maxColumns = 0 then []
  else markdownRow .normal t.maxColumns t.title ++ markdownRow .header t.maxColumns [] ++
    markdownRows t.maxColumns t.sections 0 t.rows

end KT
