/-!
# Tables of three columns
-/
namespace Spec

/-- The lines of a table: three entries on every line but the last, which has one to three. -/
def inThrees {α : Type} : List α → List (List α)
  | [] => []
  | [a] => [[a]]
  | [a, b] => [[a, b]]
  | a :: b :: c :: r => [a, b, c] :: inThrees r

/-- The entries in column `j` of a table. -/
def column {α : Type} (rows : List (List α)) (j : Nat) : List α := rows.filterMap fun row => row[j]?

/-- The greatest of some numbers. -/
def greatest (l : List Nat) : Nat := l.foldr max 0

/-- A table whose lines start with a new line; in column `j` an entry is followed by as many blanks as its
`size` is smaller than `width j`. -/
def tableText (size : List UInt8 → Nat) (width : Nat → Nat) (rows : List (List (List UInt8))) : List UInt8 :=
  (rows.map fun row =>
    0x0a :: (row.zipIdx.map fun p => p.1 ++ List.replicate (width p.2 - size p.1) 0x20).flatten).flatten

end Spec
