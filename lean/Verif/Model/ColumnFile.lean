import Verif.Model.Str
/-!
# Model of libs/utils/src/ColumnFile.cpp
-/
namespace KT

/-- The successive results of `std::getline(stream, field, delim)` on a string stream
(ColumnFile.cpp:53 and 81, also used by the list and group file readers).  `cur` is the text
extracted so far by the current call, `none` if it has extracted nothing yet: a call that reaches the
end of the input without extracting any character (not even a delimiter) fails. -/
def getlines (delim : UInt8) : Str → Option Str → List Str
  | [], none => []
  | [], some cur => [cur]
  | b :: r, cur =>
    let c := match cur with | none => [] | some c => c
    if b = delim then c :: getlines delim r none else getlines delim r (some (c ++ [b]))

def fields (delim : UInt8) (line : Str) : List Str := getlines delim line none

/-- `ColumnFile::Column` (ColumnFile.h:22-39). -/
structure Column where
  name : Str
  number : Nat
  deriving DecidableEq, Repr

/-- `ColumnFile::getColumnNumber` (ColumnFile.cpp:24-28).  The static map `_allColumns` is modelled
by the list of its names in order of insertion: the number of a name is its index (the right side of
`_allColumns[name] = _allColumns.size()` is evaluated before the insertion, C++17 [expr.ass]). -/
def getColumnNumber (allColumns : List Str) (name : Str) : Nat × List Str :=
  match allColumns.findIdx? (· == name) with
  | none => (allColumns.length, allColumns ++ [name])
  | some i => (i, allColumns)

/-- `Column` constructor (ColumnFile.cpp:17-18). -/
def mkColumn (allColumns : List Str) (name : Str) : Column × List Str :=
  let r := getColumnNumber allColumns name
  (⟨name, r.1⟩, r.2)

/-- The members of `ColumnFile` (ColumnFile.h:140-158).  `lines` are the lines of `_file` that have
not been read yet; `none` in `columnToPosition` is `ColNotFound`. -/
structure ColumnFile where
  delimiter : UInt8
  currentRow : Nat
  rowValues : List Str
  columnToPosition : List (Option Nat)
  lines : List Str
  deriving DecidableEq, Repr

/-- Loop that fills `colNames` (ColumnFile.cpp:39-42); the `std::map<String, Column>` is modelled by
an association list. -/
def collectColNames : List Column → List (Str × Nat) → Res (List (Str × Nat))
  | [], colNames => .ok colNames
  | c :: cs, colNames =>
    if colNames.any (·.1 == c.name) then .throw .domain
    else collectColNames cs (colNames ++ [(c.name, c.number)])

/-- `processHeaderRow` (ColumnFile.cpp:49-61): the loop over the header fields.  Writing outside of
`_columnToPosition` is undefined behaviour. -/
def headerLoop : List Str → Nat → List Str → List (Option Nat) → List (Str × Nat) →
    Res (List (Option Nat) × List (Str × Nat))
  | [], _, _, c2p, colNames => .ok (c2p, colNames)
  | header :: hs, pos, foundCols, c2p, colNames =>
    if foundCols.contains header then .throw .domain
    else match colNames.find? (·.1 == header) with
      | none => .throw .domain
      | some (_, number) =>
        if number < c2p.length then
          headerLoop hs (pos + 1) (header :: foundCols) (c2p.set number (some pos))
            (colNames.filter (·.1 != header))
        else .ub

/-- `ColumnFile` constructor (ColumnFile.cpp:30-47) on an existing regular file with the given
`lines`; `allColumns` is the global column registry at that time.  Not modelled: the checks that the
file exists and is a regular file (36-37). -/
def openColumnFile (allColumns : List Str) (lines : List Str) (columns : List Column)
    (delim : UInt8 := 0x09) : Res ColumnFile :=
  if columns.isEmpty then .throw .domain
  else match lines with
    | [] => .throw .domain
    | headerRow :: rest => do
      let colNames ← collectColNames columns []
      let (c2p, left) ← headerLoop (fields delim headerRow) 0 []
        (List.replicate allColumns.length none) colNames
      -- verifyHeaderColumns (ColumnFile.cpp:63-74)
      if left.length ≥ 1 then .throw .domain
      else .ok ⟨delim, 0, List.replicate columns.length [], c2p, rest⟩

/-- Loop of `nextRow` (ColumnFile.cpp:81-84).  Gives the row values after the loop and either the
number of fields read or the exception. -/
def rowLoop : List Str → Nat → List Str → List Str × Res Nat
  | [], i, rowValues => (rowValues, .ok i)
  | f :: fs, i, rowValues =>
    if i = rowValues.length then (rowValues, .throw .domain)
    else rowLoop fs (i + 1) (rowValues.set i f)

/-- `nextRow` (ColumnFile.cpp:76-96): the new state and the outcome (the state changes also when an
exception is thrown). -/
def ColumnFile.nextRow (cf : ColumnFile) : ColumnFile × Res Bool :=
  match cf.lines with
  | [] => (cf, .ok false)
  | line :: rest =>
    let n := cf.rowValues.length
    let cf := { cf with currentRow := cf.currentRow + 1, lines := rest }
    match rowLoop (fields cf.delimiter line) 0 cf.rowValues with
    | (rv, .throw e) => ({ cf with rowValues := rv }, .throw e)
    | (rv, .ub) => ({ cf with rowValues := rv }, .ub)
    | (rv, .ok i) =>
      if i = n - 1 ∧ (if i ≠ 0 then line.getLast? = some cf.delimiter else line = [])
      then ({ cf with rowValues := rv.set (n - 1) [] }, .ok true)
      else if i < n then ({ cf with rowValues := rv }, .throw .domain)
      else ({ cf with rowValues := rv }, .ok true)

/-- `get` (ColumnFile.cpp:98-105). -/
def ColumnFile.get (cf : ColumnFile) (column : Column) : Res Str :=
  if cf.currentRow = 0 then .throw .domain
  else if column.number ≥ cf.columnToPosition.length then .throw .domain
  else match cf.columnToPosition[column.number]? with
    | none => .ub
    | some none => .throw .domain
    | some (some pos) =>
      match cf.rowValues[pos]? with
      | none => .ub
      | some v => .ok v

/-- `isspace` in the "C" locale (skipped by `strtoul`). -/
def isSpaceChar (b : UInt8) : Bool := b == 0x20 || (0x09 ≤ b && b ≤ 0x0d)

/-- `isdigit`. -/
def isDigitChar (b : UInt8) : Bool := 0x30 ≤ b && b ≤ 0x39

/-- Value of a string of decimal digits. -/
def decimalValue (ds : Str) : Nat := ds.foldl (fun a b => a * 10 + (b.toNat - 0x30)) 0

/-- `std::stoul(s)` with 64 bit `unsigned long`, as specified by C `strtoul` in base 10: optional
white space, optional sign, digits, anything; `none` is an exception (`invalid_argument` if there is
no digit, `out_of_range` if the number doesn't fit).  A minus sign negates modulo `2^64`. -/
def stoul (s : Str) : Option Nat :=
  let s := s.dropWhile isSpaceChar
  let neg := s.head? == some 0x2d
  let s := if s.head? == some 0x2d || s.head? == some 0x2b then s.tail else s
  let ds := s.takeWhile isDigitChar
  if ds.isEmpty then none
  else if decimalValue ds ≥ 2 ^ 64 then none
  else if neg then some ((2 ^ 64 - decimalValue ds) % 2 ^ 64)
  else some (decimalValue ds)

/-- `processU64` (ColumnFile.cpp:119-130); every exception of `stoul` becomes a `DomainError`. -/
def processU64 (s : Str) (max : Nat) : Res Nat :=
  match stoul s with
  | none => .throw .domain
  | some i => if max ≠ 0 ∧ max < i then .throw .domain else .ok i

/-- `getU64` (ColumnFile.cpp:109-111); `getUInt<T>` (ColumnFile.h:77-80) is the case
`max = numeric_limits<T>::max()`. -/
def ColumnFile.getU64 (cf : ColumnFile) (c : Column) (max : Nat := 0) : Res Nat := do
  let s ← cf.get c
  processU64 s max

/-- `getOptU64` (ColumnFile.cpp:113-117). -/
def ColumnFile.getOptU64 (cf : ColumnFile) (c : Column) (max : Nat := 0) : Res (Option Nat) := do
  let s ← cf.get c
  if s.isEmpty then .ok none else do
    let v ← processU64 s max
    .ok (some v)

/-- `getBool` (ColumnFile.cpp:132-142) on the value of the cell. -/
def processBool (s : Str) : Res Bool :=
  if s = u8!"Y" ∨ s = u8!"T" then .ok true
  else if s = u8!"N" ∨ s = u8!"F" then .ok false
  else if s ≠ [] then .throw .domain
  else .ok false

/-- `std::stoi(s, nullptr, 16)` for a string of digits `0-9A-F` (at most 5 of them, so no
overflow). -/
def stoi16 (s : Str) : Nat :=
  s.foldl (fun a b => a * 16 + (if b < 0x41 then b.toNat - 0x30 else b.toNat - 0x41 + 10)) 0

/-- The test on a `char` at ColumnFile.cpp:153: `i < '0' || i > 'F' || (i < 'A' && i > '9')`; `char`
is signed, so bytes above 127 are negative and smaller than `'0'`. -/
def invalidHex (b : UInt8) : Bool :=
  b ≥ 0x80 || b < 0x30 || b > 0x46 || (b < 0x41 && b > 0x39)

/-- `getChar32` (ColumnFile.cpp:148-156) on the value of the cell. -/
def getChar32 (s : Str) : Res Nat :=
  if s.length < 4 ∨ s.length > 5 then .throw .domain
  else if s.any invalidHex then .throw .domain
  else .ok (stoi16 s)

end KT
