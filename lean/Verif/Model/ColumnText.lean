import Verif.Model.ColumnFile
import Verif.Model.Decimal
/-!
# Model of libs/utils/src/ColumnFile.cpp with the messages of its exceptions

All exceptions are `DomainError`s; here they are `.ok (.error message)`.
-/
namespace KT

/-- Forget the message. -/
def eraseMsg {α : Type} : Res (Except Str α) → Res α
  | .ok (.ok a) => .ok a
  | .ok (.error _) => .throw .domain
  | .throw e => .throw e
  | .ub => .ub

/-- `errorMsg` (ColumnFile.cpp:169-173). -/
def cfMsg (file : Str) (row : Nat) (msg : Str) : Str :=
  msg ++ u8!" - file: " ++ file ++ (if row ≠ 0 then u8!", row: " ++ toDec row else [])

/-- `error` with a column and a value (ColumnFile.cpp:163-167). -/
def cfCellMsg (file : Str) (row : Nat) (msg : Str) (column value : Str) : Str :=
  cfMsg file row msg ++ u8!", column: '" ++ column ++ u8!"', value: '" ++ value ++ u8!"'"

/-- What is found at the path. -/
inductive PathKind where
  | missing | other | regular
  deriving DecidableEq, Repr

/-- Loop that fills `colNames` (ColumnFile.cpp:40-42). -/
def collectColText (file : Str) : List Column → List (Str × Nat) → Except Str (List (Str × Nat))
  | [], colNames => .ok colNames
  | c :: cs, colNames =>
    if colNames.any (·.1 == c.name) then .error (cfMsg file 0 (u8!"duplicate column '" ++ c.name ++ u8!"'"))
    else collectColText file cs (colNames ++ [(c.name, c.number)])

/-- `processHeaderRow` (ColumnFile.cpp:49-61). -/
def headerText (file : Str) : List Str → Nat → List Str → List (Option Nat) → List (Str × Nat) →
    Res (Except Str (List (Option Nat) × List (Str × Nat)))
  | [], _, _, c2p, colNames => .ok (.ok (c2p, colNames))
  | header :: hs, pos, foundCols, c2p, colNames =>
    if foundCols.contains header then .ok (.error (cfMsg file 0 (u8!"duplicate header '" ++ header ++ u8!"'")))
    else match colNames.find? (·.1 == header) with
      | none => .ok (.error (cfMsg file 0 (u8!"unrecognized header '" ++ header ++ u8!"'")))
      | some (_, number) =>
        if number < c2p.length then
          headerText file hs (pos + 1) (header :: foundCols) (c2p.set number (some pos))
            (colNames.filter (·.1 != header))
        else .ub

/-- Insertion in order of the bytes. -/
def insertName (n : Str) : List Str → List Str
  | [] => [n]
  | a :: l => if n ≤ a then n :: a :: l else a :: insertName n l

/-- The order in which a `std::map<String, …>` is iterated: that of the bytes of the keys. -/
def sortNames : List Str → List Str
  | [] => []
  | n :: l => insertName n (sortNames l)

/-- The loop at ColumnFile.cpp:68-71. -/
def quotedNames : Str → List Str → Str
  | msg, [] => msg
  | msg, n :: r => quotedNames ((if msg.isEmpty then msg else msg ++ u8!",") ++ u8!" '" ++ n ++ u8!"'") r

/-- `verifyHeaderColumns` (ColumnFile.cpp:63-74) for the names that are left: the message if there are any. -/
def missingColumnsText (names : List Str) : Option Str :=
  match sortNames names with
  | [] => none
  | [n] => some (u8!"column '" ++ n ++ u8!"' not found")
  | ns => some (toDec names.length ++ u8!" columns not found:" ++ quotedNames [] ns)

/-- The constructor (ColumnFile.cpp:30-47). -/
def openColumnText (allColumns : List Str) (file : Str) (kind : PathKind) (lines : List Str) (columns : List Column)
    (delim : UInt8 := 0x09) : Res (Except Str ColumnFile) :=
  if columns.isEmpty then .ok (.error (cfMsg file 0 (u8!"must specify at least one column")))
  else match kind with
    | .missing => .ok (.error (cfMsg file 0 (u8!"doesn't exist")))
    | .other => .ok (.error (cfMsg file 0 (u8!"not regular file")))
    | .regular =>
      match lines with
      | [] => .ok (.error (cfMsg file 0 (u8!"missing header row")))
      | headerRow :: rest =>
        match collectColText file columns [] with
        | .error e => .ok (.error e)
        | .ok colNames =>
          (headerText file (fields delim headerRow) 0 [] (List.replicate allColumns.length none) colNames).bind fun r =>
            match r with
            | .error e => .ok (.error e)
            | .ok (c2p, left) =>
              match missingColumnsText (left.map (·.1)) with
              | some msg => .ok (.error (cfMsg file 0 msg))
              | none => .ok (.ok ⟨delim, 0, List.replicate columns.length [], c2p, rest⟩)

/-- The loop of `nextRow` (ColumnFile.cpp:81-84) in the row with number `row`. -/
def rowText (file : Str) (row : Nat) : List Str → Nat → List Str → List Str × Except Str Nat
  | [], i, rowValues => (rowValues, .ok i)
  | f :: fs, i, rowValues =>
    if i = rowValues.length then (rowValues, .error (cfMsg file row (u8!"too many columns")))
    else rowText file row fs (i + 1) (rowValues.set i f)

/-- `nextRow` (ColumnFile.cpp:76-96). -/
def ColumnFile.nextRowText (file : Str) (cf : ColumnFile) : ColumnFile × Except Str Bool :=
  match cf.lines with
  | [] => (cf, .ok false)
  | line :: rest =>
    let n := cf.rowValues.length
    let cf := { cf with currentRow := cf.currentRow + 1, lines := rest }
    match rowText file cf.currentRow (fields cf.delimiter line) 0 cf.rowValues with
    | (rv, .error e) => ({ cf with rowValues := rv }, .error e)
    | (rv, .ok i) =>
      if i = n - 1 ∧ (if i ≠ 0 then line.getLast? = some cf.delimiter else line = [])
      then ({ cf with rowValues := rv.set (n - 1) [] }, .ok true)
      else if i < n then ({ cf with rowValues := rv }, .error (cfMsg file cf.currentRow (u8!"not enough columns")))
      else ({ cf with rowValues := rv }, .ok true)

/-- `get` (ColumnFile.cpp:98-105). -/
def ColumnFile.getText (file : Str) (cf : ColumnFile) (column : Column) : Res (Except Str Str) :=
  if cf.currentRow = 0 then .ok (.error (cfMsg file cf.currentRow (u8!"'nextRow' must be called before calling 'get'")))
  else if column.number ≥ cf.columnToPosition.length then
    .ok (.error (cfMsg file cf.currentRow (u8!"unrecognized column '" ++ column.name ++ u8!"'")))
  else match cf.columnToPosition[column.number]? with
    | none => .ub
    | some none => .ok (.error (cfMsg file cf.currentRow (u8!"invalid column '" ++ column.name ++ u8!"'")))
    | some (some pos) =>
      match cf.rowValues[pos]? with
      | none => .ub
      | some v => .ok (.ok v)

/-- `processU64` (ColumnFile.cpp:119-130). -/
def u64Text (file : Str) (row : Nat) (column s : Str) (max : Nat) : Except Str Nat :=
  match stoul s with
  | none => .error (cfCellMsg file row (u8!"failed to convert to unsigned number") column s)
  | some i =>
    if max ≠ 0 ∧ max < i then .error (cfCellMsg file row (u8!"exceeded max value of " ++ toDec max) column s) else .ok i

/-- `getBool` (ColumnFile.cpp:132-142) for the value of the cell. -/
def boolText (file : Str) (row : Nat) (column s : Str) : Except Str Bool :=
  if s = u8!"Y" ∨ s = u8!"T" then .ok true
  else if s = u8!"N" ∨ s = u8!"F" then .ok false
  else if s ≠ [] then .error (cfCellMsg file row (u8!"failed to convert to bool") column s)
  else .ok false

/-- `getChar32` (ColumnFile.cpp:148-156) for the value of the cell. -/
def char32Text (file : Str) (row : Nat) (column s : Str) : Except Str Nat :=
  if s.length < 4 ∨ s.length > 5 then
    .error (cfCellMsg file row (u8!"failed to convert to Code, size must be 4 or 5") column s)
  else if s.any invalidHex then .error (cfCellMsg file row (u8!"failed to convert to Code, invalid hex") column s)
  else .ok (stoi16 s)

end KT
