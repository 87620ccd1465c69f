import Verif.Model.ColumnFile
/-!
# Model of libs/kanji/src/RadicalData.cpp (`load` and `find`)
-/
namespace KT

/-- The members of `Radical` (Radical.h). -/
structure Radical where
  number : Nat
  name : Str
  altForms : List Str
  longName : Str
  reading : Str
  deriving DecidableEq, Repr

/-- The members of `RadicalData` (RadicalData.h); `map` is a `std::map<String, Radical::Number>`. -/
structure RadicalData where
  radicals : List Radical := []
  map : List (Str × Nat) := []
  deriving DecidableEq, Repr

/-- `map[name] = value`. -/
def mapSet {α : Type} (m : List (Str × α)) (name : Str) (value : α) : List (Str × α) :=
  (name, value) :: m.filter (·.1 != name)

/-- Loop over the tokens of the name column (RadicalData.cpp:57-62): the name and the other forms. -/
def radicalNames : List Str → Str → List Str → Str × List Str
  | [], name, altForms => (name, altForms)
  | token :: ts, name, altForms =>
    if name.isEmpty then radicalNames ts token altForms else radicalNames ts name (altForms ++ [token])

/-- The columns declared at the start of `load` (RadicalData.cpp:48-49). -/
structure RadicalCols where
  number : Column
  name : Column
  longName : Column
  reading : Column

/-- Body of the loop of `load` (RadicalData.cpp:52-65), after a call of `nextRow` that returned true. -/
def RadicalData.addRow (cols : RadicalCols) (cf : ColumnFile) (d : RadicalData) : Res RadicalData := do
  let radicalNumber ← cf.getU64 cols.number 255
  if radicalNumber ≠ cf.currentRow then .throw .domain else
  let names ← cf.get cols.name
  let (name, altForms) := radicalNames (fields 0x20 names) [] []
  let longName ← cf.get cols.longName
  let reading ← cf.get cols.reading
  .ok ⟨d.radicals ++ [⟨radicalNumber, name, altForms, longName, reading⟩], mapSet d.map name (radicalNumber - 1)⟩

/-- Loop of `load` (RadicalData.cpp:50-66); `fuel` bounds the number of lines. -/
def RadicalData.loadLoop (cols : RadicalCols) : Nat → ColumnFile → RadicalData → Res RadicalData
  | 0, _, d => .ok d
  | fuel + 1, cf, d =>
    match cf.nextRow with
    | (_, .ok false) => .ok d
    | (_, .throw e) => .throw e
    | (_, .ub) => .ub
    | (cf, .ok true) => (RadicalData.addRow cols cf d).bind fun d => RadicalData.loadLoop cols fuel cf d

/-- `load` (RadicalData.cpp:47-67) into an empty object, after the file was opened. -/
def RadicalData.load (cols : RadicalCols) (cf : ColumnFile) : Res RadicalData :=
  RadicalData.loadLoop cols (cf.lines.length + 1) cf {}

/-- `find(Name)` (RadicalData.cpp:32-37); `at` throws `std::out_of_range`. -/
def RadicalData.findName (d : RadicalData) (name : Str) : Res Radical :=
  if d.radicals.isEmpty then .throw .domain
  else match d.map.lookup name with
    | none => .throw .domain
    | some i => match d.radicals[i]? with
      | some r => .ok r
      | none => .throw .std

/-- `find(Number)` (RadicalData.cpp:39-45). -/
def RadicalData.findNumber (d : RadicalData) (number : Nat) : Res Radical :=
  if d.radicals.isEmpty then .throw .domain
  else if number = 0 ∨ number > d.radicals.length then .throw .domain
  else match d.radicals[number - 1]? with
    | some r => .ok r
    | none => .throw .std

end KT
