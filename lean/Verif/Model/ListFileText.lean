import Verif.Model.ListFile
import Verif.Model.DataDir
import Verif.Model.Decimal
/-!
# Model of finding list files, of the errors when loading them and of `print` (libs/kanji/src/ListFile.cpp:11-83)

Paths are given by their texts.  The file system is a function that tells what a path names; symbolic links are followed
by it.  A `DomainError` is given by its text.
-/
namespace KT

/-- What a path names (`exists`, `is_regular_file`, `is_directory`). -/
inductive FileKind where
  | missing | regular | directory | other
  deriving DecidableEq, Repr

/-- What the paths name. -/
abbrev FileSys := Str → FileKind

/-- `dir / file` for a relative `file`. -/
def joinPath (dir file : Str) : Str := dir ++ (if dir = [] ∨ dir.getLast? = some 0x2f then [] else u8!"/") ++ file

/-- `filename` of a path. -/
def fileNameOf (p : Str) : Str := (slashParts p).getLast?.getD []

/-- `has_extension`. -/
def hasExtension (p : Str) : Bool := extensionOf (fileNameOf p) ≠ []

/-- `stem` of a path whose last name is given. -/
def stemOf (name : Str) : Str :=
  if name = u8!".." then name
  else match lastDot name with
    | some (a, _) => if a = [] then name else a
    | none => name

/-- `getFile` (ListFile.cpp:11-23). -/
def getFile (fs : FileSys) (dir file : Str) : Except Str Str :=
  if fs dir ≠ .directory then .error (dir ++ u8!" is not a directory")
  else
    let p := joinPath dir file
    let p := if fs p ≠ .regular ∧ hasExtension file = false then p ++ u8!".txt" else p
    if fs p = .missing then
      let msg := dir ++ u8!" must contain '" ++ file
      .error (if hasExtension file then msg ++ u8!"'" else msg ++ u8!"' (also tried '.txt' extension)")
    else if fs p ≠ .regular then .error (file ++ u8!" must be a regular file")
    else .ok p

/-- The constructor (ListFile.cpp:45-56) up to `load`: the name of the list and the path of the file. -/
def openListFile (fs : FileSys) (p name : Str) : Except Str (Str × Str) :=
  let shown := if name = [] then firstUpper (stemOf (fileNameOf p)) else name
  let file := if fs p ≠ .regular ∧ hasExtension p = false then p ++ u8!".txt" else p
  if fs file ≠ .regular then .error (u8!"can't open " ++ file) else .ok (shown, file)

/-! ## Errors of `load` -/

/-- The lambda `error` (ListFile.cpp:61-64). -/
def loadErrorText (file : Str) (lineNum : Nat) (s : Str) (pLine : Bool) : Str :=
  s ++ (if pLine then u8!" - line: " ++ toDec lineNum else []) ++ u8!", file: " ++ file

/-- Body of the inner loop (ListFile.cpp:70-75) with `validate` (85-97) and `addEntry` (99-105): the text given to `error` and
whether the line is printed. -/
def loadTokenError (onePerLine typed : Bool) (line : Str) (st : LoadState) (token : Str) : LoadState × Option (Str × Bool) :=
  if onePerLine ∧ token ≠ line then (st, some (u8!"got multiple tokens", true))
  else if isValidMBUtf8 token true ≠ some true then (st, some (u8!"invalid multi-byte token '" ++ token ++ u8!"'", true))
  else if (st.map.lookup token).isSome then (st, some (u8!"got duplicate token '" ++ token, true))
  else if st.names.contains token then
    if typed then ({ st with dups := st.dups ++ [token] }, none)
    else (st, some (u8!"found globally non-unique entry '" ++ token ++ u8!"'", true))
  else
    match ListFile.addEntry { st with names := token :: st.names } token with
    | (st, true) => (st, none)
    | (st, false) => (st, some (u8!"exceeded '" ++ toDec maxEntries ++ u8!"' entries", false))

/-- The inner loop (ListFile.cpp:69-75). -/
def loadTokensError (onePerLine typed : Bool) (line : Str) : List Str → LoadState → LoadState × Option (Str × Bool)
  | [], st => (st, none)
  | t :: ts, st =>
    match loadTokenError onePerLine typed line st t with
    | (st, none) => loadTokensError onePerLine typed line ts st
    | r => r

/-- The outer loop (ListFile.cpp:67-76); `n` is `lineNum`. -/
def loadLinesError (onePerLine typed : Bool) (file : Str) : Nat → List Str → LoadState → LoadState × Option Str
  | _, [], st => (st, none)
  | n, l :: ls, st =>
    match loadTokensError onePerLine typed l (fields 0x20 l) st with
    | (st, none) => loadLinesError onePerLine typed file (n + 1) ls st
    | (st, some e) => (st, some (loadErrorText file n e.1 e.2))

/-- `load` (ListFile.cpp:58-83): the text of the `DomainError`. -/
def loadError (onePerLine typed : Bool) (names : List Str) (name file text : Str) : LoadState × Option Str :=
  match loadLinesError onePerLine typed file 1 (fields 0x0a text) { names := names } with
  | (st, none) =>
    if st.dups = [] then (st, none)
    else
      (st, some (loadErrorText file 0 (u8!"found " ++ toDec st.dups.length ++ u8!" duplicates in " ++ name ++ u8!":" ++
        (st.dups.map fun d => u8!" " ++ d).flatten) false))
  | r => r

/-! ## `print` -/

/-- `print` (ListFile.cpp:25-34). -/
def printList (l : List Str) (type group : Str) : Str :=
  if l.isEmpty then []
  else u8!">>> Found " ++ toDec l.length ++ u8!" " ++ type ++ (if group.isEmpty then [] else u8!" in " ++ group) ++ u8!":" ++
    (l.map fun x => u8!" " ++ x).flatten ++ u8!"\n"

end KT
