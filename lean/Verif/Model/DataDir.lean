import Verif.Model.KanjiData
/-!
# Model of the search for the data directory (libs/kanji/src/KanjiData.cpp:172-208, 271-294)

Paths are those of a POSIX system.  The file system is a function that gives the names in a directory and `none` for a
path that is no directory; symbolic links are followed by it.  Errors of the system (a directory that can't be read) are
left out.  A `DomainError` is given by its text.
-/
namespace KT

/-! ## `std::filesystem::path` -/

/-- A path: whether it has a root directory, and its names.  The last name is empty for a path ending in `/`. -/
structure FsPath where
  absolute : Bool
  names : List Str
  deriving DecidableEq, Repr

/-- The parts between slashes. -/
def slashParts : Str → List Str
  | [] => [[]]
  | c :: r =>
    if c = 0x2f then [] :: slashParts r
    else match slashParts r with
      | [] => [[c]]
      | p :: ps => (c :: p) :: ps

/-- The path with a given text: several slashes count as one; a slash at the end gives an empty last name unless there is
no other name. -/
def pathOf (s : Str) : FsPath :=
  let parts := slashParts s
  let names := parts.filter (· ≠ [])
  ⟨s.head? = some 0x2f, if names ≠ [] ∧ parts.getLast? = some [] then names ++ [[]] else names⟩

/-- `parent_path`: one element fewer; a path without names is its own parent. -/
def FsPath.parent (p : FsPath) : FsPath := { p with names := p.names.dropLast }

/-- `operator/` with one name. -/
def FsPath.child (p : FsPath) (name : Str) : FsPath :=
  { p with names := (if p.names.getLast? = some [] then p.names.dropLast else p.names) ++ [name] }

/-- The part of a name before the last dot and the part from it on. -/
def lastDot : Str → Option (Str × Str)
  | [] => none
  | c :: r => match lastDot r with
    | some (a, b) => some (c :: a, b)
    | none => if c = 0x2e then some ([], c :: r) else none

/-- `extension` of a path whose last name is given. -/
def extensionOf (name : Str) : Str :=
  if name = u8!".." then []
  else match lastDot name with
    | some (a, b) => if a = [] then [] else b
    | none => []

/-! ## KanjiData -/

/-- The names in each directory. -/
abbrev Dirs := FsPath → Option (List Str)

/-- `isValidDataDir` for a directory with the given names (KanjiData.cpp:288-294); `TextFilesInDataDir` is 10 (line 15),
`TextFileExtension` is `.txt` (ListFile.h). -/
def isValidDataDir (names : List Str) : Bool := (names.countP fun n => extensionOf n = u8!".txt") = 10

/-- `fs::is_directory(data) && isValidDataDir(data)`. -/
def Dirs.valid (fs : Dirs) (p : FsPath) : Bool := match fs p with
  | some names => isValidDataDir names
  | none => false

theorem FsPath.parent_lt {p : FsPath} (h : p.parent ≠ p) : p.parent.names.length < p.names.length := by
  cases p with
  | mk a n =>
    cases n with
    | nil => exact absurd rfl h
    | cons x xs => simp [FsPath.parent]

/-- `searchUpForDataDir` (KanjiData.cpp:273-286). -/
def searchUp (fs : Dirs) (p : FsPath) : Option FsPath :=
  if fs.valid (p.child (u8!"data")) then some (p.child (u8!"data"))
  else if _h : p.parent = p then none
  else searchUp fs p.parent
termination_by p.names.length
decreasing_by exact FsPath.parent_lt ‹_›

/-- `ExpectedTextFiles` (KanjiData.cpp:173-175). -/
def expectedTextFiles : Str := u8!"10 expected '.txt' files"

/-- What comes after `-data` (KanjiData.cpp:178-185). -/
def dataArgValue (fs : Dirs) : List Str → Except Str FsPath
  | [] => .error (u8!"'-data' must be followed by a directory name")
  | v :: _ =>
    let data := pathOf v
    match fs data with
    | none => .error (u8!"'" ++ v ++ u8!"' is not a valid directory")
    | some names =>
      if !isValidDataDir names then .error (u8!"'" ++ v ++ u8!"' does not contain " ++ expectedTextFiles)
      else .ok data

/-- The loop of KanjiData.cpp:176-186; `none` if there is no `-data`. -/
def dataArgLoop (fs : Dirs) : List Str → Option (Except Str FsPath)
  | [] => none
  | a :: rest => if a = u8!"-data" then some (dataArgValue fs rest) else dataArgLoop fs rest

/-- `NotFound` and `NotFoundEnd` (KanjiData.cpp:189-193). -/
def notFound : Str :=
  u8!"couldn't find 'data' directory with " ++ expectedTextFiles ++ u8!":\n- searched up from current: "

@[inherit_doc notFound]
def notFoundEnd : Str := u8!"\nrun in a directory where 'data' can be found or use '-data <dir>'"

/-- `getDataDir` (KanjiData.cpp:172-208); `cur` is the text of the current directory. -/
def getDataDir (fs : Dirs) (cur : Str) (args : List Str) : Except Str FsPath :=
  match dataArgLoop fs (args.drop 1) with
  | some r => r
  | none =>
    match searchUp fs (pathOf cur) with
    | some found => .ok found
    | none =>
      match args with
      | [] => .error (notFound ++ cur ++ notFoundEnd)
      | arg0 :: _ =>
        let p := (pathOf arg0).parent
        if (fs p).isSome then
          match searchUp fs p.parent with
          | some found => .ok found
          | none => .error (notFound ++ cur ++ u8!"\n- searched up from arg0: " ++ arg0 ++ notFoundEnd)
        else .error (notFound ++ cur ++ notFoundEnd)

end KT
