import Verif.Model.DataTexts
import Verif.Model.QuizProgram
/-!
# The quiz program with its command line, the files and the current directory (apps/quizMain.cpp, Quiz.cpp:12-16)

Puts together the search for the data directory (`Model/DataDir.lean`), the debug mode (`Model/KanjiData.lean`), loading
(`Model/DataTexts.lean`) and the quizzes (`Model/QuizProgram.lean`).

Simplifications: the file system is a tree without links; reading a directory or a file doesn't fail.  The text of an error
found when loading isn't given here (see `Model/LoadReport.lean` and `Model/ListFileText.lean`); neither is what loading
prints in a debug mode.  The text of the data directory has no repeated slashes, which only matters in messages.
-/
namespace KT

/-! ## Files -/

/-- A file or a directory. -/
inductive FsNode where
  | file (text : Str)
  | dir (entries : List (Str × FsNode))

/-- Follow the names of a path from a directory; the list has the directory and those above it.  An empty name (at the end)
and `.` stay, `..` goes up (the directory above the root is the root). -/
def walk : List FsNode → List Str → Option (List FsNode)
  | st, [] => some st
  | [], _ :: _ => none
  | .file _ :: _, _ :: _ => none
  | .dir es :: up, n :: ns =>
    if n = [] ∨ n = u8!"." then walk (.dir es :: up) ns
    else if n = u8!".." then walk (if up.isEmpty then [.dir es] else up) ns
    else match es.lookup n with
      | some x => walk (x :: .dir es :: up) ns
      | none => none

/-- All files, and the text of the current directory. -/
structure World where
  root : FsNode
  cwd : Str

/-- What a path names.  The empty path names nothing. -/
def World.stat (w : World) (p : FsPath) : Option FsNode :=
  if p.absolute then (walk [w.root] p.names).bind List.head?
  else if p.names = [] then none
  else ((walk [w.root] (pathOf w.cwd).names).bind fun st => walk st p.names).bind List.head?

/-- The names in the directories (`fs::is_directory`, `fs::directory_iterator`). -/
def World.dirs (w : World) : Dirs := fun p =>
  match w.stat p with
  | some (.dir es) => some (es.map (·.1))
  | _ => none

/-- `fs::is_directory`, `fs::is_regular_file`, `fs::exists`. -/
def nodeKind : Option FsNode → FileKind
  | none => .missing
  | some (.file _) => .regular
  | some (.dir _) => .directory

/-- The contents of a regular file. -/
def nodeText : Option FsNode → Str
  | some (.file t) => t
  | _ => []

/-- The files by the texts of their paths. -/
def World.disk (w : World) : Disk := ⟨fun s => nodeKind (w.stat (pathOf s)), fun s => nodeText (w.stat (pathOf s))⟩

/-- Names with slashes between them. -/
def withSlashes : List Str → Str
  | [] => []
  | [n] => n
  | n :: m :: r => n ++ 0x2f :: withSlashes (m :: r)

/-- `path::string`. -/
def FsPath.text (p : FsPath) : Str := (if p.absolute then u8!"/" else []) ++ withSlashes p.names

/-! ## The program -/

/-- How the program ends: with a message about its arguments, an exception when loading (both with exit code 1), or after the
constructor of `QuizLauncher`: what it wrote to `std::cout` and, unless it is waiting for input, what it wrote to `std::cerr` and
the exit code. -/
inductive QuizEnd where
  | usage (message : Str)
  | load (e : Exc)
  | ran (out : Str) (rest : Option (Str × Nat))
  deriving DecidableEq, Repr

/-- KanjiData.cpp:213-216. -/
def oneDebugOption : Str := u8!"can only specify one '-debug' or '-info' option"

/-- `main` with `Quiz::run` (apps/quizMain.cpp:3-11, Quiz.cpp:12-16, TextKanjiData.cpp:21-23). -/
def kanjiQuiz (w : World) (reg : List Str) (ltr : Bool) (sort : List KanjiRec → List KanjiRec) (e : StoulTexts)
    (argv : List Str) (n : Nat) (r : Drawn) (s : InStream) : Option (Res QuizEnd) :=
  match getDataDir w.dirs w.cwd argv with
  | .error m => some (.ok (.usage m))
  | .ok dir =>
    match getDebugMode argv with
    | .throw _ => some (.ok (.usage oneDebugOption))
    | .ub => some .ub
    | .ok mode =>
      match loadDataFrom reg ltr w.disk dir.text with
      | .throw x => some (.ok (.load x))
      | .ub => some .ub
      | .ok d => (mainQuiz sort d e (mode ≠ .none) argv n r s).map fun v => v.bind fun o => .ok (.ran o.1 o.2)

end KT
