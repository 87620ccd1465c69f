import Verif.Model.QuizFiles
import Verif.Model.StatsProgram
import Verif.Model.FormatProgram
/-!
# kanjiStats and kanjiFormat with their command lines, the files and the current directory (apps/statsMain.cpp,
apps/formatMain.cpp)

Puts together the search for the data directory (`Model/DataDir.lean`), the debug mode (`Model/KanjiData.lean`), loading
(`Model/DataTexts.lean`) and the report (`Model/StatsProgram.lean`).  Simplifications as in `Model/QuizFiles.lean`.  The
entries of a directory are visited in the order of the tree.
-/
namespace KT

mutual
/-- A file or directory as `doAddFile` sees it. -/
def FsNode.seen : FsNode → Node
  | .file t => .file t
  | .dir es => .dir (seenEntries es)

@[inherit_doc FsNode.seen]
def seenEntries : List (Str × FsNode) → Entries
  | [] => .nil
  | (name, n) :: es => .cons name n.seen (seenEntries es)
end

/-- What is found at a path. -/
def World.node (w : World) (path : Str) : Option Node := (w.stat (pathOf path)).map FsNode.seen

/-- The data used by `Stats`: the kanji and the entries of the Unicode file found by name (KanjiData.cpp:66-68, 101-107); `set`
gives for `KanjiData::maxFrequency()` what `frequency` (Stats.cpp:159-164) has after values have been added to it. -/
def loadedStats (set : UInt16 → List StatCount → List StatCount) (t : KanjiStore × UcdData × Loaded) : StatsData :=
  t.1.statsData t.2.2.findUcd (set (UInt16.ofNat t.1.frequencies.maxFrequency))

/-- How the program ends: with a message about its arguments, an exception when loading (both with exit code 1), or after the
constructor of `Stats`: what it wrote to `std::cout` and `std::cerr`, and the exit code. -/
inductive StatsEnd where
  | usage (message : Str)
  | load (e : Exc)
  | ran (out err : Str) (code : Nat)
  deriving DecidableEq, Repr

/-- `main` (apps/statsMain.cpp:4-14, TextKanjiData.cpp:21-23). -/
def kanjiStats (w : World) (reg : List Str) (ltr : Bool) (set : UInt16 → List StatCount → List StatCount)
    (argv : List Str) : Option (Res StatsEnd) :=
  match getDataDir w.dirs w.cwd argv with
  | .error m => some (.ok (.usage m))
  | .ok dir =>
    match getDebugMode argv with
    | .throw _ => some (.ok (.usage oneDebugOption))
    | .ub => some .ub
    | .ok mode =>
      match loadTextDataFrom reg ltr w.disk dir.text with
      | .throw x => some (.ok (.load x))
      | .ub => some .ub
      | .ok t => (mainStats (loadedStats set t) (mode ≠ .none) w.node argv).map fun v =>
          v.bind fun o => .ok (.ran o.1 o.2.1 o.2.2)

/-- `main` (apps/formatMain.cpp:48-56). -/
def kanjiFormat (w : World) (argv : List Str) : Str × Str × Nat := mainFormat w.node (fun _ => true) argv

end KT
