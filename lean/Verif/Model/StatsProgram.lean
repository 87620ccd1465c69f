import Verif.Model.StatsReport
import Verif.Model.Furigana
import Verif.Model.Percent
import Verif.Model.HelpText
import Verif.Model.QuizProgram
/-!
# Model of kanjiStats from its arguments to its output (libs/stats/src/Stats.cpp, apps/statsMain.cpp)

The nine categories are counted by threads that only read the data and the files, each of them has its own stream
(Stats.cpp:53-60); here they run one after the other, see Model/StatsThreads for any order of their
steps.  The files don't change while the program runs.
-/
namespace KT

/-! ## Paths -/

/-- `path::filename` (POSIX): what follows the last `/`. -/
def pathFilename (p : Str) : Str := (p.reverse.takeWhile (· != 0x2f)).reverse

/-- `path::parent_path().filename()` for a path that ends with `/`: the part before the slashes at the end. -/
def parentFilename (p : Str) : Str := pathFilename (p.reverse.dropWhile (· == 0x2f)).reverse

/-- The name shown by `printHeaderInfo` (Stats.cpp:182-185). -/
def shownPath (p : Str) : Str := if pathFilename p ≠ [] then pathFilename p else parentFilename p

/-! ## Counting -/

/-- The calls of `add` for what `doAddFile` does (Utf8Count.cpp:78-99): the strings of the files (lines 118-156) and the
names, each with the tag of line 82. -/
def eventCalls (withRegex addTag : Bool) : List CountEvent → Res (List (Str × Option Str))
  | [] => .ok []
  | .file name content :: es =>
    (fileStrings withRegex content).bind fun ss =>
      (eventCalls withRegex addTag es).bind fun r =>
        .ok (ss.map (fun s => (s, if addTag then some name else none)) ++ r)
  | .dir :: es => eventCalls withRegex addTag es
  | .name name :: es =>
    (eventCalls withRegex addTag es).bind fun r => .ok ((name, if addTag then some name else none) :: r)

/-- `++_files` (Utf8Count.cpp:84). -/
def CountEvent.isFile : CountEvent → Bool
  | .file _ _ => true
  | _ => false

/-- `++_directories` (Utf8Count.cpp:87). -/
def CountEvent.isDir : CountEvent → Bool
  | .dir => true
  | _ => false

/-- What the object `count` of `Pred::run` (Stats.cpp:154-157) knows after `addFile`, and what it wrote to `_debug`. -/
structure CountRun where
  files : Nat
  directories : Nat
  state : CountState
  debug : Str

/-- Lines 154-157 of `Pred::run`; `node` is what is found at the path. -/
def countRun (removeFurigana addTag : Bool) (allow : Str → Bool) (path : Str) (node : Option Node) : Res CountRun :=
  (addFile true true (pathFilename path) node).bind fun es =>
    (eventCalls removeFurigana addTag es).bind fun calls =>
      match CountState.addAll (if removeFurigana then some furiganaFind else none) allow {} calls with
      | none => .ub
      | some (st, _) =>
        .ok ⟨es.countP (·.isFile), es.countP (·.isDir), st, (DebugState.addAll furiganaFind {} calls).out⟩

/-- A `std::map` in the order of its keys. -/
def insertKey (p : Str × Nat) : List (Str × Nat) → List (Str × Nat)
  | [] => [p]
  | q :: m => if strLt p.1 q.1 then p :: q :: m else q :: insertKey p m

def byKey (m : List (Str × Nat)) : List (Str × Nat) := m.foldr insertKey []

/-- What is used of the data: `findByName`, whether `findUcd` finds something, and `frequency` after values have been
added to it (Stats.cpp:159-164, a `std::set` whose comparison isn't an order, see C49). -/
structure StatsData where
  findByName : Str → Option Kanji
  ucd : Str → Bool
  set : List StatCount → List StatCount

/-- `Pred::run` (Stats.cpp:140-179): the text and `_total`. -/
def predRun (d : StatsData) (name : Str) (allow : Str → Bool) (breakdown verbose first : Bool) (path : Str)
    (node : Option Node) : Res (Str × Nat) :=
  let isHiragana := decide (name = u8!"Hiragana")
  let isKanji := predIsKanji name
  let removeFurigana := isHiragana || decide (name = u8!"Katakana") || decide (name = u8!"MB-Letter")
  let addTag := isKanji || decide (name = u8!"Unrecognized") || isHiragana && verbose
  (countRun removeFurigana addTag allow path node).bind fun c =>
    let entries := byKey c.state.map
    let total := predTotal entries
    .ok ((if isHiragana && verbose then u8!">>> Showing all Furigana replacements:\n" ++ c.debug else []) ++
      (if first then headerInfo (shownPath path) c.files c.directories c.state else []) ++
      predText percentText name breakdown (fun s => (c.state.tagsOf s).map byKey) total
        (d.set (predCounts d.findByName isKanji entries)), total)

/-- The predicates given to `f` (Stats.cpp:64-75), by position. -/
def statAllow (ucd : Str → Bool) (i : Nat) (x : Str) : Bool := (statCategories ucd x)[i]?.getD false

/-- `countKanji` (Stats.cpp:51-92). -/
def countKanji (d : StatsData) (breakdown verbose : Bool) (path : Str) (node : Option Node) : Res Str :=
  (Res.each (fun p => predRun d p.1 (statAllow d.ucd p.2) breakdown verbose (p.2 == 0) path node)
    predNames.zipIdx).bind fun rs =>
      .ok ((rs.map (·.1)).flatten ++ totalLine percentText (predNames.zip (rs.map (·.2))))

/-! ## The program -/

/-- `statsArgs` with the messages (Stats.cpp:26-48, ListFile.cpp:36). -/
def statsLoopWhy : List Str → (breakdown endOptions verbose : Bool) → (files : List Str) → Except Str StatsAction
  | [], b, _, v, files => .ok (.count files b v)
  | arg :: r, b, e, v, files =>
    if !e && (u8!"-").isPrefixOf arg then
      if arg = u8!"-h" then .ok .help
      else if arg = u8!"-b" then statsLoopWhy r true e v files
      else if arg = u8!"-v" then statsLoopWhy r b e true files
      else if arg = u8!"--" then statsLoopWhy r b true v files
      else .error (u8!"illegal option '" ++ arg ++ u8!"' use -h for help")
    else statsLoopWhy r b e v (files ++ [arg])

def statsWhy (debug : Bool) (args : List Str) : Except Str StatsAction :=
  match statsLoopWhy args false false false [] with
  | .ok (.count files b v) =>
    if !debug && files.isEmpty then .error (u8!"please specify at least one option or '-h' for help")
    else .ok (.count files b v)
  | a => a

/-- The loop of line 48.  An exception of `addFile` (Utf8Count.cpp:63-64) leaves the loop; what has been written before
stays, nothing is written for this file as the first `get` throws. -/
def statsFiles (d : StatsData) (breakdown verbose : Bool) (fs : Str → Option Node) : List Str → Res (Str × Except Str Unit)
  | [] => .ok ([], .ok ())
  | f :: r =>
    match countKanji d breakdown verbose f (fs f) with
    | .ub => .ub
    | .throw _ => .ok ([], .error (u8!"file not found: " ++ f))
    | .ok t => (statsFiles d breakdown verbose fs r).bind fun o => .ok (t ++ o.1, o.2)

/-- The constructor of `Stats` (Stats.cpp:26-49) for the arguments visited. -/
def runStats (d : StatsData) (debug : Bool) (fs : Str → Option Node) (args : List Str) : Res (Str × Except Str Unit) :=
  match statsWhy debug args with
  | .error m => .ok ([], .error m)
  | .ok .help => .ok (textOf statsHelp, .ok ())
  | .ok .usage => .ok ([], .ok ())
  | .ok (.count files b v) => statsFiles d b v fs files

/-- `main` (apps/statsMain.cpp:4-14) after the data has been loaded: what is written to `std::cout` and `std::cerr`, and the
exit code. -/
def mainStats (d : StatsData) (debug : Bool) (fs : Str → Option Node) (argv : List Str) : Option (Res (Str × Str × Nat)) :=
  (visitArgs argv (argv.length + 1) 0).map fun v =>
    v.bind fun args =>
      (runStats d debug fs args).bind fun o =>
        .ok (o.1, match o.2 with
          | .ok _ => ([], 0)
          | .error m => (m ++ u8!"\n", 1))

/-- The data as loaded (KanjiData.cpp:101-107, UcdData.cpp): the kanji found by name, and the entries of the Unicode
file. -/
def KanjiStore.statsData (s : KanjiStore) (findUcd : Str → Option Ucd) (set : List StatCount → List StatCount) : StatsData where
  findByName name := (s.findByName name).map (·.kanji)
  ucd name := (findUcd name).isSome
  set := set

end KT
