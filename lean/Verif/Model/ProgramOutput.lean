import Verif.Model.QuizPrint
import Verif.Model.QuizFiles
import Verif.Model.StatsFiles
/-!
# Model of all output of `kanjiQuiz` and `kanjiStats`

The programs of `Model/QuizFiles.lean` and `Model/StatsFiles.lean` again, with what is printed while the files of the data
directory are read (`Model/LoadPrint.lean`, `Model/QuizPrint.lean`), the exception that printing can throw, and the fill
character that this leaves in `std::cout` (at the beginning it is a blank).
-/
namespace KT

/-! ## Files -/

/-- `tableLoop` for a body that prints. -/
def tableLoopPrinting {α : Type} (body : ColumnFile → α → Printing α) : Nat → ColumnFile → α → Printing α
  | 0, _, a => quietly (.ok a)
  | fuel + 1, cf, a =>
    match cf.nextRow with
    | (_, .ok false) => quietly (.ok a)
    | (_, .throw e) => quietly (.throw e)
    | (_, .ub) => quietly .ub
    | (cf, .ok true) => (body cf a).bind fun a => tableLoopPrinting body fuel cf a

/-- `readTable` for a body that prints. -/
def readTablePrinting {α : Type} (reg names : List Str) (body : List Column → ColumnFile → α → Printing α) (text : Str)
    (a : α) : Printing α :=
  (quietly (openTable reg names text)).bind fun t => tableLoopPrinting (body t.1) (t.2.lines.length + 1) t.2 a

/-- `loadGroup` (GroupData.cpp:43-78) for the file with meaning groups. -/
def loadMeaningTextPrinting (reg : List Str) (find : Str → Option KanjiRec) (text : Str) : Printing MeaningGroups :=
  readTablePrinting reg groupColumns (fun cols cf d =>
    (quietly (readGroupRow cols cf)).bind fun row =>
    (readGroupPrinting find .meaning row).bind fun g => quietly (.ok (d.add g))) text {}

/-- `loadGroup` (GroupData.cpp:43-78) for the file with pattern groups. -/
def loadPatternTextPrinting (reg : List Str) (find : Str → Option KanjiRec) (text : Str) : Printing PatternGroups :=
  readTablePrinting reg groupColumns (fun cols cf d =>
    (quietly (readGroupRow cols cf)).bind fun row =>
    (readGroupPrinting find .pattern row).bind fun g => ⟨⟨[], alreadyMessages g g.members d⟩, .ok (d.add g)⟩) text {}

/-- `loadJouyouKanji` (TextKanjiData.cpp:78-87). -/
def loadJouyouTextPrinting (reg : List Str) (l : Loaded) (text : Str) (d : KanjiStore) : Printing KanjiStore :=
  (quietly (fromText reg jouyouRequired readJouyouRow (jouyouFromRow l.ctx) text)).bind fun ks =>
  let results := ks.map fun k => l.record k.1
  (insertRowsPrinting l results d).bind fun d => quietly (.ok (d.setType .jouyou results))

/-- `loadJinmeiKanji` (TextKanjiData.cpp:114-125). -/
def loadJinmeiTextPrinting (reg : List Str) (l : Loaded) (text : Str) (d : KanjiStore) : Printing KanjiStore :=
  (quietly (fromText reg jinmeiRequired readJinmeiRow (jinmeiFromRow l.ctx) text)).bind fun ks =>
  let results := ks.map fun k => l.record k.1
  (loadJinmeiLoopPrinting l results d).bind fun d => quietly (.ok (d.setType .jinmei results))

/-- `loadExtraKanji` (TextKanjiData.cpp:127-132). -/
def loadExtraTextPrinting (reg : List Str) (l : Loaded) (text : Str) (d : KanjiStore) : Printing KanjiStore :=
  (quietly (fromText reg extraRequired readExtraRow (extraFromRow l.ctx) text)).bind fun ks =>
  let results := ks.map fun k => l.record k.1
  (insertRowsPrinting l results d).bind fun d => quietly (.ok (d.setType .extra results))

/-- The constructor of `TextKanjiData` (TextKanjiData.cpp:21-53, KanjiData.cpp:148-172) for the data directory `dir`: the data,
and alignment and fill character of the stream afterwards. -/
def loadTextDataPrintingFrom (mode : DebugMode) (sort : List KanjiRec → List KanjiRec) (reg : List Str) (ltr : Bool) (x : Disk)
    (dir : Str) : Printing ((KanjiStore × UcdData × Loaded) × OutFormat) :=
  (printing (if mode = .full then u8!">>>\n>>> " ++ u8!"Begin Loading Data\n>>>\n" else [])).bind fun _ =>
  (quietly (loadListsFrom x dir)).bind fun lists =>
  (quietly (x.file dir (u8!"ucd"))).bind fun text => (quietly (loadUcdText reg text)).bind fun u =>
  let reg := registered reg [ucdColumns]
  (quietly (x.file dir (u8!"radicals"))).bind fun text => (quietly (loadRadicalText reg text)).bind fun rad =>
  let reg := registered reg [radicalColumns]
  (quietly (x.file dir (u8!"frequency-readings"))).bind fun text => (quietly (loadReadingText reg text)).bind fun readings =>
  let reg := registered reg [readingColumns]
  let l := loadedOf ltr lists u rad readings
  (quietly (x.file dir (u8!"jouyou"))).bind fun text => (loadJouyouTextPrinting reg l text {}).bind fun d =>
  let reg := registered reg [numberedColumns ++ jouyouRequired]
  (quietly (x.file dir (u8!"linked-jinmei"))).bind fun text =>
  (loadOfficialLinkedPrinting l (fields 0x0a text) d).bind fun d =>
  (quietly (x.file dir (u8!"jinmei"))).bind fun text => (loadJinmeiTextPrinting reg l text d).bind fun d =>
  let reg := registered reg [numberedColumns ++ jinmeiRequired]
  (quietly (x.file dir (u8!"extra"))).bind fun text => (loadExtraTextPrinting reg l text d).bind fun d =>
  (processListsPrinting mode l l.lists.processOrder d).bind fun d =>
  (processUcdPrinting l.ctx l.ids l.ucds d).bind fun d =>
  (printing (if mode = .full then checkStrokes l.findUcd d else [])).bind fun _ =>
  (printing (printLoaded mode d)).bind fun _ =>
  (if mode = .full then printSummaries sort rad u d else quietly (.ok ())).bind fun _ =>
  quietly (.ok ((d, u, l), formatAfterKanji mode rad d))

/-- The lambda `f` (JukugoData.cpp:19-23) for the files in order (JukugoData.cpp:25-31), found one after the other. -/
def loadJukugoFilesPrinting (debug : Bool) (x : Disk) (dir : Str) :
    List (Str × KanjiGrade) → JukugoStore → Printing JukugoStore
  | [], st => quietly (.ok st)
  | (file, g) :: fs, st =>
    (quietly (x.file dir file)).bind fun text =>
    (quietly (st.loadFile text g)).bind fun st' =>
    (printing (if debug then u8!">>> " ++ u8!"Loaded " ++ toDec (st'.unique.length - st.unique.length) ++
      u8!" for Grade: " ++ g.toString ++ u8!"\n" else [])).bind fun _ =>
    loadJukugoFilesPrinting debug x dir fs st'

/-- The constructor of `JukugoData` (JukugoData.cpp:17-47). -/
def loadJukugoPrintingFrom (debug : Bool) (f : OutFormat) (typeOf : Str → Option KanjiType) (x : Disk) (dir : Str) :
    Printing JukugoStore :=
  (printing (if debug then u8!">>>\n>>> " ++ u8!"Begin Loading Jukugo\n>>>\n" else [])).bind fun _ =>
  (loadJukugoFilesPrinting debug x dir jukugoFiles {}).bind fun st =>
  (printing (if debug then jukugoSummary f typeOf st else [])).bind fun _ => quietly (.ok st)

/-- The data of `Quiz::run` (Quiz.cpp:12-16) for the data directory `dir`, and the fill character of the stream afterwards
(nothing sets it in the constructor of `JukugoData`). -/
def loadDataPrintingFrom (mode : DebugMode) (sort : List KanjiRec → List KanjiRec) (reg : List Str) (ltr : Bool) (x : Disk)
    (dir : Str) : Printing (DetailStore × UInt8) :=
  (loadTextDataPrintingFrom mode sort reg ltr x dir).bind fun t =>
  let reg := registered reg [ucdColumns, radicalColumns, readingColumns, numberedColumns ++ jouyouRequired,
    numberedColumns ++ jinmeiRequired, numberedColumns ++ extraRequired]
  (quietly (x.file dir (u8!"meaning-groups"))).bind fun text =>
  (loadMeaningTextPrinting reg t.1.1.findByName text).bind fun meanings =>
  let reg := registered reg [groupColumns]
  (quietly (x.file dir (u8!"pattern-groups"))).bind fun text =>
  (loadPatternTextPrinting reg t.1.1.findByName text).bind fun patterns =>
  let groups := printGroupData mode t.2 meanings patterns t.1.1
  (printing groups.1).bind fun _ =>
  (loadJukugoPrintingFrom (mode ≠ .none) groups.2 t.1.1.typeOfName x (joinPath dir (u8!"jukugo"))).bind fun jukugo =>
  quietly (.ok ({
    store := t.1.1, ucd := t.1.2.1, extra := fun k => k.kanji.extra
    detail := {
      patterns, meanings, jukugo, reading := fun k => k.kanji.reading
      meaning := fun k => if k.kanji.meaning.isEmpty then none else some k.kanji.meaning } }, groups.2.fill))

/-! ## Details of a kanji with a fill character

Only `printJukugoList` uses it. -/

/-- `jukugoRows` (QuizLauncher.cpp:434-439). -/
def jukugoRowsIn (fill : UInt8) (ws : List Nat) : Nat → List Str → Str
  | _, [] => []
  | i, s :: r =>
    (if i % 3 = 0 then u8!"\n" else []) ++ (⟨true, fill⟩ : OutFormat).setw (wideSetw s (ws.getD (i % 3) 0)) s ++
      jukugoRowsIn fill ws (i + 1) r

/-- `printJukugoList` (QuizLauncher.cpp:419-442). -/
def printJukugoListIn (fill : UInt8) (name : Str) (list : List Jukugo) : Str :=
  let entries := list.map Jukugo.nameAndReading
  u8!"    " ++ name ++ u8!":" ++
    (if list.length ≤ 3 then (entries.map fun s => u8!" " ++ s).flatten
     else u8!" " ++ toDec list.length ++ jukugoRowsIn fill (jukugoColumns 0 entries [0, 0, 0]) 0 entries) ++ u8!"\n"

/-- `printJukugo` (QuizLauncher.cpp:394-417). -/
def printJukugoIn (fill : UInt8) (grade : Option KanjiGrade) (list : List Jukugo) : Str :=
  (if list.isEmpty then []
   else match grade with
    | some g =>
      if list.length > 3 then
        let same := list.filter fun j => g == j.grade
        let other := list.filter fun j => !(g == j.grade)
        if other.isEmpty then printJukugoListIn fill (u8!" Jukugo") list
        else printJukugoListIn fill (u8!"Same Grade Jukugo") same ++ printJukugoListIn fill (u8!"Other Grade Jukugo") other
      else printJukugoListIn fill (u8!" Jukugo") list
    | none => printJukugoListIn fill (u8!" Jukugo") list) ++ u8!"\n"

/-- `printReviewDetails` (QuizLauncher.cpp:184-218). -/
def printReviewDetailsIn (fill : UInt8) (sort : List KanjiRec → List KanjiRec) (d : DetailData) (k : KanjiRec) : Res Str :=
  (similarLine sort d.patterns k).bind fun similar =>
    .ok (u8!"    Reading: " ++ d.reading k ++ u8!"\n" ++ similar ++ idLines k ++ categoryLine d.meanings k ++
      printJukugoIn fill k.kanji.grade (d.jukugo.find k.kanji.name))

/-- What is written about a loaded kanji (QuizLauncher.cpp:373-376). -/
def loadedTextIn (fill : UInt8) (sort : List KanjiRec → List KanjiRec) (d : DetailStore) (k : KanjiRec) : Res Str :=
  (k.kanji.info {}).bind fun info =>
    (printReviewDetailsIn fill sort d.detail k).bind fun review =>
      .ok (printExtraTypeInfo k.kanji.type (d.extra k) ++ u8!"\n" ++ info ++
        printMeaning (d.detail.meaning k) true true ++ review)

/-- `printDetails` (QuizLauncher.cpp:365-380) after the legend. -/
def detailTextIn (fill : UInt8) (sort : List KanjiRec → List KanjiRec) (d : DetailStore) (arg : Str) : Res Str :=
  (d.ucd.find arg).bind fun u =>
    (match u with
     | some u =>
       (match d.store.findByName arg with
        | some k => loadedTextIn fill sort d k
        | none => .ok (u8!" --- Kanji not loaded'\n")).bind fun rest => Res.ok (printUcd u ++ rest)
     | none => Res.ok (u8!" --- Not found in 'ucd.txt'\n")).bind fun rest =>
      .ok (arg ++ u8!" " ++ toUnicodeStr arg .square ++ rest)

/-- `processKanjiArg` (QuizLauncher.cpp:315-344). -/
def showKanjiIn (fill : UInt8) (sort : List KanjiRec → List KanjiRec) (d : DetailStore) (arg : Str) : Shown :=
  let one (name : Str) : Shown := (printOneDetail (detailTextIn fill sort d) name true).shown
  let all (l : List KanjiRec) (name id : Str) : Shown :=
    (printMatches (detailTextIn fill sort d) (l.map (·.kanji.name)) name id).shown
  if arg.all isDigitChar then
    match getIdWhy (u8!"frequency") arg with
    | .error e => .error e
    | .ok n =>
      match d.store.frequencies.find n with
      | .ok (some k) => one k.kanji.name
      | .ok none => .error (u8!"Kanji not found for frequency '" ++ arg ++ u8!"'")
      | _ => .ub
  else if arg.head? = some 0x6d then
    match morohashiWhy arg.tail with
    | .error e => .error e
    | .ok id => all (d.store.findByMorohashiId id) (u8!"Morohashi") id.toString
  else if arg.head? = some 0x6e then
    let id := arg.tail
    if id = [] ∨ id.all isDigitChar = false then .error (u8!"Nelson ID '" ++ id ++ u8!"' is non-numeric")
    else match getIdWhy (u8!"Nelson ID") id with
      | .error e => .error e
      | .ok n => all (d.store.findByNelsonId (UInt16.ofNat n)) (u8!"Nelson") id
  else if arg.head? = some 0x75 then
    let id := arg.tail
    if id.length < 4 ∨ id.length > 5 ∨ (id.length = 5 ∧ id.head? ≠ some 0x31 ∧ id.head? ≠ some 0x32) ∨
        id.all isHexChar = false then .error (u8!"Unicode value '" ++ id ++ u8!"' is invalid")
    else match toUtf8 [hexValue id] with
      | .ok name => one name
      | _ => .ub
  else if isKanji arg then one arg
  else .error (u8!"unrecognized 'kanji' value '" ++ arg ++ u8!"', use -h for help")

/-- The constructor of `QuizLauncher` (QuizLauncher.cpp:78-101); a quiz starts without debug option only, when the stream is as
it was at the beginning. -/
def runProgramIn (fill : UInt8) (sort : List KanjiRec → List KanjiRec) (d : DetailStore) (e : StoulTexts) (debug : Bool)
    (args : List Str) (n : Nat) (r : Drawn) (s : InStream) : Res Output :=
  match launchWhy e false {} args with
  | .error m => .ok ([], some (.error m))
  | .ok .help => .ok (textOf quizHelp, some (.ok s))
  | .ok (.kanji arg) =>
    match showKanjiIn fill sort d arg with
    | .text t => .ok (t, some (.ok s))
    | .error m => .ok ([], some (.error m))
    | .ub => .ub
  | .ok (.start a) => if debug then .ok ([], some (.ok s)) else runQuiz sort d a n r s

/-! ## The programs -/

/-- How a program ends: waiting for input, with an exit code, or with an exception while loading (the exit code is 1; its
message, which isn't part of the model, follows what is written to `std::cerr`). -/
inductive Ending where
  | waiting
  | exit (code : Nat)
  | load (e : Exc)
  deriving DecidableEq, Repr

/-- All that is written to `std::cout` and `std::cerr`. -/
structure ProgramOutput where
  out : Str
  err : Str
  ending : Ending
  deriving DecidableEq, Repr

/-- `catch (const std::exception& err)` in `main` for an exception about the arguments (apps/quizMain.cpp:6-9). -/
def usageOutput (m : Str) : ProgramOutput := ⟨[], m ++ u8!"\n", .exit 1⟩

/-- `main` with `Quiz::run` (apps/quizMain.cpp:3-11, Quiz.cpp:12-16). -/
def kanjiQuizOutput (w : World) (reg : List Str) (ltr : Bool) (sort : List KanjiRec → List KanjiRec) (e : StoulTexts)
    (argv : List Str) (n : Nat) (r : Drawn) (s : InStream) : Option (Res ProgramOutput) :=
  match getDataDir w.dirs w.cwd argv with
  | .error m => some (.ok (usageOutput m))
  | .ok dir =>
    match getDebugMode argv with
    | .throw _ => some (.ok (usageOutput oneDebugOption))
    | .ub => some .ub
    | .ok mode =>
      let p := loadDataPrintingFrom mode sort reg ltr w.disk dir.text
      let errors := printErrors 0 p.prints.errors
      match p.result with
      | .throw x => some (.ok ⟨p.prints.out, errors, .load x⟩)
      | .ub => some .ub
      | .ok (d, fill) => (visitArgs argv (argv.length + 1) 0).map fun v =>
          v.bind fun args =>
            (runProgramIn fill sort d e (mode ≠ .none) args n r s).bind fun o =>
              .ok (match o.2 with
                | none => ⟨p.prints.out ++ o.1, errors, .waiting⟩
                | some (.ok _) => ⟨p.prints.out ++ o.1, errors, .exit 0⟩
                | some (.error m) => ⟨p.prints.out ++ o.1, errors ++ m ++ u8!"\n", .exit 1⟩)

/-- `main` (apps/statsMain.cpp:4-14, TextKanjiData.cpp:21-23); the fill character isn't used, as the lines of the report are
made in a `std::stringstream` (Stats.cpp:185-197) and the totals have no width. -/
def kanjiStatsOutput (w : World) (reg : List Str) (ltr : Bool) (sort : List KanjiRec → List KanjiRec)
    (set : UInt16 → List StatCount → List StatCount) (argv : List Str) : Option (Res ProgramOutput) :=
  match getDataDir w.dirs w.cwd argv with
  | .error m => some (.ok (usageOutput m))
  | .ok dir =>
    match getDebugMode argv with
    | .throw _ => some (.ok (usageOutput oneDebugOption))
    | .ub => some .ub
    | .ok mode =>
      let p := loadTextDataPrintingFrom mode sort reg ltr w.disk dir.text
      let errors := printErrors 0 p.prints.errors
      match p.result with
      | .throw x => some (.ok ⟨p.prints.out, errors, .load x⟩)
      | .ub => some .ub
      | .ok (t, _) => (mainStats (loadedStats set t) (mode ≠ .none) w.node argv).map fun v =>
          v.bind fun o => .ok ⟨p.prints.out ++ o.1, errors ++ o.2.1, .exit o.2.2⟩

end KT
