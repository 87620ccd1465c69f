import Verif.Model.LoadData
import Verif.Model.ListFileText
/-!
# Loading the data of the quiz program from the files of a directory

`Model/LoadData.lean` gives the rows of the tables by the texts of their cells.  Here the files are found in the data
directory (`Model/ListFileText.lean`), opened and read as column files (`Model/ColumnFile.lean`), and their rows handed to
the functions that process them.

Simplifications: the cells of a row are read before the row is processed (the program reads each when it needs it; reading
changes nothing).  The columns of a table are constructed when it is opened; those declared at namespace scope
(UcdData.cpp:12-18, OfficialKanji.h:41-44) are constructed at the start of the program, with the same numbers.  Contents of
files don't change during the run, and a regular file can be opened.
-/
namespace KT

/-! ## Tables -/

/-- The registry of columns and the columns after constructing `ColumnFile::Column`s one after the other. -/
def makeColumns : List Str → List Str → List Column × List Str
  | reg, [] => ([], reg)
  | reg, name :: names =>
    let c := mkColumn reg name
    let r := makeColumns c.2 names
    (c.1 :: r.1, r.2)

/-- The column constructed with a name (the default is for a name that isn't there). -/
def columnNamed (cols : List Column) (name : Str) : Column := (cols.find? (·.name == name)).getD ⟨name, 0⟩

/-- `f.get(xCol)` for the column named `x`. -/
def ColumnFile.cell (cf : ColumnFile) (cols : List Column) (name : Str) : Res Str := cf.get (columnNamed cols name)

/-- `for (ColumnFile f{file, columns}; f.nextRow();) body`, after the file was opened; `fuel` bounds the number of lines. -/
def tableLoop {α : Type} (body : ColumnFile → α → Res α) : Nat → ColumnFile → α → Res α
  | 0, _, a => .ok a
  | fuel + 1, cf, a =>
    match cf.nextRow with
    | (_, .ok false) => .ok a
    | (_, .throw e) => .throw e
    | (_, .ub) => .ub
    | (cf, .ok true) => (body cf a).bind fun a => tableLoop body fuel cf a

/-- The columns and the open file for the text of a file. -/
def openTable (reg names : List Str) (text : Str) : Res (List Column × ColumnFile) :=
  let c := makeColumns reg names
  (openColumnFile c.2 (fields 0x0a text) c.1).bind fun cf => .ok (c.1, cf)

/-- The loop over the rows of the text of a file. -/
def readTable {α : Type} (reg names : List Str) (body : List Column → ColumnFile → α → Res α) (text : Str) (a : α) : Res α :=
  (openTable reg names text).bind fun t => tableLoop (body t.1) (t.2.lines.length + 1) t.2 a

/-! ## The files with tables -/

/-- UcdData.cpp:93-97. -/
def ucdColumns : List Str :=
  [u8!"Code", u8!"Name", u8!"Block", u8!"Version", u8!"Radical", u8!"Strokes", u8!"VStrokes", u8!"Pinyin", u8!"MorohashiId",
   u8!"NelsonIds", u8!"Sources", u8!"JSource", u8!"Joyo", u8!"Jinmei", u8!"LinkCodes", u8!"LinkNames", u8!"LinkType",
   u8!"Meaning", u8!"On", u8!"Kun", u8!"Japanese"]

/-- The cells used by the body of the loop (UcdData.cpp:98-133). -/
def readUcdRow (cols : List Column) (cf : ColumnFile) : Res UcdRow :=
  (cf.cell cols (u8!"Code")).bind fun code => (cf.cell cols (u8!"Name")).bind fun name =>
  (cf.cell cols (u8!"Block")).bind fun block => (cf.cell cols (u8!"Version")).bind fun version =>
  (cf.cell cols (u8!"Radical")).bind fun radical => (cf.cell cols (u8!"Strokes")).bind fun strokes =>
  (cf.cell cols (u8!"VStrokes")).bind fun vStrokes => (cf.cell cols (u8!"Pinyin")).bind fun pinyin =>
  (cf.cell cols (u8!"MorohashiId")).bind fun morohashiId => (cf.cell cols (u8!"NelsonIds")).bind fun nelsonIds =>
  (cf.cell cols (u8!"Sources")).bind fun sources => (cf.cell cols (u8!"JSource")).bind fun jSource =>
  (cf.cell cols (u8!"Joyo")).bind fun joyo => (cf.cell cols (u8!"Jinmei")).bind fun jinmei =>
  (cf.cell cols (u8!"LinkCodes")).bind fun linkCodes => (cf.cell cols (u8!"LinkNames")).bind fun linkNames =>
  (cf.cell cols (u8!"LinkType")).bind fun linkType => (cf.cell cols (u8!"Meaning")).bind fun meaning =>
  (cf.cell cols (u8!"On")).bind fun on => (cf.cell cols (u8!"Kun")).bind fun kun =>
  .ok { code, name, block, version, radical, strokes, vStrokes, pinyin, morohashiId, nelsonIds, sources, jSource, joyo
        jinmei, linkCodes, linkNames, linkType, meaning, on, kun }

/-- `UcdData::load` (UcdData.cpp:92-134). -/
def loadUcdText (reg : List Str) (text : Str) : Res UcdData :=
  readTable reg ucdColumns (fun cols cf d => (readUcdRow cols cf).bind fun row => d.loadRow row) text {}

/-- RadicalData.cpp:48-50. -/
def radicalColumns : List Str := [u8!"Number", u8!"Name", u8!"LongName", u8!"Reading"]

@[inherit_doc radicalColumns]
def radicalCols (cols : List Column) : RadicalCols :=
  ⟨columnNamed cols (u8!"Number"), columnNamed cols (u8!"Name"), columnNamed cols (u8!"LongName"),
    columnNamed cols (u8!"Reading")⟩

/-- `RadicalData::load` (RadicalData.cpp:47-67). -/
def loadRadicalText (reg : List Str) (text : Str) : Res RadicalData :=
  (openTable reg radicalColumns text).bind fun t => RadicalData.load (radicalCols t.1) t.2

/-- TextKanjiData.cpp:72. -/
def readingColumns : List Str := [u8!"Name", u8!"Reading"]

/-- `loadFrequencyReadings` (TextKanjiData.cpp:71-76). -/
def loadReadingText (reg : List Str) (text : Str) : Res (List (Str × Str)) :=
  readTable reg readingColumns (fun cols cf m =>
    (cf.cell cols (u8!"Name")).bind fun name => (cf.cell cols (u8!"Reading")).bind fun reading =>
      match mapEmplace m name reading with
      | (m, true) => .ok m
      | (_, false) => .throw .domain) text []

/-- OfficialKanji.h:207. -/
def numberedColumns : List Str := [u8!"Number", u8!"Name", u8!"Radical", u8!"Reading"]

/-- `RequiredColumns` (OfficialKanji.h:110-111, 93-94 and 132). -/
def jouyouRequired : List Str := [u8!"OldNames", u8!"Year", u8!"Strokes", u8!"Grade", u8!"Meaning"]
@[inherit_doc jouyouRequired]
def jinmeiRequired : List Str := [u8!"OldNames", u8!"Year", u8!"Reason"]
@[inherit_doc jouyouRequired]
def extraRequired : List Str := [u8!"Strokes", u8!"Meaning"]

/-- The cells used by the constructor of `JouyouKanji` (OfficialKanji.cpp:66-69, 40-52 and 15-19). -/
def readJouyouRow (cols : List Column) (cf : ColumnFile) : Res CellRow :=
  (cf.cell cols (u8!"Number")).bind fun number => (cf.cell cols (u8!"Name")).bind fun name =>
  (cf.cell cols (u8!"Radical")).bind fun radical => (cf.cell cols (u8!"Reading")).bind fun reading =>
  (cf.cell cols (u8!"OldNames")).bind fun oldNames => (cf.cell cols (u8!"Year")).bind fun year =>
  (cf.cell cols (u8!"Strokes")).bind fun strokes => (cf.cell cols (u8!"Grade")).bind fun grade =>
  (cf.cell cols (u8!"Meaning")).bind fun meaning =>
  .ok { number, name, radical, reading, oldNames, year, strokes, grade, meaning }

/-- The cells used by the constructor of `JinmeiKanji` (OfficialKanji.cpp:55-57, 35-38 and 21-24). -/
def readJinmeiRow (cols : List Column) (cf : ColumnFile) : Res CellRow :=
  (cf.cell cols (u8!"Number")).bind fun number => (cf.cell cols (u8!"Name")).bind fun name =>
  (cf.cell cols (u8!"Radical")).bind fun radical => (cf.cell cols (u8!"Reading")).bind fun reading =>
  (cf.cell cols (u8!"OldNames")).bind fun oldNames => (cf.cell cols (u8!"Year")).bind fun year =>
  (cf.cell cols (u8!"Reason")).bind fun reason =>
  .ok { number, name, radical, reading, oldNames, year, reason }

/-- The cells used by the constructor of `ExtraKanji` (OfficialKanji.cpp:77-86 and 15-19). -/
def readExtraRow (cols : List Column) (cf : ColumnFile) : Res CellRow :=
  (cf.cell cols (u8!"Number")).bind fun number => (cf.cell cols (u8!"Name")).bind fun name =>
  (cf.cell cols (u8!"Radical")).bind fun radical => (cf.cell cols (u8!"Reading")).bind fun reading =>
  (cf.cell cols (u8!"Strokes")).bind fun strokes => (cf.cell cols (u8!"Meaning")).bind fun meaning =>
  .ok { number, name, radical, reading, strokes, meaning }

/-- `fromFile` (OfficialKanji.h:205-214). -/
def fromText {β : Type} (reg required : List Str) (read : List Column → ColumnFile → Res CellRow) (make : CellRow → Res β)
    (text : Str) : Res (List β) :=
  readTable reg (numberedColumns ++ required) (fun cols cf results =>
    (read cols cf).bind fun row => (make row).bind fun k => .ok (results ++ [k])) text []

/-- `loadJouyouKanji` (TextKanjiData.cpp:78-87). -/
def loadJouyouText (reg : List Str) (l : Loaded) (text : Str) (d : KanjiStore) : Res KanjiStore :=
  (fromText reg jouyouRequired readJouyouRow (jouyouFromRow l.ctx) text).bind fun ks =>
  let results := ks.map fun k => l.record k.1
  .ok ((results.foldl l.insert d).setType .jouyou results)

/-- `loadJinmeiKanji` (TextKanjiData.cpp:114-125). -/
def loadJinmeiText (reg : List Str) (l : Loaded) (text : Str) (d : KanjiStore) : Res KanjiStore :=
  (fromText reg jinmeiRequired readJinmeiRow (jinmeiFromRow l.ctx) text).bind fun ks =>
  let results := ks.map fun k => l.record k.1
  (loadJinmeiLoop l results d).bind fun d => .ok (d.setType .jinmei results)

/-- `loadExtraKanji` (TextKanjiData.cpp:127-132). -/
def loadExtraText (reg : List Str) (l : Loaded) (text : Str) (d : KanjiStore) : Res KanjiStore :=
  (fromText reg extraRequired readExtraRow (extraFromRow l.ctx) text).bind fun ks =>
  let results := ks.map fun k => l.record k.1
  .ok ((results.foldl l.insert d).setType .extra results)

/-- GroupData.cpp:45-47. -/
def groupColumns : List Str := [u8!"Number", u8!"Name", u8!"Members"]

@[inherit_doc groupColumns]
def readGroupRow (cols : List Column) (cf : ColumnFile) : Res GroupRow :=
  (cf.cell cols (u8!"Number")).bind fun number => (cf.cell cols (u8!"Name")).bind fun name =>
  (cf.cell cols (u8!"Members")).bind fun members => .ok ⟨number, name, members⟩

/-- `loadGroup` (GroupData.cpp:43-78) for the two files. -/
def loadMeaningText (reg : List Str) (find : Str → Option KanjiRec) (text : Str) : Res MeaningGroups :=
  readTable reg groupColumns (fun cols cf d =>
    (readGroupRow cols cf).bind fun row => (readGroup find .meaning row).bind fun g => .ok (d.add g)) text {}

@[inherit_doc loadMeaningText]
def loadPatternText (reg : List Str) (find : Str → Option KanjiRec) (text : Str) : Res PatternGroups :=
  readTable reg groupColumns (fun cols cf d =>
    (readGroupRow cols cf).bind fun row => (readGroup find .pattern row).bind fun g => .ok (d.add g)) text {}

/-! ## The data directory -/

/-- What the paths name, and the contents of the regular files. -/
structure Disk where
  fs : FileSys
  content : Str → Str

/-- The contents of the file found by `getFile` (ListFile.cpp:11-23). -/
def Disk.file (x : Disk) (dir file : Str) : Res Str :=
  match getFile x.fs dir file with
  | .ok p => .ok (x.content p)
  | .error _ => .throw .domain

/-- The contents of the file opened by the constructor of `ListFile` (ListFile.cpp:45-56). -/
def Disk.list (x : Disk) (p : Str) : Res Str :=
  match openListFile x.fs p [] with
  | .ok f => .ok (x.content f.2)
  | .error _ => .throw .domain

/-- Open and load the list files of a kind one after the other (TextKanjiData.cpp:25-34). -/
def loadTypedFiles {τ : Type} (x : Disk) : List Str → List (τ × Str) → Res (List (τ × LoadState))
  | _, [] => .ok []
  | names, (t, path) :: fs =>
    (x.list path).bind fun text =>
    match ListFile.load false true names text with
    | (st, .ok ()) => (loadTypedFiles x st.names fs).bind fun r => .ok ((t, st) :: r)
    | (_, .throw e) => .throw e
    | (_, .ub) => .ub

/-- `dataFile` (TextKanjiData.cpp:204-210). -/
def levelPath (dir : Str) (l : JlptLevel) : Str := joinPath (joinPath dir (u8!"jlpt")) (firstLower l.toString)
@[inherit_doc levelPath]
def kyuPath (dir : Str) (k : KenteiKyu) : Str := joinPath (joinPath dir (u8!"kentei")) (firstLower k.toString)

/-- TextKanjiData.cpp:25-35. -/
def loadListsFrom (x : Disk) (dir : Str) : Res ListFiles :=
  (loadTypedFiles x [] (levelOrder.map fun l => (l, levelPath dir l))).bind fun levels =>
  (loadTypedFiles x [] (kyuOrder.map fun k => (k, kyuPath dir k))).bind fun kyus =>
  (x.list (joinPath dir (u8!"frequency"))).bind fun frequency =>
  match ListFile.load true false [] frequency with
  | (st, .ok ()) => .ok ⟨levels, kyus, st⟩
  | (_, .throw e) => .throw e
  | (_, .ub) => .ub

/-- The registry after constructing the columns of the tables opened so far. -/
def registered (reg : List Str) (tables : List (List Str)) : List Str :=
  tables.foldl (fun reg names => (makeColumns reg names).2) reg

/-- The constructor of `TextKanjiData` (TextKanjiData.cpp:21-53) for the data directory `dir`; `reg` are the columns
constructed before. -/
def loadTextDataFrom (reg : List Str) (ltr : Bool) (x : Disk) (dir : Str) : Res (KanjiStore × UcdData × Loaded) :=
  (loadListsFrom x dir).bind fun lists =>
  (x.file dir (u8!"ucd")).bind fun text => (loadUcdText reg text).bind fun u =>
  let reg := registered reg [ucdColumns]
  (x.file dir (u8!"radicals")).bind fun text => (loadRadicalText reg text).bind fun rad =>
  let reg := registered reg [radicalColumns]
  (x.file dir (u8!"frequency-readings")).bind fun text => (loadReadingText reg text).bind fun readings =>
  let reg := registered reg [readingColumns]
  let l := loadedOf ltr lists u rad readings
  (x.file dir (u8!"jouyou")).bind fun text => (loadJouyouText reg l text {}).bind fun d =>
  let reg := registered reg [numberedColumns ++ jouyouRequired]
  (x.file dir (u8!"linked-jinmei")).bind fun text => (loadOfficialLinked l (fields 0x0a text) d).bind fun d =>
  (x.file dir (u8!"jinmei")).bind fun text => (loadJinmeiText reg l text d).bind fun d =>
  let reg := registered reg [numberedColumns ++ jinmeiRequired]
  (x.file dir (u8!"extra")).bind fun text => (loadExtraText reg l text d).bind fun d =>
  (processLists l l.lists.processOrder d).bind fun d =>
  (KanjiStore.processUcd l.ctx l.ids l.ucds d).bind fun d =>
  .ok (d, u, l)

/-- The files of the constructor of `JukugoData` (JukugoData.cpp:25-31), found and loaded one after the other. -/
def loadJukugoFiles (x : Disk) (dir : Str) : List (Str × KanjiGrade) → JukugoStore → Res JukugoStore
  | [], st => .ok st
  | (file, g) :: fs, st =>
    (x.file dir file).bind fun text => (st.loadFile text g).bind (loadJukugoFiles x dir fs)

@[inherit_doc loadJukugoFiles]
def jukugoFiles : List (Str × KanjiGrade) :=
  [(u8!"g1", .g1), (u8!"g2", .g2), (u8!"g3", .g3), (u8!"g4", .g4), (u8!"g5", .g5), (u8!"g6", .g6), (u8!"other", .s)]

/-- The data of `Quiz::run` (Quiz.cpp:12-16) for the data directory `dir`. -/
def loadDataFrom (reg : List Str) (ltr : Bool) (x : Disk) (dir : Str) : Res DetailStore :=
  (loadTextDataFrom reg ltr x dir).bind fun t =>
  let reg := registered reg [ucdColumns, radicalColumns, readingColumns, numberedColumns ++ jouyouRequired,
    numberedColumns ++ jinmeiRequired, numberedColumns ++ extraRequired]
  (x.file dir (u8!"meaning-groups")).bind fun text => (loadMeaningText reg t.1.findByName text).bind fun meanings =>
  let reg := registered reg [groupColumns]
  (x.file dir (u8!"pattern-groups")).bind fun text => (loadPatternText reg t.1.findByName text).bind fun patterns =>
  (loadJukugoFiles x (joinPath dir (u8!"jukugo")) jukugoFiles {}).bind fun jukugo =>
  .ok {
    store := t.1, ucd := t.2.1, extra := fun k => k.kanji.extra
    detail := {
      patterns, meanings, jukugo, reading := fun k => k.kanji.reading
      meaning := fun k => if k.kanji.meaning.isEmpty then none else some k.kanji.meaning } }

end KT
