import Verif.Model.KanjiData
/-!
# Model of libs/kanji/src/TextKanjiData.cpp (loading all data files)

The rows of 'jouyou.txt', 'jinmei.txt' and 'extra.txt' are given by the texts of their cells; how a row is split into
cells is the subject of `Verif/Model/ColumnFile.lean`.  The Unicode and radical files are loaded before any kanji is made
(TextKanjiData.cpp:37-38), what the kanji constructors need of them is a parameter.  Not modelled: the search for files and the texts printed in debug
mode.
-/
namespace KT

/-! ## Rows (OfficialKanji.h:40-43, OfficialKanji.cpp) -/

/-- The cells of a row; a file has only some of the columns (OfficialKanji.h:93, 113, 134), a column that a constructor
doesn't read is left empty. -/
structure CellRow where
  number : Str
  name : Str
  radical : Str
  oldNames : Str := []
  year : Str := []
  strokes : Str := []
  grade : Str := []
  reason : Str := []
  reading : Str := []
  meaning : Str := []
  deriving DecidableEq, Repr

/-- `getUInt<T>` (ColumnFile.h:77-80) on the value of the cell; `max` is the largest value of `T`. -/
def cellU16 (s : Str) : Res UInt16 := (processU64 s 65535).bind fun n => .ok (UInt16.ofNat n)
@[inherit_doc cellU16]
def cellU8 (s : Str) : Res UInt8 := (processU64 s 255).bind fun n => .ok (UInt8.ofNat n)

/-- All values, in the order of declaration (KanjiEnums.h:42). -/
def gradeValues : List KanjiGrade := [.g1, .g2, .g3, .g4, .g5, .g6, .s]

/-- `AllKanjiGrades.fromString` (EnumList.h:292-297). -/
def gradeFromString (s : Str) : Res KanjiGrade :=
  match gradeValues.find? (·.toString == s) with
  | some g => .ok g
  | none => .throw .domain

/-- `JouyouKanji::getGrade` (OfficialKanji.cpp:71-73). -/
def getGrade (s : Str) : Res KanjiGrade := gradeFromString (if (u8!"S").isPrefixOf s then s else u8!"G" ++ s)

/-- `AllJinmeiReasons` (KanjiEnums.h:97-98). -/
def allReasons : List Str := [u8!"Names", u8!"Print", u8!"Variant", u8!"Moved", u8!"Simple", u8!"Other"]

/-- `year` of an `OfficialKanji` (OfficialKanji.cpp:37-38 and 44). -/
def getYear (s : Str) : Res UInt16 := if s.isEmpty then .ok 0 else cellU16 s

/-- The additional members of the kanji of these files. -/
structure NumberedInfo where
  number : UInt16
  year : UInt16 := 0
  reason : Option Str := none
  deriving DecidableEq, Repr

/-- `extraTypeInfo` (OfficialKanji.cpp:9-11, 28-33 and 59-62). -/
def NumberedInfo.extraTypeInfo (i : NumberedInfo) : Str :=
  let result := u8!"#" ++ toDec i.number.toNat
  let result := if i.year ≠ 0 then result ++ u8!" " ++ toDec i.year.toNat else result
  match i.reason with
  | some r => result ++ u8!" [" ++ r ++ u8!"]"
  | none => result

/-- The kanji with its additional members, of which the other parts of the program only use the text. -/
def withNumber (k : Kanji) (i : NumberedInfo) : Res (Kanji × NumberedInfo) :=
  .ok ({ k with extra := some i.extraTypeInfo }, i)

/-- The constructor of `JouyouKanji` (OfficialKanji.cpp:66-69 with 40-44 and 15-19). -/
def jouyouFromRow (c : KanjiCtx) (f : CellRow) : Res (Kanji × NumberedInfo) :=
  (cellU8 f.strokes).bind fun strokes =>
  (Strokes.make strokes).bind fun _ =>
  (c.radicalByName f.radical).bind fun _ =>
  (checkName f.name).bind fun _ =>
  (cellU16 f.number).bind fun number =>
  (getYear f.year).bind fun year =>
  (getGrade f.grade).bind fun grade =>
  (Kanji.makeJouyou c { name := f.name, radical := f.radical, oldNames := f.oldNames, strokes, grade := some grade
                        reading := f.reading, meaning := f.meaning }).bind
    fun k => withNumber k { number, year }

/-- The constructor of `JinmeiKanji` (OfficialKanji.cpp:55-57 with 35-38 and 21-24). -/
def jinmeiFromRow (c : KanjiCtx) (f : CellRow) : Res (Kanji × NumberedInfo) :=
  (Kanji.makeJinmei c { name := f.name, radical := f.radical, oldNames := f.oldNames
                        reading := f.reading }).bind fun k =>
  (cellU16 f.number).bind fun number =>
  (getYear f.year).bind fun year =>
  if allReasons.contains f.reason then withNumber k { number, year, reason := some f.reason } else .throw .domain

/-- The constructor of `ExtraKanji` (OfficialKanji.cpp:77-86 with 15-19). -/
def extraFromRow (c : KanjiCtx) (f : CellRow) : Res (Kanji × NumberedInfo) :=
  (cellU8 f.strokes).bind fun strokes =>
  (Kanji.makeExtra c { name := f.name, radical := f.radical, strokes, reading := f.reading
                       meaning := f.meaning }).bind fun k =>
  (cellU16 f.number).bind fun number => withNumber k { number }

/-- `NumberedKanji::fromFile` (OfficialKanji.h:206-214): one kanji per row. -/
def fromRows {α β : Type} (make : α → Res β) : List α → Res (List β)
  | [] => .ok []
  | f :: fs => (make f).bind fun k => (fromRows make fs).bind fun ks => .ok (k :: ks)

/-! ## Level, kyu and frequency (TextKanjiData.cpp:55-69) -/

/-- The list files of a `TextKanjiData` (TextKanjiData.h), each with its type, in the order of TextKanjiData.cpp:25-35. -/
structure ListFiles where
  levels : List (JlptLevel × LoadState) := []
  kyus : List (KenteiKyu × LoadState) := []
  frequency : LoadState := {}

/-- `level` (TextKanjiData.cpp:59-63). -/
def ListFiles.level (l : ListFiles) (k : Str) : Option JlptLevel := (l.levels.find? (·.2.exists_ k)).map (·.1)

/-- `kyu` (TextKanjiData.cpp:65-69). -/
def ListFiles.kyu (l : ListFiles) (k : Str) : Option KenteiKyu := (l.kyus.find? (·.2.exists_ k)).map (·.1)

/-- `frequency` (TextKanjiData.cpp:55-57). -/
def ListFiles.frequencyOf (l : ListFiles) (k : Str) : UInt16 := UInt16.ofNat (l.frequency.getIndex k)

/-- Construct the list files of a kind one after the other from the texts of the files (TypedListFile, ListFile.h:127-140):
they share one set of names. -/
def loadTyped {τ : Type} : List Str → List (τ × Str) → Res (List (τ × LoadState))
  | _, [] => .ok []
  | names, (t, text) :: fs =>
    match ListFile.load false true names text with
    | (st, .ok ()) => (loadTyped st.names fs).bind fun r => .ok ((t, st) :: r)
    | (_, .throw e) => .throw e
    | (_, .ub) => .ub

/-- TextKanjiData.cpp:25-35 in a program that has not loaded list files before (so the sets of names are empty);
the frequency file has one entry per line (ListFile.h, default `FileType`). -/
def loadListFiles (levels : List (JlptLevel × Str)) (kyus : List (KenteiKyu × Str)) (frequency : Str) : Res ListFiles :=
  (loadTyped [] levels).bind fun levels =>
  (loadTyped [] kyus).bind fun kyus =>
  match ListFile.load true false [] frequency with
  | (st, .ok ()) => .ok ⟨levels, kyus, st⟩
  | (_, .throw e) => .throw e
  | (_, .ub) => .ub

/-! ## Loading -/

/-- What is loaded before the kanji: the list files, the entries of the Unicode file in the order of their names and what
the radical file gives. -/
structure Loaded where
  lists : ListFiles
  ucds : List Ucd
  findUcd : Str → Option Ucd
  ucdRadical : Ucd → Res (Str × Nat)
  radicalByName : Str → Res (Str × Nat)
  pinyin : Ucd → Option Str
  ids : IdCtx
  reading : Ucd → Str := fun _ => []
  meaning : Ucd → Str := fun _ => []
  frequencyReading : Str → Option Str := fun _ => none

/-- What the constructors see. -/
def Loaded.ctx (l : Loaded) : KanjiCtx :=
  ⟨l.findUcd, l.lists.frequencyOf, l.lists.level, l.lists.kyu, l.ucdRadical, l.radicalByName, l.pinyin,
    l.reading, l.meaning, l.frequencyReading⟩

/-- A kanji with the ids of the entry found for its name (the constructors of OfficialKanji.cpp use `CtorParams{data,
name}`, Kanji.cpp:142-143). -/
def Loaded.record (l : Loaded) (k : Kanji) : KanjiRec := l.ids.record (l.findUcd k.name) k

/-- `checkInsert(kanji)` (KanjiData.h:182): the entry of the name is used for the checks. -/
def Loaded.insert (l : Loaded) (d : KanjiStore) (k : KanjiRec) : KanjiStore :=
  (d.checkInsert k (l.findUcd k.kanji.name)).1

/-- `getTypes()[t] = std::move(results)`. -/
def KanjiStore.setType (d : KanjiStore) (t : KanjiType) (ks : List KanjiRec) : KanjiStore :=
  { d with types := fun x => if x = t then ks else d.types x }

/-- `loadFrequencyReadings` (TextKanjiData.cpp:71-76) on the rows of the file. -/
def loadFrequencyReadings : List (Str × Str) → List (Str × Str) → Res (List (Str × Str))
  | [], m => .ok m
  | (name, reading) :: rows, m =>
    match mapEmplace m name reading with
    | (m, true) => loadFrequencyReadings rows m
    | (_, false) => .throw .domain

/-- `loadJouyouKanji` (TextKanjiData.cpp:78-87).  The assertion (line 83) holds, `makeJouyou` is given a grade. -/
def loadJouyou (l : Loaded) (rows : List CellRow) (d : KanjiStore) : Res KanjiStore :=
  (fromRows (jouyouFromRow l.ctx) rows).bind fun ks =>
  let results := ks.map fun k => l.record k.1
  .ok ((results.foldl l.insert d).setType .jouyou results)

/-- `checkInsert(list, std::make_shared<LinkedJinmeiKanji>(*this, name, link))`, likewise for `LinkedOldKanji`. -/
def insertLinked (l : Loaded) (isOld : Bool) (name : Str) (link : KanjiRec) (d : KanjiStore) : Res KanjiStore :=
  (Kanji.makeLinked l.ctx name link.kanji isOld).bind fun k =>
  .ok (d.checkInsertType (if isOld then .linkedOld else .linkedJinmei) (l.record k) (l.findUcd name)).1

/-- The first loop of `loadOfficialLinkedKanji` (TextKanjiData.cpp:94-105) over the lines of the file. -/
def loadLinkedLines (l : Loaded) : List Str → KanjiStore → Res KanjiStore
  | [], d => .ok d
  | line :: lines, d =>
    match fields 0x09 line with
    | jouyou :: linked :: _ =>
      match d.nameMap.lookup jouyou with
      | none => .throw .domain
      | some k => (insertLinked l false linked k d).bind (loadLinkedLines l lines)
    | _ => .throw .domain

/-- Insert into a list sorted by name. -/
def insertByName (k : KanjiRec) : List KanjiRec → List KanjiRec
  | [] => [k]
  | x :: xs => if strLt k.kanji.name x.kanji.name then k :: x :: xs else x :: insertByName k xs

/-- The values of a `std::map` in the order of iteration. -/
def mapOrder (m : List (Str × KanjiRec)) : List KanjiRec := m.foldl (fun r p => insertByName p.2 r) []

/-- The inner loop (TextKanjiData.cpp:109-111). -/
def loadOldNames (l : Loaded) (link : KanjiRec) : List Str → KanjiStore → Res KanjiStore
  | [], d => .ok d
  | j :: js, d =>
    match d.findByName j with
    | some _ => loadOldNames l link js d
    | none => (insertLinked l true j link d).bind (loadOldNames l link js)

/-- The second loop (TextKanjiData.cpp:108-111) over the given kanji. -/
def loadAllOldNames (l : Loaded) : List KanjiRec → KanjiStore → Res KanjiStore
  | [], d => .ok d
  | k :: ks, d => (loadOldNames l k k.kanji.oldNames d).bind (loadAllOldNames l ks)

/-- `loadOfficialLinkedKanji` (TextKanjiData.cpp:89-112).  The second loop is over the map while kanji are inserted into
it; it may or may not visit those, which makes no difference because a linked kanji has no old names (the function
`oldNames` of `Kanji`, Kanji.h), so the loop is over the values of the map before it. -/
def loadOfficialLinked (l : Loaded) (lines : List Str) (d : KanjiStore) : Res KanjiStore :=
  (loadLinkedLines l lines d).bind fun d => loadAllOldNames l (mapOrder d.nameMap) d

/-- The inner loop of `loadJinmeiKanji` (TextKanjiData.cpp:120-122). -/
def loadJinmeiOld (l : Loaded) (link : KanjiRec) : List Str → KanjiStore → Res KanjiStore
  | [], d => .ok d
  | j :: js, d => (insertLinked l false j link d).bind (loadJinmeiOld l link js)

/-- The outer loop (TextKanjiData.cpp:118-123). -/
def loadJinmeiLoop (l : Loaded) : List KanjiRec → KanjiStore → Res KanjiStore
  | [], d => .ok d
  | k :: ks, d => (loadJinmeiOld l k k.kanji.oldNames (l.insert d k)).bind (loadJinmeiLoop l ks)

/-- `loadJinmeiKanji` (TextKanjiData.cpp:114-125). -/
def loadJinmei (l : Loaded) (rows : List CellRow) (d : KanjiStore) : Res KanjiStore :=
  (fromRows (jinmeiFromRow l.ctx) rows).bind fun ks =>
  let results := ks.map fun k => l.record k.1
  (loadJinmeiLoop l results d).bind fun d => .ok (d.setType .jinmei results)

/-- `loadExtraKanji` (TextKanjiData.cpp:127-132). -/
def loadExtra (l : Loaded) (rows : List CellRow) (d : KanjiStore) : Res KanjiStore :=
  (fromRows (extraFromRow l.ctx) rows).bind fun ks =>
  let results := ks.map fun k => l.record k.1
  .ok ((results.foldl l.insert d).setType .extra results)

/-- `for (auto& i : files) processList(i)` (TextKanjiData.cpp:44 and 51). -/
def processLists (l : Loaded) : List (ListKind × List Str) → KanjiStore → Res KanjiStore
  | [], d => .ok d
  | (kind, names) :: fs, d => (KanjiStore.processList l.ctx l.ids kind 0 names d).bind (processLists l fs)

/-- The list files in the order in which they are processed (TextKanjiData.cpp:44-51). -/
def ListFiles.processOrder (l : ListFiles) : List (ListKind × List Str) :=
  l.levels.map (fun p => (.level p.1, p.2.list)) ++ [(.frequency, l.frequency.list)] ++
    l.kyus.map (fun p => (.kyu p.1, p.2.list))

/-- The files with the kanji: the rows of 'frequency-readings', 'jouyou', 'jinmei' and 'extra' and the lines of
'linked-jinmei'. -/
structure KanjiFiles where
  frequencyReadings : List (Str × Str) := []
  jouyou : List CellRow := []
  linkedJinmei : List Str := []
  jinmei : List CellRow := []
  extra : List CellRow := []
  deriving DecidableEq, Repr

/-- The constructor (TextKanjiData.cpp:39-53) after the files of `Loaded` were loaded. -/
def loadKanji (l : Loaded) (f : KanjiFiles) : Res KanjiStore :=
  (loadFrequencyReadings f.frequencyReadings []).bind fun _ =>
  (loadJouyou l f.jouyou {}).bind fun d =>
  (loadOfficialLinked l f.linkedJinmei d).bind fun d =>
  (loadJinmei l f.jinmei d).bind fun d =>
  (loadExtra l f.extra d).bind fun d =>
  (processLists l l.lists.processOrder d).bind fun d =>
  KanjiStore.processUcd l.ctx l.ids l.ucds d

end KT
