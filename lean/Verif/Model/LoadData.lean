import Verif.Model.TextKanjiData
import Verif.Model.UcdData
import Verif.Model.Radical
import Verif.Model.GroupData
import Verif.Model.Jukugo
import Verif.Model.KanjiDetails
/-!
# Loading the data of the quiz program (Quiz.cpp:12-16, TextKanjiData.cpp:21-53, GroupData.cpp:21-30, JukugoData.cpp:17-47)

The parts are those of the other files: list files (`Model/ListFile.lean`), the Unicode file (`Model/UcdData.lean`), the
radicals (`Model/Radical.lean`), the kanji (`Model/TextKanjiData.lean`), groups (`Model/GroupData.lean`) and jukugo
(`Model/Jukugo.lean`).  Files are given by the texts of their cells or by their contents.  Not modelled: the search for
files and what is printed in debug mode (`Model/LoadReport.lean`).
-/
namespace KT

/-- Insert into a list in the order of the names. -/
def insertUcd (u : UcdRec) : List UcdRec → List UcdRec
  | [] => [u]
  | x :: xs => if strLt u.name x.name then u :: x :: xs else x :: insertUcd u xs

/-- The values of the map in the order of iteration (`std::map`, used by `processUcd`, KanjiData.cpp:319-327). -/
def UcdData.ordered (d : UcdData) : List UcdRec := d.map.foldl (fun r p => insertUcd p.2 r) []

/-- `findUcd` (KanjiData.cpp:66-68). -/
def UcdData.findEntry (d : UcdData) (name : Str) : Option UcdRec :=
  match d.find name with
  | .ok u => u
  | _ => none

/-- The entry that a pointer (`UcdPtr`) refers to: all pointers come from the map. -/
def UcdData.entry (d : UcdData) (u : Ucd) : Option UcdRec := d.map.lookup u.name

/-- `Kanji::radical` is shown by its name and number. -/
def radicalParts (r : Radical) : Str × Nat := (r.name, r.number)

/-- What the constructors of the kanji use of the files loaded before; `ltr` as in `Model/Converter.lean`. -/
def loadedOf (ltr : Bool) (lists : ListFiles) (u : UcdData) (rad : RadicalData) (readings : List (Str × Str)) : Loaded where
  lists := lists
  ucds := u.ordered.map (·.toUcd)
  findUcd := fun name => (u.findEntry name).map (·.toUcd)
  -- KanjiData.cpp:70-75
  ucdRadical := fun x =>
    match u.entry x with
    | some e => (rad.findNumber e.radical).bind fun r => .ok (radicalParts r)
    | none => .throw .domain
  -- KanjiData.cpp:82-84
  radicalByName := fun name => (rad.findName name).bind fun r => .ok (radicalParts r)
  -- KanjiData.cpp:44-47; a `Pinyin` without text is false (Symbol.h)
  pinyin := fun x => (u.entry x).bind fun e => if e.pinyin.isEmpty then none else some e.pinyin
  -- KanjiData.cpp:49-64
  ids := ⟨fun x => ((x.bind u.entry).map (·.morohashiId)).getD {}, fun x => ((x.bind u.entry).map fun e => getNelsonIds e.nelsonIds).getD []⟩
  -- Kanji.cpp:170-172
  reading := fun x =>
    match getReadingsAsKana ltr (u.entry x) with
    | .ok s => s
    | _ => []
  -- `getMeaning` (UcdData.cpp:56-58)
  meaning := fun x => ((u.entry x).map (·.meaning)).getD []
  frequencyReading := fun name => readings.lookup name

/-- The order of the list files (TextKanjiData.cpp:25-34). -/
def levelOrder : List JlptLevel := [.n5, .n4, .n3, .n2, .n1]
@[inherit_doc levelOrder]
def kyuOrder : List KenteiKyu := [.k10, .k9, .k8, .k7, .k6, .k5, .k4, .k3, .kj2, .k2, .kj1, .k1]

/-- All files. -/
structure DataFiles where
  levels : JlptLevel → Str
  kyus : KenteiKyu → Str
  frequency : Str
  ucd : List UcdRow
  radicalCols : RadicalCols
  radicals : ColumnFile
  kanji : KanjiFiles
  meanings : List GroupRow := []
  patterns : List GroupRow := []
  jukugo : List Str := []

/-- The constructor of `TextKanjiData` (TextKanjiData.cpp:21-53): the kanji, the Unicode data and the list files. -/
def loadTextData (ltr : Bool) (f : DataFiles) : Res (KanjiStore × UcdData × Loaded) :=
  (loadListFiles (levelOrder.map fun l => (l, f.levels l)) (kyuOrder.map fun k => (k, f.kyus k)) f.frequency).bind fun lists =>
  (UcdData.load f.ucd {}).bind fun u =>
  (RadicalData.load f.radicalCols f.radicals).bind fun rad =>
  (loadFrequencyReadings f.kanji.frequencyReadings []).bind fun readings =>
  (loadKanji (loadedOf ltr lists u rad readings) f.kanji).bind fun store =>
  .ok (store, u, loadedOf ltr lists u rad readings)

/-- The data of `Quiz::run` (Quiz.cpp:12-16).  The arguments of the constructor of `QuizLauncher` may be evaluated in any
order; that makes no difference for the data. -/
def loadData (ltr : Bool) (f : DataFiles) : Res DetailStore :=
  (loadTextData ltr f).bind fun t =>
  (loadMeaning t.1.findByName f.meanings {}).bind fun meanings =>
  (loadPattern t.1.findByName f.patterns {}).bind fun patterns =>
  (loadJukugo f.jukugo).bind fun jukugo =>
  .ok {
    store := t.1, ucd := t.2.1, extra := fun k => k.kanji.extra
    detail := {
      patterns, meanings, jukugo, reading := fun k => k.kanji.reading
      -- `hasMeaning` (Kanji.cpp:42)
      meaning := fun k => if k.kanji.meaning.isEmpty then none else some k.kanji.meaning } }

end KT
