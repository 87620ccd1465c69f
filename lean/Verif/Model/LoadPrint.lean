import Verif.Model.LoadReport
import Verif.Model.KanjiReport
import Verif.Model.LoadData
/-!
# Model of everything printed while `TextKanjiData` is constructed (TextKanjiData.cpp:21-53, KanjiData.cpp:148-172)

The functions of `Model/TextKanjiData.lean`, `Model/KanjiData.lean` and `Model/LoadData.lean` again, with what they print to
`_out` and the messages given to `printError`.  How output to the two streams is interleaved isn't part of the model.
-/
namespace KT

/-- What is printed: the text written to `_out`, and the messages of `printError`. -/
structure Prints where
  out : Str := []
  errors : List Str := []
  deriving DecidableEq, Repr

/-- First `a`, then `b`. -/
def Prints.add (a b : Prints) : Prints := ⟨a.out ++ b.out, a.errors ++ b.errors⟩

/-- Something that prints, and how it ends. -/
structure Printing (α : Type) where
  prints : Prints := {}
  result : Res α

/-- One thing after the other; nothing more is printed after an exception. -/
def Printing.bind {α β : Type} (r : Printing α) (f : α → Printing β) : Printing β :=
  match r.result with
  | .ok a => ⟨r.prints.add (f a).prints, (f a).result⟩
  | .throw e => ⟨r.prints, .throw e⟩
  | .ub => ⟨r.prints, .ub⟩

/-- Something that prints nothing. -/
def quietly {α : Type} (r : Res α) : Printing α := ⟨{}, r⟩

/-- Print a text. -/
def printing (s : Str) : Printing Unit := ⟨⟨s, []⟩, .ok ()⟩

/-! ## Inserting kanji -/

/-- `checkInsert` (KanjiData.cpp:226-244) for one kanji after the other (TextKanjiData.cpp:81-85, 130). -/
def insertRowsPrinting (l : Loaded) : List KanjiRec → KanjiStore → Printing KanjiStore
  | [], d => quietly (.ok d)
  | k :: ks, d =>
    Printing.bind ⟨⟨[], insertMessages d k (l.findUcd k.kanji.name)⟩, .ok (l.insert d k)⟩ (insertRowsPrinting l ks)

/-- `loadJouyouKanji` (TextKanjiData.cpp:78-87). -/
def loadJouyouPrinting (l : Loaded) (rows : List CellRow) (d : KanjiStore) : Printing KanjiStore :=
  (quietly (fromRows (jouyouFromRow l.ctx) rows)).bind fun ks =>
  let results := ks.map fun k => l.record k.1
  (insertRowsPrinting l results d).bind fun d => quietly (.ok (d.setType .jouyou results))

/-- `checkInsert(list, std::make_shared<…>(*this, name, link))` (KanjiData.cpp:246-250). -/
def insertLinkedPrinting (l : Loaded) (isOld : Bool) (name : Str) (link : KanjiRec) (d : KanjiStore) : Printing KanjiStore :=
  (quietly (Kanji.makeLinked l.ctx name link.kanji isOld)).bind fun k =>
  ⟨⟨[], insertMessages d (l.record k) (l.findUcd name)⟩,
    .ok (d.checkInsertType (if isOld then .linkedOld else .linkedJinmei) (l.record k) (l.findUcd name)).1⟩

/-- The first loop of `loadOfficialLinkedKanji` (TextKanjiData.cpp:94-105). -/
def loadLinkedLinesPrinting (l : Loaded) : List Str → KanjiStore → Printing KanjiStore
  | [], d => quietly (.ok d)
  | line :: lines, d =>
    match fields 0x09 line with
    | jouyou :: linked :: _ =>
      match d.nameMap.lookup jouyou with
      | none => quietly (.throw .domain)
      | some k => (insertLinkedPrinting l false linked k d).bind (loadLinkedLinesPrinting l lines)
    | _ => quietly (.throw .domain)

/-- The inner loop (TextKanjiData.cpp:109-111). -/
def loadOldNamesPrinting (l : Loaded) (link : KanjiRec) : List Str → KanjiStore → Printing KanjiStore
  | [], d => quietly (.ok d)
  | j :: js, d =>
    match d.findByName j with
    | some _ => loadOldNamesPrinting l link js d
    | none => (insertLinkedPrinting l true j link d).bind (loadOldNamesPrinting l link js)

/-- The second loop (TextKanjiData.cpp:108-111). -/
def loadAllOldNamesPrinting (l : Loaded) : List KanjiRec → KanjiStore → Printing KanjiStore
  | [], d => quietly (.ok d)
  | k :: ks, d => (loadOldNamesPrinting l k k.kanji.oldNames d).bind (loadAllOldNamesPrinting l ks)

/-- `loadOfficialLinkedKanji` (TextKanjiData.cpp:89-112). -/
def loadOfficialLinkedPrinting (l : Loaded) (lines : List Str) (d : KanjiStore) : Printing KanjiStore :=
  (loadLinkedLinesPrinting l lines d).bind fun d => loadAllOldNamesPrinting l (mapOrder d.nameMap) d

/-- The inner loop of `loadJinmeiKanji` (TextKanjiData.cpp:120-122). -/
def loadJinmeiOldPrinting (l : Loaded) (link : KanjiRec) : List Str → KanjiStore → Printing KanjiStore
  | [], d => quietly (.ok d)
  | j :: js, d => (insertLinkedPrinting l false j link d).bind (loadJinmeiOldPrinting l link js)

/-- The outer loop (TextKanjiData.cpp:118-123). -/
def loadJinmeiLoopPrinting (l : Loaded) : List KanjiRec → KanjiStore → Printing KanjiStore
  | [], d => quietly (.ok d)
  | k :: ks, d =>
    (Printing.bind ⟨⟨[], insertMessages d k (l.findUcd k.kanji.name)⟩, .ok (l.insert d k)⟩
      (loadJinmeiOldPrinting l k k.kanji.oldNames)).bind (loadJinmeiLoopPrinting l ks)

/-- `loadJinmeiKanji` (TextKanjiData.cpp:114-125). -/
def loadJinmeiPrinting (l : Loaded) (rows : List CellRow) (d : KanjiStore) : Printing KanjiStore :=
  (quietly (fromRows (jinmeiFromRow l.ctx) rows)).bind fun ks =>
  let results := ks.map fun k => l.record k.1
  (loadJinmeiLoopPrinting l results d).bind fun d => quietly (.ok (d.setType .jinmei results))

/-- `loadExtraKanji` (TextKanjiData.cpp:127-132). -/
def loadExtraPrinting (l : Loaded) (rows : List CellRow) (d : KanjiStore) : Printing KanjiStore :=
  (quietly (fromRows (extraFromRow l.ctx) rows)).bind fun ks =>
  let results := ks.map fun k => l.record k.1
  (insertRowsPrinting l results d).bind fun d => quietly (.ok (d.setType .extra results))

/-! ## Lists -/

/-- The loop of `processList` (TextKanjiData.cpp:140-171) from entry `i`, with `created` and `found`. -/
def processListPrinting (c : KanjiCtx) (ic : IdCtx) (kind : ListKind) (debug : Bool) :
    Nat → List Str → KanjiStore → ListLog → Printing (KanjiStore × ListLog)
  | _, [], d, log => quietly (.ok (d, log))
  | i, name :: names, d, log =>
    match d.findByName name with
    | some k =>
      (quietly (d.addToList kind k)).bind fun d =>
        processListPrinting c ic kind debug (i + 1) names d (log.addFound debug kind k.kanji.type name)
    | none =>
      (quietly (newListKanji c ic kind i name)).bind fun k =>
        (Printing.bind ⟨⟨[], insertMessages d k (c.findUcd k.kanji.name)⟩,
            (d.checkInsertType kind.newType k (c.findUcd k.kanji.name)).1.addToList kind k⟩ fun d =>
          processListPrinting c ic kind debug (i + 1) names d (log.addCreated debug kind name))

/-- `list.name()` (ListFile.cpp:46-48, ListFile.h:129-132): the name of the level or Kyu, or the name of the file
'frequency'. -/
def ListKind.listName : ListKind → Str
  | .frequency => firstUpper (u8!"frequency")
  | .level l => l.toString
  | .kyu k => k.toString

/-- `for (auto& i : files) processList(i)` (TextKanjiData.cpp:44-51). -/
def processListsPrinting (mode : DebugMode) (l : Loaded) : List (ListKind × List Str) → KanjiStore → Printing KanjiStore
  | [], d => quietly (.ok d)
  | (kind, names) :: fs, d =>
    (processListPrinting l.ctx l.ids kind (mode ≠ .none) 0 names d {}).bind fun r =>
    (printing (printListData (mode = .full) l.lists.level kind kind.listName r.2)).bind fun _ =>
    processListsPrinting mode l fs r.1

/-! ## The constructor -/

/-- The loop of `processUcd` (KanjiData.cpp:323-325). -/
def processUcdPrinting (c : KanjiCtx) (ic : IdCtx) : List Ucd → KanjiStore → Printing KanjiStore
  | [], d => quietly (.ok d)
  | u :: us, d =>
    match d.findByName u.name with
    | some _ => processUcdPrinting c ic us d
    | none =>
      (quietly (Kanji.makeUcd c u)).bind fun k =>
        Printing.bind ⟨⟨[], insertMessages d (ic.record (some u) k) (c.findUcd k.name)⟩,
          .ok (d.checkInsertType .ucd (ic.record (some u) k) (c.findUcd k.name)).1⟩ (processUcdPrinting c ic us)

/-- The constructor of `TextKanjiData` (TextKanjiData.cpp:39-51) after the files of `Loaded` were loaded, with the loop of
`processUcd`. -/
def loadKanjiPrinting (mode : DebugMode) (l : Loaded) (f : KanjiFiles) : Printing KanjiStore :=
  (quietly (loadFrequencyReadings f.frequencyReadings [])).bind fun _ =>
  (loadJouyouPrinting l f.jouyou {}).bind fun d =>
  (loadOfficialLinkedPrinting l f.linkedJinmei d).bind fun d =>
  (loadJinmeiPrinting l f.jinmei d).bind fun d =>
  (loadExtraPrinting l f.extra d).bind fun d =>
  (processListsPrinting mode l l.lists.processOrder d).bind fun d =>
  processUcdPrinting l.ctx l.ids l.ucds d

/-- The summaries of the radicals and of the Unicode data (KanjiData.cpp:167-168). -/
def printSummaries (sort : List KanjiRec → List KanjiRec) (rad : RadicalData) (u : UcdData) (d : KanjiStore) : Printing Unit :=
  (printing (rad.print sort d)).bind fun _ => ⟨⟨(u.print d).1, []⟩, (u.print d).2⟩

/-- The constructor of `TextKanjiData` (TextKanjiData.cpp:21-53, KanjiData.cpp:148-172). -/
def loadTextDataPrinting (mode : DebugMode) (sort : List KanjiRec → List KanjiRec) (ltr : Bool) (f : DataFiles) :
    Printing (KanjiStore × UcdData × Loaded) :=
  (printing (if mode = .full then u8!">>>\n>>> " ++ u8!"Begin Loading Data\n>>>\n" else [])).bind fun _ =>
  (quietly (loadListFiles (levelOrder.map fun l => (l, f.levels l)) (kyuOrder.map fun k => (k, f.kyus k))
    f.frequency)).bind fun lists =>
  (quietly (UcdData.load f.ucd {})).bind fun u =>
  (quietly (RadicalData.load f.radicalCols f.radicals)).bind fun rad =>
  (quietly (loadFrequencyReadings f.kanji.frequencyReadings [])).bind fun readings =>
  let l := loadedOf ltr lists u rad readings
  (loadKanjiPrinting mode l f.kanji).bind fun store =>
  (printing (if mode = .full then checkStrokes l.findUcd store else [])).bind fun _ =>
  (printing (printLoaded mode store)).bind fun _ =>
  (if mode = .full then printSummaries sort rad u store else quietly (.ok ())).bind fun _ =>
  quietly (.ok (store, u, l))

end KT
