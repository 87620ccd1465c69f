import Verif.Model.LoadPrint
import Verif.Model.GroupReport
import Verif.Model.Jukugo
/-!
# Model of everything printed while the data of the quiz program is loaded (Quiz.cpp:12-16)

The constructors of `TextKanjiData` (Model/LoadPrint.lean), `GroupData` (GroupData.cpp:21-78) and `JukugoData`
(JukugoData.cpp:17-47) one after the other, with what they print to `_out` and the messages given to `printError`.
-/
namespace KT

/-! ## Groups -/

/-- The messages for the members that aren't found (GroupData.cpp:64-67). -/
def notFoundMessages (find : Str → Option KanjiRec) (row : GroupRow) (names : List Str) : List Str :=
  (names.filter fun n => (find n).isNone).map fun n =>
    u8!"failed to find member " ++ n ++ u8!" in group: '" ++ row.name ++ u8!"', number: " ++ row.number

/-- Body of the loop of `loadGroup` up to the creation of the group (GroupData.cpp:50-71). -/
def readGroupPrinting (find : Str → Option KanjiRec) (t : GroupType) (row : GroupRow) : Printing Group :=
  if row.name.isEmpty then quietly (.throw .domain)
  else if isAnySingleByte row.name then quietly (.throw .domain)
  else if endsWith row.members (u8!",") then quietly (.throw .domain)
  else (quietly (getKanjiNames t row.name row.members)).bind fun names =>
    Printing.bind ⟨⟨[], notFoundMessages find row names⟩, .ok ()⟩ fun _ =>
      let members := findMembers find names
      if members.length < names.length then quietly (.throw .domain)
      else quietly ((processU64 row.number 65535).bind fun number =>
        (createGroup (members.map (·.kanji.name))).bind fun _ =>
          .ok ⟨number, row.name, members, getPatternType t row.name⟩)

/-- `loadGroup` (GroupData.cpp:43-78) for meaning groups. -/
def loadMeaningPrinting (find : Str → Option KanjiRec) : List GroupRow → MeaningGroups → Printing MeaningGroups
  | [], d => quietly (.ok d)
  | r :: rs, d => (readGroupPrinting find .meaning r).bind fun g => loadMeaningPrinting find rs (d.add g)

/-- The messages of `add` (GroupData.cpp:37-41) for the members of a group, one after the other. -/
def alreadyMessages (g : Group) : List KanjiRec → PatternGroups → List Str
  | [], _ => []
  | k :: ks, d =>
    (match d.map.lookup k.kanji.name with
      | some old => [alreadyIn k.kanji.name g old]
      | none => []) ++ alreadyMessages g ks (d.addMember g k)

/-- `loadGroup` (GroupData.cpp:43-78) for pattern groups. -/
def loadPatternPrinting (find : Str → Option KanjiRec) : List GroupRow → PatternGroups → Printing PatternGroups
  | [], d => quietly (.ok d)
  | r :: rs, d => (readGroupPrinting find .pattern r).bind fun g =>
    Printing.bind ⟨⟨[], alreadyMessages g g.members d⟩, .ok (d.add g)⟩ (loadPatternPrinting find rs)

/-- The alignment and fill character after the constructor of `TextKanjiData` (for a stream as it is at the beginning):
`printCounts` sets them (RadicalData.cpp:18), then every missing radical that is printed (Radical.cpp:21) and every
variant kanji (UcdData.cpp:224). -/
def formatAfterKanji (mode : DebugMode) (rad : RadicalData) (d : KanjiStore) : OutFormat :=
  if mode = .full then
    if (mapOrder d.nameMap).any (·.kanji.variant) then ⟨true, 0x20⟩
    else if (missingRadicals rad.radicals (radicalLists (mapOrder d.nameMap))).isEmpty then ⟨false, 0x20⟩
    else ⟨false, 0x30⟩
  else {}

/-- The names of the kanji of a type (`_data->types()`, GroupData.cpp:203-204). -/
def KanjiStore.typeNames (d : KanjiStore) (t : KanjiType) : List Str := (d.types t).map (·.kanji.name)

/-! ## Jukugo -/

/-- Insert into a list of names in the order of the bytes. -/
def insertInOrder (n : Str) : List Str → List Str
  | [] => [n]
  | m :: ms => if strLt n m then n :: m :: ms else m :: insertInOrder n ms

/-- The keys of a `std::map` in the order of iteration. -/
def nameOrder (names : List Str) : List Str := names.foldl (fun r n => insertInOrder n r) []

/-- `getType(name)` (KanjiData.cpp:96-99): `none` is `KanjiTypes::None`. -/
def KanjiStore.typeOfName (d : KanjiStore) (name : Str) : Option KanjiType := (d.findByName name).map (·.kanji.type)

/-- The loop of JukugoData.cpp:42-43 from example `j`; `JukugoMaxExamples` is 12. -/
def jukugoExamples : Nat → List Str → Str
  | _, [] => []
  | j, n :: ns => if j < 12 then (if j = 0 then u8!"(" else u8!" ") ++ n ++ jukugoExamples (j + 1) ns else []

/-- The body of the loop of JukugoData.cpp:39-45; `JukugoSetW` is 14. -/
def jukugoTypeLine (f : OutFormat) (t : Option KanjiType) (names : List Str) : Str :=
  ({ f with left := false } : OutFormat).setw 14 (anyTypeText t) ++ u8!": " ++ toDec names.length ++ u8!" " ++
    jukugoExamples 0 names ++ u8!")\n"

/-- The loop of JukugoData.cpp:39-45 over the types for which there are names. -/
def jukugoTypeLines (f : OutFormat) (typeOf : Str → Option KanjiType) (names : List Str) : List (Option KanjiType) → Str
  | [] => []
  | t :: ts =>
    let l := names.filter fun n => typeOf n = t
    if l.isEmpty then jukugoTypeLines f typeOf names ts
    else jukugoTypeLine f t l ++ jukugoTypeLines { f with left := false } typeOf names ts

/-- JukugoData.cpp:32-46. -/
def jukugoSummary (f : OutFormat) (typeOf : Str → Option KanjiType) (st : JukugoStore) : Str :=
  u8!">>> " ++ u8!"Total Kanji with Jukugo: " ++ toDec st.kanjiTo.length ++ u8!", unique jukugo: " ++
    toDec st.unique.length ++ u8!"\n" ++ jukugoTypeLines f typeOf (nameOrder (st.kanjiTo.map (·.1))) allKanjiTypes

/-- The lambda `f` (JukugoData.cpp:19-23) for the files in order (JukugoData.cpp:25-31). -/
def loadJukugoPrintingFiles (debug : Bool) : List (Str × KanjiGrade) → JukugoStore → Printing JukugoStore
  | [], st => quietly (.ok st)
  | (text, g) :: fs, st =>
    (quietly (st.loadFile text g)).bind fun st' =>
    (printing (if debug then u8!">>> " ++ u8!"Loaded " ++ toDec (st'.unique.length - st.unique.length) ++
      u8!" for Grade: " ++ g.toString ++ u8!"\n" else [])).bind fun _ =>
    loadJukugoPrintingFiles debug fs st'

/-- The constructor of `JukugoData` (JukugoData.cpp:17-47). -/
def loadJukugoPrinting (debug : Bool) (f : OutFormat) (typeOf : Str → Option KanjiType) (texts : List Str) :
    Printing JukugoStore :=
  (printing (if debug then u8!">>>\n>>> " ++ u8!"Begin Loading Jukugo\n>>>\n" else [])).bind fun _ =>
  (loadJukugoPrintingFiles debug (texts.zip jukugoGrades) {}).bind fun st =>
  (printing (if debug then jukugoSummary f typeOf st else [])).bind fun _ => quietly (.ok st)

/-! ## All data -/

/-- What is printed by the constructor of `GroupData` after loading the files (GroupData.cpp:27-30). -/
def printGroupData (mode : DebugMode) (f : OutFormat) (m : MeaningGroups) (p : PatternGroups) (d : KanjiStore) :
    Str × OutFormat :=
  if mode = .none then ([], f) else printAllGroups (mode = .full) f m p d.typeNames

/-- The data of `Quiz::run` (Quiz.cpp:12-16). -/
def loadDataPrinting (mode : DebugMode) (sort : List KanjiRec → List KanjiRec) (ltr : Bool) (f : DataFiles) :
    Printing DetailStore :=
  (loadTextDataPrinting mode sort ltr f).bind fun t =>
  (loadMeaningPrinting t.1.findByName f.meanings {}).bind fun meanings =>
  (loadPatternPrinting t.1.findByName f.patterns {}).bind fun patterns =>
  (quietly (RadicalData.load f.radicalCols f.radicals)).bind fun rad =>
  let groups := printGroupData mode (formatAfterKanji mode rad t.1) meanings patterns t.1
  (printing groups.1).bind fun _ =>
  (loadJukugoPrinting (mode ≠ .none) groups.2 t.1.typeOfName f.jukugo).bind fun jukugo =>
  quietly (.ok {
    store := t.1, ucd := t.2.1, extra := fun k => k.kanji.extra
    detail := {
      patterns, meanings, jukugo, reading := fun k => k.kanji.reading
      meaning := fun k => if k.kanji.meaning.isEmpty then none else some k.kanji.meaning } })

end KT
