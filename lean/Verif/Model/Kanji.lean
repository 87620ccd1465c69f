import Verif.Model.Str
import Verif.Model.MorohashiId
import Verif.Model.ColumnFile
import Verif.Model.Utf8Char
/-!
# Model of libs/kanji/src/Kanji.cpp, libs/kanji/src/OfficialKanji.cpp and libs/kanji/src/Ucd.cpp

A kanji object is immutable: all members are `const` and the virtual functions only return members.  It is
represented by the values of its virtual functions (`Kanji`), one constructor function per class.
-/
namespace KT

/-- `std::string::operator<`: lexicographic, bytes compared as `unsigned char`. -/
def strLt : Str → Str → Bool
  | _, [] => false
  | [], _ :: _ => true
  | a :: s, b :: t => a < b || (a == b && strLt s t)

/-- KanjiEnums.h:10-20. -/
inductive KanjiType where
  | jouyou | jinmei | linkedJinmei | linkedOld | frequency | extra | kentei | ucd
  deriving DecidableEq, Repr

/-- KanjiEnums.h:28-37; `None` is represented by `Option`. -/
inductive KanjiGrade where
  | g1 | g2 | g3 | g4 | g5 | g6 | s
  deriving DecidableEq, Repr

/-- KanjiEnums.h:46-53. -/
inductive JlptLevel where
  | n5 | n4 | n3 | n2 | n1
  deriving DecidableEq, Repr

/-- KanjiEnums.h:62-76. -/
inductive KenteiKyu where
  | k10 | k9 | k8 | k7 | k6 | k5 | k4 | k3 | kj2 | k2 | kj1 | k1
  deriving DecidableEq, Repr

/-- `toString(KanjiGrades)` from the names given at KanjiEnums.h:42. -/
def KanjiGrade.toString : KanjiGrade → Str
  | .g1 => u8!"G1" | .g2 => u8!"G2" | .g3 => u8!"G3" | .g4 => u8!"G4" | .g5 => u8!"G5" | .g6 => u8!"G6"
  | .s => u8!"S"

/-- KanjiEnums.h:58. -/
def JlptLevel.toString : JlptLevel → Str
  | .n5 => u8!"N5" | .n4 => u8!"N4" | .n3 => u8!"N3" | .n2 => u8!"N2" | .n1 => u8!"N1"

/-- KanjiEnums.h:81. -/
def KenteiKyu.toString : KenteiKyu → Str
  | .k10 => u8!"K10" | .k9 => u8!"K9" | .k8 => u8!"K8" | .k7 => u8!"K7" | .k6 => u8!"K6" | .k5 => u8!"K5"
  | .k4 => u8!"K4" | .k3 => u8!"K3" | .kj2 => u8!"KJ2" | .k2 => u8!"K2" | .kj1 => u8!"KJ1" | .k1 => u8!"K1"

/-! ## Ucd -/

/-- `Ucd::LinkTypes` (Ucd.h), in the order of declaration; `None` included. -/
inductive LinkType where
  | compatibilityR | definitionR | jinmeiR | semanticR | simplifiedR | traditionalR
  | compatibility | definition | jinmei | simplified | traditional | none
  deriving DecidableEq, Repr

/-- The value of the enumerator. -/
def LinkType.toNat : LinkType → Nat
  | .compatibilityR => 0 | .definitionR => 1 | .jinmeiR => 2 | .semanticR => 3 | .simplifiedR => 4
  | .traditionalR => 5 | .compatibility => 6 | .definition => 7 | .jinmei => 8 | .simplified => 9
  | .traditional => 10 | .none => 11

/-- The members of a `Ucd` used by the functions below.  `links` has the names of the link entries. -/
structure Ucd where
  name : Str
  sources : UInt8
  linkType : LinkType
  links : List Str
  strokes : Strokes
  deriving DecidableEq, Repr

/-- `SourceLetterMap` (Ucd.cpp:8-21). -/
def sourceLetters : List (UInt8 × UInt8) :=
  [(0x47, 1), (0x48, 2), (0x4a, 4), (0x4b, 8), (0x54, 16), (0x56, 32)]

/-- Loop of `getSources` (Ucd.cpp:93-100). -/
def Ucd.sourcesLoop : Str → UInt8 → Res UInt8
  | [], result => .ok result
  | i :: is, result =>
    match sourceLetters.lookup i with
    | some bit => if result &&& bit ≠ 0 then .throw .domain else Ucd.sourcesLoop is (result ||| bit)
    | none => .throw .domain

/-- `getSources` (Ucd.cpp:88-104). -/
def Ucd.getSources (sources : Str) (joyo jinmei : Bool) : Res UInt8 :=
  if sources.length > sourceLetters.length then .throw .domain
  else (Ucd.sourcesLoop sources 0).bind fun result =>
    let result := if joyo then result ||| 64 else result
    .ok (if jinmei then result ||| 128 else result)

/-- `sources` (Ucd.cpp:63-68). -/
def Ucd.sourcesText (u : Ucd) : Str :=
  sourceLetters.filterMap fun i => if u.sources &&& i.2 ≠ 0 then some i.1 else none

/-- Ucd.cpp:70. -/
def Ucd.isJoyo (u : Ucd) : Bool := u.sources &&& 64 ≠ 0

/-- Ucd.cpp:72. -/
def Ucd.isJinmei (u : Ucd) : Bool := u.sources &&& 128 ≠ 0

/-- Ucd.cpp:59-61. -/
def Ucd.linkedReadings (u : Ucd) : Bool := u.linkType.toNat < LinkType.compatibility.toNat

/-- Ucd.cpp:74. -/
def Ucd.hasLinks (u : Ucd) : Bool := !u.links.isEmpty

/-- Ucd.cpp:76-79. -/
def Ucd.hasTraditionalLinks (u : Ucd) : Bool := u.linkType == .traditional || u.linkType == .traditionalR

/-- Ucd.cpp:81-84. -/
def Ucd.hasNonTraditionalLinks (u : Ucd) : Bool :=
  u.hasLinks && u.linkType != .traditional && u.linkType != .traditionalR

/-! ## Kanji -/

/-- The values returned by the (virtual) member functions of a kanji; `extra` is `extraTypeInfo`. -/
structure Kanji where
  type : KanjiType
  name : Str
  compatName : Option Str := none
  radicalName : Str
  radicalNumber : Nat
  strokes : Strokes
  pinyin : Option Str := none
  frequency : UInt16 := 0
  grade : Option KanjiGrade := none
  level : Option JlptLevel := none
  kyu : Option KenteiKyu := none
  linkedReadings : Bool := false
  oldNames : List Str := []
  newName : Option Str := none
  reading : Str := []
  meaning : Str := []
  extra : Option Str := none
  deriving DecidableEq, Repr

/-- Kanji.cpp:25-27. -/
def Kanji.compatibilityName (k : Kanji) : Str := k.compatName.getD k.name

/-- Kanji.cpp:29-36. -/
def Kanji.frequencyOrMax (k : Kanji) : UInt16 := if k.frequency ≠ 0 then k.frequency else 65535

/-- `qualifiedNameRank` (Kanji.cpp:123-138). -/
def Kanji.qualifiedNameRank (k : Kanji) : Nat :=
  if k.type = .jouyou then 0
  else if k.level.isSome then 1
  else if k.frequency ≠ 0 then 2
  else if k.type = .jinmei then 3
  else if k.type = .linkedJinmei then 4
  else if k.type = .linkedOld then 5
  else if k.type = .extra then 6
  else if k.type = .ucd then 9
  else if k.kyu ≠ some .k1 then 7
  else 8

/-- `QualifiedNames` (Kanji.h). -/
def qualifiedNames : List UInt8 := [0x2e, 0x27, 0x22, 0x5e, 0x7e, 0x25, 0x2b, 0x40, 0x23, 0x2a]

/-- `qualifiedName` (Kanji.cpp:84-86); an index outside of the array would be undefined behaviour. -/
def Kanji.qualifiedName (k : Kanji) : Res Str :=
  match qualifiedNames[k.qualifiedNameRank]? with
  | some c => .ok (k.name ++ [c])
  | none => .ub

/-- `orderByStrokes` (Kanji.cpp:93-100). -/
def Kanji.orderByStrokes (k x : Kanji) : Bool :=
  k.strokes.cmp x.strokes == .lt ||
    (k.strokes == x.strokes &&
      (k.frequencyOrMax < x.frequencyOrMax ||
        (k.frequencyOrMax == x.frequencyOrMax &&
          strLt (toUnicodeStr k.compatibilityName) (toUnicodeStr x.compatibilityName))))

/-- `orderByQualifiedName` (Kanji.cpp:88-91). -/
def Kanji.orderByQualifiedName (k x : Kanji) : Bool :=
  k.qualifiedNameRank < x.qualifiedNameRank ||
    (k.qualifiedNameRank == x.qualifiedNameRank && k.orderByStrokes x)

/-! ### `info` -/

/-- The bits of `Kanji::Info` (Kanji.h:35-46). -/
structure InfoFields where
  radical : Bool := true
  strokes : Bool := true
  pinyin : Bool := true
  grade : Bool := true
  level : Bool := true
  freq : Bool := true
  new : Bool := true
  old : Bool := true
  kyu : Bool := true
  deriving DecidableEq, Repr

/-- The lambda `add` (Kanji.cpp:51-54). -/
def infoAdd (result x : Str) : Str := (if result.isEmpty then result else result ++ u8!", ") ++ x

/-- The loop over the old names (Kanji.cpp:71-77). -/
def oldNamesLoop (linked : Bool) : List Str → Str → Str
  | [], s => s
  | i :: is, s =>
    oldNamesLoop linked is (if s.isEmpty then i ++ (if linked then u8!"*" else []) else s ++ u8!"／" ++ i)

/-- `if (hasValue(fields & field) && value is present) add(text of value)`. -/
def infoOpt (field : Bool) (result : Str) : Option Str → Str
  | some x => if field then infoAdd result x else result
  | none => result

/-- `info` (Kanji.cpp:46-82).  The assertion at line 66 is `.ub` here when it fails. -/
def Kanji.info (k : Kanji) (f : InfoFields) : Res Str :=
  let result := infoOpt f.radical []
    (some (u8!"Rad " ++ k.radicalName ++ u8!"(" ++ toDec k.radicalNumber ++ u8!")"))
  let result := infoOpt f.strokes result (some (u8!"Strokes " ++ k.strokes.toString false))
  let result := infoOpt f.pinyin result k.pinyin
  let result := infoOpt f.grade result (k.grade.map KanjiGrade.toString)
  let result := infoOpt f.level result (k.level.map JlptLevel.toString)
  let result := infoOpt f.freq result
    (if k.frequency ≠ 0 then some (u8!"Frq " ++ toDec k.frequency.toNat) else none)
  let finish (result : Str) : Res Str := .ok (infoOpt f.kyu result (k.kyu.map KenteiKyu.toString))
  match k.newName with
  | some n =>
    if k.oldNames.isEmpty then
      finish (infoOpt f.new result (some (u8!"New " ++ n ++ (if k.linkedReadings then u8!"*" else []))))
    else .ub
  | none =>
    finish (infoOpt f.old result
      (if k.oldNames.isEmpty then none else some (u8!"Old " ++ oldNamesLoop k.linkedReadings k.oldNames [])))

/-! ### Constructors -/

/-- What the constructors ask of `KanjiData`.  `findUcd` is `UcdData::find`; `radical` and `strokes` throw a
`DomainError` when there is no UCD entry (KanjiData.cpp:70-80).  `reading` is `getReadingsAsKana` (Kanji.cpp:170-172),
`frequencyReading` finds the reading of the file 'frequency-readings' (TextKanjiData.cpp:151). -/
structure KanjiCtx where
  findUcd : Str → Option Ucd
  frequency : Str → UInt16
  level : Str → Option JlptLevel
  kyu : Str → Option KenteiKyu
  ucdRadical : Ucd → Res (Str × Nat)
  radicalByName : Str → Res (Str × Nat)
  pinyin : Ucd → Option Str
  reading : Ucd → Str := fun _ => []
  meaning : Ucd → Str := fun _ => []
  frequencyReading : Str → Option Str := fun _ => none

/-- `linkNames` (Kanji.cpp:196-202). -/
def linkNames : Option Ucd → List Str
  | some u => if u.hasLinks then u.links else []
  | none => []

/-- `getCompatibilityName` (KanjiData.cpp:86-89). -/
def KanjiCtx.compatName (c : KanjiCtx) (name : Str) : Option Str :=
  match c.findUcd name with
  | some u => if u.name ≠ name then some u.name else none
  | none => none

/-- `CtorParams::hasTraditionalLinks` (Kanji.cpp:156-158). -/
def ctorTraditional : Option Ucd → Bool
  | some u => u.hasTraditionalLinks
  | none => false

/-- `CtorParams::hasNonTraditionalLinks` (Kanji.cpp:152-154). -/
def ctorNonTraditional : Option Ucd → Bool
  | some u => u.hasNonTraditionalLinks
  | none => false

/-- The assertion in the constructor of `KanjiName` (Kanji.cpp:182-184): the name is one character of several bytes,
possibly with a variation selector.  `KanjiName` is the first member of a `Kanji` (Kanji.cpp:112-118), so the assertion
comes after the arguments of the constructor of `Kanji` were computed. -/
def checkName (name : Str) : Res Unit := if utf8Size name = some 1 then .ok () else .ub

/-- The constructor of `Kanji` (Kanji.cpp:106-118). -/
def Kanji.construct (k : Kanji) : Res Kanji := (checkName k.name).bind fun _ => .ok k

/-- `OtherKanji::OtherKanji` with `oldNames` and `newName` (Kanji.cpp:214-230); the other fields come from the
derived classes. -/
def Kanji.makeOther (c : KanjiCtx) (type : KanjiType) (name : Str) (ucd : Option Ucd) (kyu : Option KenteiKyu)
    (frequency : UInt16) : Res Kanji :=
  match ucd with
  | none => .throw .domain
  | some u => (c.ucdRadical u).bind fun r =>
    let links := linkNames ucd
    let old := ctorTraditional ucd
    Kanji.construct {
      type, name, kyu, frequency
      compatName := c.compatName name
      radicalName := r.1
      radicalNumber := r.2
      strokes := u.strokes
      pinyin := c.pinyin u
      linkedReadings := u.linkedReadings
      reading := c.reading u
      meaning := c.meaning u
      oldNames := if old then links else []
      newName := if links.isEmpty || old then none else links.head? }

/-- `OtherKanji{params, reading}` (Kanji.cpp:225-230) instead of `OtherKanji{params}` (232-233): a reading of the file
'frequency-readings' is used instead of those of the Unicode file (TextKanjiData.cpp:151-156). -/
def KanjiCtx.withReading (c : KanjiCtx) (name : Str) : KanjiCtx :=
  { c with reading := fun u => (c.frequencyReading name).getD (c.reading u) }

/-- `FrequencyKanji` (Kanji.cpp:241-247), `KenteiKanji` (249-250) and `UcdKanji` (252-253). -/
def Kanji.makeFrequency (c : KanjiCtx) (name : Str) (frequency : UInt16) : Res Kanji :=
  Kanji.makeOther (c.withReading name) .frequency name (c.findUcd name) (c.kyu name) frequency
@[inherit_doc Kanji.makeFrequency]
def Kanji.makeKentei (c : KanjiCtx) (name : Str) (kyu : Option KenteiKyu) : Res Kanji :=
  Kanji.makeOther c .kentei name (c.findUcd name) kyu 0
@[inherit_doc Kanji.makeFrequency]
def Kanji.makeUcd (c : KanjiCtx) (u : Ucd) : Res Kanji := Kanji.makeOther c .ucd u.name (some u) none 0

/-- The columns used by the constructors of `OfficialKanji.cpp`; number, strokes and grade already parsed. -/
structure OfficialRow where
  name : Str
  radical : Str
  oldNames : Str := []
  strokes : UInt8 := 0
  grade : Option KanjiGrade := none
  reading : Str := []
  meaning : Str := []
  deriving DecidableEq, Repr

/-- `getOldNames` (OfficialKanji.cpp:46-51). -/
def getOldNames (text : Str) : List Str := fields 0x2c text

/-- `JouyouKanji` (OfficialKanji.cpp:66-69 with 40-44, 15-19).  The pinyin needs the entry `u` only when there is
one. -/
def Kanji.makeJouyou (c : KanjiCtx) (f : OfficialRow) : Res Kanji :=
  (Strokes.make f.strokes).bind fun strokes =>
  (c.radicalByName f.radical).bind fun r => Kanji.construct {
    type := .jouyou, name := f.name, compatName := c.compatName f.name, radicalName := r.1, radicalNumber := r.2
    strokes, pinyin := (c.findUcd f.name).bind c.pinyin, frequency := c.frequency f.name, grade := f.grade
    level := c.level f.name, kyu := c.kyu f.name, oldNames := getOldNames f.oldNames
    reading := f.reading, meaning := f.meaning }

/-- `JinmeiKanji` (OfficialKanji.cpp:55-57 with 35-38, 21-24). -/
def Kanji.makeJinmei (c : KanjiCtx) (f : OfficialRow) : Res Kanji :=
  (c.radicalByName f.radical).bind fun r =>
  match c.findUcd f.name with
  | none => .throw .domain
  | some u => Kanji.construct {
    type := .jinmei, name := f.name, compatName := c.compatName f.name, radicalName := r.1, radicalNumber := r.2
    strokes := u.strokes, pinyin := c.pinyin u, frequency := c.frequency f.name
    level := c.level f.name, kyu := c.kyu f.name, oldNames := getOldNames f.oldNames
    reading := f.reading, meaning := c.meaning u }

/-- `ExtraKanji` (OfficialKanji.cpp:77-86 with 15-19). -/
def Kanji.makeExtra (c : KanjiCtx) (f : OfficialRow) : Res Kanji :=
  (Strokes.make f.strokes).bind fun strokes =>
  (c.radicalByName f.radical).bind fun r =>
  let ucd := c.findUcd f.name
  Kanji.construct {
    type := .extra, name := f.name, compatName := c.compatName f.name, radicalName := r.1, radicalNumber := r.2
    strokes, pinyin := ucd.bind c.pinyin, kyu := c.kyu f.name
    oldNames := if ctorTraditional ucd then linkNames ucd else []
    newName := if ctorNonTraditional ucd then (ucd.map (·.links)).bind List.head? else none
    reading := f.reading, meaning := f.meaning }

/-- `OfficialLinkedKanji` (OfficialKanji.cpp:94-117); `isOld` distinguishes the two derived classes. -/
def Kanji.makeLinked (c : KanjiCtx) (name : Str) (link : Kanji) (isOld : Bool) : Res Kanji :=
  if link.type ≠ .jouyou ∧ (isOld ∨ link.type ≠ .jinmei) then .throw .domain
  else match c.findUcd name with
  | none => .throw .domain
  | some u => (c.ucdRadical u).bind fun r => Kanji.construct {
    type := if isOld then .linkedOld else .linkedJinmei
    name, compatName := c.compatName name, radicalName := r.1, radicalNumber := r.2, strokes := u.strokes
    pinyin := c.pinyin u, frequency := c.frequency name, kyu := c.kyu name
    linkedReadings := true, newName := some link.name, reading := link.reading, meaning := link.meaning }

end KT
