import Verif.Model.Kanji
import Verif.Model.KanjiData
import Verif.Model.Converter
import Verif.Model.UnicodeBlock
import Verif.Model.Utf8Char
/-!
# Model of libs/kanji/src/UcdData.cpp and of `Ucd::Entry` (libs/kanji/src/Ucd.cpp)

The rows of the file are given by the texts of their cells; how these are read from the file is modelled in
`Model/ColumnFile.lean`.  The symbols `Ucd::Block`, `Ucd::Version` and `Pinyin` are represented by their texts
(`Model/Symbol.lean` has the limit of 65535 different symbols, which is taken not to be reached here).
-/
namespace KT

/-- Ucd.cpp:25-31; the only other member function `code` is `getCode` of the name. -/
def ucdEntry (code : Nat) (name : Str) : Res Str :=
  if !isKanji name then .throw .domain
  else (Res.ofOption (getCode name)).bind fun c => if code ≠ c then .throw .domain else .ok name

/-- `AllUcdLinkTypes` (Ucd.h:151-155). -/
def linkTypeNames : List (Str × LinkType) :=
  [(u8!"Compatibility*", .compatibilityR), (u8!"Definition*", .definitionR), (u8!"Jinmei*", .jinmeiR),
   (u8!"Semantic*", .semanticR), (u8!"Simplified*", .simplifiedR), (u8!"Traditional*", .traditionalR),
   (u8!"Compatibility", .compatibility), (u8!"Definition", .definition), (u8!"Jinmei", .jinmei),
   (u8!"Simplified", .simplified), (u8!"Traditional", .traditional)]

/-- `AllUcdLinkTypes.fromStringAllowEmpty` (EnumList.h, see `Model/Enum.lean`). -/
def linkTypeFromString (s : Str) : Res LinkType :=
  if s.isEmpty then .ok .none
  else match linkTypeNames.lookup s with
    | some t => .ok t
    | none => .throw .domain

/-- The cells of a row (UcdData.cpp:12-18); `Japanese` is not used. -/
structure UcdRow where
  code : Str
  name : Str
  block : Str := []
  version : Str := []
  radical : Str
  strokes : Str
  vStrokes : Str := []
  pinyin : Str := []
  morohashiId : Str := []
  nelsonIds : Str := []
  sources : Str := []
  jSource : Str := []
  joyo : Str := []
  jinmei : Str := []
  linkCodes : Str := []
  linkNames : Str := []
  linkType : Str := []
  meaning : Str := []
  on : Str := []
  kun : Str := []
  deriving DecidableEq, Repr

/-- The members of a `Ucd` (Ucd.h:128-137). -/
structure UcdRec extends Ucd where
  block : Str
  version : Str
  pinyin : Str
  radical : Nat
  morohashiId : MorohashiId
  nelsonIds : Str
  jSource : Str
  meaning : Str
  on : Str
  kun : Str
  deriving DecidableEq, Repr

/-- The loop of `loadLinks` (UcdData.cpp:182-186). -/
def linksLoop : List Str → List Str → Res (List Str)
  | [], _ => .ok []
  | _ :: _, [] => .throw .domain
  | n :: ns, c :: cs =>
    (getChar32 c).bind fun code => (ucdEntry code n).bind fun e => (linksLoop ns cs).bind fun r => .ok (e :: r)

/-- `loadLinks` (UcdData.cpp:178-200). -/
def loadLinks (row : UcdRow) (joyo : Bool) : Res (List Str) :=
  if !row.linkNames.isEmpty then
    (linksLoop (fields 0x2c row.linkNames) (fields 0x2c row.linkCodes)).bind fun links =>
      if joyo then .throw .domain
      else if row.linkType.isEmpty then .throw .domain
      else .ok links
  else if !row.linkType.isEmpty then .throw .domain
  else if !row.linkCodes.isEmpty then .throw .domain
  else .ok []

/-- The members of `UcdData` (UcdData.h:45-58).  The maps are lists in the order of insertion. -/
structure UcdData where
  map : List (Str × UcdRec) := []
  linkedJinmei : List (Str × Str) := []
  linkedOther : List (Str × List Str) := []
  deriving DecidableEq, Repr

/-- `processLinks` (UcdData.cpp:202-210). -/
def UcdData.processLinks (name : Str) (jinmei : Bool) : List Str → UcdData → Res UcdData
  | [], d => .ok d
  | link :: links, d =>
    if !jinmei then UcdData.processLinks name jinmei links { d with linkedOther := mapPush d.linkedOther link name }
    else match mapEmplace d.linkedJinmei link name with
      | (m, true) => UcdData.processLinks name jinmei links { d with linkedJinmei := m }
      | (_, false) => .throw .domain

/-- The strokes (UcdData.cpp:114-116). -/
def ucdStrokes (row : UcdRow) : Res Strokes :=
  if row.vStrokes.isEmpty then (processU64 row.strokes 255).bind fun v => Strokes.make (UInt8.ofNat v)
  else (processU64 row.strokes 255).bind fun v => (processU64 row.vStrokes 255).bind fun w =>
    Strokes.make2 (UInt8.ofNat v) (UInt8.ofNat w)

/-- The `Ucd` created at UcdData.cpp:114-127 (Ucd.cpp:48-57). -/
def makeUcd (row : UcdRow) (radical : Nat) (joyo jinmei : Bool) (links : List Str) : Res UcdRec :=
  (ucdStrokes row).bind fun strokes =>
    (getChar32 row.code).bind fun code =>
      (ucdEntry code row.name).bind fun name =>
        (linkTypeFromString row.linkType).bind fun linkType =>
          (Ucd.getSources row.sources joyo jinmei).bind fun sources =>
            (MorohashiId.parse row.morohashiId).bind fun morohashiId =>
              .ok { name, sources, linkType, links, strokes, block := row.block, version := row.version
                    pinyin := row.pinyin, radical, morohashiId, nelsonIds := row.nelsonIds, jSource := row.jSource
                    meaning := row.meaning, on := row.on, kun := row.kun }

/-- The `catch` at UcdData.cpp:130-132: every exception becomes a `DomainError`. -/
def domainErrors {α : Type} : Res α → Res α
  | .throw _ => .throw .domain
  | r => r

/-- Body of the loop of `load` (UcdData.cpp:94-133). -/
def UcdData.loadRow (d : UcdData) (row : UcdRow) : Res UcdData :=
  if row.on.isEmpty && row.kun.isEmpty && row.morohashiId.isEmpty && row.jSource.isEmpty then .throw .domain
  else if row.name.length > 4 then .throw .domain
  else (processU64 row.radical 0).bind fun radical =>
    if radical < 1 ∨ radical > 214 then .throw .domain
    else (processBool row.joyo).bind fun joyo => (processBool row.jinmei).bind fun jinmei =>
      if joyo && jinmei then .throw .domain
      else if joyo && row.meaning.isEmpty then .throw .domain
      else (loadLinks row joyo).bind fun links =>
        (d.processLinks row.name jinmei links).bind fun d =>
          (domainErrors (makeUcd row radical joyo jinmei links)).bind fun u =>
            match mapEmplace d.map row.name u with
            | (m, true) => .ok { d with map := m }
            | (_, false) => .throw .domain

/-- `load` (UcdData.cpp:87-134). -/
def UcdData.load : List UcdRow → UcdData → Res UcdData
  | [], d => .ok d
  | r :: rs, d => (d.loadRow r).bind fun d => UcdData.load rs d

/-- `find` (UcdData.cpp:59-71). -/
def UcdData.find (d : UcdData) (name : Str) : Res (Option UcdRec) :=
  (Res.ofOption (isCharWithVariationSelector name)).bind fun v =>
    if v then (Res.ofOption (noVariationSelector name)).bind fun nonVariant =>
      match d.linkedJinmei.lookup nonVariant with
      | some r => .ok (d.map.lookup r)
      | none => .ok none
    else .ok (d.map.lookup name)

/-- `std::replace(s.begin(), s.end(), ' ', ',')`. -/
def spacesToCommas (s : Str) : Str := s.map fun b => if b = 0x20 then 0x2c else b

/-- `getReadingsAsKana` (UcdData.cpp:73-88); `ltr` as in `Converter`. -/
def getReadingsAsKana (ltr : Bool) (u : Option UcdRec) : Res Str :=
  match u with
  | none => .ok []
  | some u =>
    (Converter.convertFrom ⟨.katakana, .none, ltr⟩ .romaji (spacesToCommas u.on)).bind fun result =>
      if u.kun.isEmpty then .ok result
      else
        let s := spacesToCommas u.kun
        let s := if result.isEmpty then s else 0x2c :: s
        (Converter.convertFrom ⟨.hiragana, .none, ltr⟩ .romaji s).bind fun k => .ok (result ++ k)

/-! ## Printed counts -/

/-- `PrintCount` (UcdData.cpp:23-54). -/
structure PrintCount where
  count : Nat := 0
  link : Nat := 0
  variantStrokes : Nat := 0
  meaning : Nat := 0
  onReading : Nat := 0
  kunReading : Nat := 0
  morohashi : Nat := 0
  nelson : Nat := 0
  deriving DecidableEq, Repr

/-- `add` (UcdData.cpp:29-38). -/
def PrintCount.add (p : PrintCount) (k : UcdRec) : PrintCount :=
  { count := p.count + 1
    link := if k.hasLinks then p.link + 1 else p.link
    variantStrokes := if k.strokes.variant ≠ 0 then p.variantStrokes + 1 else p.variantStrokes
    meaning := if !k.meaning.isEmpty then p.meaning + 1 else p.meaning
    onReading := if !k.on.isEmpty then p.onReading + 1 else p.onReading
    kunReading := if !k.kun.isEmpty then p.kunReading + 1 else p.kunReading
    morohashi := if k.morohashiId.id ≠ 0 then p.morohashi + 1 else p.morohashi
    nelson := if !k.nelsonIds.isEmpty then p.nelson + 1 else p.nelson }

/-- The loop of `print` (UcdData.cpp:145-151): counts for Jouyou, Jinmei and others. -/
def ucdCounts : List UcdRec → PrintCount × PrintCount × PrintCount → PrintCount × PrintCount × PrintCount
  | [], c => c
  | k :: ks, (joyo, jinmei, other) =>
    if k.isJoyo then ucdCounts ks (joyo.add k, jinmei, other)
    else if k.isJinmei then ucdCounts ks (joyo, jinmei.add k, other)
    else ucdCounts ks (joyo, jinmei, other.add k)

end KT
