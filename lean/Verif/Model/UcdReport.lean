import Verif.Model.UcdData
import Verif.Model.TextKanjiData
import Verif.Model.DisplaySize
import Verif.Model.Decimal
/-!
# Model of `UcdData::print` (libs/kanji/src/UcdData.cpp:138-176, 212-236) and of the texts of entries (Ucd.cpp:33-46)

`getCode` has a value for every name (C07_getCode); `decodedCode` gives 0 where the model of `getCode` has none.
-/
namespace KT

/-- `code` (Ucd.cpp:33). -/
def decodedCode (name : Str) : Nat := (getCode name).getD 0

/-- `codeAndName` (Ucd.cpp:35-37, 88). -/
def codeAndName (name : Str) : Str := toUnicode (decodedCode name) .square ++ u8!" " ++ name

/-- The loop of `linkCodeAndNames` (Ucd.cpp:41-44). -/
def linkCodeAndNames : List Str → Str → Str
  | [], result => result
  | l :: ls, result =>
    linkCodeAndNames ls ((if result.isEmpty then result else result ++ u8!", ") ++
      (toUnicode (decodedCode l) .square ++ u8!" " ++ l))

/-- `os << linkType` (EnumList.h:233-235, 314-316). -/
def linkTypeOut (t : LinkType) : Str :=
  match linkTypeNames.find? fun p => p.2 == t with
  | some p => p.1
  | none => u8!"None"

/-- The lambda `print` (UcdData.cpp:140-144). -/
def ucdCountLine (s : Str) (x y z : Nat) : Str :=
  u8!">>> " ++ u8!"  " ++ s ++ u8!": " ++ toDec (x + y + z) ++ u8!" (Jouyou " ++ toDec x ++ u8!", Jinmei " ++ toDec y ++
    u8!", Other " ++ toDec z ++ u8!")\n"

/-- UcdData.cpp:139-160. -/
def ucdCountLines (us : List UcdRec) : Str :=
  let c := ucdCounts us ({}, {}, {})
  let line (s : Str) (f : PrintCount → Nat) : Str := ucdCountLine s (f c.1) (f c.2.1) (f c.2.2)
  u8!">>> " ++ u8!"Kanji Loaded from Unicode 'ucd' file:\n" ++ line (u8!"Total") (·.count) ++ line (u8!"Links") (·.link) ++
    line (u8!"VStrokes") (·.variantStrokes) ++ line (u8!"Meanings") (·.meaning) ++
    line (u8!"On Readings") (·.onReading) ++ line (u8!"Kun Readings") (·.kunReading) ++
    line (u8!"Morohashi Ids") (·.morohashi) ++ line (u8!"Nelson Ids") (·.nelson)

/-- Lines 170-176 for one kanji. -/
def linkLine (u : UcdData) (name : Str) : Str :=
  match u.map.lookup name with
  | some x =>
    if x.hasLinks then
      u8!"  " ++ codeAndName x.name ++ u8!" -> " ++ linkCodeAndNames x.links [] ++ u8!" " ++ linkTypeOut x.linkType ++ u8!"\n"
    else []
  | none => u8!"  ERROR: " ++ name ++ u8!" not found in UCD\n"

/-- The condition of `count_if` (UcdData.cpp:163-167) for the result of `_map.find`. -/
def entryHasLinks : Option UcdRec → Bool
  | some x => x.hasLinks
  | none => false

/-- The lambda `pLinks` (UcdData.cpp:161-178). -/
def linkLines (u : UcdData) (name : Str) (list : List KanjiRec) : Str :=
  let count := list.countP fun k => entryHasLinks (u.map.lookup k.kanji.name)
  u8!">>> " ++ name ++ u8!" Kanji with links " ++ toDec count ++ u8!":\n" ++
    (list.map fun k => linkLine u k.kanji.name).flatten

/-- What is printed about a kanji with variation selector before looking for its entry (UcdData.cpp:224-227);
`noVariationSelector` has a value for every text (C64_decides). -/
def variantStart (count : Nat) (name : Str) : Str :=
  u8!">>> " ++ u8!"    " ++ setwLeft 3 (toDec count) ++ u8!"    " ++ toUnicodeStr name .square ++ u8!" " ++ name ++
    u8!" variant of " ++ (noVariationSelector name).getD name ++ u8!"    "

/-- What is printed about the entry (UcdData.cpp:230-233). -/
def variantEntry (x : UcdRec) : Str :=
  codeAndName x.name ++ (if x.hasLinks then u8!" variant of " ++ linkCodeAndNames x.links [] else []) ++ u8!"\n"

/-- The loop of `printVariationSelectorKanji` (UcdData.cpp:222-236): what is printed and how it ends.  `usage` throws a
`DomainError` (KanjiData.cpp). -/
def variantRows (u : UcdData) : Nat → List KanjiRec → Str × Res Unit
  | _, [] => ([], .ok ())
  | count, k :: ks =>
    if k.kanji.variant then
      match u.find k.kanji.name with
      | .ok (some x) =>
        let rest := variantRows u (count + 1) ks
        (variantStart (count + 1) k.kanji.name ++ variantEntry x ++ rest.1, rest.2)
      | .ok none => (variantStart (count + 1) k.kanji.name, .throw .domain)
      | .throw e => (variantStart (count + 1) k.kanji.name, .throw e)
      | .ub => (variantStart (count + 1) k.kanji.name, .ub)
    else variantRows u count ks

/-- The three lines above the table (UcdData.cpp:215-221). -/
def variantHeader : Str :=
  u8!">>> " ++ u8!"  Standard Kanji with 'Variation Selectors' vs UCD Variants:\n" ++
  u8!">>> " ++ u8!"    #      Standard Kanji with Selector    UCD Compatibility Kanji\n" ++
  u8!">>> " ++ u8!"    -      ----------------------------    -----------------------\n"

/-- `print` (UcdData.cpp:138-182). -/
def UcdData.print (u : UcdData) (d : KanjiStore) : Str × Res Unit :=
  let rows := variantRows u 0 (mapOrder d.nameMap)
  (ucdCountLines (u.map.map (·.2)) ++ linkLines u (u8!"Frequency") (d.types .frequency) ++
    linkLines u (u8!"Extra") (d.types .extra) ++ variantHeader ++ rows.1, rows.2)

end KT
