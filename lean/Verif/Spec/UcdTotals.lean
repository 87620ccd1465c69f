import Verif.Spec.UcdEntry
/-!
# Specification of the summary of scripts/parseUcdAllFlat.sh

Counts of the rows of data/ucd.txt.
-/
namespace Spec
open KT

/-- The number of different values that are not empty. -/
def differentValues (l : List Str) : Nat := (l.filter fun s => s != []).eraseDups.length

/-- The texts between the commas of a cell. -/
def cellNumbers : Str → List Str
  | [] => [[]]
  | b :: s =>
    if b = 0x2c then [] :: cellNumbers s
    else match cellNumbers s with
      | [] => [[b]]
      | p :: ps => (b :: p) :: ps

/-- Rows with this type of link, with or without readings taken from it. -/
def linkRows (rows : List UcdRow) (type : Str) : Nat :=
  rows.countP fun r => r.linkType == type || r.linkType == type ++ u8!"*"

def hasReadings (r : UcdRow) : Bool := r.on != [] || r.kun != []

/-- The readings are those of another kanji. -/
def borrows (r : UcdRow) : Bool := r.linkType.getLast? == some 0x2a

/-- A count with the number that is expected. -/
def expectedLine (name : Str) (n expected : Nat) : Str :=
  name ++ u8!": " ++
    (if n = expected then toDec n ++ u8!"/" ++ toDec expected
     else toDec n ++ u8!" *** expected " ++ toDec expected ++ u8!" ***") ++ u8!"\n"

/-- The counts shown. -/
structure UcdCounts where
  jSources : Nat
  morohashis : Nat
  nelsons : Nat
  joyo : Nat
  jinmei : Nat
  links : Str → Nat
  meaning : Nat
  pinyin : Nat
  reading : Nat
  direct : Nat
  linked : Nat
  manual : Nat

/-- The counts of the rows; `es` are the entries with readings. -/
def countsOf (es : List UcdEntry) (rows : List UcdRow) : UcdCounts where
  jSources := differentValues (rows.map (·.jSource))
  morohashis := differentValues (rows.map (·.morohashiId))
  nelsons := differentValues (rows.flatMap fun r => cellNumbers r.nelsonIds)
  joyo := rows.countP fun r => r.joyo == u8!"Y"
  jinmei := rows.countP fun r => r.jinmei == u8!"Y" && r.joyo == [] && r.linkCodes == []
  links := linkRows rows
  meaning := rows.countP fun r => r.meaning != []
  pinyin := rows.countP fun r => r.pinyin != []
  reading := rows.countP hasReadings
  direct := rows.countP fun r => hasReadings r && (readingOf es r.code).isSome
  linked := rows.countP fun r => hasReadings r && borrows r
  manual := rows.countP fun r => hasReadings r && !(readingOf es r.code).isSome && !borrows r

/-- The summary. -/
def UcdCounts.text (c : UcdCounts) : Str :=
  ([(u8!"Unique JSource", c.jSources, 16222), (u8!"Unique Morohashi", c.morohashis, 49019),
    (u8!"Unique Nelson ID", c.nelsons, 5442), (u8!"Total Jouyou", c.joyo, 2136), (u8!"Total Jinmei", c.jinmei, 633),
    (u8!"Jinmei Links", c.links (u8!"Jinmei"), 230)].flatMap fun (p : Str × Nat × Nat) => expectedLine p.1 p.2.1 p.2.2) ++
  u8!"Other Links:\n  " ++
  (u8!", ").intercalate
    ([u8!"Traditional", u8!"Simplified", u8!"Compatibility", u8!"Definition", u8!"Semantic"].map fun t =>
      t ++ u8!" " ++ toDec (c.links t)) ++
  u8!"\nOther Fields:\n  Meaning " ++ toDec c.meaning ++ u8!", Pinyin " ++ toDec c.pinyin ++ u8!", Reading " ++
  toDec c.reading ++ u8!" (Direct " ++ toDec c.direct ++ u8!" Linked " ++ toDec c.linked ++ u8!" Manual " ++
  toDec c.manual ++ u8!")\n"

end Spec
