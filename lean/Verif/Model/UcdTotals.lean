import Verif.Model.UcdScript
/-!
# Model of the totals of scripts/parseUcdAllFlat.sh (lines 447-607)

The counters of `processRecord` and the summary at the end.  They are shown only when the script does not end early.
-/
namespace KT

/-- The counters (lines 450-452), the keys of the arrays of unique values (line 469) and `count` of `printResults`. -/
structure ScriptTotals where
  joyo : Nat := 0
  jinmei : Nat := 0
  links : Str → Nat := fun _ => 0
  meaning : Nat := 0
  pinyin : Nat := 0
  reading : Nat := 0
  direct : Nat := 0
  linked : Nat := 0
  jSources : List Str := []
  morohashis : List Str := []
  nelsons : List Str := []
  wrote : Nat := 0

/-- `array[k]=1` for the keys of an array. -/
def setKey (keys : List Str) (k : Str) : List Str := if k = [] ∨ k ∈ keys then keys else keys ++ [k]

/-- Lines 480-491. -/
def ScriptTotals.countMarks (t : ScriptTotals) (l : RecordLinks) (v : UcdVars) : ScriptTotals :=
  if v .joyo ≠ [] then if (v .joyo).contains 0x55 then t else { t with joyo := t.joyo + 1 }
  else if v .jinmei ≠ [] then if l.links = [] then { t with jinmei := t.jinmei + 1 } else t
  else t

/-- `countLinkType` (lines 455-467). -/
def countLinkType (links : Str → Nat) (type : Str) : Str → Nat :=
  if type ∈ scriptLinkTypes then fun s => if s = type then links s + 1 else links s else links

/-- The counters in `processRecord` from line 495 on. -/
def ScriptTotals.countReadings (t : ScriptTotals) (a : ScriptArrays) (v : UcdVars) (l : RecordLinks)
    (meaning readings : Str) : ScriptTotals :=
  { t with
    direct := if a.on (v .cp) ++ a.kun (v .cp) ≠ [] then t.direct + 1 else t.direct
    linked := if a.on (v .cp) ++ a.kun (v .cp) ≠ [] then t.linked
      else if l.loadFrom ≠ [] then t.linked + 1 else t.linked
    meaning := if meaning ≠ [] then t.meaning + 1 else t.meaning
    reading := if readings ≠ [] then t.reading + 1 else t.reading
    pinyin := if v .mandarin ≠ [] then t.pinyin + 1 else t.pinyin
    jSources := if a.jSource (v .cp) ≠ [] then setKey t.jSources (a.jSource (v .cp)) else t.jSources
    morohashis := if a.morohashi (v .cp) ≠ [] then setKey t.morohashis (a.morohashi (v .cp)) else t.morohashis
    nelsons := ((shWords (v .nelson)).map fun (w : Str) => w.dropWhile (· == 0x30)).foldl setKey t.nelsons
    links := countLinkType t.links l.type
    wrote := t.wrote + 1 }

/-- The counters in `processRecord` (lines 471-562). -/
def ScriptTotals.countRecord (t : ScriptTotals) (a : ScriptArrays) (v : UcdVars) : ScriptTotals :=
  let l := recordLinks a v
  match recordReadings a v l.loadFrom with
  | none => t.countMarks l v
  | some (meaning, on, kun, _) => (t.countMarks l v).countReadings a v l meaning (on ++ kun)

/-- The loop of `printResults` (lines 571-578). -/
def ScriptTotals.count (a : ScriptArrays) : List UcdXml → UcdVars → ScriptTotals → ScriptTotals
  | [], _, t => t
  | x :: xs, vars, t =>
    let v := evalRecord printUnset x vars
    ScriptTotals.count a xs v (if keepsRecord (v .rsUnicode) then t.countRecord a v else t)

/-- `checkTotal` (lines 587-590). -/
def checkTotal (name : Str) (n expected : Nat) : Str :=
  name ++ u8!": " ++ toDec n ++
    (if n = expected then u8!"/" ++ toDec expected else u8!" *** expected " ++ toDec expected ++ u8!" ***") ++ u8!"\n"

/-- A number of bash. -/
def bashInt (i : Int) : Str := if i < 0 then u8!"-" ++ toDec i.natAbs else toDec i.natAbs

/-- Lines 596-607. -/
def ScriptTotals.summary (t : ScriptTotals) : Str :=
  checkTotal (u8!"Unique JSource") t.jSources.length 16222 ++
  checkTotal (u8!"Unique Morohashi") t.morohashis.length 49019 ++
  checkTotal (u8!"Unique Nelson ID") t.nelsons.length 5442 ++
  checkTotal (u8!"Total Jouyou") t.joyo 2136 ++
  checkTotal (u8!"Total Jinmei") t.jinmei 633 ++
  checkTotal (u8!"Jinmei Links") (t.links (u8!"Jinmei")) 230 ++
  u8!"Other Links:\n  Traditional " ++ toDec (t.links (u8!"Traditional")) ++
  u8!", Simplified " ++ toDec (t.links (u8!"Simplified")) ++
  u8!", Compatibility " ++ toDec (t.links (u8!"Compatibility")) ++
  u8!", Definition " ++ toDec (t.links (u8!"Definition")) ++
  u8!", Semantic " ++ toDec (t.links (u8!"Semantic")) ++ u8!"\n" ++
  u8!"Other Fields:\n  Meaning " ++ toDec t.meaning ++ u8!", Pinyin " ++ toDec t.pinyin ++
  u8!", Reading " ++ toDec t.reading ++ u8!" (Direct " ++ toDec t.direct ++ u8!" Linked " ++ toDec t.linked ++
  u8!" Manual " ++ bashInt ((t.reading : Int) - t.direct - t.linked) ++ u8!")\n"

/-- The totals of a run of the script, see `ucdScript`. -/
def ucdTotals (first second : List UcdXml) (found : List (Str × List Str)) : ScriptTotals :=
  ScriptTotals.count (ScriptArrays.addLinks found (populateArrays first (fun _ => []) {}).1) second
    (populateArrays first (fun _ => []) {}).2 {}

end KT
