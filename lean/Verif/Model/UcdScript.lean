import Verif.Model.WidthScript
import Verif.Model.UcdData
/-!
# Model of scripts/parseUcdAllFlat.sh

The script reads the records of `ucd.all.flat.xml` and writes data/ucd.txt, the file that
`UcdData::load` reads.  A record is given by its attributes; which records `grep` selects, and the
links that `grep` and `sed` find in the definitions (lines 264-280, see Model/UcdDefinition), are inputs.  Arrays are functions, an
element that is not set is the empty string (as is one with an empty index, where bash also prints an
error).  Left out: the log, backslashes in the values (`echo -e`),
and numbers with leading zeros that bash would read as octal.  The counts are in Model/UcdTotals.
-/
namespace KT

/-- The attributes the script uses. -/
inductive UcdField where
  | cp | blk | age | rsUnicode | totalStrokes | rsAdobe | mandarin | morohashi | nelson
  | gSource | hSource | jSource | kSource | tSource | vSource
  | joyo | jinmei | traditional | simplified | compatibility | semantic | definition | on | kun | japanese
  deriving DecidableEq, Repr

/-- The attributes of a record. -/
abbrev UcdXml := UcdField → Option Str
/-- The shell variables. -/
abbrev UcdVars := UcdField → Str

/-- `unset` and `eval` in `setVars` (lines 63-64): `unset` holds the variables that are not kept from the
record before. -/
def evalRecord (unset : List UcdField) (x : UcdXml) (vars : UcdVars) : UcdVars := fun f =>
  (x f).getD (if f ∈ unset then [] else vars f)

/-- `${s#*c}`. -/
def afterFirst (c : UInt8) (s : Str) : Str := if s.contains c then (s.dropWhile (· != c)).drop 1 else s

/-- `radical` (line 65). -/
def scriptRadical (rsUnicode : Str) : Nat :=
  decimalValue (rsUnicode.takeWhile fun b => b != 0x2e && b != 0x27)

/-- `[[ $kRSUnicode =~ ^[0-9]*\' ]]`. -/
def isSimplifiedRadical (rsUnicode : Str) : Bool :=
  (rsUnicode.dropWhile isDigitChar).head? == some 0x27

/-- The exit status of `setVars` (line 71), for radicals of at most three digits. -/
def keepsRecord (rsUnicode : Str) : Bool :=
  scriptRadical rsUnicode == 199 || scriptRadical rsUnicode == 211 || !isSimplifiedRadical rsUnicode

/-- The global arrays (line 80). -/
structure ScriptArrays where
  morohashi : Str → Str := fun _ => []
  jSource : Str → Str := fun _ => []
  definition : Str → Str := fun _ => []
  on : Str → Str := fun _ => []
  kun : Str → Str := fun _ => []
  linkBack : Str → Str := fun _ => []
  readingLink : Str → Str := fun _ => []

/-- `array[k]=v`; an empty index is an error of bash and nothing is set. -/
def arraySet (m : Str → Str) (k v : Str) : Str → Str := if k = [] then m else fun x => if x = k then v else m x

/-- `noLink` (lines 82-112). -/
def noLinkCodes : List Str :=
  [u8!"4E98", u8!"51DC", u8!"5C2D", u8!"5DCC", u8!"6643", u8!"6867", u8!"69D9", u8!"6E1A", u8!"732A",
   u8!"7422", u8!"7950", u8!"7962", u8!"7977", u8!"7984", u8!"798E", u8!"7A63", u8!"840C", u8!"9065"]

/-- `kMorohashi` as it is stored (lines 136-145). -/
def scriptMorohashi (s : Str) : Str :=
  let s := (((u8!" ").intercalate (shWords s)).dropWhile (· == 0x30)).map fun b => if b = 0x27 then 0x50 else b
  ((u8!" ").intercalate (shWords s)).takeWhile fun b => b != 0x20 && b != 0x3a

/-- The `unset` of both loops (line 63) and of `populateArrays` (line 135). -/
def populateUnset : List UcdField := [.joyo, .jinmei, .morohashi, .definition, .on, .kun]

/-- The codes for which readings are stored (lines 151-160). -/
def readingCodes (v : UcdVars) : List Str :=
  if v .joyo ≠ [] then
    if (v .joyo).contains 0x55 then
      v .cp :: shWords (if (u8!"U+").isPrefixOf (v .joyo) then (v .joyo).drop 2 else v .joyo)
    else [v .cp]
  else if (v .jinmei).contains 0x55 then [v .cp, afterFirst 0x2b (v .jinmei)]
  else [v .cp]

/-- The loop over the codes (lines 162-167). -/
def ScriptArrays.addReadings (v : UcdVars) : List Str → ScriptArrays → ScriptArrays
  | [], a => a
  | c :: cs, a =>
    ScriptArrays.addReadings v cs { a with definition := arraySet a.definition c (v .definition)
                                           on := arraySet a.on c (v .on)
                                           kun := arraySet a.kun c (v .kun) }

/-- One round of `populateArrays` (lines 135-168). -/
def ScriptArrays.add (a : ScriptArrays) (v : UcdVars) : ScriptArrays :=
  let m := scriptMorohashi (v .morohashi)
  let a := if v .morohashi ≠ [] ∧ m ≠ [] then { a with morohashi := arraySet a.morohashi (v .cp) m } else a
  let a := if v .jSource ≠ [] then { a with jSource := arraySet a.jSource (v .cp) (v .jSource) } else a
  let a := if v .joyo = [] ∧ (v .jinmei).contains 0x55 then
      { a with linkBack := arraySet a.linkBack (afterFirst 0x2b (v .jinmei)) (v .cp) } else a
  if v .on ++ v .kun ≠ [] then a.addReadings v (readingCodes v) else a

/-- `populateArrays` (lines 130-171). -/
def populateArrays : List UcdXml → UcdVars → ScriptArrays → ScriptArrays × UcdVars
  | [], vars, a => (a, vars)
  | x :: xs, vars, a =>
    let v := evalRecord populateUnset x vars
    populateArrays xs v (if keepsRecord (v .rsUnicode) then a.add v else a)

/-- `hasReading` (lines 173-175). -/
def ScriptArrays.hasReading (a : ScriptArrays) (c : Str) : Bool := a.on c ++ a.kun c != []
/-- `hasJapanID` (lines 177-179). -/
def ScriptArrays.hasJapanID (a : ScriptArrays) (c : Str) : Bool := a.morohashi c != [] || a.jSource c != []
/-- `canLoadFrom` (lines 184-186). -/
def ScriptArrays.canLoadFrom (a : ScriptArrays) (c : Str) : Bool := a.hasReading c || a.readingLink c != []

/-- `processUtfLinks` and `processUniLink` (lines 239-261): the first code with a reading is stored if there
is none yet. -/
def ScriptArrays.addLink (a : ScriptArrays) (cp : Str) (codes : List Str) : ScriptArrays :=
  if a.readingLink cp = [] then
    match codes.find? a.hasReading with
    | some c => { a with readingLink := arraySet a.readingLink cp c }
    | none => a
  else a

/-- `findDefinitionLinks` (lines 286-322) for the codes found in the definitions, with the links that are
set at the end. -/
def ScriptArrays.addLinks : List (Str × List Str) → ScriptArrays → ScriptArrays
  | [], a =>
    let r := arraySet a.readingLink (u8!"3D4E") (u8!"6F97")
    let r := arraySet r (u8!"5ECF") (u8!"5ED0")
    let r := arraySet r (u8!"9D25") (u8!"9D2A")
    { a with readingLink := arraySet r (u8!"6AA8") (u8!"69D8") }
  | l :: ls, a => ScriptArrays.addLinks ls (a.addLink l.1 l.2)

/-! ## Strokes -/

/-- `y.z` of a reference `C+num+x.y.z` (lines 332-336, 358-360). -/
def adobeStrokesText (ref : Str) : Str := afterFirst 0x2e (afterLast 0x2b ref)

/-- `$((${s/\./ + }))` for `y.z` (lines 337, 361). -/
def adobeSum (yz : Str) : Nat := decimalValue (beforeFirst 0x2e yz) + decimalValue (afterFirst 0x2e yz)

/-- The loop over the other references (lines 356-377): strokes and variant strokes. -/
def adobeLoop (rsUnicode total : Str) (strokes : Nat) : List Str → Bool → Nat × Nat
  | [], _ => (strokes, 0)
  | ref :: refs, second =>
    let vradical := decimalValue (beforeFirst 0x2e (afterLast 0x2b ref))
    let s := adobeStrokesText ref
    let new := adobeSum s
    if strokes ≠ new then
      if second ∧ rsUnicode = toDec vradical ++ u8!"." ++ afterFirst 0x2e s ∧ decimalValue total = new then
        (new, strokes)
      else (strokes, new)
    else adobeLoop rsUnicode total strokes refs false

/-- Strokes and variant strokes (lines 330-379, 530-536). -/
def scriptStrokes (v : UcdVars) : Nat × Nat :=
  let total := beforeFirst 0x20 (v .totalStrokes)
  if v .rsAdobe = [] then (decimalValue total, 0)
  else
    let strokes := adobeSum (adobeStrokesText (beforeFirst 0x20 (v .rsAdobe)))
    if (v .rsAdobe).contains 0x20 then
      adobeLoop (v .rsUnicode) total strokes (shWords (afterFirst 0x20 (v .rsAdobe))) true
    else (strokes, 0)

/-! ## Links -/

/-- The function passed to `getLinks`. -/
inductive LinkMode where
  | canLoadFrom | hasJapanID
  deriving DecidableEq, Repr

def LinkMode.test (a : ScriptArrays) : LinkMode → Str → Bool
  | .canLoadFrom => a.canLoadFrom
  | .hasJapanID => a.hasJapanID

/-- `getTraditionalLinks` (lines 384-396); the codes have no commas, so that the test on the text with commas
is the test whether the code is in the list. -/
def traditionalLinks (test : Str → Bool) (cp : Str) : List Str → List Str → List Str
  | [], links => links
  | s :: ss, links =>
    let c := afterFirst 0x2b s
    traditionalLinks test cp ss (if c ∉ cp :: links ∧ test c = true then links ++ [c] else links)

/-- `getLinks` (lines 402-448): the links and their type; `readings` is `$resultOn$resultKun`. -/
def scriptLinks (a : ScriptArrays) (mode : LinkMode) (v : UcdVars) (readings : Str) : Option (List Str × Str) :=
  let words := shWords (v .traditional)
  let t := traditionalLinks (mode.test a) (v .cp) words []
  if t ≠ [] then
    some (if mode = .canLoadFrom then traditionalLinks a.hasJapanID (v .cp) words t else t, u8!"Traditional")
  else
    match ((shWords (v .simplified)).map (afterFirst 0x2b)).find? (fun c => c != v .cp && mode.test a c) with
    | some c => some ([c], u8!"Simplified")
    | none =>
      if mode = .canLoadFrom then
        let c := afterFirst 0x2b (v .compatibility)
        if (v .compatibility).contains 0x55 ∧ a.canLoadFrom c = true then some ([c], u8!"Compatibility")
        else if a.readingLink (v .cp) ≠ [] then some ([a.readingLink (v .cp)], u8!"Definition")
        else if readings = [] then
          match ((shWords (v .semantic)).map fun s => beforeFirst 0x26 (afterFirst 0x2b s)).find? a.canLoadFrom with
          | some c => some ([c], u8!"Semantic")
          | none => none
        else none
      else none

/-! ## Rows -/

/-- A row: the cells that the loader uses and `Japanese`. -/
structure ScriptRow where
  row : UcdRow
  japanese : Str
  deriving DecidableEq, Repr

/-- Readings set by hand (lines 514-525). -/
def manualReadings : List (Str × Str × Str) :=
  [(u8!"34E4", u8!"KATSU", []), (u8!"3C7E", u8!"KAI", []), (u8!"3C83", u8!"KYUU", []), (u8!"4BC2", u8!"SHIN", []),
   (u8!"6479", u8!"BO", u8!"MO"), (u8!"6532", u8!"KI", u8!"KATAMUKU SOBADATERU"),
   (u8!"6663", u8!"SEI SETSU", u8!"AKIRAKA KASHIKOI"), (u8!"69D4", u8!"KOU", u8!"HANETSURUBE"),
   (u8!"7B53", u8!"KEI", u8!"KOUGAI KANZASHI"), (u8!"7CF1", u8!"GETSU", u8!"KOUJI MOYASHI"), (u8!"83C6", u8!"SHU", [])]

/-- What lines 478-494 set: whether `kJoyoKanji` is still set, `linkTo`, `linkType` and `loadFrom`. -/
structure RecordLinks where
  joyo : Bool := false
  links : List Str := []
  type : Str := []
  loadFrom : Str := []
  deriving DecidableEq, Repr

/-- Lines 478-494. -/
def recordLinks (a : ScriptArrays) (v : UcdVars) : RecordLinks :=
  if v .joyo ≠ [] then { joyo := !(v .joyo).contains 0x55 }
  else if v .jinmei ≠ [] then
    let linked := (v .jinmei).contains 0x55
    let loadFrom := if linked then afterFirst 0x2b (v .jinmei) else []
    let linkTo := if linked then (if v .cp ∈ noLinkCodes then [] else loadFrom) else a.linkBack (v .cp)
    if linkTo = [] then { loadFrom } else { links := [linkTo], type := u8!"Jinmei", loadFrom }
  else
    match scriptLinks a .canLoadFrom v (a.on (v .cp) ++ a.kun (v .cp)) with
    | some (links, type) => { links, type, loadFrom := links.headD [] }
    | none =>
      match scriptLinks a .hasJapanID v (a.on (v .cp) ++ a.kun (v .cp)) with
      | some (links, type) => { links, type }
      | none => {}

/-- What lines 495-529 set: the definition, the readings and whether they come from a link; `none` when the
record is left out. -/
def recordReadings (a : ScriptArrays) (v : UcdVars) (loadFrom : Str) : Option (Str × Str × Str × Bool) :=
  let cp := v .cp
  if a.on cp ++ a.kun cp ≠ [] then some (a.definition cp, a.on cp, a.kun cp, false)
  else if loadFrom ≠ [] then
    let from' := if a.hasReading loadFrom then loadFrom else a.readingLink loadFrom
    some (a.definition from', a.on from', a.kun from', true)
  else match manualReadings.lookup cp with
    | some (on, kun) => some (a.definition cp, on, kun, false)
    | none => if a.morohashi cp ++ a.jSource cp ≠ [] then some (a.definition cp, [], [], false) else none

/-- The names in `countLinkType` (lines 457-467). -/
def scriptLinkTypes : List Str :=
  [u8!"Jinmei", u8!"Traditional", u8!"Simplified", u8!"Compatibility", u8!"Definition", u8!"Semantic"]

/-- `echo -e "\U$code"` for a code point. -/
def codeUtf8 (code : Str) : Str := match toUtf8 [hexValue code] with | .ok s => s | _ => []

/-- `sources` (lines 553-555). -/
def scriptSources (v : UcdVars) : Str :=
  [(UcdField.gSource, 0x47), (.hSource, 0x48), (.jSource, 0x4a), (.kSource, 0x4b), (.tSource, 0x54),
   (.vSource, 0x56)].filterMap fun p => if v p.1 ≠ [] then some p.2 else none

/-- `processRecord` (lines 471-562): the row, `none` when there is none; `.throw` is the end of the script with a
message (`countLinkType`). -/
def processRecord (a : ScriptArrays) (v : UcdVars) : Res (Option ScriptRow) :=
  let l := recordLinks a v
  match recordReadings a v l.loadFrom with
  | none => .ok none
  | some (meaning, on, kun, linked) =>
    if l.type ∉ scriptLinkTypes ∧ (l.type ≠ [] ∨ linked = true) then .throw .std
    else
      let strokes := scriptStrokes v
      .ok (some
        { row :=
            { code := v .cp, name := codeUtf8 (v .cp), block := v .blk, version := v .age
              radical := toDec (scriptRadical (v .rsUnicode)), strokes := toDec strokes.1
              vStrokes := if strokes.2 = 0 then [] else toDec strokes.2
              pinyin := beforeFirst 0x20 (v .mandarin), morohashiId := a.morohashi (v .cp)
              nelsonIds := (u8!",").intercalate ((shWords (v .nelson)).map fun w => w.dropWhile (· == 0x30))
              sources := scriptSources v, jSource := a.jSource (v .cp)
              joyo := if l.joyo then u8!"Y" else []
              jinmei := if v .jinmei ≠ [] then u8!"Y" else []
              linkCodes := (u8!",").intercalate l.links
              linkNames := (u8!",").intercalate (l.links.map codeUtf8)
              linkType := l.type ++ if linked then u8!"*" else []
              meaning, on, kun }
          japanese := v .japanese })

/-- The `unset` of `printResults` (lines 63, 574-575). -/
def printUnset : List UcdField :=
  [.joyo, .jinmei, .morohashi, .traditional, .simplified, .compatibility, .semantic, .rsAdobe, .mandarin, .nelson]

/-- The loop of `printResults` (lines 571-578): the rows written, and whether the script goes on. -/
def printUcdRows (a : ScriptArrays) : List UcdXml → UcdVars → List ScriptRow × Bool
  | [], _ => ([], true)
  | x :: xs, vars =>
    let v := evalRecord printUnset x vars
    if keepsRecord (v .rsUnicode) then
      match processRecord a v with
      | .ok (some r) => let rest := printUcdRows a xs v; (r :: rest.1, rest.2)
      | .ok none => printUcdRows a xs v
      | _ => ([], false)
    else printUcdRows a xs v

/-- The script after the arguments are checked: `first` are the records selected for the arrays (line 169),
`second` those for the rows (line 578), `found` the links found in definitions. -/
def ucdScript (first second : List UcdXml) (found : List (Str × List Str)) : List ScriptRow × Bool :=
  printUcdRows (ScriptArrays.addLinks found (populateArrays first (fun _ => []) {}).1) second
    (populateArrays first (fun _ => []) {}).2

end KT
