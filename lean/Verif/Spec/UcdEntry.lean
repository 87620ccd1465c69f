import Verif.Model.UcdScript
/-!
# Specification of data/ucd.txt

The records of the Unicode database, in parts instead of texts, and the rows that data/ucd.txt has for them.  The
types `UcdField`, `UcdXml`, `UcdRow` and `ScriptRow` are those of the model, and so are `toDec` (decimal numbers),
`hexValue` and `codeUtf8` (the UTF-8 text for a code).  No other function of the model is used.
-/
namespace Spec
open KT

/-- A reference `C+num+x.y.z` to a glyph: radical, its strokes and the remaining strokes. -/
structure AdobeRef where
  kind : UInt8
  cid : Nat
  radical : Nat
  radicalStrokes : Nat
  rest : Nat
  deriving DecidableEq, Repr

def AdobeRef.text (r : AdobeRef) : Str :=
  r.kind :: u8!"+" ++ toDec r.cid ++ u8!"+" ++ toDec r.radical ++ u8!"." ++ toDec r.radicalStrokes ++ u8!"." ++ toDec r.rest

def AdobeRef.strokes (r : AdobeRef) : Nat := r.radicalStrokes + r.rest

/-- A number of the Morohashi dictionary: leading zeros, the rest (`H064` for the supplement), the number of
apostrophes and a selector. -/
structure MorohashiRef where
  zeros : Nat
  body : Str
  primes : Nat
  selector : Option Str
  deriving DecidableEq, Repr

def MorohashiRef.text (r : MorohashiRef) : Str :=
  List.replicate r.zeros 0x30 ++ r.body ++ List.replicate r.primes 0x27 ++
    match r.selector with | some s => u8!":" ++ s | none => []

/-- The way it is written in data/ucd.txt: no zeros, `P` for each apostrophe. -/
def MorohashiRef.plain (r : MorohashiRef) : Str := r.body ++ List.replicate r.primes 0x50

/-- The value of `kJoyoKanji`: a year, or the code of the kanji that is listed instead. -/
inductive JoyoMark where
  | listed (year : Nat)
  | replaced (code : Str)
  deriving DecidableEq, Repr

/-- A record in parts. -/
structure UcdEntry where
  cp : Str
  blk : Str := []
  age : Str := []
  /-- The radical, the number of apostrophes behind it, the remaining strokes and further values. -/
  radical : Nat
  marks : Nat := 0
  rest : Nat := 0
  more : Str := []
  totalStrokes : Nat
  moreStrokes : Str := []
  adobe : List AdobeRef := []
  mandarin : List Str := []
  morohashi : List MorohashiRef := []
  /-- The numbers of leading zeros and the rest. -/
  nelson : List (Nat × Str) := []
  gSource : Str := []
  hSource : Str := []
  jSource : Str := []
  kSource : Str := []
  tSource : Str := []
  vSource : Str := []
  joyo : Option JoyoMark := none
  /-- The year and perhaps a link. -/
  jinmei : Option (Nat × Option Str) := none
  traditional : List Str := []
  simplified : List Str := []
  compatibility : Option Str := none
  /-- The code and what follows it. -/
  semantic : List (Str × Str) := []
  definition : Str := []
  on : Str := []
  kun : Str := []
  japanese : Str := []
  deriving Repr

def spaced (ws : List Str) : Str := (u8!" ").intercalate ws

def JoyoMark.text : JoyoMark → Str
  | .listed y => toDec y
  | .replaced c => u8!"U+" ++ c

/-- The attributes of a record. -/
def UcdEntry.text (e : UcdEntry) : UcdField → Str
  | .cp => e.cp
  | .blk => e.blk
  | .age => e.age
  | .rsUnicode => toDec e.radical ++ List.replicate e.marks 0x27 ++ u8!"." ++ toDec e.rest ++ e.more
  | .totalStrokes => toDec e.totalStrokes ++ e.moreStrokes
  | .rsAdobe => spaced (e.adobe.map AdobeRef.text)
  | .mandarin => spaced e.mandarin
  | .morohashi => spaced (e.morohashi.map MorohashiRef.text)
  | .nelson => spaced (e.nelson.map fun p => List.replicate p.1 0x30 ++ p.2)
  | .gSource => e.gSource
  | .hSource => e.hSource
  | .jSource => e.jSource
  | .kSource => e.kSource
  | .tSource => e.tSource
  | .vSource => e.vSource
  | .joyo => match e.joyo with | some j => j.text | none => []
  | .jinmei => match e.jinmei with
    | some (y, some c) => toDec y ++ u8!":U+" ++ c
    | some (y, none) => toDec y
    | none => []
  | .traditional => spaced (e.traditional.map fun c => u8!"U+" ++ c)
  | .simplified => spaced (e.simplified.map fun c => u8!"U+" ++ c)
  | .compatibility => match e.compatibility with | some c => u8!"U+" ++ c | none => []
  | .semantic => spaced (e.semantic.map fun p => u8!"U+" ++ p.1 ++ p.2)
  | .definition => e.definition
  | .on => e.on
  | .kun => e.kun
  | .japanese => e.japanese

/-- Attributes that every record has. -/
def requiredFields : List UcdField :=
  [.cp, .blk, .age, .rsUnicode, .totalStrokes, .gSource, .hSource, .jSource, .kSource, .tSource, .vSource]

/-- A record states the attributes of an entry; empty ones that are not required can be left out. -/
def Records (x : UcdXml) (e : UcdEntry) : Prop :=
  (∀ f, (x f).getD [] = e.text f) ∧ ∀ f ∈ requiredFields, x f ≠ none

/-- A hex number. -/
def UcdCode (s : Str) : Prop := s ≠ [] ∧ ∀ b ∈ s, isHexChar b = true

/-- A word: not empty and no blanks. -/
def IsWord (s : Str) : Prop := s ≠ [] ∧ ∀ b ∈ s, b ≠ 0x20 ∧ b ≠ 0x09

def MorohashiRef.Fits (r : MorohashiRef) : Prop :=
  r.body ≠ [] ∧ r.body.head? ≠ some 0x30 ∧ (∀ b ∈ r.body, b ≠ 0x20 ∧ b ≠ 0x09 ∧ b ≠ 0x27 ∧ b ≠ 0x3a) ∧
    ∀ s, r.selector = some s → ∀ b ∈ s, b ≠ 0x20 ∧ b ≠ 0x09

structure UcdEntry.Fits (e : UcdEntry) : Prop where
  cp : UcdCode e.cp
  more : e.more = [] ∨ e.more.head? = some 0x20
  moreStrokes : e.moreStrokes = [] ∨ e.moreStrokes.head? = some 0x20
  adobe : ∀ r ∈ e.adobe, r.kind = 0x43 ∨ r.kind = 0x56
  mandarin : ∀ w ∈ e.mandarin, IsWord w
  morohashi : ∀ r ∈ e.morohashi, r.Fits
  nelson : ∀ p ∈ e.nelson, IsWord p.2 ∧ p.2.head? ≠ some 0x30
  joyo : ∀ c, e.joyo = some (.replaced c) → UcdCode c
  jinmei : ∀ y c, e.jinmei = some (y, some c) → UcdCode c
  traditional : ∀ c ∈ e.traditional, UcdCode c
  simplified : ∀ c ∈ e.simplified, UcdCode c
  compatibility : ∀ c, e.compatibility = some c → UcdCode c
  semantic : ∀ p ∈ e.semantic, UcdCode p.1 ∧ (p.2 = [] ∨ p.2.head? = some 0x26) ∧ ∀ b ∈ p.2, b ≠ 0x20 ∧ b ≠ 0x09

/-- The records, one for each entry. -/
def AllRecords : List UcdXml → List UcdEntry → Prop
  | [], [] => True
  | x :: xs, e :: es => (Records x e ∧ e.Fits) ∧ AllRecords xs es
  | _, _ => False

/-- Records with a simplified radical are left out, except for the radicals 199 and 211. -/
def UcdEntry.kept (e : UcdEntry) : Bool := e.radical == 199 || e.radical == 211 || e.marks == 0

/-! ## What is known about a code -/

/-- The codes an entry has the readings for: its own, and the one of the kanji listed instead of it or linked to. -/
def UcdEntry.readingFor (e : UcdEntry) : List Str :=
  e.cp :: match e.joyo, e.jinmei with
    | some (.replaced c), _ => [c]
    | some (.listed _), _ => []
    | none, some (_, some c) => [c]
    | none, _ => []

/-- The last entry (without those left out) that satisfies `p`. -/
def lastEntry (es : List UcdEntry) (p : UcdEntry → Bool) : Option UcdEntry :=
  (es.filter UcdEntry.kept).reverse.find? p

/-- The entry with the readings for a code. -/
def readingOf (es : List UcdEntry) (c : Str) : Option UcdEntry :=
  lastEntry es fun e => (e.on != [] || e.kun != []) && e.readingFor.contains c

/-- The first number of the Morohashi dictionary. -/
def morohashiOf (es : List UcdEntry) (c : Str) : Str :=
  match lastEntry es fun e => e.cp == c && !e.morohashi.isEmpty with
  | some e => (e.morohashi.head?.map MorohashiRef.plain).getD []
  | none => []

def jSourceOf (es : List UcdEntry) (c : Str) : Str :=
  match lastEntry es fun e => e.cp == c && e.jSource != [] with
  | some e => e.jSource
  | none => []

/-- The Jinmei entry with a link to a code. -/
def linkedFrom (es : List UcdEntry) (c : Str) : Option UcdEntry :=
  lastEntry es fun e => e.joyo.isNone && match e.jinmei with | some (_, some d) => d == c | _ => false

/-- Links given by the script itself. -/
def manualLinks : List (Str × Str) :=
  [(u8!"3D4E", u8!"6F97"), (u8!"5ECF", u8!"5ED0"), (u8!"9D25", u8!"9D2A"), (u8!"6AA8", u8!"69D8")]

/-- Where the definition of a kanji leads: the first code with readings; `found` has the codes found in
definitions, in the order in which they are found. -/
def definitionLink (es : List UcdEntry) (found : List (Str × List Str)) (c : Str) : Option Str :=
  match manualLinks.lookup c with
  | some d => some d
  | none => ((found.filter fun p => p.1 == c).flatMap fun p => p.2).find? fun d => (readingOf es d).isSome

/-- Readings can be taken from this code. -/
def loadable (es : List UcdEntry) (found : List (Str × List Str)) (c : Str) : Bool :=
  (readingOf es c).isSome || (definitionLink es found c).isSome

/-- Has a number of a Japanese dictionary or source. -/
def inJapan (es : List UcdEntry) (c : Str) : Bool := morohashiOf es c != [] || jSourceOf es c != []

/-! ## Links -/

/-- The different codes of a list other than `cp`. -/
def otherCodes (cp : Str) (cs : List Str) : List Str := (cs.filter fun c => c != cp).eraseDups

/-- The possible links of an entry that is neither Joyo nor Jinmei, best first, and whether readings can be taken
from the first of them. -/
def linkChoices (es : List UcdEntry) (found : List (Str × List Str)) (e : UcdEntry) : List (Str × List Str × Bool) :=
  let trad := otherCodes e.cp e.traditional
  let simp := otherCodes e.cp e.simplified
  let load := loadable es found
  [ (u8!"Traditional",
      if trad.any load then trad.filter load ++ trad.filter (fun c => !load c && inJapan es c) else [], true),
    (u8!"Simplified", (simp.filter load).take 1, true),
    (u8!"Compatibility", e.compatibility.toList.filter load, true),
    (u8!"Definition", (definitionLink es found e.cp).toList, true),
    (u8!"Semantic", if (readingOf es e.cp).isSome then [] else ((e.semantic.map (·.1)).filter load).take 1, true),
    (u8!"Traditional", trad.filter (inJapan es), false),
    (u8!"Simplified", (simp.filter (inJapan es)).take 1, false) ]

/-- Jinmei kanji whose link leads from the standard form to the variant. -/
def reversedLinks : List Str :=
  [u8!"4E98", u8!"51DC", u8!"5C2D", u8!"5DCC", u8!"6643", u8!"6867", u8!"69D9", u8!"6E1A", u8!"732A",
   u8!"7422", u8!"7950", u8!"7962", u8!"7977", u8!"7984", u8!"798E", u8!"7A63", u8!"840C", u8!"9065"]

/-- The type of the links, the links and the code from which readings can be taken. -/
def linksOf (es : List UcdEntry) (found : List (Str × List Str)) (e : UcdEntry) : Str × List Str × Option Str :=
  match e.joyo, e.jinmei with
  | some _, _ => ([], [], none)
  | none, some (_, some c) => if e.cp ∈ reversedLinks then ([], [], some c) else (u8!"Jinmei", [c], some c)
  | none, some (_, none) =>
    match linkedFrom es e.cp with
    | some d => (u8!"Jinmei", [d.cp], none)
    | none => ([], [], none)
  | none, none =>
    match (linkChoices es found e).find? fun p => !p.2.1.isEmpty with
    | some (type, links, load) => (type, links, if load then links.head? else none)
    | none => ([], [], none)

/-! ## Readings and strokes -/

/-- Readings given by the script itself. -/
def givenReadings : List (Str × Str × Str) :=
  [(u8!"34E4", u8!"KATSU", []), (u8!"3C7E", u8!"KAI", []), (u8!"3C83", u8!"KYUU", []), (u8!"4BC2", u8!"SHIN", []),
   (u8!"6479", u8!"BO", u8!"MO"), (u8!"6532", u8!"KI", u8!"KATAMUKU SOBADATERU"),
   (u8!"6663", u8!"SEI SETSU", u8!"AKIRAKA KASHIKOI"), (u8!"69D4", u8!"KOU", u8!"HANETSURUBE"),
   (u8!"7B53", u8!"KEI", u8!"KOUGAI KANZASHI"), (u8!"7CF1", u8!"GETSU", u8!"KOUJI MOYASHI"), (u8!"83C6", u8!"SHU", [])]

/-- Meaning, On and Kun of a code. -/
def readingsOf (es : List UcdEntry) (c : Str) : Str × Str × Str :=
  match readingOf es c with
  | some s => (s.definition, s.on, s.kun)
  | none => ([], [], [])

/-- Meaning, On, Kun and whether they are those of another kanji. -/
def entryReadings (es : List UcdEntry) (found : List (Str × List Str)) (e : UcdEntry) : Option ((Str × Str × Str) × Bool) :=
  if (readingOf es e.cp).isSome then some (readingsOf es e.cp, false)
  else match (linksOf es found e).2.2 with
    | some c =>
      some (readingsOf es (if (readingOf es c).isSome then c else (definitionLink es found c).getD []), true)
    | none =>
      match givenReadings.lookup e.cp with
      | some r => some (([], r), false)
      | none => if inJapan es e.cp then some (([], [], []), false) else none

/-- Strokes and the other number of strokes (0 when there is none): the strokes of the first reference and the first
different number among the other references.  The two change places when the second reference has the different
number and is the one for the radical and the strokes in `kRSUnicode` and `kTotalStrokes`. -/
def entryStrokes (e : UcdEntry) : Nat × Nat :=
  match e.adobe with
  | [] => (e.totalStrokes, 0)
  | r :: rs =>
    match rs.find? fun s => s.strokes != r.strokes with
    | none => (r.strokes, 0)
    | some s =>
      if rs.head? = some s ∧ e.marks = 0 ∧ e.more = [] ∧ e.radical = s.radical ∧ e.rest = s.rest ∧ e.totalStrokes = s.strokes
      then (s.strokes, r.strokes) else (r.strokes, s.strokes)

/-- The letters of the sources. -/
def entrySources (e : UcdEntry) : Str :=
  (if e.gSource = [] then [] else u8!"G") ++ (if e.hSource = [] then [] else u8!"H") ++
  (if e.jSource = [] then [] else u8!"J") ++ (if e.kSource = [] then [] else u8!"K") ++
  (if e.tSource = [] then [] else u8!"T") ++ (if e.vSource = [] then [] else u8!"V")

/-! ## Rows -/

def commas (ws : List Str) : Str := (u8!",").intercalate ws

/-- Readings of another kanji although there is no link. -/
def MissesLink (es : List UcdEntry) (found : List (Str × List Str)) (e : UcdEntry) : Prop :=
  (linksOf es found e).1 = [] ∧ ∃ r, entryReadings es found e = some (r, true)

instance (es : List UcdEntry) (found : List (Str × List Str)) (e : UcdEntry) : Decidable (MissesLink es found e) :=
  decidable_of_iff ((linksOf es found e).1 = [] ∧ (entryReadings es found e).any (·.2) = true) (by
    unfold MissesLink
    cases entryReadings es found e with
    | none => simp
    | some r => obtain ⟨r, b⟩ := r; simp)

/-- The row of an entry; `none` when it has no readings and is in no Japanese dictionary or source. -/
def ucdEntryRow (es : List UcdEntry) (found : List (Str × List Str)) (e : UcdEntry) : Option UcdRow :=
  (entryReadings es found e).map fun r =>
    let (type, links, _) := linksOf es found e
    { code := e.cp, name := codeUtf8 e.cp, block := e.blk, version := e.age
      radical := toDec e.radical, strokes := toDec (entryStrokes e).1
      vStrokes := if (entryStrokes e).2 = 0 then [] else toDec (entryStrokes e).2
      pinyin := e.mandarin.headD [], morohashiId := morohashiOf es e.cp
      nelsonIds := commas (e.nelson.map (·.2)), sources := entrySources e, jSource := jSourceOf es e.cp
      joyo := match e.joyo with | some (.listed _) => u8!"Y" | _ => []
      jinmei := if e.jinmei.isSome then u8!"Y" else []
      linkCodes := commas links, linkNames := commas (links.map codeUtf8)
      linkType := type ++ if r.2 then u8!"*" else []
      meaning := r.1.1, on := r.1.2.1, kun := r.1.2.2 }

end Spec
