import Verif.Model.UcdDefinition
import Verif.Model.UcdTotals
/-!
# Model of `printDefinitionLinkCounts` (scripts/parseUcdAllFlat.sh:186-237)

What `findDefinitionLinks` counts (lines 265-280, 306-322) and the table it prints.  Lists of counts separated by commas
are lists.  The order of `sort` depends on the locale, so the sorted words are an input.  Left out: `linkErrors`, see
Model/UcdDefinition.
-/
namespace KT

/-- The arrays and the keys of `readingLink`. -/
abbrev LinkState := ScriptArrays × List Str

/-- A loop of `findDefinitionLinksForType` (lines 271-273 and 275-277): the number of links that are stored
(`processUtfLinks` and `processUniLink` return 0). -/
def storeLinks : List (Str × List Str) → LinkState → LinkState × Nat
  | [], st => (st, 0)
  | l :: ls, st =>
    if st.1.readingLink l.1 = [] ∧ l.2.any st.1.hasReading = true then
      ((storeLinks ls (st.1.addLink l.1 l.2, setKey st.2 l.1)).1, (storeLinks ls (st.1.addLink l.1 l.2, setKey st.2 l.1)).2 + 1)
    else storeLinks ls (st.1.addLink l.1 l.2, st.2)

/-- The codes of line 271. -/
def utfLinks (rs : List (Str × Str)) (type : Str) (pass : Nat) : List (Str × List Str) :=
  rs.filterMap fun r => (utfMatch type pass r.2).map fun s => (r.1, utfCodes s)

/-- The codes of line 275. -/
def uniLinks (rs : List (Str × Str)) (type : Str) (pass : Nat) : List (Str × List Str) :=
  rs.filterMap fun r => (uniMatch type pass r.2).map fun s => (r.1, [s])

/-- `findDefinitionLinksForType` (lines 265-280) with `utfCount` and `uniCount`. -/
def passCounts (rs : List (Str × Str)) (type : Str) (pass : Nat) (st : LinkState) : LinkState × Nat × Nat :=
  let u := storeLinks (utfLinks rs type pass) st
  let c := storeLinks (uniLinks rs type pass) u.1
  (c.1, u.2, c.2)

/-- The inner loop (lines 309-312): `defTypeUtf` and `defTypeUni` for a type. -/
def linkTypeCounts (rs : List (Str × Str)) (type : Str) : List Nat → LinkState → LinkState × List (Nat × Nat)
  | [], st => (st, [])
  | n :: ns, st =>
    let p := passCounts rs type n st
    let q := linkTypeCounts rs type ns p.1
    (q.1, p.2 :: q.2)

/-- The outer loop (lines 306-313). -/
def countTypes (rs : List (Str × Str)) : List Str → LinkState → LinkState × List (Str × List (Nat × Nat))
  | [], st => (st, [])
  | t :: ts, st =>
    let p := linkTypeCounts rs t [0, 1, 2] st
    let q := countTypes rs ts p.1
    (q.1, (t, p.2) :: q.2)

/-- The keys of `readingLink` after lines 316-319. -/
def manualKeys (keys : List Str) : List Str :=
  setKey (setKey (setKey (setKey keys (u8!"3D4E")) (u8!"5ECF")) (u8!"9D25")) (u8!"6AA8")

/-! ## The table -/

/-- A part of a format of `printf`: text, `%-ns` and `%nd`. -/
inductive FmtPiece where
  | text (s : Str)
  | left (n : Nat)
  | right (n : Nat)

def bashLeft (n : Nat) (s : Str) : Str := s ++ List.replicate (n - s.length) 0x20
def bashRight (n : Nat) (s : Str) : Str := List.replicate (n - s.length) 0x20 ++ s

/-- `printf`: arguments that are missing are empty or 0. -/
def bashPrintf : List FmtPiece → List Str → Str
  | [], _ => []
  | .text s :: ps, as => s ++ bashPrintf ps as
  | .left n :: ps, as => bashLeft n (as.headD []) ++ bashPrintf ps as.tail
  | .right n :: ps, as => bashRight n (as.headD (u8!"0")) ++ bashPrintf ps as.tail

/-- `total`, `fmt2` and `headers` (lines 202-203). -/
structure CountTable where
  total : Nat := 0
  fmt2 : List FmtPiece := [.text (u8!"  ")]
  headers : List Str := []

/-- `fmt1` (line 210). -/
def countFmt (maxLen : Nat) : List FmtPiece := [.text (u8!"  "), .left maxLen]

/-- `'(%3d,%3d)'` (line 220). -/
def passText (c : Nat × Nat) : Str :=
  bashPrintf [.text (u8!"("), .right 3, .text (u8!","), .right 3, .text (u8!")")] [toDec c.1, toDec c.2]

/-- Lines 216-230: what a line of the table adds to `total`, `fmt2` and `headers`. -/
def CountTable.extend (t : CountTable) (passes : Nat) : CountTable :=
  if t.total = 0 then
    { t with fmt2 := t.fmt2 ++ List.replicate passes (.left 11) ++ [.text (u8!"\n")]
             headers := t.headers ++ List.replicate passes (u8!" utf uni") }
  else t

/-- The loop (lines 211-233). -/
def countLines (maxLen types : Nat) : List (Str × List (Nat × Nat)) → CountTable → Str × Nat
  | [], t => ([], t.total)
  | r :: rs, t =>
    let n := (r.2.map fun c => c.1 + c.2).sum
    let e := t.extend r.2.length
    let rest := countLines maxLen types rs { e with total := t.total + n }
    ((if t.total = 0 then
        bashPrintf (countFmt maxLen ++ [.text (u8!"Total")] ++ e.fmt2) ((u8!"Types: " ++ toDec types) :: e.headers)
      else []) ++
      bashPrintf (countFmt maxLen ++ [.text (u8!" "), .right 4] ++ e.fmt2)
        ((u8!"  '" ++ r.1 ++ u8!"'") :: toDec n :: r.2.map passText) ++ rest.1, rest.2)

/-- `printDefinitionLinkCounts` for the sorted words, with the number of links. -/
def linkCountTable (order : List Str) (counts : List (Str × List (Nat × Nat))) (links : Nat) : Str :=
  let maxLen := (order.map List.length).foldl max 0 + 4
  let rows := countLines maxLen order.length (order.map fun s => (s, (counts.lookup s).getD [])) {}
  rows.1 ++ bashPrintf (countFmt maxLen ++ [.text (u8!" "), .right 4, .text (u8!"\n")])
    [u8!"  (manually set)", bashInt ((links : Int) - rows.2)]

/-- What `findDefinitionLinks` prints behind the log (lines 320-321). -/
def definitionLog (first all : List UcdXml) (order : List Str) : Str :=
  let c := countTypes (definitionRecords all) definitionTypes ((populateArrays first (fun _ => []) {}).1, [])
  u8!"found " ++ toDec (manualKeys c.1.2).length ++ u8!"\n" ++ linkCountTable order c.2 (manualKeys c.1.2).length

end KT
