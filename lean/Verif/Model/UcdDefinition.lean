import Verif.Model.UcdScript
/-!
# Model of `findDefinitionLinks` (scripts/parseUcdAllFlat.sh:263-322)

How the script finds links in the definitions of the records: the input `found` of `ScriptArrays.addLinks` in
`Verif/Model/UcdScript.lean`.  Regular expressions are given by their pieces and are applied to the value of
`kDefinition` (no piece behind `kDefinition="` matches a double quote); ranges are those of ASCII.  A line that
`sed` leaves unchanged (its pattern does not match) is taken as no link.  Left out: the counts, and errors of
`iconv` for malformed UTF-8.
-/
namespace KT

/-- The pieces of the regular expressions: a text, one character, any number of characters, and any number of
characters in `\(` and `\)`. -/
inductive RxPiece where
  | lit (s : Str)
  | one (p : UInt8 → Bool)
  | star (p : UInt8 → Bool)
  | cap (p : UInt8 → Bool)

/-- The text in `\(` and `\)` when the pieces match at the start of the text: each piece is as long as possible,
the first pieces first. -/
def rxMatch : List RxPiece → Str → Option Str
  | [], _ => some []
  | .lit t :: ps, s => if t.isPrefixOf s then rxMatch ps (s.drop t.length) else none
  | .one p :: ps, s => if (s.take 1).any p then rxMatch ps (s.drop 1) else none
  | .star p :: ps, s =>
    (List.range ((s.takeWhile p).length + 1)).reverse.findSome? fun n => rxMatch ps (s.drop n)
  | .cap p :: ps, s =>
    (List.range ((s.takeWhile p).length + 1)).reverse.findSome? fun n =>
      (rxMatch ps (s.drop n)).map fun r => s.take n ++ r

/-- `[^)"]`. -/
def rxNotEnd (b : UInt8) : Bool := b != 0x29 && b != 0x22
/-- `[-,a-z0-9 ]`. -/
def rxFill (b : UInt8) : Bool :=
  b == 0x2d || b == 0x2c || (0x61 ≤ b && b ≤ 0x7a) || (0x30 ≤ b && b ≤ 0x39) || b == 0x20
/-- `[^ -~]`. -/
def rxUtf (b : UInt8) : Bool := b < 0x20 || 0x7e < b
/-- `[A-F0-9]`. -/
def rxUni (b : UInt8) : Bool := (0x41 ≤ b && b ≤ 0x46) || (0x30 ≤ b && b ≤ 0x39)

/-- `$end$s` in `findDefinitionLinks` (lines 303-312) for pass `n`. -/
def rxStart : Nat → List RxPiece
  | 0 => [.star rxNotEnd]
  | n + 1 => rxStart n ++ [.one (· == 0x29), .star rxNotEnd]

/-- `def` in `findDefinitionLinksForType` (line 266) after `kDefinition="`. -/
def rxDef (type : Str) (pass : Nat) : List RxPiece := rxStart pass ++ [.lit type, .star rxFill]

/-- The characters that `grep` and `sed` find (line 271). -/
def utfMatch (type : Str) (pass : Nat) (definition : Str) : Option Str :=
  if (rxMatch (rxDef type pass ++ [.one rxUtf]) definition).isSome then
    rxMatch (rxDef type pass ++ [.cap rxUtf]) definition
  else none

/-- The code that `grep` and `sed` find (line 275): `U\+` of `grep` is one or more `U`. -/
def uniMatch (type : Str) (pass : Nat) (definition : Str) : Option Str :=
  if (rxMatch (rxDef type pass ++ [.one (· == 0x55), .star (· == 0x55), .star rxUni]) definition).isSome then
    rxMatch (rxDef type pass ++ [.lit (u8!"U+"), .cap rxUni]) definition
  else none

/-- The codes of the characters (lines 243-246). -/
def utfCodes (s : Str) : List Str := ((fromUtf8 s).getD []).map fun c => toUnicode c

/-- `types` (line 288). -/
def definitionTypes : List Str :=
  [u8!"variant", u8!"interchangeable", u8!"same", u8!"non-classical", u8!"Variant", u8!"standard", u8!"simplified",
   u8!"ancient"]

/-- `grep` for `(type|…)[ ,]` in a definition. -/
def hasTypeWord : Str → Bool
  | [] => false
  | b :: s =>
    (definitionTypes.any fun t => (t ++ u8!" ").isPrefixOf (b :: s) || (t ++ u8!",").isPrefixOf (b :: s)) || hasTypeWord s

/-- The records written to `outFile` (line 295), given by code and definition. -/
def definitionRecords (xs : List UcdXml) : List (Str × Str) :=
  (xs.filter fun x =>
      (((x .rsUnicode).getD []).dropWhile isDigitChar).head? == some 0x2e && hasTypeWord ((x .definition).getD [])).map
    fun x => ((x .cp).getD [], (x .definition).getD [])

/-- The codes that `findDefinitionLinksForType` (lines 265-280) goes through. -/
def linksForType (rs : List (Str × Str)) (type : Str) (pass : Nat) : List (Str × List Str) :=
  (rs.filterMap fun r => (utfMatch type pass r.2).map fun s => (r.1, utfCodes s)) ++
    rs.filterMap fun r => (uniMatch type pass r.2).map fun s => (r.1, [s])

/-- The loops of `findDefinitionLinks` (lines 306-314), `defTypePasses` is 3. -/
def definitionFound (xs : List UcdXml) : List (Str × List Str) :=
  definitionTypes.flatMap fun t => [0, 1, 2].flatMap fun n => linksForType (definitionRecords xs) t n

end KT
