import Verif.Model.Str
/-!
# Specification of scripts/ucdDiff.sh

Characters with their fields, what is shown for them, and the differences of two characters.
-/
namespace Spec
open KT

/-- An element `char` of a UCD file: code and fields. -/
structure CharRecord where
  indent : Str
  cp : Str
  fields : List (Str × Str)

/-- A field as it is written. -/
def fieldText (p : Str × Str) : Str := p.1 ++ u8!"=\"" ++ p.2 ++ u8!"\""

/-- The line. -/
def CharRecord.text (r : CharRecord) : Str :=
  r.indent ++ u8!"<char cp=\"" ++ r.cp ++ u8!"\"" ++ (r.fields.flatMap fun p => u8!" " ++ fieldText p) ++ u8!"/>"

/-- Values don't begin with a blank or end with '='; quotes and `<` are never in XML values. -/
structure CharRecord.Fits (r : CharRecord) : Prop where
  indent : ∀ b ∈ r.indent, b = 0x20
  cp : 0x22 ∉ r.cp ∧ 0x3c ∉ r.cp ∧ 0x20 ∉ r.cp
  some : r.fields ≠ []
  name : ∀ p ∈ r.fields, 0x22 ∉ p.1 ∧ 0x3c ∉ p.1 ∧ 0x3d ∉ p.1
  value : ∀ p ∈ r.fields, 0x22 ∉ p.2 ∧ 0x3c ∉ p.2 ∧ p.2.head? ≠ Option.some 0x20 ∧
    p.2.getLast? ≠ Option.some 0x3d
  plain : ∀ p ∈ r.fields, ∀ b ∈ p.1 ++ p.2, b ≠ 0x5c ∧ b ≠ 0x0a
  /-- Each field once. -/
  different : (r.fields.map Prod.fst).Nodup

/-- A file with these characters, and other lines. -/
def CharFile : List Str → List CharRecord → Prop
  | [], rs => rs = []
  | l :: ls, rs =>
    ((¬ u8!"<char cp=" <:+: l) ∧ CharFile ls rs) ∨ ∃ r rs', rs = r :: rs' ∧ l = r.text ∧ r.Fits ∧ CharFile ls rs'

/-- Codes that can be given: four hex digits, or five for the planes 1 to 14. -/
def GivenCode (s : Str) : Prop :=
  (∀ b ∈ s, (0x30 ≤ b ∧ b ≤ 0x39) ∨ (0x41 ≤ b ∧ b ≤ 0x46) ∨ (0x61 ≤ b ∧ b ≤ 0x66)) ∧
  (s.length = 4 ∨ s.length = 5 ∧ s.head? ≠ some 0x30 ∧ s.head? ≠ some 0x46 ∧ s.head? ≠ some 0x66)

/-- Upper-case. -/
def capital (b : UInt8) : UInt8 := if b.toNat ∈ [0x61, 0x62, 0x63, 0x64, 0x65, 0x66] then b - 32 else b

/-- A field as it is shown. -/
def shownField (p : Str × Str) : Str := p.1 ++ u8!": " ++ p.2

/-- The value shown for a field of the first line with `-p`. -/
def generalField (fields : List (Str × Str)) (name : Str) : Str :=
  u8!", " ++ match fields.lookup name with
    | some v => name ++ u8!": " ++ v
    | none => []

/-- Fields of CJK characters: 'k' and an upper-case letter. -/
def isCjkField (p : Str × Str) : Bool :=
  match p.1 with
  | 0x6b :: b :: _ => decide (0x41 ≤ b.toNat ∧ b.toNat ≤ 0x5a)
  | _ => false

/-- The fields of the first character that the second doesn't have with the same value. -/
def onlyIn (f g : List (Str × Str)) : List (Str × Str) := f.filter fun p => !g.contains p

/-- The fields that both have are in the same order. -/
def SameOrder (f g : List (Str × Str)) : Prop :=
  (f.map Prod.fst).filter (fun n => (g.map Prod.fst).contains n) = (g.map Prod.fst).filter fun n => (f.map Prod.fst).contains n

/-- A character in a heading, `utf8` is how it is written. -/
def charHeading (code utf8 file : Str) : Str := u8!"Code " ++ code ++ u8!" (" ++ utf8 ++ u8!") from '" ++ file ++ u8!"'\n"

/-- What is shown of one of two characters. -/
def differencesText (code utf8 file : Str) (d : List (Str × Str)) : Str :=
  if d = [] then [] else charHeading code utf8 file ++ d.flatMap fun p => u8!"  " ++ fieldText p ++ u8!"\n"

/-! ## diff -/

/-- `whole` consists of the lines of `kept` and of `other`, each in order. -/
inductive Parts : List Str → List Str → List Str → Prop where
  | nil : Parts [] [] []
  | kept (l whole kept other) : Parts whole kept other → Parts (l :: whole) (l :: kept) other
  | other (l whole kept other) : Parts whole kept other → Parts (l :: whole) kept (l :: other)

/-- What `diff` does: the lines not marked are a longest list of common lines. -/
def IsDiff (a b : List Str) (d : List Str × List Str) : Prop :=
  ∃ c, Parts a c d.1 ∧ Parts b c d.2 ∧ ∀ c' : List Str, c'.Sublist a → c'.Sublist b → c'.length ≤ c.length

/-! ## Arguments -/

/-- The options without `-d`. -/
inductive PrintOption where
  | file (f : Str)
  | cjk

def PrintOption.words : PrintOption → List Str
  | .file f => [u8!"-f", f]
  | .cjk => [u8!"-p"]

/-- The options behind `-d`. -/
inductive DiffOption where
  | old (f : Str)
  | new (f : Str)

def DiffOption.words : DiffOption → List Str
  | .old f => [u8!"-o", f]
  | .new f => [u8!"-n", f]

/-- The last file given. -/
def printFile (opts : List PrintOption) (file : Str) : Str :=
  ((opts.filterMap fun | .file f => some f | .cjk => none).getLast?).getD file

def oldOf (opts : List DiffOption) (file : Str) : Str :=
  ((opts.filterMap fun | .old f => some f | .new _ => none).getLast?).getD file

def newOf (opts : List DiffOption) (file : Str) : Str :=
  ((opts.filterMap fun | .new f => some f | .old _ => none).getLast?).getD file

end Spec
