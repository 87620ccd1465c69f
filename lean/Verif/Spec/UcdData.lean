import Verif.Model.UcdData
import Verif.Spec.Text
import Verif.Spec.Unicode
/-!
# Specification of the UCD file

The types are those of `Model/UcdData.lean` (the records that are loaded); no function of the model decides
anything here, except `decode` (the characters of a text, see `Spec/Utf8.lean`).
-/
namespace Spec
open KT

/-- How the link types are written (Ucd.h:130-155). -/
def linkTypeText : LinkType → Str
  | .compatibilityR => u8!"Compatibility*"
  | .definitionR => u8!"Definition*"
  | .jinmeiR => u8!"Jinmei*"
  | .semanticR => u8!"Semantic*"
  | .simplifiedR => u8!"Simplified*"
  | .traditionalR => u8!"Traditional*"
  | .compatibility => u8!"Compatibility"
  | .definition => u8!"Definition"
  | .jinmei => u8!"Jinmei"
  | .simplified => u8!"Simplified"
  | .traditional => u8!"Traditional"
  | .none => []

/-- A name is a kanji (perhaps with a mark) with the given code. -/
def KanjiEntry (code : Nat) (name : Str) : Prop :=
  name.length ≤ 8 ∧ OneOf Kanji (decode name) ∧ (decode name).head? = some code

/-- The fields of a comma separated cell; a comma at the end is ignored. -/
def commaFields (s : Str) : List Str := dropEmptyLast (split 0x2c s)

/-- Everything an entry adds to the data: the entry itself and its links, which are found under "jinmei" or under
"other". -/
def ucdJinmeiLinks (us : List UcdRec) : List (Str × Str) :=
  (us.filter fun u => u.isJinmei).flatMap fun u => u.links.map fun l => (l, u.name)

/-- The names of the entries that aren't "jinmei" and have a link to `l` (once for each such link). -/
def ucdOtherLinks (us : List UcdRec) (l : Str) : List Str :=
  (us.filter fun u => !u.isJinmei).flatMap fun u => (u.links.filter fun x => x == l).map fun _ => u.name

/-- Words are separated by spaces or commas. -/
def readingWords (s : Str) : List Str := split 0x2c (s.map fun b => if b = 0x20 then 0x2c else b)

/-- Texts with "、" between them. -/
def wideCommas : List Str → Str
  | [] => []
  | [w] => w
  | w :: v :: ws => w ++ u8!"、" ++ wideCommas (v :: ws)

/-- How many of the entries have each feature. -/
def featureCounts (us : List UcdRec) : PrintCount :=
  { count := us.length
    link := (us.filter fun u => decide (u.links ≠ [])).length
    variantStrokes := (us.filter fun u => decide (u.strokes.variant ≠ 0)).length
    meaning := (us.filter fun u => decide (u.meaning ≠ [])).length
    onReading := (us.filter fun u => decide (u.on ≠ [])).length
    kunReading := (us.filter fun u => decide (u.kun ≠ [])).length
    morohashi := (us.filter fun u => decide (u.morohashiId.id ≠ 0)).length
    nelson := (us.filter fun u => decide (u.nelsonIds ≠ [])).length }

end Spec
