import Verif.Model.KanaTable
/-!
# Model of class Kana (libs/kana/src/Kana.cpp, libs/kana/include/kt_kana/Kana.h)
-/
namespace KT

/-- `enum class CharType` (libs/kana/include/kt_kana/KanaEnums.h:11-15). -/
inductive CharType where
  | hiragana | katakana | romaji
  deriving DecidableEq, Repr

/-- `CharTypes` (KanaEnums.h:18-19), in order. -/
def charTypes : List CharType := [.hiragana, .katakana, .romaji]

/-- `enum class ConvertFlags` (KanaEnums.h:60-66) as the set of its bits. -/
structure ConvertFlags where
  hepburn : Bool := false
  kunrei : Bool := false
  noProlongMark : Bool := false
  removeSpaces : Bool := false
  deriving DecidableEq, Repr

/-- `ConvertFlags::None`. -/
def ConvertFlags.none : ConvertFlags := {}

/-- A `Kana` object, that is, a `const Kana*` into the static tables: a plain `Kana` of `KanaList`,
a `DakutenKana` or its `_dakuten` member, a `HanDakutenKana` or its `_dakuten` or `_hanDakuten`
member.  Two pointers are equal when they are the same member of the same table entry; the table
entries are pairwise different (`C25_*`). -/
inductive Kana where
  | kana (k : KanaRec)
  | dPlain (k d : KanaRec)
  | dDakuten (k d : KanaRec)
  | hPlain (k d h : KanaRec)
  | hDakuten (k d h : KanaRec)
  | hHanDakuten (k d h : KanaRec)
  deriving DecidableEq, Repr

namespace Kana

/-- The base class fields. -/
def rec' : Kana → KanaRec
  | kana k => k
  | dPlain k _ => k
  | dDakuten _ d => d
  | hPlain k _ _ => k
  | hDakuten _ d _ => d
  | hHanDakuten _ _ h => h

/-- `romaji()`, `hiragana()`, `katakana()` (Kana.h:205-207). -/
def romaji (k : Kana) : Str := k.rec'.romaji
def hiragana (k : Kana) : Str := k.rec'.hiragana
def katakana (k : Kana) : Str := k.rec'.katakana

/-- `dakuten()` (Kana.cpp:242 and 348, virtual). -/
def dakuten : Kana → Option Kana
  | dPlain k d => some (dDakuten k d)
  | hPlain k d h => some (hDakuten k d h)
  | _ => none

/-- `hanDakuten()` (Kana.cpp:243 and 355, virtual). -/
def hanDakuten : Kana → Option Kana
  | hPlain k d h => some (hHanDakuten k d h)
  | _ => none

/-- `plain()` (Kana.cpp:244 and 353, virtual); `_plain` is set to the enclosing object
(Kana.cpp:417-424). -/
def plain : Kana → Option Kana
  | dDakuten k d => some (dPlain k d)
  | hDakuten k d h => some (hPlain k d h)
  | hHanDakuten k d h => some (hPlain k d h)
  | _ => none

/-- `getRomaji` (Kana.cpp:272-278).  `romajiVariants()[0]` on an empty list would be undefined
behaviour; `none` stands for that. -/
def getRomaji (k : Kana) (f : ConvertFlags) : Option Str :=
  match f.hepburn, k.rec'.hepburn with
  | true, some h => some h
  | _, _ =>
    if f.kunrei && k.rec'.kunreiVariant then k.rec'.variants.head?
    else match f.kunrei, k.rec'.kunrei with
      | true, some r => some r
      | _, _ => some k.romaji

/-- `getSokuonRomaji` (Kana.cpp:280-283).  For an empty string `r[0]` is the terminating NUL. -/
def getSokuonRomaji (k : Kana) (f : ConvertFlags) : Option Str :=
  (k.getRomaji f).map fun r =>
    let c : UInt8 := match r with
      | [] => 0
      | b :: _ => b
    (if c = 0x63 then 0x74 else c) :: r

/-- `get` (Kana.cpp:285-292). -/
def get (k : Kana) (t : CharType) (f : ConvertFlags) : Option Str :=
  match t with
  | .romaji => k.getRomaji f
  | .hiragana => some k.hiragana
  | .katakana => some k.katakana

/-- `dakuten(CharType)`, `hanDakuten(CharType)` (Kana.cpp:246-254) for the two kana types, the only
ones used. -/
def dakutenStr (k : Kana) (t : CharType) : Option Str := k.dakuten.bind fun i => i.get t .none
def hanDakutenStr (k : Kana) (t : CharType) : Option Str := k.hanDakuten.bind fun i => i.get t .none

/-- `containsKana` (Kana.cpp:294-296). -/
def containsKana (k : Kana) (s : Str) : Bool := s == k.hiragana || s == k.katakana

/-- `isSmall`, `isMonograph`, `isDigraph` (Kana.cpp:256-258). -/
def isSmall (k : Kana) : Bool := k.romaji.head? == some 0x6c
def isMonograph (k : Kana) : Bool := k.hiragana.length == 3
def isDigraph (k : Kana) : Bool := k.hiragana.length == 6

/-- `isDakuten` (Kana.cpp:260-265). -/
def isDakuten (k : Kana) : Bool :=
  match k.plain with
  | some p => p.dakuten == some k
  | none => k.romaji.head? == some 0x76

/-- `isHanDakuten` (Kana.cpp:267-270). -/
def isHanDakuten (k : Kana) : Bool :=
  match k.plain with
  | some p => p.hanDakuten == some k
  | none => false

end Kana

/-- The `Kana` objects in the order in which `populate` visits them (Kana.cpp:334-343). -/
def allKana : List Kana :=
  kanaList.map Kana.kana ++
  dakutenKanaList.flatMap (fun x => [Kana.dPlain x.1 x.2, Kana.dDakuten x.1 x.2]) ++
  hanDakutenKanaList.flatMap (fun x => [Kana.hPlain x.1 x.2.1 x.2.2, Kana.hDakuten x.1 x.2.1 x.2.2,
    Kana.hHanDakuten x.1 x.2.1 x.2.2])

/-- The keys under which `populate` inserts a `Kana` (Kana.cpp:323-332). -/
def kanaKeys (t : CharType) (k : Kana) : List Str :=
  match t with
  | .romaji => k.romaji :: k.rec'.variants
  | .hiragana => [k.hiragana]
  | .katakana => [k.katakana]

/-- `populate` (Kana.cpp:311-346): the insertions in order; `emplace` keeps the first entry for a
key, and so does `List.lookup`. -/
def kanaMap (t : CharType) : List (Str × Kana) :=
  allKana.flatMap fun k => (kanaKeys t k).map fun s => (s, k)

/-- `getMap(t).find(s)` (Kana.cpp:217-224). -/
def findKana (t : CharType) (s : Str) : Option Kana := (kanaMap t).lookup s

/-- `Kana::SmallTsu` and `Kana::N` (Kana.cpp:175-176); the index arithmetic on `KanaList` is checked
in `smallTsu_entry` and `kanaN_entry`. -/
def smallTsu : Kana :=
  .kana (.mkV (u8!"ltu") (u8!"っ") (u8!"ッ") [u8!"xtu"] false)
def kanaN : Kana := .kana (.mk0 (u8!"n") (u8!"ん") (u8!"ン"))

theorem smallTsu_entry : (kanaList[kanaList.length - 2]?).map Kana.kana = some smallTsu := by decide
theorem kanaN_entry : (kanaList[kanaList.length - 1]?).map Kana.kana = some kanaN := by decide

/-- `Kana::ProlongMark` (Kana.h:41). -/
def prolongMark : Str := u8!"ー"

/-- `class IterationMark` (Kana.h:106-142). -/
structure IterationMark where
  hiragana : Str
  katakana : Str
  dakuten : Bool
  deriving DecidableEq, Repr

/-- `RepeatPlain`, `RepeatAccented` (Kana.cpp:172-173). -/
def repeatPlain : IterationMark := ⟨u8!"ゝ", u8!"ヽ", false⟩
def repeatAccented : IterationMark := ⟨u8!"ゞ", u8!"ヾ", true⟩

/-- `IterationMark::matches` (Kana.cpp:178-181). -/
def IterationMark.matches (m : IterationMark) (t : CharType) (s : Str) : Bool :=
  t == .hiragana && m.hiragana == s || t == .katakana && m.katakana == s

/-- `IterationMark::get` (Kana.cpp:183-197). -/
def IterationMark.get (m : IterationMark) (target : CharType) (f : ConvertFlags)
    (prevKana : Option Kana) : Option Str :=
  match target with
  | .hiragana => some m.hiragana
  | .katakana => some m.katakana
  | .romaji =>
    match prevKana with
    | none => some []
    | some p =>
      let k := if m.dakuten then p.dakuten.getD p else p.plain.getD p
      k.getRomaji f

/-- `findIterationMark` (Kana.cpp:210-215). -/
def findIterationMark (source : CharType) (s : Str) : Option IterationMark :=
  if repeatPlain.matches source s then some repeatPlain
  else if repeatAccented.matches source s then some repeatAccented
  else none

/-- `findDakuten` (Kana.cpp:226-232). -/
def findDakuten (s : Str) : Option Str :=
  match findKana .hiragana s with
  | some k => k.dakutenStr .hiragana
  | none => match findKana .katakana s with
    | some k => k.dakutenStr .katakana
    | none => none

/-- `findHanDakuten` (Kana.cpp:234-240). -/
def findHanDakuten (s : Str) : Option Str :=
  match findKana .hiragana s with
  | some k => k.hanDakutenStr .hiragana
  | none => match findKana .katakana s with
    | some k => k.hanDakutenStr .katakana
    | none => none

end KT
