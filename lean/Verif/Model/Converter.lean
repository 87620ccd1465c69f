import Verif.Model.Utf8Char
import Verif.Model.Str
/-!
# Model of class Converter (libs/kana/src/Converter.cpp)
-/
namespace KT

/-- An optional value where a missing one stands for undefined behaviour. -/
def Res.ofOption {α : Type} : Option α → Res α
  | some a => .ok a
  | none => .ub

/-- `Apostrophe`, `Dash` (libs/kana/include/kt_kana/Converter.h:92). -/
def apostrophe : UInt8 := 0x27
def dash : UInt8 := 0x2d

/-- How `Tokens::Tokens` (Converter.cpp:10-23) classifies a `Kana` by its Romaji. -/
inductive TokenClass where
  | startsWithN | afterN | small | otherSmall | consonant (b : UInt8) | empty
  deriving DecidableEq, Repr

/-- The chain of tests at Converter.cpp:12-22.  `empty` stands for an empty Romaji, for which `r[0]`
would be the terminating NUL; there is none in the table. -/
def tokenClass (r : Str) : TokenClass :=
  match r with
  | [] => .empty
  | b :: _ =>
    if b = 0x6e then .startsWithN
    else if r.length = 1 ∨ r = u8!"ya" ∨ r = u8!"yu" ∨ r = u8!"yo" then .afterN
    else if b = 0x6c then
      if r ≠ smallTsu.romaji ∧ (u8!"lk").isPrefixOf r = false then .small else .otherSmall
    else .consonant b

/-- The loop at Converter.cpp:11 visits the values of the Hiragana map. -/
def tokenKana : List Kana := (kanaMap .hiragana).map Prod.snd

/-- `repeatingConsonants()` (Converter.cpp:22 and 149-151). -/
def repeatingConsonants : List UInt8 :=
  tokenKana.filterMap fun k => match tokenClass k.romaji with
    | .consonant b => some b
    | _ => none

/-- `afterN(source)` (Converter.cpp:14-15 and 141-143, Converter.h:103-105). -/
def afterN (source : CharType) : List Str :=
  (tokenKana.filter fun k => tokenClass k.romaji == .afterN).map fun k =>
    if source = .hiragana then k.hiragana else k.katakana

/-- `smallKana(source)` (Converter.cpp:17-20 and 145-147, Converter.h:106-108). -/
def smallKana (source : CharType) : List Str :=
  (tokenKana.filter fun k => tokenClass k.romaji == .small).map fun k =>
    if source = .hiragana then k.hiragana else k.katakana

/-- The arguments of the calls of `f` in `populateDelimLists` (Converter.cpp:39-45): the wide
character and, when given, the narrow one. -/
def delimArgs : List (Str × Option UInt8) := [
  (u8!"　", some 0x20), (u8!"！", none), (u8!"”", none), (u8!"＃", none), (u8!"＄", none),
  (u8!"％", none), (u8!"＆", none), (u8!"（", some 0x28), (u8!"）", none), (u8!"＊", none),
  (u8!"＋", none), (u8!"、", none), (u8!"。", some 0x2e), (u8!"・", none), (u8!"０", none),
  (u8!"１", none), (u8!"２", none), (u8!"３", none), (u8!"４", none), (u8!"５", none),
  (u8!"６", none), (u8!"７", none), (u8!"８", none), (u8!"９", none), (u8!"：", none),
  (u8!"；", none), (u8!"＜", none), (u8!"＝", none), (u8!"＞", none), (u8!"？", none),
  (u8!"＠", none), (u8!"「", some 0x5b), (u8!"￥", none), (u8!"」", none), (u8!"＾", none),
  (u8!"＿", none), (u8!"｀", none), (u8!"『", some 0x7b), (u8!"｜", none), (u8!"』", none),
  (u8!"〜", none)]

/-- The entries built by `f` (Converter.cpp:34-37): `narrow ? prevChar = narrow : ++prevChar`.  The
elements of the braced list are evaluated left to right. -/
def delimEntries : UInt8 → List (Str × Option UInt8) → List (UInt8 × Str)
  | _, [] => []
  | prev, (wide, narrow) :: r =>
    let c := narrow.getD (prev + 1)
    (c, wide) :: delimEntries c r

/-- `_narrowDelims` and `_wideDelims` (Converter.cpp:46-48).  Assigning twice to the same key would
keep the last value; the keys are different (`delims_nodup`). -/
def delims : List (UInt8 × Str) := delimEntries 0 delimArgs

/-- `narrowDelimList()` (Converter.cpp:10 and 46). -/
def narrowDelimList : List UInt8 := apostrophe :: dash :: delims.map Prod.fst

/-- `narrowDelims().at(c)`: throws `std::out_of_range` if there is no entry. -/
def narrowDelimAt (c : UInt8) : Res Str :=
  match delims.lookup c with
  | some w => .ok w
  | none => .throw .std

/-- `wideDelims().find(s)`. -/
def wideDelimFind (s : Str) : Option UInt8 := (delims.map fun p => (p.2, p.1)).lookup s

/-- A `Converter` object (Converter.h:196-197).  `ltr` is not part of the class: it says in which
order the compiler evaluates the operands of `+` at Converter.cpp:262-263, which both write
`prevKana`; the language leaves it unspecified, so every theorem is for both values. -/
structure Converter where
  target : CharType
  flags : ConvertFlags := .none
  ltr : Bool := true
  deriving DecidableEq, Repr

namespace Converter

/-- `get(const Kana&)` (Converter.cpp:165-167). -/
def get (c : Converter) (k : Kana) : Res Str := .ofOption (k.get c.target c.flags)

/-- `isN` (Converter.cpp:173). -/
def isN (s : Str) : Bool := s == u8!"n" || s == u8!"N"

/-- `enum class State`, `enum class DoneType` (Converter.h:175-176). -/
inductive State where
  | new | smallTsu | done
  deriving DecidableEq, Repr
inductive DoneType where
  | newGroup | newEmptyGroup | prolong
  deriving DecidableEq, Repr

/-- The `switch` at Converter.cpp:283-291. -/
def macronLetter (b : UInt8) : Option Str :=
  if b = 0x61 then some u8!"ā"
  else if b = 0x69 then some u8!"ī"
  else if b = 0x75 then some u8!"ū"
  else if b = 0x65 then some u8!"ē"
  else if b = 0x6f then some u8!"ō"
  else none

/-- `processKanaMacron` (Converter.cpp:278-295): the returned string and the updated `prevKana`. -/
def processKanaMacron (c : Converter) (prolong : Bool) (prevKana : Option Kana) (kana : Kana)
    (sokuon : Bool := false) : Res (Str × Option Kana) := do
  let result ← if sokuon then .ofOption (kana.getSokuonRomaji c.flags) else c.get kana
  if prolong then
    if c.target ≠ .romaji then .ok (result ++ prolongMark, prevKana)
    else match result.getLast? with
      | none => .ub
      | some b => match macronLetter b with
        | some m => .ok (result.dropLast ++ m, prevKana)
        | none => .ok (result ++ prolongMark, prevKana)
  else .ok (result, some kana)

/-- `processKana(firstKana, source, prevKana)` as called from itself (Converter.cpp:262 and 267): the
group is the first three bytes of a longer one, so it is not empty and not split again. -/
def processFirstKana (c : Converter) (source : CharType) (group : Str) :
    Res (Str × Option Kana) :=
  match findKana source group with
  | some k => c.processKanaMacron false none k
  | none => .ok (group, none)

/-- `processKana` (Converter.cpp:247-276): the returned string and the updated `prevKana`. -/
def processKana (c : Converter) (source : CharType) (group : Str) (prevKana : Option Kana)
    (prolong : Bool := false) : Res (Str × Option Kana) :=
  if group ≠ [] then
    match findKana source group with
    | some k => c.processKanaMacron prolong none k
    | none =>
      if group.length > 3 then
        let firstKana := group.take 3
        match findKana source (group.drop 3) with
        | some k =>
          if c.target = .romaji ∧ smallTsu.containsKana firstKana ∧
              (∃ b ∈ k.romaji.head?, b ∈ repeatingConsonants)
          then c.processKanaMacron prolong none k true
          else if c.ltr then do
            let (a, p1) ← c.processFirstKana source firstKana
            let (b, p2) ← c.processKanaMacron prolong p1 k
            .ok (a ++ b, p2)
          else do
            let (b, _) ← c.processKanaMacron prolong none k
            let (a, p2) ← c.processFirstKana source firstKana
            .ok (a ++ b, p2)
        | none => do
          let (a, p) ← c.processFirstKana source firstKana
          .ok (a ++ group.drop 3, p)
      else .ok (group, none)
  else if prolong then .ok (prolongMark, prevKana)
  else .ok (group, prevKana)

/-- The local variables of `fromKana` (Converter.cpp:176-178). -/
structure FromState where
  state : State := .new
  result : Str := []
  kanaGroup : Str := []
  prevKana : Option Kana := none
  deriving DecidableEq, Repr

/-- The lambda `done` (Converter.cpp:182-191). -/
def doneGroup (c : Converter) (source : CharType) (kana : Str) (st : FromState)
    (dt : DoneType := .newGroup) (ns : State := .new) : Res FromState := do
  let (s, p) ← c.processKana source st.kanaGroup st.prevKana (dt == .prolong)
  let result := st.result ++ s
  let result :=
    if c.target = .romaji ∧ kanaN.containsKana st.kanaGroup ∧ kana ∈ afterN source
    then result ++ [apostrophe] else result
  .ok { state := ns, result := result,
        kanaGroup := if dt = .newGroup then kana else [], prevKana := p }

/-- `processOneKana` (Converter.cpp:218-245) together with `kanaGroup += kana` of its caller
(Converter.cpp:202-203). -/
def processOneKana (c : Converter) (source : CharType) (kana : Str) (st : FromState) :
    Res FromState :=
  if smallTsu.containsKana kana then c.doneGroup source kana st .newGroup .smallTsu
  else if kanaN.containsKana kana then c.doneGroup source kana st .newGroup .done
  else if st.state ≠ .done then
    if kana ∈ smallKana source then
      .ok { st with state := .done, kanaGroup := st.kanaGroup ++ kana }
    else if st.kanaGroup.length ≤ (if st.state = .smallTsu then 3 else 0) then
      .ok { st with kanaGroup := st.kanaGroup ++ kana }
    else c.doneGroup source kana st
  else c.doneGroup source kana st

/-- Body of the loop of `fromKana` (Converter.cpp:193-214). -/
def fromKanaStep (c : Converter) (source : CharType) (st : FromState) (kana : Str) :
    Res FromState :=
  if kana = prolongMark then c.doneGroup source kana st .prolong
  else match findIterationMark source kana with
    | some m => do
      let st ← c.doneGroup source kana st .newEmptyGroup
      let s ← Res.ofOption (m.get c.target c.flags st.prevKana)
      .ok { st with result := st.result ++ s }
    | none =>
      if (findKana source kana).isSome then c.processOneKana source kana st
      else do
        let st ← c.doneGroup source kana st .newEmptyGroup
        if c.target = .romaji then
          match wideDelimFind kana with
          | some n => .ok { st with result := st.result ++ [n] }
          | none => .ok { st with result := st.result ++ kana }
        else .ok { st with result := st.result ++ kana }

/-- The loop over the characters. -/
def fromKanaLoop (c : Converter) (source : CharType) : FromState → List Str → Res FromState
  | st, [] => .ok st
  | st, k :: ks => do
    let st ← c.fromKanaStep source st k
    fromKanaLoop c source st ks

/-- `fromKana` on the characters delivered by `Utf8Char::next`. -/
def fromKanaChars (c : Converter) (source : CharType) (ks : List Str) : Res Str := do
  let st ← c.fromKanaLoop source {} ks
  let (s, _) ← c.processKana source st.kanaGroup st.prevKana
  .ok (st.result ++ s)

/-- `fromKana` (Converter.cpp:175-216). -/
def fromKana (c : Converter) (source : CharType) (input : Str) : Res Str :=
  match utf8Chars input false with
  | none => .ub
  | some (ks, _) => c.fromKanaChars source ks

/-- The variables `letters` and `result` of `toKana` (Converter.cpp:298). -/
structure ToState where
  letters : Str := []
  result : Str := []
  deriving DecidableEq, Repr

/-- `processRomaji` (Converter.cpp:330-350) for a string that doesn't have three letters. -/
def processRomajiShort (c : Converter) (st : ToState) : Res ToState :=
  match findKana .romaji (toLower st.letters) with
  | some k => do
    let s ← c.get k
    .ok { letters := [], result := st.result ++ s }
  | none => .ok st

/-- `processRomaji` (Converter.cpp:330-350); the recursive call at line 348 has two letters. -/
def processRomaji (c : Converter) (st : ToState) : Res ToState :=
  match st.letters with
  | [x0, x1, x2] =>
    match findKana .romaji (toLower st.letters) with
    | some k => do
      let s ← c.get k
      .ok { letters := [], result := st.result ++ s }
    | none => do
      let l0 := toLowerChar x0
      let l1 := toLowerChar x1
      let s ← if l0 = 0x6e then c.get kanaN
        else if l0 = l1 ∨ l0 = 0x74 ∧ l1 = 0x63 then
          if x0 ∈ repeatingConsonants then c.get smallTsu else .ok [x0]
        else .ok [x0]
      c.processRomajiShort { letters := [x1, x2], result := st.result ++ s }
  | _ => c.processRomajiShort st

/-- `Macrons` (Converter.cpp:354-356). -/
def macrons : List (Str × UInt8 × Str) :=
  [(u8!"ā", 0x61, u8!"あ"), (u8!"ī", 0x69, u8!"い"), (u8!"ū", 0x75, u8!"う"),
   (u8!"ē", 0x65, u8!"え"), (u8!"ō", 0x6f, u8!"お")]

/-- `processRomajiMacron` (Converter.cpp:352-379); `none` if it returns false. -/
def processRomajiMacron (c : Converter) (letter : Str) (st : ToState) : Option (Res ToState) :=
  match macrons.lookup letter with
  | none => none
  | some (vowel, double) => some do
    let st ← c.processRomaji { st with letters := st.letters ++ [vowel] }
    if st.letters = [] then
      .ok { st with result := st.result ++
              (if c.target = .hiragana ∧ c.flags.noProlongMark then double else prolongMark) }
    else
      c.processRomaji { letters := [vowel], result := st.result ++ st.letters.dropLast }

/-- Body of the loop of `toKana` (Converter.cpp:299-317). -/
def toKanaStep (c : Converter) (st : ToState) (letter : Str) : Res ToState :=
  if isSingleByte letter then
    if !isN letter then c.processRomaji { st with letters := st.letters ++ letter }
    else if st.letters = [] then .ok { st with letters := letter }
    else if isN st.letters then do
      let n ← c.get kanaN
      .ok { st with result := st.result ++ n }
    else .ok { letters := letter, result := st.result ++ st.letters }
  else match c.processRomajiMacron letter st with
    | some r => r
    | none => do
      let st ← c.processRomaji st
      .ok { st with result := st.result ++ letter }

/-- The loop over the characters. -/
def toKanaLoop (c : Converter) : ToState → List Str → Res ToState
  | st, [] => .ok st
  | st, x :: xs => do
    let st ← c.toKanaStep st x
    toKanaLoop c st xs

/-- The final loop of `toKana` (Converter.cpp:318-326); running out of `fuel` is reported as
undefined behaviour, so an `ok` result also means that the loop ended. -/
def toKanaEnd (c : Converter) : Nat → ToState → Res Str
  | 0, st => if st.letters = [] then .ok st.result else .ub
  | fuel + 1, st =>
    match st.letters with
    | [] => .ok st.result
    | x :: xs =>
      if isN st.letters then do
        let n ← c.get kanaN
        toKanaEnd c fuel { letters := [], result := st.result ++ n }
      else do
        let st ← c.processRomaji { letters := xs, result := st.result ++ [x] }
        toKanaEnd c fuel st

/-- `toKana` on the characters delivered by `Utf8Char::next`. -/
def toKanaChars (c : Converter) (xs : List Str) : Res Str := do
  let st ← c.toKanaLoop {} xs
  c.toKanaEnd st.letters.length st

/-- `toKana` (Converter.cpp:297-328). -/
def toKana (c : Converter) (input : Str) : Res Str :=
  match utf8Chars input false with
  | none => .ub
  | some (xs, _) => c.toKanaChars xs

/-- The loop of `convert(CharType, const String&)` for Romaji (Converter.cpp:124-138): `word` is the
part since `oldPos` and `find_first_of` looks for the next delimiter. -/
def convertRomajiLoop (c : Converter) : Str → Str → Str → Res Str
  | [], word, result => do
    let w ← c.toKana word
    .ok (result ++ w)
  | b :: r, word, result =>
    if b ∈ narrowDelimList then do
      let w ← c.toKana word
      let d ← if b ≠ apostrophe ∧ b ≠ dash ∧ (c.flags.removeSpaces = false ∨ b ≠ 0x20)
        then narrowDelimAt b else .ok []
      convertRomajiLoop c r [] (result ++ w ++ d)
    else convertRomajiLoop c r (word ++ [b]) result

/-- `convert(CharType source, const String& input)` (Converter.cpp:118-139). -/
def convertFrom (c : Converter) (source : CharType) (input : Str) : Res Str :=
  if source = c.target then .ok input
  else match source with
    | .hiragana => c.fromKana source input
    | .katakana => c.fromKana source input
    | .romaji => c.convertRomajiLoop input [] []

/-- `convert(const String&)` (Converter.cpp:97-102). -/
def convert (c : Converter) (input : Str) : Res Str :=
  charTypes.foldlM (init := input) fun result i =>
    if c.target ≠ i then c.convertFrom i result else .ok result

end Converter
end KT
