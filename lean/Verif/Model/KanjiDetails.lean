import Verif.Model.QuizDetails
import Verif.Model.QuizLauncher
import Verif.Model.UcdData
import Verif.Model.StatsReport
/-!
# Model of `kanjiQuiz <kanji>` (libs/quiz/src/QuizLauncher.cpp:158-161, 291-296, 315-381)

An exception ends the program with its message on standard error (apps/quizMain.cpp).  All exceptions are thrown
before anything is written to `out()`, apart from those that C164 shows to be impossible.
-/
namespace KT

/-- The data used to show a kanji; `extra` is `extraTypeInfo` (`NumberedInfo.extraTypeInfo` for the kanji of the
files of numbered kanji, nothing for others). -/
structure DetailStore where
  store : KanjiStore := {}
  ucd : UcdData := {}
  detail : DetailData
  extra : KanjiRec → Option Str

/-- `printExtraTypeInfo` (QuizLauncher.cpp:158-161). -/
def printExtraTypeInfo (type : KanjiType) (extra : Option Str) : Str :=
  u8!", " ++ kanjiTypeText type ++
    match extra with
    | some i => u8!" (" ++ i ++ u8!")"
    | none => []

/-- QuizLauncher.cpp:367-371. -/
def printUcd (u : UcdRec) : Str :=
  u8!", Blk " ++ u.block ++ u8!", Ver " ++ u.version ++
    (if u.sourcesText.isEmpty then []
     else u8!", Sources " ++ u.sourcesText ++ (if u.jSource.isEmpty then [] else u8!" (" ++ u.jSource ++ u8!")"))

/-- What is written about a loaded kanji (QuizLauncher.cpp:373-376). -/
def loadedText (sort : List KanjiRec → List KanjiRec) (d : DetailStore) (k : KanjiRec) : Res Str :=
  (k.kanji.info {}).bind fun info =>
    (printReviewDetails sort d.detail k).bind fun review =>
      .ok (printExtraTypeInfo k.kanji.type (d.extra k) ++ u8!"\n" ++ info ++
        printMeaning (d.detail.meaning k) true true ++ review)

/-- `printDetails` (QuizLauncher.cpp:365-380) after the legend. -/
def detailText (sort : List KanjiRec → List KanjiRec) (d : DetailStore) (arg : Str) : Res Str :=
  (d.ucd.find arg).bind fun u =>
    (match u with
     | some u =>
       (match d.store.findByName arg with
        | some k => loadedText sort d k
        | none => .ok (u8!" --- Kanji not loaded'\n")).bind fun rest => Res.ok (printUcd u ++ rest)
     | none => Res.ok (u8!" --- Not found in 'ucd.txt'\n")).bind fun rest =>
      .ok (arg ++ u8!" " ++ toUnicodeStr arg .square ++ rest)

/-! ## Messages of exceptions -/

/-- How the program ends: with this output, or with an exception with this message. -/
inductive Shown where
  | text (s : Str)
  | error (message : Str)
  | ub
  deriving DecidableEq, Repr

/-- The loop of `validate` (MorohashiId.cpp:57-66) with the messages; see `validateLoop`. -/
def validateLoopWhy : Str → Bool → Nat → Except Str Nat
  | [], _, result => .ok result
  | c :: r, leading, result =>
    if leading ∧ c = 0x30 then validateLoopWhy r true result
    else if c < 0x30 ∨ c > 0x39 then .error (u8!"is non-numeric")
    else
      let x := c.toNat - 0x30
      if result > 65535 / 10 then .error (u8!"exceeds max")
      else
        let result := result * 10 % 65536
        if result > 65535 - x then .error (u8!"exceeds max")
        else validateLoopWhy r false ((result + x) % 65536)

/-- `validate` (MorohashiId.cpp:43-71) with the messages; see `morohashiValidate`. -/
def morohashiValidateWhy (s : Str) (prefixSize suffixSize : Nat) : Except Str Nat :=
  if s = [] ∧ prefixSize = 0 ∧ suffixSize = 0 then .ok 0
  else if (s.length : Int) - prefixSize - suffixSize = 0 then .error (u8!"is invalid")
  else
    match validateLoopWhy ((s.take (s.length - suffixSize)).drop prefixSize) true 0 with
    | .ok result => if (prefixSize ≠ 0 ∨ suffixSize ≠ 0) ∧ result = 0 then .error (u8!"can't be zero") else .ok result
    | .error e => .error e

/-- The constructor of `MorohashiId` (MorohashiId.cpp:26-41) with the whole message (MorohashiId.cpp:48-50). -/
def morohashiWhy (s : Str) : Except Str MorohashiId :=
  match (if isDoublePrime s then morohashiValidateWhy s 0 2
    else if isPrime s then morohashiValidateWhy s 0 1
    else if isSupplemental s then morohashiValidateWhy s 1 0
    else morohashiValidateWhy s 0 0) with
  | .ok id => .ok ⟨id, MorohashiId.getIdType s⟩
  | .error e => .error (u8!"Morohashi ID '" ++ s ++ u8!"' " ++ e)

/-- `getId` (QuizLauncher.cpp:291-296) for a string of digits, see `quizGetId`. -/
def getIdWhy (msg arg : Str) : Except Str Nat :=
  if arg = [] ∨ decimalValue arg > 65535 then .error (u8!"invalid " ++ msg ++ u8!" '" ++ arg ++ u8!"'")
  else .ok (decimalValue arg)

/-- The text of a call that doesn't throw one of the exceptions with a message below. -/
def Res.shown : Res Str → Shown
  | .ok s => .text s
  | .throw _ => .error []
  | .ub => .ub

/-- `processKanjiArg` (QuizLauncher.cpp:315-344). -/
def showKanji (sort : List KanjiRec → List KanjiRec) (d : DetailStore) (arg : Str) : Shown :=
  let one (name : Str) : Shown := (printOneDetail (detailText sort d) name true).shown
  let all (l : List KanjiRec) (name id : Str) : Shown :=
    (printMatches (detailText sort d) (l.map (·.kanji.name)) name id).shown
  if arg.all isDigitChar then
    match getIdWhy (u8!"frequency") arg with
    | .error e => .error e
    | .ok n =>
      match d.store.frequencies.find n with
      | .ok (some k) => one k.kanji.name
      | .ok none => .error (u8!"Kanji not found for frequency '" ++ arg ++ u8!"'")
      | _ => .ub
  else if arg.head? = some 0x6d then
    match morohashiWhy arg.tail with
    | .error e => .error e
    | .ok id => all (d.store.findByMorohashiId id) (u8!"Morohashi") id.toString
  else if arg.head? = some 0x6e then
    let id := arg.tail
    if id = [] ∨ id.all isDigitChar = false then .error (u8!"Nelson ID '" ++ id ++ u8!"' is non-numeric")
    else match getIdWhy (u8!"Nelson ID") id with
      | .error e => .error e
      | .ok n => all (d.store.findByNelsonId (UInt16.ofNat n)) (u8!"Nelson") id
  else if arg.head? = some 0x75 then
    let id := arg.tail
    if id.length < 4 ∨ id.length > 5 ∨ (id.length = 5 ∧ id.head? ≠ some 0x31 ∧ id.head? ≠ some 0x32) ∨
        id.all isHexChar = false then .error (u8!"Unicode value '" ++ id ++ u8!"' is invalid")
    else match toUtf8 [hexValue id] with
      | .ok name => one name
      | _ => .ub
  else if isKanji arg then one arg
  else .error (u8!"unrecognized 'kanji' value '" ++ arg ++ u8!"', use -h for help")

end KT
