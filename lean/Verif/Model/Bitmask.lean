import Verif.Model.KanaConvert
import Verif.Model.QuizDetails
/-!
# Model of the bitmask operators (libs/utils/include/kt_utils/Bitmask.h) and of the two bitmasks

A value of an enum is the value of its underlying unsigned type with `w` bits.
-/
namespace KT

/-- `to_enum<T>(u)` (TypeTraits.h:39-42): the argument is converted to the unsigned type. -/
def bmEnum (w : Nat) (u : Int) : Nat := (u % 2 ^ w).toNat

/-- Bitmask.h:29-31.  For types smaller than `int` the operands are converted to `int`, which keeps their values. -/
def bmAnd (w x y : Nat) : Nat := bmEnum w ((x &&& y : Nat) : Int)

/-- Bitmask.h:34-36. -/
def bmOr (w x y : Nat) : Nat := bmEnum w ((x ||| y : Nat) : Int)

/-- Bitmask.h:39-41. -/
def bmXor (w x y : Nat) : Nat := bmEnum w ((x ^^^ y : Nat) : Int)

/-- Bitmask.h:44-46; the complement of an `int` is `-x - 1`, for an unsigned type the result is the same after the
conversion. -/
def bmNot (w x : Nat) : Nat := bmEnum w (-(x : Int) - 1)

/-- Bitmask.h:65-67. -/
def bmHasValue (x : Nat) : Bool := x != 0

/-- Bitmask.h:71-73. -/
def bmEmpty (x : Nat) : Bool := !bmHasValue x

/-! ## Flags for conversions -/

/-- The values of `ConvertFlags` (KanaEnums.h:60-66), an 8-bit type. -/
def flagHepburn : Nat := 1
def flagKunrei : Nat := 2
def flagNoProlongMark : Nat := 4
def flagRemoveSpaces : Nat := 8

/-- The bits that are tested (Converter.cpp:126 and 362, Kana.cpp:273-276, KanaConvert.cpp:231). -/
def flagsOfBits (n : Nat) : ConvertFlags where
  hepburn := bmHasValue (bmAnd 8 n flagHepburn)
  kunrei := bmHasValue (bmAnd 8 n flagKunrei)
  noProlongMark := bmHasValue (bmAnd 8 n flagNoProlongMark)
  removeSpaces := !bmEmpty (bmAnd 8 n flagRemoveSpaces)

/-- `setFlag` (KanaConvert.cpp:278-280). -/
def setFlagBits (n value : Nat) : Nat := bmOr 8 n value

/-- The lambda `flag` of `flagString` (Converter.cpp:84-89). -/
def flagAdd (n f : Nat) (v : Str) (result : Str) : Str :=
  if bmHasValue (bmAnd 8 n f) then (if result.isEmpty then result else result ++ u8!"|") ++ v else result

/-- `flagString` (Converter.cpp:81-95). -/
def flagString (n : Nat) : Str :=
  if n = 0 then u8!"None"
  else
    let result := flagAdd n flagHepburn (u8!"Hepburn") []
    let result := flagAdd n flagKunrei (u8!"Kunrei") result
    let result := flagAdd n flagNoProlongMark (u8!"NoProlongMark") result
    flagAdd n flagRemoveSpaces (u8!"RemoveSpaces") result

/-- The names of `CharTypes` (KanaEnums.h:19-20). -/
def CharType.toString : CharType → Str
  | .hiragana => u8!"Hiragana"
  | .katakana => u8!"Katakana"
  | .romaji => u8!"Romaji"

/-- The first line of `printOptions` (KanaConvert.cpp:247-252). -/
def optionsLine (source : Option CharType) (target : CharType) (flags : Nat) : Str :=
  u8!">>> current options: source=" ++ (match source with | some s => s.toString | none => u8!"any") ++
    u8!", target=" ++ target.toString ++ u8!", flags=" ++ flagString flags

/-- `printOptions` (KanaConvert.cpp:247-255). -/
def optionsText (source : Option CharType) (target : CharType) (flags : Nat) : Str :=
  optionsLine source target flags ++
    u8!"\n>>> enter string (c=clear flags, f=set flag, q=quit, h=help, -k|-h|-r|-K|-H|-R):\n"

/-! ## Fields of kanji -/

/-- The values of `Kanji::Info` (Kanji.h:35-46), a 16-bit type. -/
def infoAll : Nat := 511
def infoGrade : Nat := 8
def infoLevel : Nat := 16
def infoFreq : Nat := 32
def infoKyu : Nat := 256

/-- The bits that are tested (Kanji.cpp:46-82, QuizLauncher.cpp:163-175). -/
def fieldsOfBits (n : Nat) : InfoFields :=
  let has (f : Nat) : Bool := bmHasValue (bmAnd 16 n f)
  ⟨has 1, has 2, has 4, has infoGrade, has infoLevel, has infoFreq, has 64, has 128, has infoKyu⟩

/-- The field left out for a quiz type (QuizLauncher.cpp:120-142), `none` for group quizzes. -/
def excludedField (quizType : UInt8) : Option Nat :=
  if quizType = 0x66 then some infoFreq
  else if quizType = 0x67 then some infoGrade
  else if quizType = 0x6b then some infoKyu
  else if quizType = 0x6c then some infoLevel
  else none

/-- `Kanji::Info::All ^ excludeField` (QuizLauncher.cpp:231). -/
def shownFields (excluded : Nat) : Nat := bmXor 16 infoAll excluded

end KT
