import Verif.Model.Str
import Verif.Model.Decimal
/-!
# Model of the conversions to `char` (libs/utils/src/String.cpp:11-24, 84-119) and of the overloads for
`CodeString` of the tests for single bytes (String.cpp:125-146)

A `char` is its byte.  Simplification: `char` is signed (as on x86-64), so that its smallest value
is -128.
-/
namespace KT

/-- `std::to_string` of an `int`. -/
def intToDec (x : Int) : Str :=
  if x < 0 then u8!"-" ++ toDec x.natAbs else toDec x.natAbs

/-- The message of `rangeError(msg, x)` (String.cpp:11-13); `value` is the text of `x`, for the type
`Code` the one of String.cpp:14-16. -/
def charRangeText (msg value : Str) : Str := msg ++ u8!": '" ++ value ++ u8!"' out of range"

/-- `toCharUnsigned` (String.cpp:20-24): the byte or the text of the `RangeError`.  The type of `x` is
`uint16_t`, `uint32_t`, `size_t` or a not negative `int`; `type` is the name in the message. -/
def toCharUnsigned (x : Nat) (type value : Str) : Except Str UInt8 :=
  if x > 255 then .error (charRangeText (u8!"toChar (" ++ type ++ u8!")") value)
  else .ok (UInt8.ofNat x)

/-- `toChar(int, bool)` (String.cpp:86-93).  The cast of a negative number to `char` is its value
modulo 256. -/
def toCharInt (x : Int) (allowNegative : Bool := true) : Except Str UInt8 :=
  if allowNegative then
    if x < -128 then .error (charRangeText (u8!"toChar (int)") (intToDec x))
    else if x > 255 then toCharUnsigned x.toNat (u8!"int") (intToDec x)
    else .ok (UInt8.ofNat (x % 256).toNat)
  else if x < 0 then .error (charRangeText (u8!"toChar (positive int)") (intToDec x))
  else toCharUnsigned x.toNat (u8!"int") (intToDec x)

/-- `toChar(uint32_t)`, `toChar(uint16_t)`, `toChar(size_t)`, `toChar(Code)` (String.cpp:95-113). -/
def toCharU32 (x : Nat) : Except Str UInt8 := toCharUnsigned x (u8!"uint32_t") (toDec x)
def toCharU16 (x : Nat) : Except Str UInt8 := toCharUnsigned x (u8!"uint16_t") (toDec x)
def toCharSize (x : Nat) : Except Str UInt8 := toCharUnsigned x (u8!"size_t") (toDec x)
def toCharCode (x : Nat) : Except Str UInt8 :=
  toCharUnsigned x (u8!"Code") (toHex 4 x .none .lower 4)

/-- `toChar(uint8_t)` (String.cpp:115) and `toUChar` (String.cpp:117). -/
def toCharU8 (x : UInt8) : Except Str UInt8 := toCharUnsigned x.toNat [] (toDec x.toNat)
def toUChar (b : UInt8) : UInt8 := b

/-- `isSingleByteChar(Code)` (String.h:188-190), `SevenBitMax` is 128 (String.h:43). -/
def isSingleByteCode (c : Nat) : Bool := c < 128

/-- `isSingleByte(const CodeString&, bool)` (String.cpp:125-127). -/
def isSingleByteCodes (s : List Nat) (sizeOne : Bool := true) : Bool :=
  match s with
  | [] => false
  | c :: r => (!sizeOne || r.isEmpty) && isSingleByteCode c

/-- `isAllSingleByte(const CodeString&)` (String.cpp:134-137). -/
def isAllSingleByteCodes (s : List Nat) : Bool := s.all isSingleByteCode

/-- `isAnySingleByte(const CodeString&)` (String.cpp:144-147). -/
def isAnySingleByteCodes (s : List Nat) : Bool := s.any isSingleByteCode

end KT
