import Verif.Model.Utf8
import Verif.Lemmas.Utf8Loop
/-!
# Model of libs/utils/src/String.cpp and libs/utils/include/kt_utils/String.h
-/
namespace KT

/-- `enum class BracketType` (String.h:24-29). -/
inductive BracketType where
  | curly | round | square | none
  deriving DecidableEq, Repr

/-- `enum class HexCase` (String.h:32-35). -/
inductive HexCase where
  | upper | lower
  deriving DecidableEq, Repr

/-- `addBrackets` (String.cpp:38-46). -/
def addBrackets (s : Str) : BracketType → Str
  | .curly => u8!"{" ++ s ++ u8!"}"
  | .round => u8!"(" ++ s ++ u8!")"
  | .square => u8!"[" ++ s ++ u8!"]"
  | .none => s

/-- `addLeadingZeroes` (String.cpp:48-53; the `CodeString` overload at 55-60 is the same function
on another character type). -/
def addLeadingZeroes (s : Str) (minSize : Nat) : Str :=
  if s.length < minSize then List.replicate (minSize - s.length) 0x30 ++ s
  else if s.isEmpty then u8!"0"
  else s

/-- The loop of `toBinary` (String.h:113-114), `result` is built from the right.  `fuel` bounds the
number of iterations (`x` itself is always enough). -/
def binaryLoop : Nat → Nat → Str → Str
  | 0, _, result => result
  | fuel + 1, x, result =>
    if x > 0 then binaryLoop fuel (x >>> 1) (UInt8.ofNat (0x30 + x % 2) :: result) else result

/-- `toBinary<T>(x, brackets, minSize)` (String.h:109-117); `bytes` is `sizeof(T)`. -/
def toBinary (bytes x : Nat) (brackets : BracketType) (minSize : Nat := 0) : Str :=
  addBrackets (addLeadingZeroes (binaryLoop x x [])
    (if minSize ≠ 0 then minSize else bytes * 8)) brackets

/-- One digit of `toHex` (String.h:139-143). -/
def hexChar (i : Nat) (hexCase : HexCase) : UInt8 :=
  UInt8.ofNat (if i < 10 then 0x30 + i
    else (if hexCase = .upper then 0x41 else 0x61) + i - 10)

/-- The loop of `toHex` (String.h:138-144). -/
def hexLoop (hexCase : HexCase) : Nat → Nat → Str → Str
  | 0, _, result => result
  | fuel + 1, x, result =>
    if x > 0 then hexLoop hexCase fuel (x >>> 4) (hexChar (x % 16) hexCase :: result) else result

/-- `toHex<T>(x, brackets, hexCase, minSize)` (String.h:133-147); `bytes` is `sizeof(T)`. The other
overloads (String.h:149-165) fix some of the arguments. -/
def toHex (bytes x : Nat) (brackets : BracketType) (hexCase : HexCase) (minSize : Nat := 0) : Str :=
  addBrackets (addLeadingZeroes (hexLoop hexCase x x [])
    (if minSize ≠ 0 then minSize else bytes * 2)) brackets

/-- `toUnicode(Code, BracketType)` (String.cpp:62-64); `sizeof(Code)` is 4. -/
def toUnicode (c : Nat) (brackets : BracketType := .none) : Str :=
  toHex 4 c brackets .upper 4

/-- Loop of `toUnicode` for strings (String.cpp:68-71 and 77-80). -/
def toUnicodeLoop : List Nat → Str → Str
  | [], result => result
  | c :: cs, result =>
    toUnicodeLoop cs ((if result.isEmpty then result else result ++ u8!" ") ++ toUnicode c)

/-- `toUnicode(const CodeString&, BracketType)` (String.cpp:75-82). -/
def toUnicodeCodes (cs : List Nat) (brackets : BracketType := .none) : Str :=
  addBrackets (toUnicodeLoop cs []) brackets

/-- `toUnicode(const String&, BracketType)` (String.cpp:66-73). -/
def toUnicodeStr (s : Str) (brackets : BracketType := .none) : Str :=
  toUnicodeCodes (decode s) brackets

/-- `isSingleByteChar(char)` (String.h:183-185): `x >= 0`. -/
def isSingleByteChar (b : UInt8) : Bool := b < 0x80

/-- `isSingleByte(const String&, bool)` (String.cpp:121-123). -/
def isSingleByte (s : Str) (sizeOne : Bool := true) : Bool :=
  match s with
  | [] => false
  | b :: r => (!sizeOne || r.isEmpty) && isSingleByteChar b

/-- `isAllSingleByte` (String.cpp:129-132). -/
def isAllSingleByte (s : Str) : Bool := s.all isSingleByteChar

/-- `isAnySingleByte` (String.cpp:139-142). -/
def isAnySingleByte (s : Str) : Bool := s.any isSingleByteChar

/-- `::isupper`, `::islower` in the "C" locale, on bytes. -/
def isUpper (b : UInt8) : Bool := 0x41 ≤ b && b ≤ 0x5a
def isLower (b : UInt8) : Bool := 0x61 ≤ b && b ≤ 0x7a

/-- `::tolower`, `::toupper` in the "C" locale.  Simplification: passing a negative `char` to these
C functions is undefined by the standard; here bytes above 127 are unchanged, as in every common
C library. -/
def toLowerChar (b : UInt8) : UInt8 := if isUpper b then b + 0x20 else b
def toUpperChar (b : UInt8) : UInt8 := if isLower b then b - 0x20 else b

/-- `toLower`, `toUpper` (String.cpp:157-169). -/
def toLower (s : Str) : Str := s.map toLowerChar
def toUpper (s : Str) : Str := s.map toUpperChar

/-- `firstLower`, `firstUpper` (String.cpp:149-155, String.h:216-223). -/
def firstLower : Str → Str
  | [] => []
  | b :: r => if isUpper b then toLowerChar b :: r else b :: r
def firstUpper : Str → Str
  | [] => []
  | b :: r => if isLower b then toUpperChar b :: r else b :: r

end KT
