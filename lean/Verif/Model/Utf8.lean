import Verif.Model.Basic
/-!
# Model of libs/utils/src/Utf8.cpp
-/
namespace KT

/-- `std::countl_one` for an 8 bit value: number of consecutive 1 bits starting from the most
significant bit (used at Utf8.cpp:55 and Utf8.cpp:108). -/
def countlOneFrom (b : UInt8) : Nat → Nat
  | 0 => 0
  | k + 1 => if b.toNat.testBit k then 1 + countlOneFrom b k else 0

/-- `std::countl_one(uint8_t)`. -/
def countlOne (b : UInt8) : Nat := countlOneFrom b 8

/-- `ErrorReplacement` (Utf8.cpp:20). -/
def errorReplacement : Nat := 0xfffd

/-- `Max2Uni`, `Max3Uni` (Utf8.cpp:19-20), `MaxUnicode` (Utf8.h:148), `MinSurrogate` and
`MaxSurrogate` (Utf8.cpp:19), `MaxAscii` (Utf8.h:147). -/
def max2Uni : Nat := 0x7ff
def max3Uni : Nat := 0xffff
def maxUnicode : Nat := 0x10ffff
def minSurrogate : Nat := 0xd800
def maxSurrogate : Nat := 0xdfff
def maxAscii : Nat := 0x7f

/-- `threeByteUtf8` (Utf8.cpp:72-76): `left12(b1 ^ ThreeBits, left6(b2, *u ^ Bit1))`. -/
def threeByteUtf8 (b1 b2 u : Nat) : Nat :=
  ((b1 ^^^ 0xe0) <<< 12) + ((b2 <<< 6) + (u ^^^ 0x80))

/-- `fourByteUtf8` (Utf8.cpp:85-89). -/
def fourByteUtf8 (b1 b2 b3 u : Nat) : Nat :=
  ((b1 ^^^ 0xf0) <<< 18) + ((b2 <<< 12) + ((b3 <<< 6) + (u ^^^ 0x80)))

/-- `convertOneUtf8` (Utf8.cpp:106-133).  The argument is the part of the buffer that starts at
`u`; the result is the code and the part that starts at the updated `u`.  `none` is a read outside
of the buffer (undefined behaviour).  `getNextByte` (Utf8.cpp:54-56) moves `u` to the next byte and
reads it. -/
def convertOneUtf8 : List UInt8 → Option (Nat × List UInt8)
  | [] => none
  | b1 :: r1 =>
    let utfLen := countlOne b1
    if utfLen = 0 then some (b1.toNat, r1)
    else if utfLen = 1 ∨ utfLen > 4 then some (errorReplacement, r1)
    else match r1 with
      | [] => none
      | b2 :: r2 =>
        if countlOne b2 ≠ 1 then some (errorReplacement, b2 :: r2)
        else
          let byte2 := b2.toNat ^^^ 0x80
          if utfLen > 2 then
            match r2 with
            | [] => none
            | b3 :: r3 =>
              if countlOne b3 ≠ 1 then some (errorReplacement, b3 :: r3)
              else if utfLen = 4 then
                match r3 with
                | [] => none
                | b4 :: r4 =>
                  if countlOne b4 ≠ 1 then some (errorReplacement, b4 :: r4)
                  else
                    let t := fourByteUtf8 b1.toNat byte2 (b3.toNat ^^^ 0x80) b4.toNat
                    some (if t > max3Uni ∧ t ≤ maxUnicode then t else errorReplacement, r4)
              else
                let t := threeByteUtf8 b1.toNat byte2 b3.toNat
                some (if t > max2Uni ∧ (t < minSurrogate ∨ t > maxSurrogate) then t
                      else errorReplacement, r3)
          else
            some (if (b1.toNat ^^^ 0xc0) > 1 then ((b1.toNat ^^^ 0xc0) <<< 6) + byte2
                  else errorReplacement, r2)

/-- The `do ... while (*u && (!maxSize || result.size() < maxSize))` loop of `convertFromUtf8`
(Utf8.cpp:142-144).  `fuel` bounds the number of iterations; running out of it is reported as
`none` like an out-of-bounds read, so a `some` result also means the loop ended by itself. -/
def convertLoop : Nat → List UInt8 → Nat → List Nat → Option (List Nat)
  | 0, _, _, _ => none
  | fuel + 1, u, maxSize, result =>
    match convertOneUtf8 u with
    | none => none
    | some (c, u') =>
      let result := result ++ [c]
      match u' with
      | [] => none
      | b :: _ =>
        if b ≠ 0 ∧ (maxSize = 0 ∨ result.length < maxSize)
        then convertLoop fuel u' maxSize result
        else some result

/-- `convertFromUtf8` (Utf8.cpp:136-146) on a buffer; null pointers are not modelled. -/
def convertFromUtf8 (buf : List UInt8) (maxSize : Nat) : Option (List Nat) :=
  match buf with
  | [] => none
  | b :: r => if b = 0 then some [] else convertLoop buf.length (b :: r) maxSize []

/-- `fromUtf8(const String&, size_t)` (Utf8.cpp:206-208): `c_str()` is the bytes of the string
followed by a NUL.  `fromUtf8ToWstring` (Utf8.cpp:210-216) is the same function for
`wchar_t`. -/
def fromUtf8 (s : Str) (maxSize : Nat := 0) : Option (List Nat) :=
  convertFromUtf8 (s ++ [0]) maxSize

/-- `getCode` (Utf8.cpp:218-224). -/
def getCode (s : Str) : Option Nat :=
  match s ++ [0] with
  | [] => none
  | b :: r => if b = 0 then some 0 else (convertOneUtf8 (b :: r)).map Prod.fst

/-- `toCharUnsigned` (libs/utils/src/String.cpp:20-24) as used by `toChar(Code)` and
`toChar(uint32_t)` (String.cpp:95-98, 110-113). -/
def toChar (x : Nat) : Res UInt8 :=
  if x > 255 then .throw .range else .ok (UInt8.ofNat x)

/-- `ReplacementCharacter` (Utf8.cpp:93). -/
def replacementCharacter : Str := [0xef, 0xbf, 0xbd]

/-- `convertToUtf8` (Utf8.cpp:148-171): the bytes appended to `s`. -/
def convertToUtf8 (c : Nat) : Res Str :=
  if c ≤ maxAscii then do
    let a ← toChar c
    .ok [a]
  else if c ≤ max2Uni then do
    let a ← toChar (((0b11111 <<< 6 &&& c) >>> 6) + 0xc0)
    let b ← toChar ((0b111111 &&& c) + 0x80)
    .ok [a, b]
  else if c ≤ max3Uni then
    if c < minSurrogate ∨ c > maxSurrogate then do
      let a ← toChar (((0b1111 <<< 12 &&& c) >>> 12) + 0xe0)
      let b ← toChar (((0b111111 <<< 6 &&& c) >>> 6) + 0x80)
      let d ← toChar ((0b111111 &&& c) + 0x80)
      .ok [a, b, d]
    else .ok replacementCharacter
  else if c ≤ maxUnicode then do
    let a ← toChar (((0b111 <<< 18 &&& c) >>> 18) + 0xf0)
    let b ← toChar (((0b111111 <<< 12 &&& c) >>> 12) + 0x80)
    let d ← toChar (((0b111111 <<< 6 &&& c) >>> 6) + 0x80)
    let e ← toChar ((0b111111 &&& c) + 0x80)
    .ok [a, b, d, e]
  else .ok replacementCharacter

/-- `toUtf8(const CodeString&)` (Utf8.cpp:236-242); `toUtf8(Code)` (Utf8.cpp:226-230) is the case
of a one element list. -/
def toUtf8 : List Nat → Res Str
  | [] => .ok []
  | c :: cs => do
    let a ← convertToUtf8 c
    let b ← toUtf8 cs
    .ok (a ++ b)

/-- `enum class MBUtf8Result` (Utf8.h:55-59). -/
inductive MBUtf8Result where
  | valid | notMultiByte | notValid
  deriving DecidableEq, Repr

/-- `enum class Utf8Result` (Utf8.h:62-73). -/
inductive Utf8Result where
  | valid | charTooLong | continuationByte | invalidCodePoint | missingBytes | overlong
  | stringTooLong
  deriving DecidableEq, Repr

/-- Tail of `validateMB` (Utf8.cpp:196-197): `!sizeOne || !*++u`; `r` is the buffer after the last
byte of the character. -/
def validateEnd (sizeOne : Bool) (r : List UInt8) : Option (MBUtf8Result × Utf8Result) :=
  if sizeOne = false then some (.valid, .valid)
  else match r with
    | [] => none
    | b :: _ => if b = 0 then some (.valid, .valid) else some (.notValid, .stringTooLong)

/-- `validateMB` (Utf8.cpp:175-198).  The result also carries the value assigned to `error`. -/
def validateMB (buf : List UInt8) (sizeOne : Bool) : Option (MBUtf8Result × Utf8Result) :=
  match buf with
  | [] => none
  | b1 :: r1 =>
    match r1 with
    | [] => none
    | b2 :: r2 =>
      if countlOne b2 ≠ 1 then some (.notValid, .missingBytes)
      else if b1.toNat &&& 0x20 ≠ 0 then
        let byte2 := b2.toNat ^^^ 0x80
        match r2 with
        | [] => none
        | b3 :: r3 =>
          if countlOne b3 ≠ 1 then some (.notValid, .missingBytes)
          else if b1.toNat &&& 0x10 ≠ 0 then
            if b1.toNat &&& 0x08 ≠ 0 then some (.notValid, .charTooLong)
            else match r3 with
              | [] => none
              | b4 :: r4 =>
                if countlOne b4 ≠ 1 then some (.notValid, .missingBytes)
                else
                  let code4 := fourByteUtf8 b1.toNat byte2 (b3.toNat ^^^ 0x80) b4.toNat
                  if code4 ≤ max3Uni then some (.notValid, .overlong)
                  else if code4 > maxUnicode then some (.notValid, .invalidCodePoint)
                  else validateEnd sizeOne r4
          else
            let code3 := threeByteUtf8 b1.toNat byte2 b3.toNat
            if code3 ≤ max2Uni then some (.notValid, .overlong)
            else if code3 ≥ minSurrogate ∧ code3 ≤ maxSurrogate then
              some (.notValid, .invalidCodePoint)
            else validateEnd sizeOne r3
      else if (b1.toNat ^^^ 0xc0) < 2 then some (.notValid, .overlong)
      else validateEnd sizeOne r2

/-- `validateMBUtf8(const char*, ...)` (Utf8.cpp:254-266) on the buffer that starts at the pointer;
a null pointer is not modelled.  `error` starts as `Utf8Result::Valid` (Utf8.h:102, 112). -/
def validateMBUtf8Ptr (buf : List UInt8) (sizeOne : Bool := false) :
    Option (MBUtf8Result × Utf8Result) :=
  match buf with
  | [] => none
  | b :: r =>
    if b.toNat &&& 0x80 = 0 then some (.notMultiByte, .valid)
    else if b.toNat &&& 0xc0 = 0x80 then some (.notValid, .continuationByte)
    else validateMB (b :: r) sizeOne

/-- `validateMBUtf8(const String&, ...)` (Utf8.cpp:268-270). -/
def validateMBUtf8 (s : Str) (sizeOne : Bool := false) : Option (MBUtf8Result × Utf8Result) :=
  validateMBUtf8Ptr (s ++ [0]) sizeOne

/-- `isValidMBUtf8` (Utf8.cpp:272-274). -/
def isValidMBUtf8 (s : Str) (sizeOne : Bool := false) : Option Bool :=
  (validateMBUtf8 s sizeOne).map fun r => r.1 == .valid

/-- `isValidUtf8` (Utf8.cpp:276-278). -/
def isValidUtf8 (s : Str) (sizeOne : Bool := false) : Option Bool :=
  (validateMBUtf8 s sizeOne).map fun r => r.2 == .valid

end KT
