import Verif.Model.Decimal
import Verif.Model.ColumnFile
/-!
# Model of libs/kanji/src/MorohashiId.cpp and libs/kanji/src/Strokes.cpp
-/
namespace KT

/-- `MorohashiId::IdType` (MorohashiId.h:24). -/
inductive IdType where
  | plain | prime | doublePrime | supplemental
  deriving DecidableEq, Repr

/-- The value of the enumerator. -/
def IdType.toNat : IdType → Nat
  | .plain => 0 | .prime => 1 | .doublePrime => 2 | .supplemental => 3

/-- Fields of class MorohashiId (MorohashiId.h:58-59). -/
structure MorohashiId where
  id : Nat := 0
  idType : IdType := .plain
  deriving DecidableEq, Repr

def endsWith (s suffix : Str) : Bool := suffix.isSuffixOf s

/-- MorohashiId.cpp:12-22. -/
def isDoublePrime (s : Str) : Bool := endsWith s (u8!"PP") || endsWith s (u8!"''")
def isPrime (s : Str) : Bool := endsWith s (u8!"P") || endsWith s (u8!"'")
def isSupplemental (s : Str) : Bool := s.head? == some 0x48

/-- The loop of `validate` (MorohashiId.cpp:57-66) over the bytes from `prefixSize` to
`s.size() - suffixSize`; `leading` is `i == prefixSize`, which holds as long as only zeroes were seen
(both are incremented) and never again.  `char` is signed: bytes above 127 are below `'0'`.  `result`
is a `uint16_t`, the comparison is made with `int`. -/
def validateLoop : Str → Bool → Nat → Res Nat
  | [], _, result => .ok result
  | c :: r, leading, result =>
    if leading ∧ c = 0x30 then validateLoop r true result
    else if c < 0x30 ∨ c > 0x39 then .throw .domain
    else
      let x := c.toNat - 0x30
      if result > 65535 / 10 then .throw .domain
      else
        let result := result * 10 % 65536
        if result > 65535 - x then .throw .domain
        else validateLoop r false ((result + x) % 65536)

/-- `validate` (MorohashiId.cpp:43-71); the `size_t` difference at line 54 is modulo `2^64`, but the
callers make sure that the string is at least as long as prefix and suffix. -/
def morohashiValidate (s : Str) (prefixSize suffixSize : Nat) : Res Nat :=
  if s = [] ∧ prefixSize = 0 ∧ suffixSize = 0 then .ok 0
  else if (s.length : Int) - prefixSize - suffixSize = 0 then .throw .domain
  else do
    let result ← validateLoop ((s.take (s.length - suffixSize)).drop prefixSize) true 0
    if (prefixSize ≠ 0 ∨ suffixSize ≠ 0) ∧ result = 0 then .throw .domain else .ok result

/-- `getId` (MorohashiId.cpp:29-34). -/
def MorohashiId.getId (s : Str) : Res Nat :=
  if isDoublePrime s then morohashiValidate s 0 2
  else if isPrime s then morohashiValidate s 0 1
  else if isSupplemental s then morohashiValidate s 1 0
  else morohashiValidate s 0 0

/-- `getIdType` (MorohashiId.cpp:36-41). -/
def MorohashiId.getIdType (s : Str) : IdType :=
  if isDoublePrime s then .doublePrime
  else if isPrime s then .prime
  else if isSupplemental s then .supplemental
  else .plain

/-- The constructor (MorohashiId.cpp:26-27). -/
def MorohashiId.parse (s : Str) : Res MorohashiId := do
  let id ← MorohashiId.getId s
  .ok ⟨id, MorohashiId.getIdType s⟩

/-- `toString` (MorohashiId.cpp:73-82). -/
def MorohashiId.toString (x : MorohashiId) : Str :=
  let result := if x.id ≠ 0 then toDec x.id else []
  match x.idType with
  | .prime => result ++ u8!"P"
  | .doublePrime => result ++ u8!"PP"
  | .supplemental => 0x48 :: result
  | .plain => result

/-- The defaulted `operator<=>` (MorohashiId.h:47-48): members in order. -/
def MorohashiId.cmp (x y : MorohashiId) : Ordering :=
  (compare x.id y.id).then (compare x.idType.toNat y.idType.toNat)

/-! ## Strokes -/

/-- Fields of class Strokes (Strokes.h:47), both `uint8_t`. -/
structure Strokes where
  value : UInt8
  variant : UInt8
  deriving DecidableEq, Repr

/-- Strokes.cpp:15-17. -/
def Strokes.make (value : UInt8) : Res Strokes :=
  if value = 0 ∨ value > 64 then .throw .range else .ok ⟨value, 0⟩

/-- Strokes.cpp:19-25. -/
def Strokes.make2 (value variant : UInt8) : Res Strokes :=
  if value < 2 ∨ value > 64 then .throw .range
  else if variant < 3 ∨ variant > 33 then .throw .range
  else if value = variant then .throw .domain
  else .ok ⟨value, variant⟩

/-- Strokes.cpp:27-34. -/
def Strokes.toString (s : Strokes) (includeVariant : Bool) : Str :=
  toDec s.value.toNat ++
    if includeVariant ∧ s.variant ≠ 0 then 0x2f :: toDec s.variant.toNat else []

/-- The defaulted `operator<=>` (Strokes.h:39-40). -/
def Strokes.cmp (x y : Strokes) : Ordering :=
  (compare x.value y.value).then (compare x.variant y.variant)

end KT
