/-!
# Specification of UTF-8

Only Lean's own notions of a Unicode scalar value (`Char`) and of its UTF-8 encoding
(`String.utf8EncodeChar`) are used here; nothing refers to the model.
-/
namespace Spec

/-- The UTF-8 encoding of a sequence of characters. -/
def utf8Encode (cs : List Char) : List UInt8 := cs.flatMap String.utf8EncodeChar

/-- A byte string is well-formed UTF-8 when it is the encoding of some characters. -/
def WellFormed (s : List UInt8) : Prop := ∃ cs : List Char, s = utf8Encode cs

/-- A Unicode scalar value: a code point that is not a surrogate. -/
def IsScalar (n : Nat) : Prop := n < 0xd800 ∨ (0xdfff < n ∧ n ≤ 0x10ffff)

instance : DecidablePred IsScalar := fun n => by unfold IsScalar; infer_instance

/-- `s` starts with the encoding of the character `c`. -/
def StartsWith (s : List UInt8) (c : Char) : Prop := String.utf8EncodeChar c <+: s

/-- A continuation byte `10xxxxxx`. -/
def IsContinuation (b : UInt8) : Prop := 0x80 ≤ b.toNat ∧ b.toNat < 0xc0

/-- The part of a C++ string that is visible through `c_str()`: everything before the first NUL. -/
def cStr (s : List UInt8) : List UInt8 := s.takeWhile (· ≠ 0)

end Spec
