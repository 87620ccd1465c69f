/-!
# Specification of positional notation
-/
namespace Spec

/-- Value of a digit character `0-9`, `A-F`, `a-f`. -/
def digitValue (b : UInt8) : Option Nat :=
  if 0x30 ≤ b.toNat ∧ b.toNat ≤ 0x39 then some (b.toNat - 0x30)
  else if 0x41 ≤ b.toNat ∧ b.toNat ≤ 0x46 then some (b.toNat - 0x41 + 10)
  else if 0x61 ≤ b.toNat ∧ b.toNat ≤ 0x66 then some (b.toNat - 0x61 + 10)
  else none

/-- Read a non-empty text as a number in the given base, most significant digit first; `none` if the
text is empty or has a character that is not a digit of the base. -/
def readFrom (base : Nat) (acc : Nat) : List UInt8 → Option Nat
  | [] => some acc
  | b :: r =>
    match digitValue b with
    | none => none
    | some d => if d < base then readFrom base (acc * base + d) r else none

def readNumber (base : Nat) (s : List UInt8) : Option Nat :=
  if s.isEmpty then none else readFrom base 0 s

/-- `A-F` but not `a-f`. -/
def NoLowerDigits (s : List UInt8) : Prop := ∀ b ∈ s, b.toNat < 0x61
def NoUpperDigits (s : List UInt8) : Prop := ∀ b ∈ s, ¬ (0x41 ≤ b.toNat ∧ b.toNat ≤ 0x5a)

/-- White space of the "C" locale: space, tab, line feed, vertical tab, form feed, carriage return. -/
def Blank (b : UInt8) : Prop := b.toNat = 32 ∨ b.toNat = 9 ∨ b.toNat = 10 ∨ b.toNat = 11 ∨ b.toNat = 12 ∨ b.toNat = 13

instance : DecidablePred Blank := fun b => by unfold Blank; infer_instance

end Spec
