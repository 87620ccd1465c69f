/-!
# Ascii letters, as a specification
-/
namespace Spec

/-- The code of the small letter for a capital one, all other codes are kept. -/
def lowerCode (c : Nat) : Nat := if 'A'.toNat ≤ c ∧ c ≤ 'Z'.toNat then c + 32 else c

/-- The code of the capital letter for a small one, all other codes are kept. -/
def upperCode (c : Nat) : Nat := if 'a'.toNat ≤ c ∧ c ≤ 'z'.toNat then c - 32 else c

end Spec
