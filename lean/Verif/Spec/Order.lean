/-!
# Specification of comparison functions
-/
namespace Spec

/-- What `std::sort` and ordered containers require of a comparison. -/
structure StrictWeakOrder {α : Type} (lt : α → α → Bool) : Prop where
  irrefl : ∀ x, lt x x = false
  asymm : ∀ x y, lt x y = true → lt y x = false
  trans : ∀ x y z, lt x y = true → lt y z = true → lt x z = true
  incomp : ∀ x y z, (lt x y = false ∧ lt y x = false) → (lt y z = false ∧ lt z y = false) →
    (lt x z = false ∧ lt z x = false)

/-- A strict weak order in which only equal values are not comparable. -/
structure StrictTotalOrder {α : Type} (lt : α → α → Bool) : Prop where
  irrefl : ∀ x, lt x x = false
  trans : ∀ x y z, lt x y = true → lt y z = true → lt x z = true
  total : ∀ x y, lt x y = true ∨ x = y ∨ lt y x = true

/-- Lexicographic order of code point sequences. -/
def codesLt : List Nat → List Nat → Bool
  | _, [] => false
  | [], _ :: _ => true
  | a :: s, b :: t => a < b || (a == b && codesLt s t)

end Spec
