import Verif.Spec.Order
/-!
# Specification of sorting
-/
namespace Spec

/-- What `std::sort` promises: the same values, and none is less than one before it. -/
structure Sorting {α : Type} (lt : α → α → Bool) (sort : List α → List α) : Prop where
  perm : ∀ l, List.Perm (sort l) l
  sorted : ∀ l, (sort l).Pairwise fun a b => lt b a = false

end Spec
