import Verif.Model.Basic
/-!
# What the program arguments are
-/
namespace Spec
open KT

/-- The arguments that are not data options: `-data` and the argument after it, `-debug` and `-info` are left out.
`skip` is true right after `-data`. -/
def programArgs : Bool → List Str → List Str
  | _, [] => []
  | true, _ :: as => programArgs false as
  | false, a :: as =>
    if a = u8!"-data" then programArgs true as
    else if a = u8!"-debug" ∨ a = u8!"-info" then programArgs false as
    else a :: programArgs false as

end Spec
