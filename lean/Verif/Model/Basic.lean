/-!
# Basic types used by every part of the model
-/
namespace KT

/-- `using String = std::string` (libs/utils/include/kt_utils/String.h:11): a finite byte string.
`char` values are represented by the byte that has the same bit pattern. -/
abbrev Str := List UInt8

/-! `using Code = char32_t` (libs/utils/include/kt_utils/String.h:17) is modelled by `Nat`; the
bound `2^32` is an explicit hypothesis wherever it matters. -/

/-- Exception classes that can leave the modelled functions
(libs/utils/include/kt_utils/Exception.h; `std` stands for exceptions of the C++ library such as
`std::invalid_argument`). -/
inductive Exc where
  | domain
  | range
  | usage
  | std
  deriving DecidableEq, Repr

/-- Outcome of a C++ function: a value, an exception, or undefined behaviour. -/
inductive Res (α : Type) where
  | ok (a : α)
  | throw (e : Exc)
  | ub
  deriving DecidableEq, Repr

namespace Res

/-- Sequencing of outcomes (exceptions and undefined behaviour stop the computation). -/
@[inline] def bind {α β : Type} (x : Res α) (f : α → Res β) : Res β :=
  match x with
  | ok a => f a
  | throw e => throw e
  | ub => ub

instance : Monad Res where
  pure := Res.ok
  bind := Res.bind

@[simp] theorem pure_eq {α} (a : α) : (pure a : Res α) = ok a := rfl
@[simp] theorem bind_ok {α β} (a : α) (f : α → Res β) : (ok a >>= f) = f a := rfl
@[simp] theorem bind_throw {α β} (e : Exc) (f : α → Res β) : (throw e >>= f) = throw e := rfl
@[simp] theorem bind_ub {α β} (f : α → Res β) : ((ub : Res α) >>= f) = ub := rfl

end Res

/-- `u8!"text"` is the list of UTF-8 bytes of a string literal, written out when the file is
elaborated (the C++ string literals of the source are UTF-8). -/
syntax:max "u8!" str : term
macro_rules
  | `(u8! $s:str) => do
    let elems ← s.getString.toUTF8.toList.toArray.mapM fun (b : UInt8) =>
      `(($(Lean.Syntax.mkNumLit (toString b.toNat)) : UInt8))
    `(([$elems,*] : List UInt8))

end KT
