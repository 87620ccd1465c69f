import Verif.Model.Basic
/-!
# Model of Symbol.h / Symbol.cpp and Args.h / Args.cpp (libs/utils)
-/
namespace KT

/-- `BaseSymbol::Max` (Symbol.h:19). -/
def symbolMax : Nat := 65535 - 1

/-- The static `_map` and `_list` of a symbol type (Symbol.h:101-102).  The `std::map` is an
association list; `_list` holds pointers to the keys, modelled by the keys. -/
structure SymTab where
  map : List (Str × Nat)
  list : List Str
  deriving DecidableEq

def SymTab.empty : SymTab := ⟨[], []⟩

/-- `BaseSymbol::getId` (Symbol.cpp:9-20): the outcome and the table afterwards.  `Id` is
`uint16_t`, so the new id is reduced modulo 65536. -/
def getId (t : SymTab) (name : Str) : Res Nat × SymTab :=
  if t.list.length < symbolMax then
    match t.map.lookup name with
    | some i => (.ok i, t)
    | none =>
      let i := (t.list.length + 1) % 65536
      (.ok i, ⟨(name, i) :: t.map, t.list ++ [name]⟩)
  else
    match t.map.lookup name with
    | some i => (.ok i, t)
    | none => (.throw .domain, t)

/-- Constructor from a name (Symbol.cpp:6-7, Symbol.h:83). -/
def symCtor (t : SymTab) (name : Str) : Res Nat × SymTab :=
  if name.isEmpty then (.ok 0, t) else getId t name

/-- `Symbol::name` (Symbol.h:86-88); `at` throws `std::out_of_range`. -/
def symName (t : SymTab) (id : Nat) : Res Str :=
  if id ≠ 0 then
    match t.list[id - 1]? with
    | some s => .ok s
    | none => .throw .std
  else .ok []

/-- `Symbol::exists` (Symbol.h:73-75). -/
def symExists (t : SymTab) (name : Str) : Bool := !name.isEmpty && (t.map.lookup name).isSome

/-- `Symbol::size` (Symbol.h:70). -/
def symSize (t : SymTab) : Nat := t.list.length

/-! ## Args -/

/-- `Args` (Args.h:11-55): `argv` is a null pointer or an array. -/
structure Args where
  argc : Nat
  argv : Option (List Str)
  deriving DecidableEq

/-- `Args(Size, List)` (Args.cpp:7-12). -/
def mkArgs (argc : Nat) (argv : Option (List Str)) : Res Args :=
  if argc = 0 then
    if argv.isSome then .throw .domain else .ok ⟨argc, argv⟩
  else if argv.isNone then .throw .domain
  else .ok ⟨argc, argv⟩

/-- `Args::checkInt` (Args.cpp:21-28). -/
def checkInt (argc : Int) : Res Nat :=
  if argc < 0 then .throw .range
  else if argc > 65535 then .throw .range
  else .ok argc.toNat

/-- `Args(int, List)` (Args.h:29). -/
def mkArgsInt (argc : Int) (argv : Option (List Str)) : Res Args := do
  mkArgs (← checkInt argc) argv

/-- `Args::operator[](Size)` (Args.cpp:14-19).  An argument of a wider type is converted to
`uint16_t` by the caller.  Reading through a null pointer or past the array is undefined. -/
def Args.get (a : Args) (i : Int) : Res Str :=
  let i := (i % 65536).toNat
  if i ≥ a.argc then .throw .range
  else
    match a.argv with
    | none => .ub
    | some l =>
      match l[i]? with
      | some s => .ok s
      | none => .ub

end KT
