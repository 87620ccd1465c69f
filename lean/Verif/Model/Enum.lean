import Verif.Model.Basic
/-!
# Model of EnumContainer.h, EnumList.h and EnumMap.h (libs/utils/include/kt_utils)

An enum value is represented by its underlying number.  `Enum::Size` is `uint8_t`
(EnumContainer.h:20); conversion to it is reduction modulo 256.
-/
namespace KT

/-- `static_cast<Size>` of an integer. -/
def toSize (i : Int) : Nat := (i % 256).toNat

/-- `EnumContainer::checkIndex` (EnumContainer.h:143-156) for a container of `n` values; message
texts are left out. -/
def checkIndex (n : Nat) (i : Int) : Res Nat :=
  let x := toSize i
  if x ≥ n then .throw .range else .ok x

/-- `EnumListContainer::operator[]` (EnumList.h:114-116). -/
def enumListAt (n : Nat) (i : Int) : Res Nat := checkIndex n i

/-! ## Iterators (EnumContainer.h:158-229): the state is the position. -/

/-- prefix `++` (EnumContainer.h:158-164). -/
def iterInc (n idx : Nat) : Res Nat :=
  if idx ≥ n then .throw .range else .ok (toSize (idx + 1))

/-- prefix `--` (EnumContainer.h:174-180). -/
def iterDec (idx : Nat) : Res Nat :=
  if idx = 0 then .throw .range else .ok (toSize ((idx : Int) - 1))

/-- `+=` (EnumContainer.h:197-207); signed overflow of `ptrdiff_t` is undefined. -/
def iterAdd (n idx : Nat) (i : Int) : Res Nat :=
  let cur := (idx : Int) + i
  if cur > 2 ^ 63 - 1 then .ub
  else if cur < 0 then .throw .range
  else
    let j := toSize cur
    if j > n then .throw .range else .ok j

/-- `-=` (EnumContainer.h:209-213); negating the smallest `ptrdiff_t` is undefined. -/
def iterSub (n idx : Nat) (i : Int) : Res Nat :=
  if i = -2 ^ 63 then .ub else iterAdd n idx (-i)

/-- `EnumListContainer::ConstIterator::operator*` (EnumList.h:136-140). -/
def iterDeref (n idx : Nat) : Res Nat := if idx ≥ n then .throw .range else .ok idx

/-- `operator[]` of an iterator (EnumContainer.h:190-195) with `operator+` (215-221). -/
def iterAt (n idx : Nat) (i : Int) : Res Nat := do
  let j ← iterAdd n idx i
  iterDeref n j

/-- Mutating iterator operations. -/
inductive IterOp where
  | inc
  | dec
  | add (i : Int)
  | sub (i : Int)

/-- Apply one operation. -/
def IterOp.apply (n idx : Nat) : IterOp → Res Nat
  | .inc => iterInc n idx
  | .dec => iterDec idx
  | .add i => iterAdd n idx i
  | .sub i => iterSub n idx i

/-- A history of operations; the caller catches exceptions, which leave the iterator unchanged. -/
def runIter (n : Nat) : Nat → List IterOp → Res Nat
  | idx, [] => .ok idx
  | idx, op :: ops =>
    match op.apply n idx with
    | .ok j => runIter n j ops
    | .throw _ => runIter n idx ops
    | .ub => .ub

/-! ## EnumList -/

/-- Members of `EnumListContainer` and `BaseEnumList` (EnumList.h:92, 161); the `std::map` is an
association list. -/
structure EnumNames where
  names : List Str
  nameMap : List (Str × Nat)
  deriving DecidableEq, Repr

/-- `"None"` (EnumList.h:256). -/
def noneName : Str := u8!"None"

/-- `setName` and `insert` (EnumList.h:156-158, 267-270, 299-303).  Writing outside of the name
array would be undefined. -/
def setName (withNone : Bool) (st : EnumNames) (name : Str) (index : Nat) : Res EnumNames :=
  if withNone && name == noneName then .throw .domain
  else if index < st.names.length then
    if (st.nameMap.lookup name).isSome then .throw .domain
    else .ok ⟨st.names.set index name, (name, index) :: st.nameMap⟩
  else .ub

/-- The delegating constructors (EnumList.h:191-196, 259-265): the rest of the names is handled
first; `n` is the template argument `N`. -/
def enumCtor (withNone : Bool) (n : Nat) : List Str → Res EnumNames
  | [] => .ok ⟨List.replicate n [], []⟩
  | name :: args => do
    let st ← enumCtor withNone n args
    setName withNone st name (n - 1 - args.length)

/-- `BaseEnumList::create` (EnumList.h:275-290); `exists` tells if an instance exists already.
`create` takes at least one name and the number of values must fit in `Enum::Size`, both checked by
the compiler. -/
def enumCreate (withNone instanceExists : Bool) (names : List Str) : Res EnumNames :=
  if instanceExists then .throw .domain else enumCtor withNone names.length names

/-- `toString` (EnumList.h:121-123 and 233-235).  `None` has the value `names.length`. -/
def EnumNames.toString (l : EnumNames) (withNone : Bool) (x : Nat) : Res Str :=
  let count := if withNone then l.names.length + 1 else l.names.length
  if withNone && x == l.names.length then .ok noneName
  else do
    let i ← checkIndex count x
    match l.names[i]? with
    | some s => .ok s
    | none => .ub

/-- `fromString` (EnumList.h:292-297). -/
def EnumNames.fromString (l : EnumNames) (name : Str) : Res Nat :=
  match l.nameMap.lookup name with
  | some x => .ok x
  | none => .throw .domain

/-- EnumList.h:239-253. -/
def EnumNames.fromStringAllowEmpty (l : EnumNames) (name : Str) : Res Nat :=
  if name.isEmpty then .ok l.names.length else l.fromString name
def EnumNames.fromStringAllowNone (l : EnumNames) (name : Str) : Res Nat :=
  if name = noneName then .ok l.names.length else l.fromString name
def EnumNames.fromStringAllowEmptyAndNone (l : EnumNames) (name : Str) : Res Nat :=
  if name.isEmpty || name == noneName then .ok l.names.length else l.fromString name

/-! ## EnumMap -/

/-- `EnumMap<T, V, N>` (EnumMap.h:50-154): the array of values; `N` is its length. -/
structure EnumMap (V : Type) where
  values : List V

/-- Default construction (EnumMap.h:55, 153). -/
def EnumMap.new {V : Type} [Inhabited V] (n : Nat) : EnumMap V := ⟨List.replicate n default⟩

/-- Non-const `operator[]` followed by assignment (EnumMap.h:59-61). -/
def EnumMap.put {V : Type} (m : EnumMap V) (k : Nat) (v : V) : Res (EnumMap V) := do
  let i ← checkIndex m.values.length k
  if i < m.values.length then .ok ⟨m.values.set i v⟩ else .ub

/-- Const `operator[]` (EnumMap.h:66-69); `None` has the value `N`. -/
def EnumMap.get {V : Type} [Inhabited V] (m : EnumMap V) (k : Nat) : Res V :=
  if k = m.values.length then .ok default
  else do
    let i ← checkIndex m.values.length k
    match m.values[i]? with
    | some v => .ok v
    | none => .ub

/-- A history of assignments, exceptions being caught by the caller. -/
def EnumMap.run {V : Type} (m : EnumMap V) : List (Nat × V) → Res (EnumMap V)
  | [] => .ok m
  | (k, v) :: ops =>
    match m.put k v with
    | .ok m' => m'.run ops
    | .throw _ => m.run ops
    | .ub => .ub

/-- `EnumMap::ConstIterator` (EnumMap.h:78-150): position and the map it belongs to (`none` after
default construction).  Maps are identified by a number. -/
structure MapIter where
  idx : Nat
  map : Option Nat
  deriving DecidableEq

/-- `operator==` (EnumMap.h:89-92). -/
def MapIter.eq (a b : MapIter) : Res Bool :=
  if a.map = b.map then .ok (a.idx == b.idx) else .throw .domain
/-- `operator<` (EnumMap.h:113-116). -/
def MapIter.lt (a b : MapIter) : Res Bool :=
  if a.map = b.map then .ok (decide (a.idx < b.idx)) else .throw .domain
/-- `operator<=` (EnumMap.h:120-122). -/
def MapIter.le (a b : MapIter) : Res Bool := do
  if ← a.lt b then .ok true else a.eq b
/-- `operator>=` (EnumMap.h:126-128). -/
def MapIter.ge (a b : MapIter) : Res Bool := do .ok (!(← a.lt b))
/-- `operator>` (EnumMap.h:132-134). -/
def MapIter.gt (a b : MapIter) : Res Bool := do .ok (!(← a.le b))
/-- `operator-` (EnumMap.h:138-141). -/
def MapIter.diff (a b : MapIter) : Res Int :=
  if a.map = b.map then .ok (a.idx - b.idx) else .throw .domain

/-- `operator*` (EnumMap.h:103-109) of an iterator over `m`, known by the number `self`. -/
def MapIter.deref {V : Type} [Inhabited V] (m : EnumMap V) (a : MapIter) : Res V :=
  match a.map with
  | none => .throw .domain
  | some _ => if a.idx ≥ m.values.length then .throw .range else m.get a.idx

/-- `for (auto& v : m)`: from `begin` while `!= end`, with `fuel` bounding the number of rounds
(`none` when it does not suffice). -/
def EnumMap.iterate {V : Type} [Inhabited V] (m : EnumMap V) (self : Nat) :
    Nat → MapIter → Res (Option (List V))
  | 0, _ => .ok none
  | fuel + 1, i => do
    if ← i.eq ⟨m.values.length, some self⟩ then .ok (some [])
    else
      let v ← i.deref m
      let j ← iterInc m.values.length i.idx
      match ← m.iterate self fuel ⟨j, i.map⟩ with
      | some r => .ok (some (v :: r))
      | none => .ok none

end KT
