import Verif.Model.Utf8
import Verif.Model.ColumnFile
/-!
# Model of libs/kanji/src/ListFile.cpp
-/
namespace KT

/-- The members of a `ListFile` (ListFile.h:122-123), the set used for uniqueness (`*uniqueNames` or
`_uniqueNames`) and the local variable `dups` of `load`.  `map` is a `std::map<String, Index>`. -/
structure LoadState where
  list : List Str := []
  map : List (Str × Nat) := []
  names : List Str := []
  dups : List Str := []
  deriving DecidableEq, Repr

/-- `validate` (ListFile.cpp:85-97); `typed` means that `uniqueNames` was given. -/
def ListFile.validate (typed : Bool) (st : LoadState) (token : Str) : LoadState × Res Bool :=
  match isValidMBUtf8 token true with
  | none => (st, .ub)
  | some false => (st, .throw .domain)
  | some true =>
    if (st.map.lookup token).isSome then (st, .throw .domain)
    else if st.names.contains token then (st, if typed then .ok false else .throw .domain)
    else ({ st with names := token :: st.names }, .ok true)

/-- `MaxEntries` (ListFile.h:27). -/
def maxEntries : Nat := 65534

/-- `addEntry` (ListFile.cpp:99-105); the index is stored as `uint16_t`. -/
def ListFile.addEntry (st : LoadState) (token : Str) : LoadState × Bool :=
  if st.list.length = maxEntries then (st, false)
  else ({ st with list := st.list ++ [token], map := st.map ++ [(token, (st.list.length + 1) % 65536)] }, true)

/-- Body of the inner loop (ListFile.cpp:70-75). -/
def ListFile.loadToken (onePerLine typed : Bool) (line : Str) (st : LoadState) (token : Str) :
    LoadState × Res Unit :=
  if onePerLine ∧ token ≠ line then (st, .throw .domain)
  else match ListFile.validate typed st token with
    | (st, .ub) => (st, .ub)
    | (st, .throw e) => (st, .throw e)
    | (st, .ok false) => ({ st with dups := st.dups ++ [token] }, .ok ())
    | (st, .ok true) =>
      match ListFile.addEntry st token with
      | (st, true) => (st, .ok ())
      | (st, false) => (st, .throw .domain)

def ListFile.loadTokens (onePerLine typed : Bool) (line : Str) : List Str → LoadState → LoadState × Res Unit
  | [], st => (st, .ok ())
  | t :: ts, st =>
    match ListFile.loadToken onePerLine typed line st t with
    | (st, .ok ()) => ListFile.loadTokens onePerLine typed line ts st
    | r => r

/-- The outer loop (ListFile.cpp:67-76). -/
def ListFile.loadLines (onePerLine typed : Bool) : List Str → LoadState → LoadState × Res Unit
  | [], st => (st, .ok ())
  | l :: ls, st =>
    match ListFile.loadTokens onePerLine typed l (fields 0x20 l) st with
    | (st, .ok ()) => ListFile.loadLines onePerLine typed ls st
    | r => r

/-- `load` (ListFile.cpp:58-83) of a file with the given content, with the names already in the set;
the state after it holds the members and the set (which is changed also if loading fails). -/
def ListFile.load (onePerLine typed : Bool) (names : List Str) (text : Str) : LoadState × Res Unit :=
  match ListFile.loadLines onePerLine typed (fields 0x0a text) { names := names } with
  | (st, .ok ()) => (st, if st.dups = [] then .ok () else .throw .domain)
  | r => r

/-- `exists` (ListFile.cpp:107-109). -/
def LoadState.exists_ (st : LoadState) (s : Str) : Bool := (st.map.lookup s).isSome

/-- `getIndex` (ListFile.cpp:111-114). -/
def LoadState.getIndex (st : LoadState) (s : Str) : Nat := (st.map.lookup s).getD 0

/-- `toString` (ListFile.cpp:116-123). -/
def LoadState.toString (st : LoadState) : Str := st.list.flatten

end KT
