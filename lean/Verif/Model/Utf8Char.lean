import Verif.Model.Kana
import Verif.Model.Utf8
/-!
# Model of class Utf8Char (libs/kana/src/Utf8Char.cpp)

A `const char*` is the rest of the NUL terminated buffer that starts at it; reading from the empty
list is a read outside of the buffer and gives `none`.
-/
namespace KT

/-- `VarSelectorSize` , `MinMBSize`, `MaxMBSize`
(libs/utils/include/kt_utils/Utf8.h:141-145). -/
def varSelectorSize : Nat := 3
def minMBSize : Nat := 2
def maxMBSize : Nat := 4

/-- `isVariationSelector` (Utf8Char.cpp:6-21). -/
def isVariationSelector : List UInt8 → Option Bool
  | [] => none
  | a :: r1 => if a ≠ 0xef then some false else match r1 with
    | [] => none
    | b :: r2 => if b ≠ 0xb8 then some false else match r2 with
      | [] => none
      | c :: _ => some (c ≥ 0x80 && c ≤ 0x8f)

/-- `isCombiningMark` (Utf8Char.cpp:23-34). -/
def isCombiningMark : List UInt8 → Option Bool
  | [] => none
  | a :: r1 => if a ≠ 0xe3 then some false else match r1 with
    | [] => none
    | b :: r2 => if b ≠ 0x82 then some false else match r2 with
      | [] => none
      | c :: _ => some (c == 0x99 || c == 0x9a)

/-- `i += n` for a pointer into the buffer: moving past the end is undefined. -/
def advance (n : Nat) (loc : List UInt8) : Option (List UInt8) :=
  if n ≤ loc.length then some (loc.drop n) else none

/-- The loop of `size` (Utf8Char.cpp:41-52); `fuel` bounds the number of iterations and running out
of it is reported as `none`. -/
def sizeLoop (onlyMB : Bool) : Nat → List UInt8 → Nat → Option Nat
  | 0, _, _ => none
  | fuel + 1, i, result =>
    match i with
    | [] => none
    | b :: r =>
      if b = 0 then some result
      else do
        let cm ← isCombiningMark i
        let vs ← if cm then some true else isVariationSelector i
        if vs then do
          let i' ← advance varSelectorSize i
          sizeLoop onlyMB fuel i' result
        else if onlyMB then
          sizeLoop onlyMB fuel r (result + if b.toNat &&& 0xc0 = 0xc0 then 1 else 0)
        else
          sizeLoop onlyMB fuel r (result + if b.toNat &&& 0xc0 ≠ 0x80 then 1 else 0)

/-- `size(const String&, bool)` (Utf8Char.cpp:36-59). -/
def utf8Size (s : Str) (onlyMB : Bool := true) : Option Nat :=
  sizeLoop onlyMB (s.length + 1) (s ++ [0]) 0

/-- `isCharWithVariationSelector` (Utf8Char.cpp:61-70). -/
def isCharWithVariationSelector (s : Str) : Option Bool :=
  if s.length ≥ varSelectorSize + minMBSize ∧ s.length ≤ varSelectorSize + maxMBSize then
    isVariationSelector (s.drop (s.length - varSelectorSize) ++ [0])
  else some false

/-- `noVariationSelector` (Utf8Char.cpp:72-76). -/
def noVariationSelector (s : Str) : Option Str := do
  let b ← isCharWithVariationSelector s
  some (if b then s.take (s.length - varSelectorSize) else s)

/-- The mutable members of `Utf8Char` (Utf8Char.h:146-148). -/
structure Utf8CharState where
  loc : List UInt8
  errors : Nat := 0
  variants : Nat := 0
  combiningMarks : Nat := 0
  deriving DecidableEq, Repr

/-- Constructor and `reset` (Utf8Char.cpp:85-90). -/
def Utf8CharState.init (data : Str) : Utf8CharState := { loc := data ++ [0] }

/-- Loop of `getMBUtf8` (Utf8Char.cpp:161): bit `k - 1` of the first byte is tested next. -/
def getMBLoop (first : UInt8) : Nat → List UInt8 → Str → Option (Str × List UInt8)
  | 0, loc, result => some (result, loc)
  | k + 1, loc, result =>
    if first.toNat.testBit k then
      match loc with
      | [] => none
      | b :: r => getMBLoop first k r (result ++ [b])
    else some (result, loc)

/-- `getMBUtf8` (Utf8Char.cpp:158-163). -/
def getMBUtf8 : List UInt8 → Option (Str × List UInt8)
  | [] => none
  | b :: r => getMBLoop b 7 r [b]

/-- `validResult` (Utf8Char.cpp:165-168): the returned flag, `result` and the moved `loc`. -/
def validResult (loc : List UInt8) : Option (Bool × Str × List UInt8) := do
  let (result, loc') ← getMBUtf8 loc
  let vs ← isVariationSelector (result ++ [0])
  if vs then some (false, result, loc')
  else do
    let cm ← isCombiningMark (result ++ [0])
    some (!cm, result, loc')

/-- `peekVariant` (Utf8Char.cpp:170-172): the returned flag and `result` (empty before). The pointer
is converted to a `String` for `isValidMBUtf8`, which doesn't change the outcome of looking at one
character. -/
def peekVariant (loc : List UInt8) : Option (Bool × Str) := do
  let (v, _) ← validateMBUtf8Ptr loc
  if v = .valid then do
    let (result, _) ← getMBUtf8 loc
    let vs ← isVariationSelector (result ++ [0])
    some (vs, result)
  else some (false, [])

/-- `CombiningVoiced`, `CombiningSemiVoiced` (Utf8.h:151-152). -/
def combiningVoiced : Str := [0xe3, 0x82, 0x99]
def combiningSemiVoiced : Str := [0xe3, 0x82, 0x9a]

/-- `combiningMark` of a non-const object (Utf8Char.cpp:188-196). -/
def Utf8CharState.combiningMark (st : Utf8CharState) (base : Str) (accented : Option Str) :
    Option (Str × Utf8CharState) := do
  let loc ← advance varSelectorSize st.loc
  match accented with
  | some a => some (a, { st with loc := loc, combiningMarks := st.combiningMarks + 1 })
  | none => some (base, { st with loc := loc, errors := st.errors + 1 })

/-- `processOne` for a non-const object (Utf8Char.cpp:174-180). -/
def Utf8CharState.processOne (st : Utf8CharState) (cur next : Str) :
    Option (Str × Utf8CharState) :=
  if next = combiningVoiced then st.combiningMark cur (findDakuten cur)
  else if next = combiningSemiVoiced then st.combiningMark cur (findHanDakuten cur)
  else some (cur, st)

/-- `next` (Utf8Char.cpp:92-121).  The first component is `some result` if it returns true.  `fuel`
bounds the iterations of the loop; running out of it is reported as `none`. -/
def nextLoop (onlyMB : Bool) : Nat → Utf8CharState → Option (Option Str × Utf8CharState)
  | 0, _ => none
  | fuel + 1, st =>
    match st.loc with
    | [] => none
    | b :: r =>
      if b = 0 then some (none, st)
      else match validateMBUtf8Ptr st.loc with
        | none => none
        | some (.notMultiByte, _) =>
          if onlyMB then nextLoop onlyMB fuel { st with loc := r }
          else some (some [b], { st with loc := r })
        | some (.valid, _) =>
          match validResult st.loc with
          | none => none
          | some (true, curChar, loc) =>
            match peekVariant loc with
            | none => none
            | some (true, nexChar) =>
              match advance varSelectorSize loc with
              | none => none
              | some loc' =>
                some (some (curChar ++ nexChar), { st with loc := loc', variants := st.variants + 1 })
            | some (false, nexChar) =>
              match ({ st with loc := loc } : Utf8CharState).processOne curChar nexChar with
              | none => none
              | some (result, st') => some (some result, st')
          | some (false, _, loc) =>
            nextLoop onlyMB fuel { st with loc := loc, errors := st.errors + 1 }
        | some (.notValid, _) =>
          nextLoop onlyMB fuel { st with loc := r, errors := st.errors + 1 }

/-- `next` (Utf8Char.cpp:92-121). -/
def Utf8CharState.next (st : Utf8CharState) (onlyMB : Bool := true) :
    Option (Option Str × Utf8CharState) :=
  nextLoop onlyMB st.loc.length st

/-- `processOne` and `combiningMark` for a const object (Utf8Char.cpp:174-186). -/
def processOneConst (cur next : Str) : Str :=
  if next = combiningVoiced then (findDakuten cur).getD cur
  else if next = combiningSemiVoiced then (findHanDakuten cur).getD cur
  else cur

/-- `peek` (Utf8Char.cpp:123-146). -/
def peekLoop (onlyMB : Bool) : Nat → List UInt8 → Option (Option Str)
  | 0, _ => none
  | fuel + 1, location =>
    match location with
    | [] => none
    | b :: r =>
      if b = 0 then some none
      else match validateMBUtf8Ptr location with
        | none => none
        | some (.notMultiByte, _) =>
          if onlyMB then peekLoop onlyMB fuel r else some (some [b])
        | some (.valid, _) =>
          match validResult location with
          | none => none
          | some (true, curChar, loc) =>
            match peekVariant loc with
            | none => none
            | some (true, nextChar) => some (some (curChar ++ nextChar))
            | some (false, nextChar) => some (some (processOneConst curChar nextChar))
          | some (false, _, loc) => peekLoop onlyMB fuel loc
        | some (.notValid, _) => peekLoop onlyMB fuel r

/-- `peek` (Utf8Char.cpp:123-146). -/
def Utf8CharState.peek (st : Utf8CharState) (onlyMB : Bool := true) : Option (Option Str) :=
  peekLoop onlyMB st.loc.length st.loc

/-- `for (Utf8Char s{data}; s.next(x, onlyMB);)`: the values of `x` in order and the final state.
`fuel` bounds the number of iterations (`none` when it runs out). -/
def iterate (onlyMB : Bool) : Nat → Utf8CharState → Option (List Str × Utf8CharState)
  | 0, _ => none
  | fuel + 1, st =>
    match st.next onlyMB with
    | none => none
    | some (none, st') => some ([], st')
    | some (some x, st') =>
      match iterate onlyMB fuel st' with
      | none => none
      | some (xs, st'') => some (x :: xs, st'')

/-- All characters of a string, as seen by such a loop. -/
def utf8Chars (data : Str) (onlyMB : Bool := true) : Option (List Str × Utf8CharState) :=
  iterate onlyMB (data.length + 1) (.init data)

/-- `getFirst` (Utf8Char.cpp:78-83); `result` starts empty. -/
def getFirst (s : Str) : Option Str :=
  ((Utf8CharState.init s).next).map fun r => r.1.getD []

end KT
