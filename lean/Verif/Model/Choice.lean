import Verif.Model.Basic
/-!
# Model of class Choice (libs/kana/src/Choice.cpp)
-/
namespace KT

/-- `Choices`, a `std::map<char, String>` (Choice.h:25): entries in the order of their keys.  The order
is that of the bytes; for a signed `char` keys above 127 would come first, but with such a key `get`
throws. -/
abbrev Choices := List (UInt8 × Str)

def Choices.has (cs : Choices) (c : UInt8) : Bool := cs.any fun p => p.1 == c

/-- The insertion of `emplace` for a key that isn't there yet. -/
def Choices.insert (cs : Choices) (c : UInt8) (d : Str) : Choices :=
  match cs with
  | [] => [(c, d)]
  | p :: r => if c < p.1 then (c, d) :: p :: r else p :: Choices.insert r c d

/-- `emplace(c, d)`: the new map and whether an entry was added. -/
def Choices.emplace (cs : Choices) (c : UInt8) (d : Str) : Choices × Bool :=
  if cs.has c then (cs, false) else (cs.insert c d, true)

/-- `checkPrintableAscii` (Choice.cpp:179-181) passes.  Bytes above 127 are negative as `signed char`
and above `'~'` as `unsigned char`. -/
def isPrintable (c : UInt8) : Bool := !(c < 0x20 || c > 0x7e)
def checkPrintable (c : UInt8) : Res Unit := if isPrintable c then .ok () else .throw .domain

/-- The variables of `add` (Choice.cpp:147-148). -/
structure AddState where
  prompt : Str
  rangeStart : Option UInt8 := none
  prevChar : UInt8 := 0
  deriving DecidableEq, Repr

/-- The lambda `completeRange` (Choice.cpp:149-151). -/
def AddState.completeRange (st : AddState) : Str :=
  if st.rangeStart ≠ some st.prevChar then st.prompt ++ u8!"-" ++ [st.prevChar] else st.prompt

/-- Body of the loop of `add` (Choice.cpp:152-175); `begin` is `*choices.begin()`.  The keys are
`char` promoted to `int`; for printable ones the difference is that of the bytes. -/
def addStep (begin : UInt8 × Str) (st : AddState) (i : UInt8 × Str) : Res AddState := do
  checkPrintable i.1
  if i.2 = [] then
    if st.rangeStart = none then
      .ok { prompt := (if i ≠ begin then st.prompt ++ u8!", " else st.prompt) ++ [i.1],
            rangeStart := some i.1, prevChar := i.1 }
    else if (i.1.toNat : Int) - st.prevChar.toNat > 1 then
      .ok { prompt := st.completeRange ++ u8!", " ++ [i.1], rangeStart := some i.1, prevChar := i.1 }
    else .ok { st with prevChar := i.1 }
  else
    let (prompt, rangeStart) :=
      if st.rangeStart.isSome then (st.completeRange, none) else (st.prompt, st.rangeStart)
    .ok { prompt := (if i.1 ≠ begin.1 then prompt ++ u8!", " else prompt) ++ [i.1] ++ u8!"=" ++ i.2,
          rangeStart := rangeStart, prevChar := i.1 }

def addLoop (begin : UInt8 × Str) : Choices → AddState → Res AddState
  | [], st => .ok st
  | i :: r, st => do
    let st ← addStep begin st i
    addLoop begin r st

/-- `add` (Choice.cpp:144-177): the prompt after the call. -/
def addChoices (prompt : Str) (choices : Choices) : Res Str :=
  match choices with
  | [] => .ok prompt
  | begin :: _ => do
    let st ← addLoop begin choices { prompt := prompt }
    .ok (if st.rangeStart.isSome then st.completeRange else st.prompt)

/-- The quit option of a `Choice` (Choice.h:103-104): `none` if there isn't one. -/
abbrev Quit := Option (UInt8 × Str)

/-- The part of `get` before its loop (Choice.cpp:37-52): the offered choices and the prompt. -/
def Choice.prepare (quit : Quit) (msg : Str) (useQuit : Bool) (choices : Choices)
    (dflt : Option UInt8) : Res (Choices × Str) := do
  let choicesOut ← match quit with
    | none => .ok choices
    | some (q, d) =>
      if useQuit then
        let (cs, added) := choices.emplace q d
        if !added then .throw .domain else .ok cs
      else if choices.has q then .throw .domain else .ok choices
  if choicesOut = [] then .throw .domain
  else
    let prompt ← addChoices (msg ++ (if msg = [] then u8!"(" else u8!" (")) choicesOut
    match dflt with
    | some d =>
      if !choicesOut.has d then .throw .domain
      else .ok (choicesOut, prompt ++ u8!") def '" ++ [d] ++ u8!"': ")
    | none => .ok (choicesOut, prompt ++ u8!"): ")

/-- An input stream: the bytes not yet extracted and whether `good()` holds. -/
structure InStream where
  rest : Str
  good : Bool := true
  deriving DecidableEq, Repr

/-- The text up to the next newline and, if there is one, what follows it. -/
def cutLine : Str → Str × Option Str
  | [] => ([], none)
  | b :: r => if b = 0x0a then ([], some r) else
    let (l, r') := cutLine r
    (b :: l, r')

/-- `std::getline(in, line)`: the stream and the value of `line` afterwards.  If the stream isn't good
(the end was reached before) `line` keeps its value, see C++20 [string.io]; otherwise it is
replaced, and reaching the end makes the stream not good. -/
def InStream.getline (s : InStream) (line : Str) : InStream × Str :=
  if s.good then
    match cutLine s.rest with
    | (l, some r) => ({ rest := r, good := true }, l)
    | (l, none) => ({ rest := [], good := false }, l)
  else (s, line)

/-- The tests at Choice.cpp:67-69: the answer that a line gives, if any. -/
def Choice.answer (cs : Choices) (dflt : Option UInt8) (line : Str) : Option UInt8 :=
  match line, dflt with
  | [], some d => some d
  | [b], _ => if cs.has b then some b else none
  | _, _ => none

/-- The loop of `get` (Choice.cpp:53-69) for at most `fuel` rounds: the answer and the stream after
it, or `none` if the loop is still running. -/
def Choice.loop (cs : Choices) (dflt : Option UInt8) : Nat → InStream → Str → Option (UInt8 × InStream)
  | 0, _, _ => none
  | fuel + 1, s, line =>
    let (s, line) := s.getline line
    match Choice.answer cs dflt line with
    | some b => some (b, s)
    | none => Choice.loop cs dflt fuel s line

/-- `get` (Choice.cpp:32-70) with an input stream, for at most `fuel` rounds; the answer `none` means
that it is still waiting for input. -/
def Choice.get (fuel : Nat) (quit : Quit) (msg : Str) (useQuit : Bool) (choices : Choices)
    (dflt : Option UInt8) (s : InStream) : Res (Option (UInt8 × InStream)) := do
  let (cs, _) ← Choice.prepare quit msg useQuit choices dflt
  .ok (Choice.loop cs dflt fuel s [])

/-- The loop at Choice.cpp:97-99; `last` is printable, so `++i` doesn't overflow. -/
def addRange : List Nat → UInt8 → Choices → Res Choices
  | [], _, cs => .ok cs
  | n :: r, first, cs =>
    let (cs, added) := cs.emplace (first + UInt8.ofNat n) []
    if !added then .throw .domain else addRange r first cs

/-- `get` with a range (Choice.cpp:85-101). -/
def Choice.rangeChoices (first last : UInt8) (choices : Choices) : Res Choices := do
  checkPrintable first
  checkPrintable last
  if first > last then .throw .domain
  else addRange (List.range (last.toNat - first.toNat + 1)) first choices

def Choice.getRange (fuel : Nat) (quit : Quit) (first last : UInt8) (msg : Str) (useQuit : Bool)
    (choices : Choices) (dflt : Option UInt8) (s : InStream) : Res (Option (UInt8 × InStream)) := do
  let cs ← Choice.rangeChoices first last choices
  Choice.get fuel quit msg useQuit cs dflt s

/-- `setQuit` (Choice.cpp:24-28) and the constructors (Choice.cpp:15-22). -/
def Choice.setQuit (c : UInt8) (d : Str) : Res Quit := do
  checkPrintable c
  .ok (some (c, d))

end KT
