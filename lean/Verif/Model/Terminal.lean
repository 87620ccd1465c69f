import Verif.Model.Choice
/-!
# Model of `Choice` when keys are read from the terminal (libs/kana/src/Choice.cpp:53-70, 119-141)

`_in` is null: `get` reads single characters from descriptor 0.  If that isn't a terminal then `tcgetattr` and `tcsetattr`
fail and change nothing (POSIX, `ENOTTY`); on a terminal they succeed, and so does `read`, which gives one key or the end of
the input.  Of the settings only those used are told apart.  Of the messages of `perror` only its argument is kept.
-/
namespace KT

/-- `struct termios`. -/
structure TermSettings where
  /-- `ICANON` in `c_lflag`. -/
  icanon : Bool
  /-- `ECHO` in `c_lflag`. -/
  echo : Bool
  /-- `c_cc[VMIN]`. -/
  vmin : UInt8
  /-- `c_cc[VTIME]`. -/
  vtime : UInt8
  /-- Everything else. -/
  rest : Nat
  deriving DecidableEq, Repr

/-- What is at descriptor 0, with the keys that will be read. -/
structure Terminal where
  isTerminal : Bool
  settings : TermSettings
  keys : Str
  deriving DecidableEq, Repr

/-- `tcgetattr` into settings that were set to zero (lines 122-123). -/
def Terminal.getSettings (t : Terminal) : TermSettings × List Str :=
  if t.isTerminal then (t.settings, []) else (⟨false, false, 0, 0, 0⟩, [u8!"tcsetattr()"])

/-- `tcsetattr`; `msg` is given to `perror` if it fails. -/
def Terminal.setSettings (t : Terminal) (s : TermSettings) (msg : Str) : Terminal × List Str :=
  if t.isTerminal then ({ t with settings := s }, []) else (t, [msg])

/-- `read(0, &result, 1)` (lines 132-133), `result` is zero before. -/
def Terminal.read (t : Terminal) : UInt8 × Terminal :=
  match t.keys with
  | [] => (0, t)
  | k :: r => (k, { t with keys := r })

/-- Turning raw mode on (lines 122-130): the local settings, what is at descriptor 0 while reading, and the messages. -/
def Terminal.rawMode (t : Terminal) : TermSettings × Terminal × List Str :=
  let (settings, m1) := t.getSettings
  let settings := { settings with icanon := false, echo := false, vmin := 1, vtime := 0 }
  let (t, m2) := t.setSettings settings (u8!"tcsetattr() - turning on raw mode")
  (settings, t, m1 ++ m2)

/-- `getOneChar` (Choice.cpp:120-140): the character, what is at descriptor 0 afterwards, and the messages. -/
def getOneChar (t : Terminal) : UInt8 × Terminal × List Str :=
  let (settings, t, m1) := t.rawMode
  let (result, t) := t.read
  let settings := { settings with icanon := true, echo := true }
  let (t, m2) := t.setSettings settings (u8!"tcsetattr() - turning off raw mode")
  (result, t, m1 ++ m2)

/-- The loop of `get` (Choice.cpp:53-69) without a stream, for at most `fuel` rounds: what is written, and the answer with
what is at descriptor 0 after it, or `none` if the loop is still running. -/
def Choice.keyLoop (cs : Choices) (dflt : Option UInt8) (prompt : Str) : Nat → Terminal → Str × Option (UInt8 × Terminal)
  | 0, _ => ([], none)
  | fuel + 1, t =>
    let (choice, t, _) := getOneChar t
    let line := if choice = 0x0a then [] else [choice]
    match Choice.answer cs dflt line with
    | some b => (prompt ++ u8!"\n", some (b, t))
    | none =>
      let (out, r) := Choice.keyLoop cs dflt prompt fuel t
      (prompt ++ u8!"\n" ++ out, r)

/-- `get` (Choice.cpp:32-70) without a stream. -/
def Choice.getKey (fuel : Nat) (quit : Quit) (msg : Str) (useQuit : Bool) (choices : Choices) (dflt : Option UInt8)
    (t : Terminal) : Res (Str × Option (UInt8 × Terminal)) := do
  let (cs, prompt) ← Choice.prepare quit msg useQuit choices dflt
  .ok (Choice.keyLoop cs dflt prompt fuel t)

end KT
