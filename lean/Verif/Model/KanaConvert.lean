import Verif.Model.Converter
import Verif.Model.Choice
/-!
# Model of libs/kana/src/KanaConvert.cpp
-/
namespace KT

/-- The members of `KanaConvert` that change (KanaConvert.h) and the local variables of its
constructor. -/
structure ConvState where
  interactive : Bool := false
  suppressNewLine : Bool := false
  printKana : Bool := false
  printMarkdown : Bool := false
  source : Option CharType := none
  converter : Converter := { target := .hiragana }
  strings : List Str := []
  deriving DecidableEq, Repr

/-- `charTypeArgs` (KanaConvert.cpp:163-178), `none` if it returns false. -/
def ConvState.charTypeArgs (st : ConvState) (arg : Str) : Option ConvState :=
  match arg with
  | [_, c] =>
    if c = 0x68 then some { st with converter := { st.converter with target := .hiragana } }
    else if c = 0x6b then some { st with converter := { st.converter with target := .katakana } }
    else if c = 0x72 then some { st with converter := { st.converter with target := .romaji } }
    else if c = 0x48 then some { st with source := some .hiragana }
    else if c = 0x4b then some { st with source := some .katakana }
    else if c = 0x52 then some { st with source := some .romaji }
    else none
  | _ => none

/-- `flagArgs` with `setFlag` (KanaConvert.cpp:180-189 and 285-287), `none` if it returns false. -/
def ConvState.flagArgs (st : ConvState) (c : UInt8) : Option ConvState :=
  let set (f : ConvertFlags) : Option ConvState := some { st with converter := { st.converter with flags := f } }
  let f := st.converter.flags
  if c = 0x68 then set { f with hepburn := true }
  else if c = 0x6b then set { f with kunrei := true }
  else if c = 0x6e then set { f with noProlongMark := true }
  else if c = 0x72 then set { f with removeSpaces := true }
  else none

/-- The test in `setBool` (KanaConvert.cpp:143). -/
def ConvState.hasMode (st : ConvState) : Bool :=
  st.interactive || st.suppressNewLine || st.printKana || st.printMarkdown

/-- `processArg` (KanaConvert.cpp:139-161), `none` if the argument isn't an option. -/
def ConvState.processArg (st : ConvState) (arg : Str) : Res (Option ConvState) :=
  if arg = u8!"-i" then (if st.hasMode then .throw .domain else .ok (some { st with interactive := true }))
  else if arg = u8!"-m" then (if st.hasMode then .throw .domain else .ok (some { st with printMarkdown := true }))
  else if arg = u8!"-n" then (if st.hasMode then .throw .domain else .ok (some { st with suppressNewLine := true }))
  else if arg = u8!"-p" then (if st.hasMode then .throw .domain else .ok (some { st with printKana := true }))
  else if arg.head? = some 0x2d then
    match st.charTypeArgs arg with
    | none => .throw .domain
    | some st => .ok (some st)
  else .ok none

/-- What the arguments ask for. -/
inductive ConvArgs where
  | usage
  | run (st : ConvState)
  deriving DecidableEq, Repr

/-- The body of the loop for an argument that isn't `--` or `-?` or `-f` (KanaConvert.cpp:121-122). -/
def ConvState.otherArg (st : ConvState) (arg : Str) : Res ConvState :=
  (st.processArg arg).bind fun r =>
    match r with
    | some st => .ok st
    | none => .ok { st with strings := st.strings ++ [arg] }

/-- The argument of `-f` (KanaConvert.cpp:118-120). -/
def ConvState.flagValue (st : ConvState) (arg : Str) : Res ConvState :=
  match arg with
  | [c] =>
    match st.flagArgs c with
    | none => .throw .domain
    | some st => .ok st
  | _ => .throw .domain

/-- The loop of the constructor (KanaConvert.cpp:111-122).  The index `i` has 16 bits, and so has the size
of the arguments.  The answer is `none` if the loop is still running after `fuel` rounds. -/
def convArgsLoop (args : List Str) : Nat → Nat → ConvState → Option (Res ConvArgs)
  | 0, _, _ => none
  | fuel + 1, i, st =>
    match args[i]? with
    | none => some (.ok (.run st))
    | some arg =>
      if arg = u8!"--" then
        convArgsLoop args fuel ((args.length + 1) % 65536) { st with strings := st.strings ++ args.drop (i + 1) }
      else if arg = u8!"-?" then some (.ok .usage)
      else if arg = u8!"-f" then
        match args[i + 1]? with
        | none => some (.throw .domain)
        | some v =>
          match st.flagValue v with
          | .ok st => convArgsLoop args fuel ((i + 2) % 65536) st
          | .throw e => some (.throw e)
          | .ub => some .ub
      else
        match st.otherArg arg with
        | .ok st => convArgsLoop args fuel ((i + 1) % 65536) st
        | .throw e => some (.throw e)
        | .ub => some .ub

/-- What the constructor does after the loop (KanaConvert.cpp:124-137); `needsOption` is
`_in || isatty(fileno(stdin))`. -/
inductive ConvRun where
  | strings (st : ConvState)
  | chart (markdown : Bool)
  | input (st : ConvState)
  deriving DecidableEq, Repr

@[inherit_doc ConvRun]
def ConvState.select (st : ConvState) (needsOption : Bool) : Res ConvRun :=
  if st.strings ≠ [] then
    if st.interactive || st.printKana || st.printMarkdown then .throw .domain else .ok (.strings st)
  else if st.printKana || st.printMarkdown then .ok (.chart st.printMarkdown)
  else if needsOption && !st.interactive then .throw .domain
  else .ok (.input st)

/-- `convert` (KanaConvert.cpp:281-283). -/
def ConvState.convert (st : ConvState) (s : Str) : Res Str :=
  match st.source with
  | some t => st.converter.convertFrom t s
  | none => st.converter.convert s

/-- The loop of `start` (KanaConvert.cpp:226-233). -/
def ConvState.startLoop (st : ConvState) : Bool → List Str → Res Str
  | _, [] => .ok []
  | space, s :: r =>
    (st.convert s).bind fun c =>
    (st.startLoop (if space then true else
        decide (st.converter.target ≠ .romaji) && !st.converter.flags.removeSpaces) r).bind fun out =>
    .ok ((if space then (if st.converter.target = .romaji then u8!" " else u8!"　") else []) ++ c ++ out)

/-- `start` with strings (KanaConvert.cpp:222-236): the output. -/
def ConvState.startStrings (st : ConvState) : Res Str :=
  (st.startLoop false st.strings).bind fun out => .ok (out ++ u8!"\n")

/-! ## Input -/

/-- What is written while reading input. -/
inductive ConvEvent where
  | options (source : Option CharType) (target : CharType) (flags : ConvertFlags)
  | usage
  | illegal (line : Str)
  | text (s : Str)
  deriving DecidableEq, Repr

/-- `std::getline(in, line)` as condition of a loop: `none` if it fails. -/
def InStream.nextLine (s : InStream) : Option (Str × InStream) :=
  if s.good then
    match cutLine s.rest with
    | (l, some r) => some (l, { rest := r, good := true })
    | (l, none) => if l = [] then none else some (l, { rest := [], good := false })
  else none

/-- `flagChoices` (KanaConvert.cpp:259-260). -/
def flagChoices : Choices :=
  [(0x68, u8!"Hepburn"), (0x6b, u8!"Kunrei"), (0x6e, u8!"NoProlongMark"), (0x72, u8!"RemoveSpaces")]

def ConvState.options (st : ConvState) : ConvEvent :=
  .options st.source st.converter.target st.converter.flags

/-- The result of `processLine`. -/
inductive LineResult where
  /-- it returns true -/
  | convert
  /-- it returns false -/
  | done (st : ConvState) (events : List ConvEvent) (s : InStream)
  /-- the prompt for the flag is never answered -/
  | waiting
  deriving DecidableEq, Repr

/-- `processLine` (KanaConvert.cpp:257-279).  `fuel` bounds the rounds of the prompt. -/
def ConvState.processLine (fuel : Nat) (st : ConvState) (line : Str) (s : InStream) : Res LineResult :=
  if line = [] then .ok (.done st [] s)
  else if line = u8!"c" then
    let st := { st with converter := { st.converter with flags := .none } }
    .ok (.done st [st.options] s)
  else if line = u8!"f" then
    (Choice.get fuel none (u8!">>> enter flag option") false flagChoices none s).bind fun r =>
    match r with
    | none => .ok .waiting
    | some (c, s) =>
      let st := (st.flagArgs c).getD st
      .ok (.done st [st.options] s)
  else if line = u8!"h" then .ok (.done st [.usage, st.options] s)
  else if line.head? = some 0x2d then
    match st.charTypeArgs line with
    | some st => .ok (.done st [st.options] s)
    | none => .ok (.done st [.illegal line, st.options] s)
  else .ok .convert

/-- The loop of `getInput` (KanaConvert.cpp:238-245): what is written, and whether it ends (false if the
prompt for a flag is never answered or `fuel` is used up). -/
def ConvState.inputLoop : Nat → ConvState → InStream → Res (List ConvEvent × Bool)
  | 0, _, _ => .ok ([], false)
  | fuel + 1, st, s =>
    match s.nextLine with
    | none => .ok ([], true)
    | some (line, s) =>
      if line = u8!"q" then .ok ([], true)
      else
        let conv : Res (List ConvEvent × Bool) :=
          (st.convert line).bind fun c =>
          (ConvState.inputLoop fuel st s).bind fun r =>
          .ok (.text (c ++ if st.suppressNewLine then [] else u8!"\n") :: r.1, r.2)
        if st.interactive then
          (st.processLine (fuel + 1) line s).bind fun r =>
          match r with
          | .convert => conv
          | .waiting => .ok ([], false)
          | .done st events s =>
            (ConvState.inputLoop fuel st s).bind fun r => .ok (events ++ r.1, r.2)
        else conv

/-- `getInput` (KanaConvert.cpp:238-245). -/
def ConvState.getInput (st : ConvState) (text : Str) : Res (List ConvEvent × Bool) :=
  (st.inputLoop (text.length + 1) ⟨text, true⟩).bind fun r =>
  .ok ((if st.interactive then [st.options] else []) ++ r.1, r.2)

end KT
