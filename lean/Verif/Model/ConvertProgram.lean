import Verif.Model.HelpText
import Verif.Model.KanaChart
import Verif.Model.ListSession
/-!
# Model of kanaConvert from its arguments and input to its output (KanaConvert.cpp and apps/convertMain.cpp)
-/
namespace KT

/-- The notes before the chart (KanaConvert.cpp:41-64). -/
def chartNotes : List Str :=
  [u8!"- Column names use some abbreviations: 'Roma' = Rōmaji, 'Hira' = Hiragana,",
   u8!"  'Kata' = Katakana, 'Uni' = Unicode, 'Hepb' = Hepburn, 'Kunr' = Kunrei",
   u8!"- 'Roma' is mainly 'Modern Hepburn', but can be 'Nihon Shiki' or 'Wāpuro'",
   u8!"- 'Hepb' and 'Kunr' are only populated when they would produce different output",
   u8!"  - Values in () means 'output-only' since inputting leads to a different Kana",
   u8!"- 'Roma Variants' are alternative key combinations that lead to the same Kana",
   u8!"- When populated, 'Roma', 'Hira' and 'Kata' columns are unique (no duplicates)",
   u8!"- Unicode values are only shown for 'monograph' (single-symbol) entries",
   u8!"- Some 'digraphs' may not be in any 'official words', but are supported by IMEs",
   u8!"- Chart output is sorted by Hiragana, so 'a, ka, sa, ta, na, ...' ordering",
   u8!"- Katakana 'dakuten w' (ヷ, ヸ, ヹ, ヺ) aren't supported (no conversions exist)",
   u8!"- Type values: P=Plain Kana, D=Dakuten (濁点), H=HanDakuten (半濁点), N=None",
   u8!"- Type 'N' includes:",
   u8!"  - Middle Dot/Interpunct (・): maps to Rōmaji '/' to match IME keyboard entry",
   u8!"  - Prolong Mark (ー): convert to/from macrons (ā, ī, ū, ē, ō)",
   u8!"  - Repeat symbols (ゝ, ゞ, ヽ, ヾ): only supported when 'target' is Rōmaji"]

/-- `printChartHeader` (KanaConvert.cpp:41-64). -/
def printChartHeader (markdown : Bool) : Str :=
  (if markdown then u8!"**Notes:**\n" else u8!">>> Notes:") ++ u8!"\n" ++ textOf chartNotes ++
    (if markdown then u8!"\n" else [])

/-- All of `printKanaChart` (KanaConvert.cpp:282-327). -/
def wholeKanaChart (markdown : Bool) : Res Str :=
  (printKanaChart markdown).bind fun t => .ok (printChartHeader markdown ++ t)

/-! ## Arguments, with messages -/

/-- `processArg` (KanaConvert.cpp:139-161) with the messages. -/
def ConvState.processArgWhy (st : ConvState) (arg : Str) : Except Str (Option ConvState) :=
  let setBool (st' : ConvState) : Except Str (Option ConvState) :=
    if st.hasMode then .error (u8!"can only specify one of -i, -m, -n, or -p") else .ok (some st')
  if arg = u8!"-i" then setBool { st with interactive := true }
  else if arg = u8!"-m" then setBool { st with printMarkdown := true }
  else if arg = u8!"-n" then setBool { st with suppressNewLine := true }
  else if arg = u8!"-p" then setBool { st with printKana := true }
  else if arg.head? = some 0x2d then
    match st.charTypeArgs arg with
    | none => .error (u8!"illegal option: " ++ arg)
    | some st => .ok (some st)
  else .ok none

/-- The argument of `-f` (KanaConvert.cpp:118-120) with the message. -/
def ConvState.flagValueWhy (st : ConvState) (arg : Str) : Except Str ConvState :=
  match arg with
  | [c] =>
    match st.flagArgs c with
    | none => .error (u8!"illegal option for -f: " ++ arg)
    | some st => .ok st
  | _ => .error (u8!"illegal option for -f: " ++ arg)

/-- The loop of the constructor (KanaConvert.cpp:111-122) as `convArgsLoop`, with the messages. -/
def convLoopWhy (args : List Str) : Nat → Nat → ConvState → Option (Except Str ConvArgs)
  | 0, _, _ => none
  | fuel + 1, i, st =>
    match args[i]? with
    | none => some (.ok (.run st))
    | some arg =>
      if arg = u8!"--" then
        convLoopWhy args fuel ((args.length + 1) % 65536) { st with strings := st.strings ++ args.drop (i + 1) }
      else if arg = u8!"-?" then some (.ok .usage)
      else if arg = u8!"-f" then
        match args[i + 1]? with
        | none => some (.error (u8!"-f must be followed by a flag value"))
        | some v =>
          match st.flagValueWhy v with
          | .ok st => convLoopWhy args fuel ((i + 2) % 65536) st
          | .error m => some (.error m)
      else
        match st.processArgWhy arg with
        | .ok (some st) => convLoopWhy args fuel ((i + 1) % 65536) st
        | .ok none => convLoopWhy args fuel ((i + 1) % 65536) { st with strings := st.strings ++ [arg] }
        | .error m => some (.error m)

/-- What follows the loop (KanaConvert.cpp:124-137) as `select`, with the messages. -/
def ConvState.selectWhy (st : ConvState) (needsOption : Bool) : Except Str ConvRun :=
  if st.strings ≠ [] then
    if st.interactive || st.printKana || st.printMarkdown then
      .error (u8!"'string' args can't be combined with '-i', '-m' or '-p'")
    else .ok (.strings st)
  else if st.printKana || st.printMarkdown then .ok (.chart st.printMarkdown)
  else if needsOption && !st.interactive then
    .error (u8!"provide one or more 'strings' or '-i' for interactive mode")
  else .ok (.input st)

/-! ## Input, with what is written -/

/-- `processLine` (KanaConvert.cpp:257-279) with what it writes: whether the line is to be converted, or nothing if the
prompt for a flag isn't answered within `n` rounds. -/
def ConvState.lineTalk (n : Nat) (st : ConvState) (line : Str) (s : InStream) :
    Res (Str × Option (Bool × ConvState × InStream)) :=
  if line = [] then .ok ([], some (false, st, s))
  else if line = u8!"c" then
    let st := { st with converter := { st.converter with flags := .none } }
    .ok (st.options.shown, some (false, st, s))
  else if line = u8!"f" then
    (Choice.prepare none (u8!">>> enter flag option") false flagChoices none).bind fun p =>
      match Choice.ask p.2 p.1 none n s [] with
      | (text, none) => .ok (text, none)
      | (text, some (c, s)) =>
        let st := (st.flagArgs c).getD st
        .ok (text ++ st.options.shown, some (false, st, s))
  else if line = u8!"h" then .ok (ConvEvent.shown .usage ++ st.options.shown, some (false, st, s))
  else if line.head? = some 0x2d then
    match st.charTypeArgs line with
    | some st => .ok (st.options.shown, some (false, st, s))
    | none => .ok (ConvEvent.shown (.illegal line) ++ st.options.shown, some (false, st, s))
  else .ok ([], some (true, st, s))

/-- The loop of `getInput` (KanaConvert.cpp:240-244): what is written, and whether it ends. -/
def ConvState.inputTalk (n : Nat) : Nat → ConvState → InStream → Res (Str × Bool)
  | 0, _, _ => .ok ([], false)
  | fuel + 1, st, s =>
    match s.nextLine with
    | none => .ok ([], true)
    | some (line, s) =>
      if line = u8!"q" then .ok ([], true)
      else
        (if st.interactive then st.lineTalk n line s else .ok ([], some (true, st, s))).bind fun x =>
          match x.2 with
          | none => .ok (x.1, false)
          | some (false, st, s) => (ConvState.inputTalk n fuel st s).bind fun r => .ok (x.1 ++ r.1, r.2)
          | some (true, st, s) =>
            (st.convert line).bind fun c =>
              (ConvState.inputTalk n fuel st s).bind fun r =>
                .ok (x.1 ++ c ++ (if st.suppressNewLine then [] else u8!"\n") ++ r.1, r.2)

/-- `getInput` (KanaConvert.cpp:238-245). -/
def ConvState.talk (n : Nat) (st : ConvState) (text : Str) : Res (Str × Bool) :=
  (st.inputTalk n (text.length + 1) ⟨text, true⟩).bind fun r =>
    .ok ((if st.interactive then st.options.shown else []) ++ r.1, r.2)

/-! ## The program -/

/-- `main` (apps/convertMain.cpp:3-11) with the constructor (KanaConvert.cpp:107-137): what is written to `std::cout` and,
unless it asks for a flag forever, what is written to `std::cerr` and the exit code.  `tty` is whether the input is a
terminal. -/
def mainConvert (argv : List Str) (tty : Bool) (n : Nat) (input : Str) : Option (Res (Str × Option (Str × Nat))) :=
  (convLoopWhy argv (argv.length + 1) 1 {}).map fun a =>
    match a with
    | .error m => .ok ([], some (m ++ u8!"\n", 1))
    | .ok .usage => .ok (textOf (convertUsage true), some ([], 0))
    | .ok (.run st) =>
      match st.selectWhy tty with
      | .error m => .ok ([], some (m ++ u8!"\n", 1))
      | .ok (.strings st) => st.startStrings.bind fun t => .ok (t, some ([], 0))
      | .ok (.chart markdown) => (wholeKanaChart markdown).bind fun t => .ok (t, some ([], 0))
      | .ok (.input st) => (st.talk n input).bind fun r => .ok (r.1, if r.2 then some ([], 0) else none)

end KT
