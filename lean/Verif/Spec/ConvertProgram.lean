import Verif.Spec.KanaConvert
import Verif.Model.HelpText
/-!
# Specification of kanaConvert: everything written for any arguments and any input
-/
namespace Spec
open KT

/-- What the options say; `mode` is one of the letters "imnp". -/
structure Settings where
  mode : Option UInt8 := none
  source : Option CharType := none
  target : CharType := .hiragana
  flags : ConvertFlags := {}
  strings : List Str := []

def targetLetters : List (UInt8 × CharType) := [(0x68, .hiragana), (0x6b, .katakana), (0x72, .romaji)]
def sourceLetters : List (UInt8 × CharType) := [(0x48, .hiragana), (0x4b, .katakana), (0x52, .romaji)]

/-- The effect of the letter of an option for source or target. -/
def Settings.letter (k : Settings) (c : UInt8) : Option Settings :=
  match targetLetters.lookup c, sourceLetters.lookup c with
  | some t, _ => some { k with target := t }
  | none, some t => some { k with source := some t }
  | none, none => none

/-- The effect of such an option: a dash and a letter. -/
def Settings.typeOption (k : Settings) : Str → Option Settings
  | [_, c] => k.letter c
  | _ => none

/-- What is made of the arguments after the program name: the usage (`none`), settings, or the message for the first
problem. -/
def readSettings (k : Settings) : List Str → Except Str (Option Settings)
  | [] => .ok (some k)
  | a :: r =>
    if a = u8!"--" then .ok (some { k with strings := k.strings ++ r })
    else if a = u8!"-?" then .ok none
    else if a = u8!"-f" then
      match r with
      | [] => .error (u8!"-f must be followed by a flag value")
      | v :: r =>
        match convFlags.lookup v with
        | some f => readSettings { k with flags := withFlag k.flags f } r
        | none => .error (u8!"illegal option for -f: " ++ v)
    else if a.head? = some 0x2d then
      match a with
      | [_, c] =>
        if c ∈ (u8!"imnp" : Str) then
          if k.mode = none then readSettings { k with mode := some c } r
          else .error (u8!"can only specify one of -i, -m, -n, or -p")
        else
          match k.letter c with
          | some k => readSettings k r
          | none => .error (u8!"illegal option: " ++ a)
      | _ => .error (u8!"illegal option: " ++ a)
    else readSettings { k with strings := k.strings ++ [a] } r

/-! ## Interactive mode -/

/-- The names of the flags that are set. -/
def flagNames (f : ConvertFlags) : Str :=
  let names := (if f.hepburn then [u8!"Hepburn"] else []) ++ (if f.kunrei then [u8!"Kunrei"] else []) ++
    (if f.noProlongMark then [u8!"NoProlongMark"] else []) ++ (if f.removeSpaces then [u8!"RemoveSpaces"] else [])
  if names = [] then u8!"None" else separated (u8!"|") names

def typeName : CharType → Str
  | .hiragana => u8!"Hiragana"
  | .katakana => u8!"Katakana"
  | .romaji => u8!"Romaji"

/-- The current options. -/
def Settings.shown (k : Settings) : Str :=
  u8!">>> current options: source=" ++ (k.source.map typeName).getD (u8!"any") ++ u8!", target=" ++ typeName k.target ++
    u8!", flags=" ++ flagNames k.flags ++
    u8!"\n>>> enter string (c=clear flags, f=set flag, q=quit, h=help, -k|-h|-r|-K|-H|-R):\n"

def flagQuestion : Str := u8!">>> enter flag option (h=Hepburn, k=Kunrei, n=NoProlongMark, r=RemoveSpaces): "

def shortHelp : Str := u8!"  -h: set conversion output to Hiragana
  -k: set conversion output to Katakana
  -r: set conversion output to Rōmaji
  -H: restrict conversion input to Hiragana
  -K: restrict conversion input to Katakana
  -R: restrict conversion input to Rōmaji
"

/-- Text before a dialog. -/
def after (text : Str) (r : Str × Bool) : Str × Bool := (text ++ r.1, r.2)

/-- The dialog line by line: what is written, and whether it ends.  `asking` is set while a flag is asked for, with the
number of questions left (of `n`); at the end of the input the question is repeated. -/
def chat (conv : Settings → Str → Str) (n : Nat) : Settings → Option Nat → List Str → Str × Bool
  | _, none, [] => ([], true)
  | _, some m, [] => ((List.replicate m flagQuestion).flatten, false)
  | k, some m, l :: r =>
    match m with
    | 0 => ([], false)
    | m + 1 =>
      after flagQuestion
        (match convFlags.lookup l with
         | none => chat conv n k (some m) r
         | some f =>
           let k := { k with flags := withFlag k.flags f }
           after k.shown (chat conv n k none r))
  | k, none, l :: r =>
    if l = u8!"q" then ([], true)
    else if l = [] then chat conv n k none r
    else if l = u8!"f" then chat conv n k (some n) r
    else if l = u8!"h" then after (shortHelp ++ k.shown) (chat conv n k none r)
    else if l = u8!"c" then
      let k := { k with flags := {} }
      after k.shown (chat conv n k none r)
    else if l.head? = some 0x2d then
      match k.typeOption l with
      | some k => after k.shown (chat conv n k none r)
      | none => after (u8!"  illegal option: " ++ l ++ u8!"\n" ++ k.shown) (chat conv n k none r)
    else after (conv k l ++ u8!"\n") (chat conv n k none r)

/-! ## The program -/

/-- What is written and, if the program ends, the message and the exit code: `conv` converts, `chart` is the chart for
a terminal or for Markdown, `tty` whether the input is a terminal. -/
def convertOutput (conv : Settings → Str → Str) (chart : Bool → Str) (args : List Str) (tty : Bool) (n : Nat) (input : Str) :
    Str × Option (Str × Nat) :=
  let failed (m : Str) : Str × Option (Str × Nat) := ([], some (m ++ u8!"\n", 1))
  match readSettings {} args with
  | .error m => failed m
  | .ok none => (textOf (convertUsage true), some ([], 0))
  | .ok (some k) =>
    if k.strings ≠ [] then
      if k.mode = none ∨ k.mode = some 0x6e then  -- n
        (separated (if k.target = .romaji ∨ k.flags.removeSpaces then [] else u8!"　") (k.strings.map (conv k)) ++ u8!"\n",
          some ([], 0))
      else failed (u8!"'string' args can't be combined with '-i', '-m' or '-p'")
    else if k.mode = some 0x6d then (chart true, some ([], 0))
    else if k.mode = some 0x70 then (chart false, some ([], 0))
    else if k.mode = some 0x69 then
      let r := chat conv n k none (fields 0x0a input)
      (k.shown ++ r.1, if r.2 then some ([], 0) else none)
    else if tty then failed (u8!"provide one or more 'strings' or '-i' for interactive mode")
    else
      ((((fields 0x0a input).takeWhile (· ≠ u8!"q")).map fun l =>
        conv k l ++ if k.mode = some 0x6e then [] else u8!"\n").flatten, some ([], 0))

end Spec
