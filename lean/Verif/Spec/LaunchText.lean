import Verif.Spec.Quiz
import Verif.Model.LaunchText
/-!
# Specification of the options of kanjiQuiz and of the messages for wrong ones
-/
namespace Spec
open KT

/-- Arguments that change settings: they begin with `-` and something else, except for `-h` and `--`. -/
def setsOption : Str → Bool
  | 0x2d :: c :: rest => !(rest.isEmpty && (c == 0x68 || c == 0x2d))
  | _ => false

/-- Options with one of these letters, and what follows the letter. -/
def optionsWith (letters : Str) (opts : List Str) : List (UInt8 × Str) :=
  opts.filterMap fun arg =>
    match arg with
    | 0x2d :: c :: rest => if c ∈ letters then some (c, rest) else none
    | _ => none

/-- The settings of options without problems. -/
def settings (opts : List Str) : LaunchArgs where
  launcher := (match optionsWith (u8!"rt") opts with
    | (c, rest) :: _ =>
      ⟨if c = 0x72 then .review else .quiz, match modeOption rest with | some x => x.1 | none => .notAssigned⟩
    | [] => {})
  question := (match optionsWith (u8!"rt") opts with
    | (_, rest) :: _ => (match modeOption rest with | some x => x.2 | none => 0)
    | [] => 0)
  quizType := (optionsWith (u8!"fgklmp") opts).head?.map (·.1)
  qList := (optionsWith (u8!"fgklmp") opts).head?.bind (·.2.head?)
  showMeanings := opts.contains (u8!"-s")

/-- What is wrong with the number of a mode option, for the texts that the standard library has for no number at all and
for numbers of more than 64 bits. -/
def numberProblem (e : StoulTexts) (c : UInt8) (digits : Str) : Option Str :=
  match digits with
  | [] => some e.noNumber
  | _ =>
    match readNumber 10 digits with
    | none => some (u8!"invalid format for '-" ++ [c] ++ u8!"', use -h for help")
    | some n =>
      if n ≤ 65535 then none
      else if n < 2 ^ 64 then some (u8!"value for '-" ++ [c] ++ u8!"' exceeds limit")
      else some e.tooLarge

/-- What is wrong with the text after `-r` or `-t`: a number with an optional sign, or nothing. -/
def modeProblem (e : StoulTexts) (c : UInt8) : Str → Option Str
  | [] => none
  | 0x2d :: digits => numberProblem e c digits
  | 0x2b :: digits => numberProblem e c digits
  | digits => numberProblem e c digits

/-- What is wrong with an option that comes after others without problems. -/
def optionProblem (e : StoulTexts) (before : List Str) (arg : Str) : Option Str :=
  match arg with
  | 0x2d :: c :: rest =>
    if c ∈ u8!"rt" then
      if optionsWith (u8!"rt") before ≠ [] then some (u8!"only one mode (-r or -t) can be specified, use -h for help")
      else modeProblem e c rest
    else if c ∈ u8!"fgklmp" then
      if optionsWith (u8!"fgklmp") before ≠ [] then some (u8!"only one quiz type can be specified, use -h for help")
      else if rest = [] ∨ rest ∈ (offeredLists c).map ([·]) then none
      else some (u8!"invalid format for '-" ++ [c] ++ u8!"', use -h for help")
    else if arg = u8!"-s" then none
    else some (u8!"illegal option '" ++ arg ++ u8!"', use -h for help")
  | _ => none

/-- The first problem. -/
def firstOptionProblem (e : StoulTexts) : List Str → List Str → Option Str
  | _, [] => none
  | before, arg :: r =>
    match optionProblem e before arg with
    | some w => some w
    | none => firstOptionProblem e (before ++ [arg]) r

/-- What the program does with its arguments: options come first, then help is asked for or a kanji is given (after `--`
it can begin with `-`), otherwise a quiz starts. -/
def understood (e : StoulTexts) (args : List Str) : Except Str Launch :=
  let opts := args.takeWhile setsOption
  match firstOptionProblem e [] opts with
  | some w => .error w
  | none =>
    match args.dropWhile setsOption with
    | [] => .ok (.start (settings opts))
    | arg :: r =>
      if arg = u8!"-h" then .ok .help
      else if arg = u8!"--" then
        match r with
        | [] => .ok (.start (settings opts))
        | k :: _ => .ok (.kanji k)
      else .ok (.kanji arg)

end Spec
