import Verif.Model.ConvertProgram
import Verif.Model.HelpText
/-!
# The examples of the README for kanaConvert, and a dialog
-/
namespace KT

/-- The program for arguments at a terminal. -/
def atTerminal (args : List Str) : Option (Res (Str × Option (Str × Nat))) := mainConvert (u8!"kanaConvert" :: args) true 5 []

/-- The program for arguments with input from a pipe. -/
def inPipe (input : Str) (args : List Str) : Option (Res (Str × Option (Str × Nat))) :=
  mainConvert (u8!"kanaConvert" :: args) false 5 (input ++ u8!"\n")

/-- A successful run. -/
def writes (text : Str) : Option (Res (Str × Option (Str × Nat))) := some (.ok (text ++ u8!"\n", some ([], 0)))

/-- All examples for kanaConvert in README.md (lines 119-140). -/
theorem C168_readme :
    atTerminal [u8!"atatakai"] = writes (u8!"あたたかい") ∧
    atTerminal [u8!"kippu"] = writes (u8!"きっぷ") ∧
    inPipe (u8!"kippu") [u8!"-k"] = writes (u8!"キップ") ∧
    inPipe (u8!"ジョン・スミス") [u8!"-r"] = writes (u8!"jon/sumisu") ∧
    inPipe (u8!"かんよう　かんじ") [u8!"-r"] = writes (u8!"kan'you kanji") ∧
    atTerminal [u8!"-r", u8!"ラーメン"] = writes (u8!"rāmen") ∧
    atTerminal [u8!"-h", u8!"rāmen"] = writes (u8!"らーめん") ∧
    atTerminal [u8!"-r", u8!"こゝろ"] = writes (u8!"kokoro") ∧
    atTerminal [u8!"-r", u8!"スヾメ"] = writes (u8!"suzume") ∧
    atTerminal [u8!"-k", u8!"qarutetto"] = writes (u8!"クァルテット") ∧
    atTerminal [u8!"-k", u8!"kwarutetto"] = writes (u8!"クァルテット") := by
  refine ⟨?_, ?_, ?_, ?_, ?_, ?_, ?_, ?_, ?_, ?_, ?_⟩ <;> decide +kernel

/-- A failed run. -/
def fails (message : Str) : Option (Res (Str × Option (Str × Nat))) := some (.ok ([], some (message ++ u8!"\n", 1)))

example : atTerminal [] = fails (u8!"provide one or more 'strings' or '-i' for interactive mode") := by decide +kernel
example : atTerminal [u8!"-i", u8!"ka"] = fails (u8!"'string' args can't be combined with '-i', '-m' or '-p'") := by decide +kernel
example : atTerminal [u8!"-i", u8!"-n"] = fails (u8!"can only specify one of -i, -m, -n, or -p") := by decide +kernel
example : atTerminal [u8!"-f"] = fails (u8!"-f must be followed by a flag value") := by decide +kernel
example : atTerminal [u8!"-f", u8!"x"] = fails (u8!"illegal option for -f: x") := by decide +kernel
example : atTerminal [u8!"-x"] = fails (u8!"illegal option: -x") := by decide +kernel
example : atTerminal [u8!"--", u8!"-i"] = writes (u8!"い") := by decide +kernel
example : inPipe (u8!"ka\nki\nq\nku") [u8!"-n"] = some (.ok (u8!"かき", some ([], 0))) := by decide +kernel

/-- A dialog: a conversion, an unknown option, another target, a flag (with a wrong answer) and no more input. -/
example : mainConvert [u8!"kanaConvert", u8!"-i"] true 5 (u8!"ka\n-x\n-k\nka\n\nf\ny\nr\nka ki\nq\nku\n") = some (.ok
    (u8!">>> current options: source=any, target=Hiragana, flags=None
>>> enter string (c=clear flags, f=set flag, q=quit, h=help, -k|-h|-r|-K|-H|-R):
か
  illegal option: -x
>>> current options: source=any, target=Hiragana, flags=None
>>> enter string (c=clear flags, f=set flag, q=quit, h=help, -k|-h|-r|-K|-H|-R):
>>> current options: source=any, target=Katakana, flags=None
>>> enter string (c=clear flags, f=set flag, q=quit, h=help, -k|-h|-r|-K|-H|-R):
カ
>>> enter flag option (h=Hepburn, k=Kunrei, n=NoProlongMark, r=RemoveSpaces): >>> enter flag option (h=Hepburn, k=Kunrei, n=NoProlongMark, r=RemoveSpaces): >>> current options: source=any, target=Katakana, flags=RemoveSpaces
>>> enter string (c=clear flags, f=set flag, q=quit, h=help, -k|-h|-r|-K|-H|-R):
カキ
", some ([], 0))) := by decide +kernel

end KT
