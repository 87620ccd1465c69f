import Verif.Model.Bitmask
import Verif.Model.QuizLauncher
import Verif.Model.Stats
/-!
# The help texts of the three programs and what kanaConvert writes interactively
-/
namespace KT

/-- Lines as one text. -/
def textOf (lines : List Str) : Str := (lines.map (· ++ u8!"\n")).flatten

/-- `HelpMessage` of kanjiQuiz (QuizLauncher.cpp:15-50). -/
def quizHelp : List Str :=
  [u8!"kanjiQuiz [-hs] [-f[1-5] | -g[1-6s] | -k[1-9a-c] | -l[1-5] -m[1-4] | -p[1-4]]",
   u8!"          [-r[num] | -t[num]] [kanji]",
   u8!"    -h   show this help message for command-line options",
   u8!"    -s   show English meanings by default (can be toggled on/off later)",
   [],
   u8!"  The following options allow choosing the quiz/review type optionally followed",
   u8!"  by question list type (grade, level, etc.) instead of being prompted:",
   u8!"    -f   'frequency' (optional frequency group '0-9')",
   u8!"    -g   'grade' (optional grade '1-6', 's' = Secondary School)",
   u8!"    -k   'kyu' (optional Kentei Kyu '1-9', 'a' = 10, 'b' = 準１級, 'c' = 準２級)",
   u8!"    -l   'level' (optional JLPT level number '1-5')",
   u8!"    -m   'meaning' (optional Kanji type '1-4')",
   u8!"    -p   'pattern' (optional Kanji type '1-4')",
   [],
   u8!"  The following options can be followed by a 'num' to specify where to start in",
   u8!"  the question list (use negative to start from the end or 0 for random order).",
   u8!"    -r   review mode",
   u8!"    -t   test mode",
   [],
   u8!"  kanji  show details for a Kanji instead of starting a review or test",
   [],
   u8!"Examples:",
   u8!"  kanjiQuiz -f        # start 'frequency' quiz (prompts for 'bucket' number)",
   u8!"  kanjiQuiz -r40 -l1  # start 'JLPT N1' review beginning at the 40th entry",
   [],
   u8!"Note: 'kanji' can be UTF-8, frequency (between 1 and 2501), 'm' followed by",
   u8!"Morohashi ID (index in Dai Kan-Wa Jiten), 'n' followed by Classic Nelson ID",
   u8!"or 'u' followed by Unicode. For example, theses all produce the same output:",
   u8!"  kanjiQuiz 奉",
   u8!"  kanjiQuiz 1624",
   u8!"  kanjiQuiz m5894",
   u8!"  kanjiQuiz n212",
   u8!"  kanjiQuiz u5949"]

/-- `HelpMessage` of kanjiStats (Stats.cpp:14-18). -/
def statsHelp : List Str :=
  [u8!"kanjiStats [-bhv] file [file ...]:",
   u8!"  -b: show full Kanji breakdown for 'file' (instead of just a summary)",
   u8!"  -h: show help message for command-line options",
   u8!"  -v: show 'before' and 'after' versions of lines changed by Furigana removal"]

/-- The first part of `usage` of kanaConvert (KanaConvert.cpp:192-212). -/
def convertHelp : List Str :=
  [u8!"usage: kanaConvert -i",
   u8!"       kanaConvert [-n] string ...",
   u8!"       kanaConvert -m|-p|-?",
   u8!"  -i: interactive mode",
   u8!"  -n: suppress newline on output (for non-interactive mode)",
   u8!"  -m: print Kana chart in 'Markdown' format and exit",
   u8!"  -p: print Kana chart aligned for terminal output and exit",
   u8!"  -?: prints this usage message",
   u8!"  --: finish options, subsequent args are treated as strings to convert",
   u8!"  string ...: one or more strings to convert, no strings means read stdin",
   u8!"  ",
   u8!"options for setting conversion source and target types as well as conversion",
   u8!"related flags can also be specified:",
   u8!"  -f opt: set 'opt' (can use multiple times to combine options). Options are:",
   u8!"    h: conform Rōmaji output more closely to 'Modern Hepburn' style",
   u8!"    k: conform Rōmaji output more closely to 'Kunrei Shiki' style",
   u8!"    n: no prolonged marks (repeat vowels instead of 'ー' for Hiragana output)",
   u8!"    r: remove spaces on output (only applies to Hiragana and Katakana output)"]

/-- `usage` of kanaConvert (KanaConvert.cpp:190-219). -/
def convertUsage (showAll : Bool) : List Str :=
  (if showAll then convertHelp else []) ++
  [u8!"  -h: set conversion output to Hiragana" ++ (if showAll then u8!" (default)" else []),
   u8!"  -k: set conversion output to Katakana",
   u8!"  -r: set conversion output to Rōmaji",
   u8!"  -H: restrict conversion input to Hiragana",
   u8!"  -K: restrict conversion input to Katakana",
   u8!"  -R: restrict conversion input to Rōmaji"]

/-- What is written for an event of the interactive mode (KanaConvert.cpp:257-283); the prompt for a flag isn't an
event. -/
def ConvEvent.shown : ConvEvent → Str
  | .options s t f => optionsText s t
      ((if f.hepburn then flagHepburn else 0) + (if f.kunrei then flagKunrei else 0) +
       (if f.noProlongMark then flagNoProlongMark else 0) + (if f.removeSpaces then flagRemoveSpaces else 0))
  | .usage => textOf (convertUsage false)
  | .illegal line => u8!"  illegal option: " ++ line ++ u8!"\n"
  | .text s => s

end KT
