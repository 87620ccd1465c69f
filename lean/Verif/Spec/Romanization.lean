import Verif.Spec.Converter
/-!
# Specification of Rōmaji for standard kana text

The rows of the kana table with their consonants, the spellings of Hepburn and Kunrei, doubled consonants, long vowels and
the apostrophe after ん.
-/
namespace Spec

/-- Ways to write syllables: with a different spelling for each (the program's default), by Hepburn, by Kunrei, or by Hepburn
only where both differ from the default. -/
inductive RomajiStyle where
  | unique | hepburn | kunrei | both
  deriving DecidableEq, Repr

/-- A syllable: a Hiragana letter, a small letter if there is one, consonant and vowel. -/
structure Syllable where
  letter : Char
  small : Option Char
  consonant : Option Char
  vowel : Char
  deriving DecidableEq, Repr

/-- A row of the table. -/
def kanaRow (consonant : Option Char) (letters vowels : List Char) : List Syllable :=
  List.zipWith (fun l v => ⟨l, none, consonant, v⟩) letters vowels

/-- Syllables of one letter. -/
def oneLetter : List Syllable :=
  kanaRow none "あいうえお".toList "aiueo".toList ++ kanaRow 'k' "かきくけこ".toList "aiueo".toList ++
  kanaRow 'g' "がぎぐげご".toList "aiueo".toList ++ kanaRow 's' "さしすせそ".toList "aiueo".toList ++
  kanaRow 'z' "ざじずぜぞ".toList "aiueo".toList ++ kanaRow 't' "たちつてと".toList "aiueo".toList ++
  kanaRow 'd' "だぢづでど".toList "aiueo".toList ++ kanaRow 'n' "なにぬねの".toList "aiueo".toList ++
  kanaRow 'h' "はひふへほ".toList "aiueo".toList ++ kanaRow 'b' "ばびぶべぼ".toList "aiueo".toList ++
  kanaRow 'p' "ぱぴぷぺぽ".toList "aiueo".toList ++ kanaRow 'm' "まみむめも".toList "aiueo".toList ++
  kanaRow 'y' "やゆよ".toList "auo".toList ++ kanaRow 'r' "らりるれろ".toList "aiueo".toList ++
  kanaRow 'w' "わゐゑを".toList "aieo".toList

/-- Syllables with a small や, ゆ or よ. -/
def twoLetters : List Syllable :=
  (oneLetter.filter fun s => s.vowel == 'i' && s.consonant != none && s.consonant != some 'w').flatMap fun s =>
    [{ s with small := some 'ゃ', vowel := 'a' }, { s with small := some 'ゅ', vowel := 'u' },
      { s with small := some 'ょ', vowel := 'o' }]

def syllables : List Syllable := oneLetter ++ twoLetters

/-- Consonant and vowel as they are (Nihon-shiki). -/
def Syllable.regular (s : Syllable) : List Char :=
  s.consonant.toList ++ (if s.small.isSome then ['y'] else []) ++ [s.vowel]

def Syllable.kunrei (s : Syllable) : List Char :=
  if s.consonant = some 'd' then
    if s.small.isSome then ['z', 'y', s.vowel]
    else if s.vowel = 'i' ∨ s.vowel = 'u' then ['z', s.vowel]
    else s.regular
  else if s.consonant = some 'w' ∧ s.vowel ≠ 'a' then [s.vowel]
  else s.regular

def Syllable.hepburn (s : Syllable) : List Char :=
  if s.small.isSome then
    if s.consonant = some 's' then ['s', 'h', s.vowel]
    else if s.consonant = some 't' then ['c', 'h', s.vowel]
    else if s.consonant = some 'z' ∨ s.consonant = some 'd' then ['j', s.vowel]
    else s.regular
  else if s.consonant = some 's' ∧ s.vowel = 'i' then ['s', 'h', 'i']
  else if s.consonant = some 't' ∧ s.vowel = 'i' then ['c', 'h', 'i']
  else if s.consonant = some 't' ∧ s.vowel = 'u' then ['t', 's', 'u']
  else if s.consonant = some 'h' ∧ s.vowel = 'u' then ['f', 'u']
  else if (s.consonant = some 'z' ∨ s.consonant = some 'd') ∧ s.vowel = 'i' then ['j', 'i']
  else if s.consonant = some 'd' ∧ s.vowel = 'u' then ['z', 'u']
  else if s.consonant = some 'w' ∧ s.vowel ≠ 'a' then [s.vowel]
  else s.regular

/-- Spelling of a syllable. -/
def Syllable.spelling (s : Syllable) : RomajiStyle → List Char
  | .unique =>
    if s.consonant = some 'd' then s.regular
    else if s.consonant = some 'w' then if s.vowel = 'i' ∨ s.vowel = 'e' then ['w', 'y', s.vowel] else s.regular
    else s.hepburn
  | .hepburn => s.hepburn
  | .kunrei => s.kunrei
  | .both => if s.consonant = some 'd' then s.hepburn else s.kunrei

/-- Consonants that are doubled after っ. -/
def Syllable.doubles (s : Syllable) : Bool :=
  s.consonant != none && s.consonant != some 'n' && s.consonant != some 'y' && s.consonant != some 'w'

/-- Parts of a text: a syllable (after っ, followed by ー), ん, or another character. -/
inductive KanaUnit where
  | syllable (doubled : Bool) (s : Syllable) (long : Bool)
  | n
  | other (x : Char)
  deriving DecidableEq, Repr

/-- A Hiragana letter in a script. -/
def inScript (katakana : Bool) (x : Char) : Char := if katakana then Char.ofNat (x.toNat + 0x60) else x

def Syllable.text (katakana : Bool) (s : Syllable) : List Char := (s.letter :: s.small.toList).map (inScript katakana)

def KanaUnit.text (katakana : Bool) : KanaUnit → List Char
  | .syllable doubled s long =>
    (if doubled then [tsu katakana] else []) ++ s.text katakana ++ (if long then ['ー'] else [])
  | .n => [nn katakana]
  | .other x => [x]

/-- Parts that are in use. -/
def KanaUnit.Standard (katakana : Bool) : KanaUnit → Prop
  | .syllable doubled s _ => s ∈ syllables ∧ (doubled = true → s.doubles = true)
  | .n => True
  | .other x => Simple x ∧ ¬ IsLetter katakana x ∧ ¬ IsIterationMark katakana x ∧ x ≠ 'ー'

/-- Punctuation, digits and brackets of Japanese text and what they become. -/
def wideMarks : List Char := "　！”＃＄％＆（）＊＋、。・０１２３４５６７８９：；＜＝＞？＠「￥」＾＿｀『｜』〜".toList
def narrowMarks : List Char := " !\"#$%&()*+,./0123456789:;<=>?@[\\]^_`{|}~".toList
def narrowMark (x : Char) : Char := ((wideMarks.zip narrowMarks).lookup x).getD x

/-- A vowel with macron. -/
def longVowel (v : Char) : Char :=
  if v = 'a' then 'ā' else if v = 'i' then 'ī' else if v = 'u' then 'ū' else if v = 'e' then 'ē' else 'ō'

/-- The first consonant twice, t before ch. -/
def double (r : List Char) : List Char :=
  match r with
  | 'c' :: _ => 't' :: r
  | x :: _ => x :: r
  | [] => []

def KanaUnit.roman (st : RomajiStyle) : KanaUnit → List Char
  | .syllable doubled s long =>
    let r := if doubled then double (s.spelling st) else s.spelling st
    if long then r.dropLast ++ [longVowel s.vowel] else r
  | .n => ['n']
  | .other x => [narrowMark x]

/-- Is an apostrophe required after ん?  If a syllable follows that is written with a vowel or y at the beginning. -/
def apostropheBefore (st : RomajiStyle) : List KanaUnit → Bool
  | .syllable false s _ :: _ => ((s.spelling st).head?.any fun x => "aiueoy".toList.contains x)
  | _ => false

/-- Rōmaji of a text. -/
def romanize (st : RomajiStyle) : List KanaUnit → List Char
  | [] => []
  | u :: r => u.roman st ++ (if u = .n ∧ apostropheBefore st r = true then ['\''] else []) ++ romanize st r

end Spec
