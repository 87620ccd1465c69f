import Verif.Model.Format
import Verif.Model.Stats
import Verif.Model.Decimal
import Verif.Model.DisplaySize
/-!
# Model of `RemoveFurigana` and of the verbose output of `add` (libs/stats/src/Utf8Count.cpp:19-46)
-/
namespace KT

/-- The class `[KanjiRange WideLetterRange]` of the regular expression (Utf8Count.cpp:19-20). -/
def furiganaBase (c : Nat) : Bool := classMatches (blockRange kanjiRange ++ blockRange wideLetterRange) c

/-- The class `[KanaRange]` (Utf8Count.cpp:21). -/
def furiganaKana (c : Nat) : Bool := classMatches (blockRange kanaRange) c

/-- The length of a match of `（[KanaRange]+）` at the start of a text, 0 if there is none.  `[KanaRange]+`
takes as many characters as possible; giving some back can't help, as the next one would have to be `）`. -/
def bracketedLength : List Nat → Nat
  | [] => 0
  | c :: r =>
    if c = 0xff08 then
      let kana := r.takeWhile furiganaKana
      match r.drop kana.length with
      | [] => 0
      | e :: _ => if kana ≠ [] ∧ e = 0xff09 then kana.length + 2 else 0
    else 0

/-- `std::regex_replace(s, RemoveFurigana, L"$1")`: matches are searched from left to right, each after the end of the
previous one, and replaced by their first character; everything else is copied.  `skip` is the number of characters of
the current match that are still to be left out. -/
def removeLoop : (skip : Nat) → List Nat → List Nat
  | _, [] => []
  | k + 1, _ :: r => removeLoop k r
  | 0, x :: r => x :: removeLoop (if furiganaBase x then bracketedLength r else 0) r

def removeFurigana (s : List Nat) : List Nat := removeLoop 0 s

/-- Line 31 of `add` for `RemoveFurigana` and `DefaultReplace`:
`toUtf8(std::regex_replace(fromUtf8ToWstring(s), *_find, _replace))`. -/
def furiganaReplace (s : Str) : Res Str := toUtf8 (removeFurigana (decode s))

/-- The same as a function on strings (`toUtf8` never fails, see `furiganaReplace_ok`). -/
def furiganaFind (s : Str) : Str :=
  match furiganaReplace s with
  | .ok n => n
  | _ => []

/-- What `add` writes to `_debug` (lines 32-45) and the new values of `_replacements` and `_lastReplaceTag`. -/
structure DebugState where
  replacements : Nat := 0
  lastReplaceTag : Str := []
  out : Str := []
  deriving DecidableEq, Repr

/-- Lines 32-45 of `add` with `_debug` set: `s` is the line, `n` is the line after the replacement. -/
def DebugState.add (st : DebugState) (s n : Str) (tag : Option Str) : DebugState :=
  if n = s then st
  else
    let count := toDec (st.replacements + 1)
    let (last, header) := match tag with
      | some t => if t ≠ st.lastReplaceTag then (t, u8!"Tag '" ++ t ++ u8!"'\n") else (st.lastReplaceTag, [])
      | none => (st.lastReplaceTag, [])
    { replacements := st.replacements + 1
      lastReplaceTag := last
      out := st.out ++ header ++ (u8!"  " ++ count ++ u8!" : " ++ s ++ u8!"\n" ++
        setwRight (Int.ofNat (count.length + 5)) (u8!": ") ++ n ++ u8!"\n") }

/-- A sequence of `add` calls. -/
def DebugState.addAll (find : Str → Str) (st : DebugState) (calls : List (Str × Option Str)) : DebugState :=
  calls.foldl (fun st c => st.add c.1 (find c.1) c.2) st

end KT
