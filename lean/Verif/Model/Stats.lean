import Verif.Model.Utf8Char
import Verif.Model.UnicodeBlock
import Verif.Model.ColumnFile
import Verif.Model.Kanji
/-!
# Model of libs/stats: Utf8Count.cpp and Stats.cpp

Counts are `size_t` in the code; they are bounded by the number of bytes read, so `Nat` is used.
-/
namespace KT

/-! ## Utf8Count -/

/-- `++m[k]` for a `std::map` with counts as values. -/
def mapInc {α : Type} [BEq α] : List (α × Nat) → α → List (α × Nat)
  | [], k => [(k, 1)]
  | (a, n) :: m, k => if a == k then (a, n + 1) :: m else (a, n) :: mapInc m k

/-- `++m[k][t]` for the `TagMap` (Utf8Count.h:18). -/
def tagInc : List (Str × List (Str × Nat)) → Str → Str → List (Str × List (Str × Nat))
  | [], k, t => [(k, [(t, 1)])]
  | (a, l) :: m, k, t => if a == k then (a, mapInc l t) :: m else (a, l) :: tagInc m k t

/-- `if (tag) ++_tags[token][*tag]` (Utf8Count.cpp:53). -/
def tagIncOpt (m : List (Str × List (Str × Nat))) (k : Str) : Option Str → List (Str × List (Str × Nat))
  | some t => tagInc m k t
  | none => m

/-- The members of `Utf8Count` that change (Utf8Count.h:120-128); `_files` and `_directories` are
modelled with `addNode`, `_lastReplaceTag` is left out. -/
structure CountState where
  map : List (Str × Nat) := []
  tags : List (Str × List (Str × Nat)) := []
  errors : Nat := 0
  variants : Nat := 0
  combiningMarks : Nat := 0
  replacements : Nat := 0
  deriving DecidableEq, Repr

/-- The body of the loop of `add` (Utf8Count.cpp:50-54) for one token. -/
def CountState.addToken (allow : Str → Bool) (tag : Option Str) (st : CountState × Nat) (token : Str) :
    CountState × Nat :=
  if allow token then
    ({ st.1 with map := mapInc st.1.map token, tags := tagIncOpt st.1.tags token tag }, st.2 + 1)
  else st

/-- `n` after line 31 of `add`. -/
def replaced (find : Option (Str → Str)) (s : Str) : Str :=
  match find with
  | some f => f s
  | none => s

/-- `add` (Utf8Count.cpp:28-59).  `find` is the replacement of the regular expression, seen as a
function on UTF-8 strings (`toUtf8(std::regex_replace(fromUtf8ToWstring(s), ...))`); debug output is
left out.  The second component is the number returned. -/
def CountState.add (find : Option (Str → Str)) (allow : Str → Bool) (st : CountState) (s : Str)
    (tag : Option Str) : Option (CountState × Nat) :=
  let n := replaced find s
  let st := { st with replacements := st.replacements + if n = s then 0 else 1 }
  match utf8Chars n with
  | none => none
  | some (tokens, c) =>
    let (st, added) := tokens.foldl (CountState.addToken allow tag) (st, 0)
    some ({ st with
      errors := st.errors + c.errors
      variants := st.variants + c.variants
      combiningMarks := st.combiningMarks + c.combiningMarks }, added)

/-- A sequence of `add` calls. -/
def CountState.addAll (find : Option (Str → Str)) (allow : Str → Bool) :
    CountState → List (Str × Option Str) → Option (CountState × Nat)
  | st, [] => some (st, 0)
  | st, (s, tag) :: r =>
    match st.add find allow s tag with
    | none => none
    | some (st, n) =>
      match CountState.addAll find allow st r with
      | none => none
      | some (st, m) => some (st, n + m)

/-- `count` (Utf8Count.cpp:68-71). -/
def CountState.count (st : CountState) (s : Str) : Nat := (st.map.lookup s).getD 0

/-- `tags` (Utf8Count.cpp:73-76). -/
def CountState.tagsOf (st : CountState) (s : Str) : Option (List (Str × Nat)) := st.tags.lookup s

/-! ## Files -/

/-- `std::string::find`. -/
def strFind (pat : Str) : Str → Option Nat
  | [] => if pat.isPrefixOf [] then some 0 else none
  | b :: s => if pat.isPrefixOf (b :: s) then some 0 else (strFind pat s).map (· + 1)

/-- `std::string::rfind`. -/
def strRFind (pat : Str) : Str → Option Nat
  | [] => if pat.isPrefixOf [] then some 0 else none
  | b :: s =>
    match strRFind pat s with
    | some i => some (i + 1)
    | none => if pat.isPrefixOf (b :: s) then some 0 else none

/-- Utf8Count.cpp:12. -/
def openWideBracket : Str := u8!"（"
def closeWideBracket : Str := u8!"）"

/-- `hasUnclosedBrackets` (Utf8Count.cpp:101-107). -/
def hasUnclosedBrackets (line : Str) : Bool :=
  match strRFind openWideBracket line with
  | none => false
  | some o =>
    match strRFind closeWideBracket line with
    | none => true
    | some c => c < o

/-- `std::string::substr(pos)`, which throws `std::out_of_range`. -/
def substrFrom (s : Str) (pos : Nat) : Res Str := if pos > s.length then .throw .std else .ok (s.drop pos)

/-- `processJoinedLine` (Utf8Count.cpp:109-116): the string given to `add` and the new `prevLine`. -/
def processJoinedLine (prevLine line : Str) (pos : Nat) : Res (Str × Str) :=
  let stop := pos + closeWideBracket.length
  (substrFrom line stop).bind fun rest => .ok (prevLine ++ line.take stop, rest)

/-- The position found by lines 134-147, if the lines are to be joined. -/
def joinPosition (prevUnclosed : Bool) (line : Str) : Option Nat :=
  if prevUnclosed then
    match strFind closeWideBracket line with
    | none => none
    | some close =>
      match strFind openWideBracket line with
      | none => some close
      | some o => if close < o then some close else none
  else if strFind openWideBracket line = some 0 then strFind closeWideBracket line
  else none

/-- The loop of `processFileWithRegex` (Utf8Count.cpp:126-156): the strings given to `add`. -/
def joinLoop (prevLine : Str) (prevUnclosed : Bool) : List Str → Res (List Str)
  | [] => .ok (if prevLine = [] then [] else [prevLine])
  | line :: lines =>
    if prevLine = [] then joinLoop line (hasUnclosedBrackets line) lines
    else match joinPosition prevUnclosed line with
      | some close =>
        (processJoinedLine prevLine line close).bind fun (joined, rest) =>
          (joinLoop rest (hasUnclosedBrackets rest) lines).bind fun r => .ok (joined :: r)
      | none => (joinLoop line (hasUnclosedBrackets line) lines).bind fun r => .ok (prevLine :: r)

/-- `processFile` and `processFileWithRegex` (Utf8Count.cpp:118-156) for the content of a file: the
strings given to `add`, in order. -/
def fileStrings (withRegex : Bool) (content : Str) : Res (List Str) :=
  let lines := getlines 0x0a content none
  if withRegex then joinLoop [] false lines else .ok lines

mutual
/-- What `doAddFile` can find at a path: a regular file, a directory, a symbolic link (`none` if what it
leads to doesn't exist, otherwise the file or directory at its end), or anything else. -/
inductive Node where
  | file (content : Str)
  | dir (entries : Entries)
  | link (target : Option Node)
  | other

/-- The entries of a directory, in the order of `directory_iterator`. -/
inductive Entries where
  | nil
  | cons (name : Str) (node : Node) (rest : Entries)
end

/-- What `doAddFile` does: `processFile` for a regular file (and `++_files`), `++_directories`,
`add(fileName, tag)`. -/
inductive CountEvent where
  | file (name content : Str)
  | dir
  | name (name : Str)
  deriving DecidableEq, Repr

mutual
/-- `doAddFile` (Utf8Count.cpp:78-99) for a path that isn't a symbolic link, `name` is the last part of
the path. -/
def addNode (fileNames : Bool) (name : Str) : Node → Bool → List CountEvent
  | .file content, _ => .file name content :: if fileNames then [.name name] else []
  | .dir entries, recurse =>
    .dir :: addEntries fileNames entries recurse ++ if fileNames then [.name name] else []
  | _, _ => []

/-- The loop over the entries of a directory (lines 88-94). -/
def addEntries (fileNames : Bool) : Entries → Bool → List CountEvent
  | .nil, _ => []
  | .cons name node rest, recurse =>
    (match node with
      | .link _ => []
      | .file content => addNode fileNames name (.file content) false
      | .dir entries => if recurse then addNode fileNames name (.dir entries) true else []
      | .other => if recurse then addNode fileNames name .other true else []) ++
    addEntries fileNames rest recurse
end

/-- `addFile` (Utf8Count.cpp:61-66): `exists`, `is_regular_file` and `is_directory` follow a link. -/
def addFile (fileNames recurse : Bool) (name : Str) : Option Node → Res (List CountEvent)
  | none => .throw .domain
  | some (.link none) => .throw .domain
  | some (.link (some t)) => .ok (addNode fileNames name t recurse)
  | some n => .ok (addNode fileNames name n recurse)

/-! ## Stats -/

/-- `Stats::Count` (Stats.h, Stats.cpp:100-101). -/
structure StatCount where
  count : Nat
  name : Str
  entry : Option Kanji := none
  deriving DecidableEq, Repr

/-- `Count::frequency` (Stats.cpp:103-106, Kanji.cpp:29-32); `maxFrequency` is
`KanjiData::maxFrequency()`.  The sum is converted back to 16 bits. -/
def StatCount.frequency (maxFrequency : UInt16) (c : StatCount) : UInt16 :=
  match c.entry with
  | some k => if k.frequency ≠ 0 then k.frequency else maxFrequency
  | none => maxFrequency + 1

/-- The position of a type in `KanjiTypes` (KanjiEnums.h:15-25), with `None` last. -/
def kanjiTypeRank : Option KanjiType → Nat
  | some .jouyou => 0
  | some .jinmei => 1
  | some .linkedJinmei => 2
  | some .linkedOld => 3
  | some .frequency => 4
  | some .extra => 5
  | some .kentei => 6
  | some .ucd => 7
  | none => 8

/-- `Count::type` (Stats.cpp:108-110), as a number. -/
def StatCount.type (c : StatCount) : Nat := kanjiTypeRank (c.entry.map (·.type))

/-- `Count::operator<` (Stats.cpp:112-117); `&&` binds tighter than `||`. -/
def StatCount.lt (m : UInt16) (a x : StatCount) : Bool :=
  a.count > x.count ||
    (a.count == x.count && a.frequency m < x.frequency m ||
      (a.frequency m == x.frequency m && a.type < x.type ||
        (a.type == x.type && strLt a.name x.name)))

/-- The predicates given to `f` in `countKanji` (Stats.cpp:64-75); `ucd` tells if `findUcd` finds
something. -/
def statCategories (ucd : Str → Bool) (x : Str) : List Bool :=
  [isHiragana x,
   isKatakana x,
   isCommonKanji x && ucd x,
   isRareKanji x && ucd x,
   isKanji x && !ucd x,
   isMBPunctuation x,
   isMBSymbol x,
   isMBLetter x,
   !isRecognizedUtf8 x]

/-- The outcome of the constructor `Stats::Stats` (Stats.cpp:26-49). -/
inductive StatsAction where
  | help
  | usage
  | count (files : List Str) (breakdown verbose : Bool)
  deriving DecidableEq, Repr

/-- The loop of lines 29-45 over the arguments that `nextArg` leads to. -/
def statsArgsLoop : List Str → (breakdown endOptions verbose : Bool) → (files : List Str) → StatsAction
  | [], b, _, v, files => .count files b v
  | arg :: r, b, e, v, files =>
    if !e && (u8!"-").isPrefixOf arg then
      if arg = u8!"-h" then .help
      else if arg = u8!"-b" then statsArgsLoop r true e v files
      else if arg = u8!"-v" then statsArgsLoop r b e true files
      else if arg = u8!"--" then statsArgsLoop r b true v files
      else .usage
    else statsArgsLoop r b e v (files ++ [arg])

/-- Lines 26-48. -/
def statsArgs (debug : Bool) (args : List Str) : StatsAction :=
  match statsArgsLoop args false false false [] with
  | .count files b v => if !debug && files.isEmpty then .usage else .count files b v
  | a => a

end KT
