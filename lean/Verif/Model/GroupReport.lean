import Verif.Model.GroupData
import Verif.Model.StatsReport
import Verif.Model.DisplaySize
import Verif.Model.Utf8Char
/-!
# Model of the printed lists of groups (libs/quiz/src/GroupData.cpp:98-206) and of the texts of a group
(libs/quiz/src/Group.cpp)

The alignment and the fill character of an output stream stay as they were last set; the functions take them as an
argument and give them back.
-/
namespace KT

/-- The formatting flags of a stream that matter here. -/
structure OutFormat where
  left : Bool := false
  fill : UInt8 := 0x20
  deriving DecidableEq, Repr

/-- `os << std::setw(n) << s`. -/
def OutFormat.setw (f : OutFormat) (n : Int) (s : Str) : Str :=
  if f.left then s ++ List.replicate (n - s.length).toNat f.fill else List.replicate (n - s.length).toNat f.fill ++ s

/-- `qualifiedName` (it has a value for every kanji: C74_suffix). -/
def shownName (k : KanjiRec) : Str :=
  match k.kanji.qualifiedName with
  | .ok s => s
  | _ => []

/-- `Kanji::Legend` (Kanji.h:206-207). -/
def kanjiLegend : Str := u8!".=常用 '=JLPT \"=Freq ^=人名用 ~=LinkJ %=LinkO +=Extra @=検定 #=1級 *=Ucd"

/-- `Pad[len < Pad.size() ? len : 0]` (GroupData.cpp:137-138); `size` has a value for every text (C70_size_safe). -/
def groupPad (name : Str) : Str :=
  match (utf8Size name).getD 0 with
  | 1 => u8!"　　"
  | 2 => u8!"　"
  | _ => []

/-- What `printMeaningGroup` prints (GroupData.cpp:133-148) with `fullDebug`; it also sets the fill character. -/
def meaningGroupText (f : OutFormat) (g : Group) : Str × OutFormat :=
  let f := { f with fill := 0x20 }
  (g.name ++ groupPad g.name ++ u8!" (" ++ f.setw 2 (toDec g.members.length) ++ u8!")   :" ++
    (g.members.map fun k => u8!" " ++ shownName k).flatten, f)

/-- The first member (GroupData.cpp:159-163). -/
def firstMember (t : PatternType) (k : KanjiRec) : Str :=
  match t with
  | .peer => u8!"　 : " ++ shownName k
  | .reading => shownName k
  | .family => shownName k ++ u8!":"
  | .none => shownName k ++ u8!":"

/-- The members (GroupData.cpp:155-168); `i == group.members()[0]` only holds for the first one, as no kanji is twice in
a group. -/
def patternMembers (t : PatternType) : List KanjiRec → Str
  | [] => []
  | k :: ks => firstMember t k ++ (ks.map fun k => u8!" " ++ shownName k).flatten

/-- What `printPatternGroup` prints (GroupData.cpp:150-169) with `fullDebug`; `PatternGroupSetW` is 25. -/
def patternGroupText (f : OutFormat) (g : Group) : Str × OutFormat :=
  (f.setw (wideSetw g.name 25) g.name ++ u8!"(" ++ f.setw 2 (toDec g.members.length) ++ u8!")   " ++
    patternMembers g.patternType g.members, f)

/-- `numberWidth` (GroupData.cpp:114-116). -/
def numberWidth (groups : Nat) : Nat := if groups < 100 then 2 else if groups < 1000 then 3 else 4

/-- The loop of `printGroups` (GroupData.cpp:114-126) with `fullDebug`. -/
def groupLines (t : GroupType) (width : Nat) : OutFormat → List Group → Str × OutFormat
  | f, [] => ([], f)
  | f, g :: gs =>
    let line := if t = .meaning then meaningGroupText f g else patternGroupText f g
    let rest := groupLines t width line.2 gs
    (u8!"[" ++ f.setw width (toDec g.number) ++ u8!"]  " ++ line.1 ++ u8!"\n" ++ rest.1, rest.2)

/-- The text of `printUniqueNames` (GroupData.cpp:184-192). -/
def uniqueText (r : UniqueReport) : Str :=
  u8!">>> " ++ u8!"Unique kanji: " ++ toDec r.unique ++ u8!" (once " ++ toDec r.once ++ u8!", multi " ++ toDec r.multi ++
    u8!")\n" ++
  (r.lists.map fun p => u8!"  Kanji in " ++ toDec p.1 ++ u8!" groups:" ++ (p.2.map fun n => u8!" " ++ n).flatten ++
    u8!"\n").flatten

/-- The examples of kanji that are in no group, if there are any (GroupData.cpp:212-220). -/
def missingNames : Option (List Str) → Str
  | some names => u8!" (" ++ (u8!" ").intercalate names ++ u8!")"
  | none => []

/-- The text of `printMissingFromType` (GroupData.cpp:208-221). -/
def missingText (all found : List Str) : Str := missingNames (printMissingFromType all found)

/-- A line of the breakdown (GroupData.cpp:200-204); `BreakdownSetW` is 14. -/
def groupTypeLine (f : OutFormat) (t : KanjiType) (found all : List Str) : Str :=
  ({ f with left := false } : OutFormat).setw 14 (kanjiTypeText t) ++ u8!": " ++ toDec found.length ++ u8!" / " ++
    toDec all.length ++ missingText all found ++ u8!"\n"

/-- The loop of `printTypeBreakdown` (GroupData.cpp:198-205); `found` has the names put into `types[t]`, which exists
if there are any (there is no kanji of type `None`). -/
def groupTypeLines (found all : KanjiType → List Str) : OutFormat → List KanjiType → Str × OutFormat
  | f, [] => ([], f)
  | f, t :: ts =>
    if (found t).isEmpty then groupTypeLines found all f ts
    else
      let rest := groupTypeLines found all { f with left := false } ts
      (groupTypeLine f t (found t) (all t) ++ rest.1, rest.2)

/-- All types before `None`, in their order. -/
def breakdownTypes : List KanjiType := [.jouyou, .jinmei, .linkedJinmei, .linkedOld, .frequency, .extra, .kentei, .ucd]

/-- The heading of the list (GroupData.cpp:109-110). -/
def groupHeader : Str := u8!"\nName (number of entries)   Parent Member : Other Members\n"

/-- The heading of the breakdown (GroupData.cpp:196-197); `MissingTypeExamples` is 12. -/
def breakdownHeader : Str := u8!"Type Breakdown (showing up to " ++ toDec 12 ++ u8!" missing examples per type)\n"

/-- `printGroups` (GroupData.cpp:104-130) for groups of one kind: `keys` are the keys of the map; `all` has the names of
the kanji of each type. -/
def printGroups (t : GroupType) (full : Bool) (f : OutFormat) (keys : List Str) (groups : List Group)
    (all : KanjiType → List Str) : Str × OutFormat :=
  let members := groups.flatMap (·.members)
  let lines := if full then groupLines t (numberWidth groups.length) f groups else ([], f)
  let unique := if t = .meaning then uniqueNames (members.map (·.kanji.name)) [] else []
  let found (k : KanjiType) : List Str := if t = .meaning then meaningTypeNames k members [] else patternTypeNames k members
  let types := groupTypeLines found all lines.2 breakdownTypes
  (u8!">>> " ++ u8!"Loaded " ++ toDec keys.length ++ u8!" kanji into " ++ toDec groups.length ++ u8!" groups\n" ++
    (if full then u8!">>> " ++ kanjiLegend ++ groupHeader else []) ++
    lines.1 ++
    (if !unique.isEmpty && decide (unique.length < keys.length) then uniqueText (printUniqueNames keys unique.length)
     else []) ++
    (breakdownHeader ++ types.1), types.2)

/-- The two calls of GroupData.cpp:27-30 in debug mode. -/
def printAllGroups (full : Bool) (f : OutFormat) (m : MeaningGroups) (p : PatternGroups) (all : KanjiType → List Str) :
    Str × OutFormat :=
  let first := printGroups .meaning full f (m.map.map (·.1)) m.groups all
  let second := printGroups .pattern full first.2 (p.map.map (·.1)) p.groups all
  (first.1 ++ second.1, second.2)

/-! ## Texts of a group -/

/-- `toString` (Group.cpp:30-33). -/
def groupToString (number : Nat) (name : Str) : Str := addBrackets (toDec number ++ u8!" " ++ name) .square

/-- `operator<<` (Group.cpp:59-67). -/
def groupShown (g : Group) : Str :=
  u8!"[" ++ (if g.patternType = .peer then u8!"Peers " ++ (match g.members with | k :: _ => k.kanji.name | [] => []) else []) ++
    g.name ++ u8!"]"

/-- The sets `names` and `dups` after the loop of Group.cpp:14-16: the names found again. -/
def dupNames : List Str → List Str → List Str → List Str
  | [], _, dups => dups
  | n :: ns, names, dups =>
    if names.contains n then dupNames ns names (if dups.contains n then dups else dups ++ [n])
    else dupNames ns (n :: names) dups

/-- The loop of Group.cpp:21-22. -/
def dupList : List Str → List Str → Str
  | [], _ => []
  | n :: ns, dups => if dups.contains n then u8!" " ++ n ++ dupList ns (dups.erase n) else dupList ns dups

/-- What is wrong with the members (Group.cpp:11-24), without the text that `error` puts in front of it. -/
def groupProblem (members : List Str) : Option Str :=
  if members.isEmpty then some (u8!"no members")
  else if members.length = 1 then some (u8!"only one member")
  else if members.length > 58 then some (u8!"more than " ++ toDec 58 ++ u8!" members")
  else
    let dups := dupNames members [] []
    if !dups.isEmpty then
      some (toDec dups.length ++ u8!" duplicate member" ++ (if dups.length > 1 then u8!"s:" else u8!":") ++
        dupList members dups)
    else none

/-- The message of the exception thrown by the constructor (Group.cpp:11-24, 35-37). -/
def groupError (number : Nat) (name : Str) (members : List Str) : Option Str :=
  (groupProblem members).map fun msg => u8!"group " ++ groupToString number name ++ u8!" has " ++ msg

/-- The message of GroupData.cpp:39-40. -/
def alreadyIn (kanji : Str) (g old : Group) : Str :=
  kanji ++ u8!" from " ++ groupToString g.number g.name ++ u8!" already in " ++ groupToString old.number old.name

end KT
