import Verif.Model.GroupQuiz
import Verif.Model.KanjiData
import Verif.Model.Stats
import Verif.Model.Converter
/-!
# Model of libs/quiz/src/GroupData.cpp

The rows of a group file are given by the texts of their cells; how these are read from the file is
modelled in `Model/ColumnFile.lean`.
-/
namespace KT

/-- `Group::PatternType` (Group.h). -/
inductive PatternType where
  | family | peer | reading | none
  deriving DecidableEq, Repr

/-- `GroupType` (Group.h). -/
inductive GroupType where
  | meaning | pattern
  deriving DecidableEq, Repr

/-- The cells of a row (GroupData.cpp:46-48). -/
structure GroupRow where
  number : Str
  name : Str
  members : Str
  deriving DecidableEq, Repr

/-- The members of a `Group` and its derived classes (Group.h). -/
structure Group where
  number : Nat
  name : Str
  members : List KanjiRec
  patternType : PatternType
  deriving DecidableEq, Repr

/-- `Colon` (GroupData.cpp:83). -/
def groupColon : Str := u8!"："

/-- GroupData.cpp:83-87. -/
def getPatternType (t : GroupType) (name : Str) : PatternType :=
  match t with
  | .meaning => .none
  | .pattern =>
    if groupColon.isPrefixOf name then .peer
    else if (strFind groupColon name).isSome then .family
    else .reading

/-- `getKanjiNames` (GroupData.cpp:80-95). -/
def getKanjiNames (t : GroupType) (name members : Str) : Res (List Str) :=
  if getPatternType t name = .family then
    (Res.ofOption (getFirst name)).bind fun f => .ok (f :: fields 0x2c members)
  else .ok (fields 0x2c members)

/-- The kanji found (GroupData.cpp:60-63). -/
def findMembers (find : Str → Option KanjiRec) (names : List Str) : List KanjiRec := names.filterMap find

/-- Body of the loop of `loadGroup` up to the creation of the group (GroupData.cpp:50-71).  All errors are
`DomainError`s: `f.error` and those of the constructor of `Group`, which are caught and thrown again. -/
def readGroup (find : Str → Option KanjiRec) (t : GroupType) (row : GroupRow) : Res Group :=
  if row.name.isEmpty then .throw .domain
  else if isAnySingleByte row.name then .throw .domain
  else if endsWith row.members (u8!",") then .throw .domain
  else (getKanjiNames t row.name row.members).bind fun names =>
    let members := findMembers find names
    if members.length < names.length then .throw .domain
    else (processU64 row.number 65535).bind fun number =>
      (createGroup (members.map (·.kanji.name))).bind fun _ =>
        .ok ⟨number, row.name, members, getPatternType t row.name⟩

/-- `std::multimap::emplace`: after the entries with the same key (the map is in the order of the keys). -/
def multiInsert {β : Type} (m : List (Str × β)) (k : Str) (v : β) : List (Str × β) :=
  match m with
  | [] => [(k, v)]
  | p :: r => if strLt k p.1 then (k, v) :: p :: r else p :: multiInsert r k v

/-- `_meaningGroups` and `_meaningMap` (GroupData.h). -/
structure MeaningGroups where
  groups : List Group := []
  map : List (Str × Group) := []
  deriving DecidableEq, Repr

/-- `_patternGroups` and `_patternMap` (GroupData.h); `errors` counts the calls of `printError` at
GroupData.cpp:39. -/
structure PatternGroups where
  groups : List Group := []
  map : List (Str × Group) := []
  errors : Nat := 0
  deriving DecidableEq, Repr

/-- Lines 72-73 with the `add` at 33-35. -/
def MeaningGroups.add (d : MeaningGroups) (g : Group) : MeaningGroups :=
  ⟨d.groups ++ [g], g.members.foldl (fun m k => multiInsert m k.kanji.name g) d.map⟩

/-- The `add` at GroupData.cpp:37-41. -/
def PatternGroups.addMember (g : Group) (d : PatternGroups) (k : KanjiRec) : PatternGroups :=
  match mapEmplace d.map k.kanji.name g with
  | (m, true) => { d with map := m }
  | (_, false) => { d with errors := d.errors + 1 }

/-- Lines 72-73. -/
def PatternGroups.add (d : PatternGroups) (g : Group) : PatternGroups :=
  let d := g.members.foldl (PatternGroups.addMember g) d
  { d with groups := d.groups ++ [g] }

/-- `loadGroup` (GroupData.cpp:43-78) for the two files. -/
def loadMeaning (find : Str → Option KanjiRec) : List GroupRow → MeaningGroups → Res MeaningGroups
  | [], d => .ok d
  | r :: rs, d => (readGroup find .meaning r).bind fun g => loadMeaning find rs (d.add g)

@[inherit_doc loadMeaning]
def loadPattern (find : Str → Option KanjiRec) : List GroupRow → PatternGroups → Res PatternGroups
  | [], d => .ok d
  | r :: rs, d => (readGroup find .pattern r).bind fun g => loadPattern find rs (d.add g)

/-! ## Printed summaries -/

/-- Variables of `printUniqueNames` (GroupData.cpp:174-176).  `multipleGroups` is a `std::map`. -/
structure UniqueState where
  multipleGroups : List (Str × Nat) := []
  prevKey : Str := []
  maxBelongsTo : Nat := 0
  deriving DecidableEq, Repr

/-- Body of the first loop (GroupData.cpp:177-183). -/
def UniqueState.step (st : UniqueState) (key : Str) : UniqueState :=
  if key = st.prevKey then
    let m := mapInc st.multipleGroups key
    let belongsTo := (m.lookup key).getD 0
    { st with multipleGroups := m, maxBelongsTo := if belongsTo > st.maxBelongsTo then belongsTo else st.maxBelongsTo }
  else { st with prevKey := key }

/-- The names of `uniqueNames` (GroupData.cpp:142-148 for all groups): each name once. -/
def uniqueNames : List Str → List Str → List Str
  | [], seen => seen
  | n :: ns, seen => if seen.contains n then uniqueNames ns seen else uniqueNames ns (seen ++ [n])

/-- What `printUniqueNames` prints (GroupData.cpp:184-192): the numbers of unique names, of those found once and
of the others, then for each number of groups the names (here in the order of their first repetition). -/
structure UniqueReport where
  unique : Nat
  once : Nat
  multi : Nat
  lists : List (Nat × List Str)
  deriving DecidableEq, Repr

@[inherit_doc UniqueReport]
def printUniqueNames (keys : List Str) (unique : Nat) : UniqueReport :=
  let st := keys.foldl UniqueState.step {}
  { unique, once := unique - st.multipleGroups.length, multi := st.multipleGroups.length
    lists := (List.range st.maxBelongsTo).map fun i =>
      (i + 2, (st.multipleGroups.filter fun p => p.2 == i + 1).map Prod.fst) }

/-- The names put into `types[t]` for the members of all meaning groups (GroupData.cpp:142-148); `seen` is
`uniqueNames`. -/
def meaningTypeNames (t : KanjiType) : List KanjiRec → List Str → List Str
  | [], _ => []
  | k :: ks, seen =>
    if seen.contains k.kanji.name then meaningTypeNames t ks seen
    else (if k.kanji.type = t then [k.kanji.name] else []) ++ meaningTypeNames t ks (k.kanji.name :: seen)

/-- The names put into `types[t]` for the members of all pattern groups (GroupData.cpp:155-156). -/
def patternTypeNames (t : KanjiType) (members : List KanjiRec) : List Str :=
  (members.filter fun k => k.kanji.type == t).map (·.kanji.name)

/-- The loop of `printMissingFromType` (GroupData.cpp:213-218): the names printed; `count` were printed
before.  `missing` is a `size_t`. -/
def missingLoop (found : List Str) (missing : Nat) : Nat → List Str → List Str
  | _, [] => []
  | count, n :: ns =>
    if found.contains n then missingLoop found missing count ns
    else if count + 1 = missing ∨ count + 1 = 12 then [n]
    else n :: missingLoop found missing (count + 1) ns

/-- `printMissingFromType` (GroupData.cpp:208-221): `none` if nothing is printed.  The subtraction is modulo
`2^64`. -/
def printMissingFromType (all found : List Str) : Option (List Str) :=
  let missing := (all.length + 2 ^ 64 - found.length) % 2 ^ 64
  if missing ≠ 0 then some (missingLoop found missing 0 all) else none

end KT
