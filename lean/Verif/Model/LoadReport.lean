import Verif.Model.ListFileText
import Verif.Model.TextKanjiData
import Verif.Model.StatsReport
import Verif.Model.RadicalReport
import Verif.Model.UcdReport
/-!
# Model of the texts printed while loading: `printListData` (TextKanjiData.cpp:134-202), `checkStrokes` and `printError`
(KanjiData.cpp:136-140, 226-234, 296-317, 328-341)

The error stream is assumed to have its standard alignment.
-/
namespace KT

/-! ## Lists -/

/-- The local variables `created` and `found` of `processList` (TextKanjiData.cpp:136-137). -/
structure ListLog where
  created : List Str := []
  found : KanjiType → List Str := fun _ => []

/-- Whether `list.kyu()` has a value. -/
def ListKind.isKyu : ListKind → Bool
  | .kyu _ => true
  | _ => false

/-- Whether `list.level()` has a value. -/
def ListKind.isLevel : ListKind → Bool
  | .level _ => true
  | _ => false

/-- Lines 145-146. -/
def ListLog.addFound (log : ListLog) (debug : Bool) (kind : ListKind) (type : KanjiType) (name : Str) : ListLog :=
  if debug ∧ kind.isKyu = false ∧ type ≠ .jouyou then { log with found := enumPush log.found type name } else log

/-- Line 163. -/
def ListLog.addCreated (log : ListLog) (debug : Bool) (kind : ListKind) (name : Str) : ListLog :=
  if debug ∧ kind.isKyu = false then { log with created := log.created ++ [name] } else log

/-- The loop of `processList` (TextKanjiData.cpp:140-171) from entry `i`, with `created` and `found`. -/
def KanjiStore.processListLog (c : KanjiCtx) (ic : IdCtx) (kind : ListKind) (debug : Bool) :
    Nat → List Str → KanjiStore → ListLog → Res (KanjiStore × ListLog)
  | _, [], d, log => .ok (d, log)
  | i, name :: names, d, log =>
    match d.findByName name with
    | some k =>
      (d.addToList kind k).bind fun d =>
        KanjiStore.processListLog c ic kind debug (i + 1) names d (log.addFound debug kind k.kanji.type name)
    | none =>
      (newListKanji c ic kind i name).bind fun k =>
        ((d.checkInsertType kind.newType k (c.findUcd k.kanji.name)).1.addToList kind k).bind fun d =>
          KanjiStore.processListLog c ic kind debug (i + 1) names d (log.addCreated debug kind name)

/-- The body of the loop for Jinmei kanji of 'frequency.txt' (TextKanjiData.cpp:187-194). -/
def printJinmeiParts (level : Str → Option JlptLevel) (name : Str) (l : List Str) (prefix_ : Str) : Str :=
  printList (l.filter fun j => (level j).isSome) (u8!"JLPT " ++ prefix_ ++ u8!"Jinmei") name ++
  printList (l.filter fun j => (level j).isNone) (u8!"non-JLPT " ++ prefix_ ++ u8!"Jinmei") name

/-- `printListData` (TextKanjiData.cpp:175-202); `name` is the name of the list and `level` the member function. -/
def printListData (full : Bool) (level : Str → Option JlptLevel) (kind : ListKind) (name : Str) (log : ListLog) : Str :=
  if full then
    printList (log.found .linkedOld) (u8!"Linked Old") name ++
    printList log.created (u8!"non-Jouyou/Jinmei" ++ (if kind.isLevel then [] else u8!"/JLPT")) name ++
    if kind.isKyu = false ∧ kind.isLevel = false then
      printJinmeiParts level name (log.found .jinmei) [] ++
      printJinmeiParts level name (log.found .linkedJinmei) (u8!"Linked ")
    else
      printList (log.found .jinmei) (u8!"Jinmei") name ++ printList (log.found .linkedJinmei) (u8!"Linked Jinmei") name
  else []

/-! ## Strokes -/

/-- Names of a type with different strokes (KanjiData.cpp:332-336). -/
def differentStrokes (findUcd : Str → Option Ucd) (ks : List KanjiRec) : List Str :=
  (ks.filter fun k => match findUcd k.kanji.name with
    | some u => k.kanji.strokes.value ≠ u.strokes.value
    | none => false).map (·.kanji.name)

/-- `checkStrokes` (KanjiData.cpp:328-341); the list of `None` is empty. -/
def checkStrokes (findUcd : Str → Option Ucd) (d : KanjiStore) : Str :=
  (allKanjiTypes.map fun t =>
    printList (differentStrokes findUcd (match t with | some t => d.types t | none => []))
      (anyTypeText t ++ u8!" Kanji with different strokes") (u8!"_ucd")).flatten

/-! ## Errors -/

/-- `printError` (KanjiData.cpp:136-140); `count` is the value before it. -/
def printError (count : Nat) (msg : Str) : Str :=
  u8!"ERROR[" ++ setwZero 4 (toDec (count + 1)) ++ u8!"] --- " ++ msg ++ u8!"\n"

/-- `printError` for one message after the other. -/
def printErrors : Nat → List Str → Str
  | _, [] => []
  | count, m :: ms => printError count m ++ printErrors (count + 1) ms

/-- The lambda `error` of `insertSanityChecks` (KanjiData.cpp:297-303); `nonVariantName` has a value for every name. -/
def sanityText (k : Kanji) (s : Str) : Str :=
  k.name ++ u8!" " ++ toUnicodeStr k.name .square ++
    (if k.variant then u8!" (non-variant: " ++ (noVariationSelector k.name).getD [] ++ u8!")" else []) ++ u8!" " ++ s ++
    u8!" in _ucd"

/-- `insertSanityChecks` (KanjiData.cpp:296-317). -/
def sanityMessage (k : Kanji) (ucd : Option Ucd) : Option Str :=
  match ucd with
  | none => some (sanityText k (u8!"not found"))
  | some u =>
    if k.type = .jouyou ∧ ¬ u.isJoyo then some (sanityText k (u8!"not marked as 'Joyo'"))
    else if k.type = .jinmei ∧ ¬ u.isJinmei then some (sanityText k (u8!"not marked as 'Jinmei'"))
    else if k.type = .linkedJinmei ∧ ¬ u.isJinmei then some (sanityText k (u8!"with link not marked as 'Jinmei'"))
    else if k.type = .linkedJinmei ∧ ¬ u.hasLinks then
      some (sanityText k (u8!"missing 'JinmeiLink' for " ++ codeAndName u.name))
    else none

/-- The messages of `checkInsert` (KanjiData.cpp:226-244) in order. -/
def insertMessages (d : KanjiStore) (k : KanjiRec) (ucd : Option Ucd) : List Str :=
  if (mapEmplace d.nameMap k.kanji.name k).2 = false then [u8!"failed to insert '" ++ k.kanji.name ++ u8!"' into map"]
  else
    (sanityMessage k.kanji ucd).toList ++
      if k.kanji.variant = true ∧ (mapEmplace d.compatMap k.kanji.compatibilityName k.kanji.name).2 = false then
        [u8!"failed to insert variant '" ++ k.kanji.name ++ u8!"' into map"]
      else []

/-- The messages while kanji are inserted one after the other. -/
def allMessages : List (KanjiRec × Option Ucd) → KanjiStore → List Str
  | [], _ => []
  | x :: xs, d => insertMessages d x.1 x.2 ++ allMessages xs (d.checkInsert x.1 x.2).1

end KT
