import Verif.Model.Kanji
import Verif.Model.Utf8Char
import Verif.Model.ListFile
/-!
# Model of libs/kanji/src/KanjiData.cpp (arguments, insertion, lookup) and `processList` of TextKanjiData.cpp
-/
namespace KT

/-! ## Arguments -/

/-- `KanjiData::nextArg` (KanjiData.cpp:23-38).  `Args::Size` is `uint16_t`, so `++result` is modulo `2^16`.
`fuel` bounds the depth of the recursion; running out of it stands for an endless recursion and is `.ub`. -/
def nextArgLoop (args : List Str) : Nat → Nat → Res Nat
  | 0, _ => .ub
  | fuel + 1, current =>
    if current > args.length then .throw .domain
    else if args = [] then .ok current
    else
      let result := (current + 1) % 65536
      match args[result]? with
      | none => .ok result
      | some arg =>
        if arg = u8!"-data" then nextArgLoop args fuel ((result + 1) % 65536)
        else if arg = u8!"-debug" ∨ arg = u8!"-info" then nextArgLoop args fuel result
        else .ok result

@[inherit_doc nextArgLoop]
def nextArg (args : List Str) (current : Nat) : Res Nat := nextArgLoop args (args.length + 1) current

/-- The loop of the programs: `for (auto i{nextArg(args)}; i < args.size(); i = nextArg(args, i))` visiting
`args[i]` (KanjiData.h:46-47; used in QuizLauncher.cpp:77-79 and Stats.cpp:34-36). The arguments visited; `none`
when more than `fuel` were visited. -/
def visitArgs (args : List Str) : Nat → Nat → Option (Res (List Str))
  | 0, _ => none
  | fuel + 1, i =>
    match nextArg args i with
    | .throw e => some (.throw e)
    | .ub => some .ub
    | .ok i =>
      match args[i]? with
      | none => some (.ok [])
      | some a => match visitArgs args fuel i with
        | some (.ok as) => some (.ok (a :: as))
        | r => r

/-- KanjiData.h:20-24. -/
inductive DebugMode where
  | full | info | none
  deriving DecidableEq, Repr

/-- Loop of `getDebugMode` (KanjiData.cpp:218-222). -/
def debugModeLoop : List Str → DebugMode → Res DebugMode
  | [], result => .ok result
  | a :: as, result =>
    if a = u8!"-debug" then (if result ≠ .none then .throw .domain else debugModeLoop as .full)
    else if a = u8!"-info" then (if result ≠ .none then .throw .domain else debugModeLoop as .info)
    else debugModeLoop as result

/-- `getDebugMode` (KanjiData.cpp:210-224). -/
def getDebugMode (args : List Str) : Res DebugMode := debugModeLoop (args.drop 1) .none

/-! ## Frequencies -/

/-- `_frequencies` (a `std::array` of 10 lists) and the static `_maxFrequency` (`uint16_t`)
(KanjiData.h:258, 266). -/
structure FreqData (α : Type) where
  buckets : List (List α) := List.replicate 10 []
  maxFrequency : Nat := 0

/-- `addToFrequencies` (KanjiData.cpp:262-269); the assertion at line 263 is `.ub` when it fails. -/
def FreqData.add {α : Type} (d : FreqData α) (k : α) (frequency : Nat) : Res (FreqData α) :=
  if frequency = 0 then .ub
  else
    let bucket := (frequency - 1) / 250
    .ok {
      buckets := d.buckets.modify (if bucket < 10 then bucket else 9) (· ++ [k])
      maxFrequency := if frequency ≥ d.maxFrequency then (frequency + 1) % 65536 else d.maxFrequency }

/-- `findByFrequency` (KanjiData.cpp:109-116); indexes outside of the array or a list are undefined behaviour. -/
def FreqData.find {α : Type} (d : FreqData α) (freq : Nat) : Res (Option α) :=
  if freq = 0 ∨ freq ≥ d.maxFrequency then .ok none
  else
    let freq := freq - 1
    let bucket := freq / 250
    let bucket := if bucket = 10 then bucket - 1 else bucket
    match d.buckets[bucket]? with
    | none => .ub
    | some l => match l[freq - bucket * 250]? with
      | none => .ub
      | some k => .ok (some k)

/-! ## Insertion and lookup -/

/-- A kanji with the ids used for lookups (Kanji.h:137-141). -/
structure KanjiRec where
  kanji : Kanji
  morohashiId : MorohashiId := {}
  nelsonIds : List UInt16 := []
  deriving DecidableEq, Repr

/-- `variant` (Kanji.h:119). -/
def Kanji.variant (k : Kanji) : Bool := isCharWithVariationSelector k.name == some true

/-- `m.emplace(key, value)` of a `std::map`: the map and `second` of the result. -/
def mapEmplace {α β : Type} [BEq α] (m : List (α × β)) (key : α) (value : β) : List (α × β) × Bool :=
  if (m.lookup key).isSome then (m, false) else (m ++ [(key, value)], true)

/-- `m[key].emplace_back(value)` of a `std::map` of lists. -/
def mapPush {α β : Type} [BEq α] : List (α × List β) → α → β → List (α × List β)
  | [], key, value => [(key, [value])]
  | (k, l) :: m, key, value => if k == key then (k, l ++ [value]) :: m else (k, l) :: mapPush m key value

/-- `m[t].emplace_back(value)` of an `EnumMap` of lists. -/
def enumPush {τ α : Type} [DecidableEq τ] (m : τ → List α) (t : τ) (value : α) : τ → List α :=
  fun x => if x = t then m x ++ [value] else m x

/-- The members of `KanjiData` (KanjiData.h:248-262); `errors` counts the calls of `printError`. -/
structure KanjiStore where
  nameMap : List (Str × KanjiRec) := []
  compatMap : List (Str × Str) := []
  types : KanjiType → List KanjiRec := fun _ => []
  grades : KanjiGrade → List KanjiRec := fun _ => []
  levels : JlptLevel → List KanjiRec := fun _ => []
  kyus : KenteiKyu → List KanjiRec := fun _ => []
  frequencies : FreqData KanjiRec := {}
  morohashiMap : List (MorohashiId × List KanjiRec) := []
  nelsonMap : List (UInt16 × List KanjiRec) := []
  errors : Nat := 0

/-- `insertSanityChecks` (KanjiData.cpp:296-317): number of errors printed. -/
def sanityErrors (k : Kanji) (ucd : Option Ucd) : Nat :=
  match ucd with
  | none => 1
  | some u =>
    if k.type = .jouyou ∧ ¬ u.isJoyo then 1
    else if k.type = .jinmei ∧ ¬ u.isJinmei then 1
    else if k.type = .linkedJinmei ∧ ¬ u.isJinmei then 1
    else if k.type = .linkedJinmei ∧ ¬ u.hasLinks then 1
    else 0

/-- `checkInsert` (KanjiData.cpp:226-244); `ucd` is the entry used for the checks. -/
def KanjiStore.checkInsert (d : KanjiStore) (k : KanjiRec) (ucd : Option Ucd) : KanjiStore × Bool :=
  match mapEmplace d.nameMap k.kanji.name k with
  | (_, false) => ({ d with errors := d.errors + 1 }, false)
  | (nameMap, true) =>
    let errors := d.errors + sanityErrors k.kanji ucd
    let grades := match k.kanji.grade with
      | some g => enumPush d.grades g k
      | none => d.grades
    let (compatMap, inserted) :=
      if k.kanji.variant then mapEmplace d.compatMap k.kanji.compatibilityName k.kanji.name else (d.compatMap, true)
    let errors := if inserted then errors else errors + 1
    let morohashiMap := if k.morohashiId.id ≠ 0 then mapPush d.morohashiMap k.morohashiId k else d.morohashiMap
    let nelsonMap := k.nelsonIds.foldl (fun m id => mapPush m id k) d.nelsonMap
    ({ d with nameMap, compatMap, grades, morohashiMap, nelsonMap, errors }, true)

/-- `checkInsert` with a list (KanjiData.cpp:246-250); the list is the one of a type. -/
def KanjiStore.checkInsertType (d : KanjiStore) (t : KanjiType) (k : KanjiRec) (ucd : Option Ucd) :
    KanjiStore × Bool :=
  match d.checkInsert k ucd with
  | (d, false) => (d, false)
  | (d, true) => ({ d with types := enumPush d.types t k }, true)

/-- `findByName` (KanjiData.cpp:101-107). -/
def KanjiStore.findByName (d : KanjiStore) (s : Str) : Option KanjiRec :=
  d.nameMap.lookup ((d.compatMap.lookup s).getD s)

/-- `findByMorohashiId` (KanjiData.cpp:118-125). -/
def KanjiStore.findByMorohashiId (d : KanjiStore) (id : MorohashiId) : List KanjiRec :=
  if id.id ≠ 0 then (d.morohashiMap.lookup id).getD [] else []

/-- `findByNelsonId` (KanjiData.cpp:131-134). -/
def KanjiStore.findByNelsonId (d : KanjiStore) (id : UInt16) : List KanjiRec := (d.nelsonMap.lookup id).getD []

/-- `addToKyus` (KanjiData.cpp:252-255); the assertion is `.ub` when it fails. -/
def KanjiStore.addToKyus (d : KanjiStore) (k : KanjiRec) : Res KanjiStore :=
  match k.kanji.kyu with
  | some q => .ok { d with kyus := enumPush d.kyus q k }
  | none => .ub

/-- `addToLevels` (KanjiData.cpp:257-260). -/
def KanjiStore.addToLevels (d : KanjiStore) (k : KanjiRec) : Res KanjiStore :=
  match k.kanji.level with
  | some l => .ok { d with levels := enumPush d.levels l k }
  | none => .ub

/-- `addToFrequencies` of the members. -/
def KanjiStore.addToFrequencies (d : KanjiStore) (k : KanjiRec) : Res KanjiStore :=
  (d.frequencies.add k k.kanji.frequency.toNat).bind fun f => .ok { d with frequencies := f }

/-! ## `processUcd` and `processList` -/

/-- What making a `KanjiRec` needs besides `KanjiCtx`: the ids of an entry (KanjiData.cpp:49-64). -/
structure IdCtx where
  morohashiId : Option Ucd → MorohashiId
  nelsonIds : Option Ucd → List UInt16

/-- The ids are those of the entry used to make the kanji (Kanji.cpp, constructor). -/
def IdCtx.record (ic : IdCtx) (ucd : Option Ucd) (k : Kanji) : KanjiRec := ⟨k, ic.morohashiId ucd, ic.nelsonIds ucd⟩

/-- `processUcd` (KanjiData.cpp:319-327); `ucds` are the values of the map in order. -/
def KanjiStore.processUcd (c : KanjiCtx) (ic : IdCtx) : List Ucd → KanjiStore → Res KanjiStore
  | [], d => .ok d
  | u :: us, d =>
    match d.findByName u.name with
    | some _ => KanjiStore.processUcd c ic us d
    | none =>
      (Kanji.makeUcd c u).bind fun k =>
        KanjiStore.processUcd c ic us (d.checkInsertType .ucd (ic.record (some u) k) (c.findUcd k.name)).1

/-- The kinds of `ListFile` given to `processList`: frequency, level or kyu. -/
inductive ListKind where
  | frequency
  | level (l : JlptLevel)
  | kyu (k : KenteiKyu)
  deriving DecidableEq, Repr

/-- Lines 147-159 of TextKanjiData.cpp: make the kanji for entry `i`; `i + 1` is converted to `uint16_t`. -/
def newListKanji (c : KanjiCtx) (ic : IdCtx) (kind : ListKind) (i : Nat) (name : Str) : Res KanjiRec :=
  match kind with
  | .kyu q => (Kanji.makeKentei c name (some q)).bind fun k => .ok (ic.record (c.findUcd name) k)
  | _ => (Kanji.makeFrequency c name (UInt16.ofNat (i + 1))).bind fun k => .ok (ic.record (c.findUcd name) k)

/-- Lines 138-139. -/
def ListKind.newType : ListKind → KanjiType
  | .kyu _ => .kentei
  | _ => .frequency

/-- Lines 165-170. -/
def KanjiStore.addToList (kind : ListKind) (d : KanjiStore) (k : KanjiRec) : Res KanjiStore :=
  match kind with
  | .kyu _ => d.addToKyus k
  | .level _ => d.addToLevels k
  | .frequency => d.addToFrequencies k

/-- The loop of `processList` (TextKanjiData.cpp:140-171) from entry `i`. -/
def KanjiStore.processList (c : KanjiCtx) (ic : IdCtx) (kind : ListKind) : Nat → List Str → KanjiStore → Res KanjiStore
  | _, [], d => .ok d
  | i, name :: names, d =>
    match d.findByName name with
    | some k => (d.addToList kind k).bind (KanjiStore.processList c ic kind (i + 1) names)
    | none =>
      (newListKanji c ic kind i name).bind fun k =>
        ((d.checkInsertType kind.newType k (c.findUcd k.kanji.name)).1.addToList kind k).bind
          (KanjiStore.processList c ic kind (i + 1) names)

end KT
