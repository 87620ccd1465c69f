import Verif.Model.Converter
import Verif.Model.UnicodeBlock
import Verif.Model.Kanji
/-!
Model of what happens before the first conversion: the static kana tables check themselves, the three
maps are filled, and the tokens of `Converter` are built and checked (Kana.cpp, Converter.cpp).  All
checks are `assert`s, a failing one is `.ub`.  The rest of the model uses the finished tables
(`kanaMap`, `afterN`, `smallKana`, `repeatingConsonants`, `delims`).
-/
namespace KT

/-- `assert(b)`. -/
def assertThat (b : Bool) : Res Unit := if b then .ok () else .ub

/-- `Kana::validate` (Kana.cpp:303-309). -/
def Kana.validate (k : Kana) : Res Unit :=
  (assertThat (k.rec'.variants.all isAllSingleByte)).bind fun _ =>
  (assertThat (isAllSingleByte k.romaji)).bind fun _ =>
  (assertThat (isAllHiragana k.hiragana)).bind fun _ =>
  assertThat (isAllKatakana k.katakana)

/-- `Kana::IterationMark::validate` (Kana.cpp:205-208). -/
def IterationMark.validate (m : IterationMark) : Res Unit :=
  (assertThat (isAllHiragana m.hiragana)).bind fun _ => assertThat (isAllKatakana m.katakana)

/-- The constructors of the objects, one after the other. -/
def validateAll : List Kana → Res Unit
  | [] => .ok ()
  | k :: ks => k.validate.bind fun _ => validateAll ks

/-- `std::map<String, T>::emplace`: the pairs are kept in the order of their keys; the Boolean tells
whether the pair was inserted. -/
def sortedEmplace {α : Type} (s : Str) (v : α) : List (Str × α) → List (Str × α) × Bool
  | [] => ([(s, v)], true)
  | p :: m =>
    if strLt s p.1 then ((s, v) :: p :: m, true)
    else if strLt p.1 s then
      let r := sortedEmplace s v m
      (p :: r.1, r.2)
    else (p :: m, false)

/-- The lambda `insert` for several keys of one object (Kana.cpp:314-322); the message about a
duplicate, which shows an address, is left out. -/
def insertKeys (k : Kana) : List Str → List (Str × Kana) × Nat → List (Str × Kana) × Nat
  | [], st => st
  | s :: ss, (m, duplicates) =>
    let r := sortedEmplace s k m
    insertKeys k ss (r.1, if r.2 then duplicates else duplicates + 1)

/-- The loops over the lists (Kana.cpp:334-343) for any objects. -/
def populateKanaLoop (t : CharType) : List Kana → List (Str × Kana) × Nat → List (Str × Kana) × Nat
  | [], st => st
  | k :: ks, st => populateKanaLoop t ks (insertKeys k (kanaKeys t k) st)

/-- `Kana::populate` (Kana.cpp:311-346) for any objects. -/
def populateKana (t : CharType) (ks : List Kana) : Res (List (Str × Kana)) :=
  let r := populateKanaLoop t ks ([], 0)
  (assertThat (r.2 == 0)).bind fun _ => .ok r.1

/-- The data members of `Converter::Tokens` (Converter.h:125-148); sets as lists in insertion order. -/
structure Tokens where
  repeating : List UInt8 := []
  afterNHiragana : List Str := []
  afterNKatakana : List Str := []
  smallHiragana : List Str := []
  smallKatakana : List Str := []
  narrowList : List UInt8 := [apostrophe, dash]
  narrow : List (UInt8 × Str) := []
  wide : List (Str × UInt8) := []

/-- `insertUnique` (Converter.h:117-120). -/
def insertUnique (s : List Str) (x : Str) : Res (List Str) :=
  (assertThat (!s.contains x)).bind fun _ => .ok (s ++ [x])

/-- One round of the loop of the constructor (Converter.cpp:11-23). -/
def Tokens.addKana (t : Tokens) (k : Kana) : Res Tokens :=
  let r := k.romaji
  if (u8!"n").isPrefixOf r then .ok t
  else if r.length = 1 ∨ r = u8!"ya" ∨ r = u8!"yu" ∨ r = u8!"yo" then
    (insertUnique t.afterNHiragana k.hiragana).bind fun h =>
    (insertUnique t.afterNKatakana k.katakana).bind fun a =>
    .ok { t with afterNHiragana := h, afterNKatakana := a }
  else if (u8!"l").isPrefixOf r then
    if r ≠ smallTsu.romaji ∧ (u8!"lk").isPrefixOf r = false then
      (insertUnique t.smallHiragana k.hiragana).bind fun h =>
      (insertUnique t.smallKatakana k.katakana).bind fun a =>
      .ok { t with smallHiragana := h, smallKatakana := a }
    else .ok t
  else
    let c := r.headD 0
    .ok { t with repeating := if t.repeating.contains c then t.repeating else t.repeating ++ [c] }

/-- The loop (Converter.cpp:11-23). -/
def Tokens.addAll (t : Tokens) : List Kana → Res Tokens
  | [] => .ok t
  | k :: ks => (t.addKana k).bind fun t => t.addAll ks

/-- `m[key] = value` in a map whose order is not used. -/
def assignKey {α β : Type} [BEq α] (a : α) (b : β) : List (α × β) → List (α × β)
  | [] => [(a, b)]
  | p :: m => if p.1 == a then (a, b) :: m else p :: assignKey a b m

/-- The loop of `populateDelimLists` (Converter.cpp:39-49), with `prevChar` as argument. -/
def Tokens.addDelims (prev : UInt8) : List (Str × Option UInt8) → Tokens → Tokens
  | [], t => t
  | (w, n) :: r, t =>
    let c := match n with
      | some c => c
      | none => prev + 1
    Tokens.addDelims c r { t with
      narrowList := t.narrowList ++ [c], narrow := assignKey c w t.narrow, wide := assignKey w c t.wide }

/-- `verifyData` (Converter.cpp:52-71). -/
def Tokens.verify (t : Tokens) : Res Unit :=
  (assertThat (kanaN.romaji == u8!"n")).bind fun _ =>
  (assertThat (smallTsu.romaji == u8!"ltu")).bind fun _ =>
  (assertThat (t.repeating.length == 18)).bind fun _ =>
  (assertThat ((u8!"aiueolnx").all fun c => !t.repeating.contains c)).bind fun _ =>
  (assertThat (t.afterNHiragana.length == 8)).bind fun _ =>
  (assertThat (t.afterNHiragana.length == t.afterNKatakana.length)).bind fun _ =>
  (assertThat (t.smallHiragana.length == 9)).bind fun _ =>
  (assertThat (t.smallHiragana.length == t.smallKatakana.length)).bind fun _ =>
  (assertThat (t.afterNHiragana.all (inWCharRange · true [hiraganaBlocks]))).bind fun _ =>
  (assertThat (t.afterNKatakana.all (inWCharRange · true [katakanaBlocks]))).bind fun _ =>
  (assertThat (t.smallHiragana.all (inWCharRange · true [hiraganaBlocks]))).bind fun _ =>
  (assertThat (t.smallKatakana.all (inWCharRange · true [katakanaBlocks]))).bind fun _ =>
  (assertThat (t.wide.length == t.narrowList.length - 2)).bind fun _ =>
  assertThat (t.narrow.length == t.wide.length)

/-- The constructor of `Tokens` (Converter.cpp:10-26) with the Hiragana map. -/
def buildTokens (hiragana : List (Str × Kana)) : Res Tokens :=
  (Tokens.addAll {} (hiragana.map Prod.snd)).bind fun t =>
  let t := t.addDelims 0 delimArgs
  t.verify.bind fun _ => .ok t

/-- The finished tables. -/
structure KanaTables where
  romaji : List (Str × Kana)
  hiragana : List (Str × Kana)
  katakana : List (Str × Kana)
  tokens : Tokens

/-- `getMap` (Kana.cpp:217-224). -/
def KanaTables.map (k : KanaTables) : CharType → List (Str × Kana)
  | .romaji => k.romaji
  | .hiragana => k.hiragana
  | .katakana => k.katakana

/-- The static objects of Kana.cpp in the order of their definitions (lines 20-176; objects of one
table in the order of `allKana`), and `Converter::tokens()` (Converter.cpp:73-76). -/
def kanaStart : Res KanaTables :=
  (validateAll allKana).bind fun _ =>
  (populateKana .romaji allKana).bind fun r =>
  (populateKana .hiragana allKana).bind fun h =>
  (populateKana .katakana allKana).bind fun k =>
  repeatPlain.validate.bind fun _ =>
  repeatAccented.validate.bind fun _ =>
  (buildTokens h).bind fun t => .ok ⟨r, h, k, t⟩

end KT
