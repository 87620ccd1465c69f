import Verif.Props.LoadedValues
/-!
# C171, C172, C173: an example

Small files with kanji of several types, evaluated.
-/
namespace KT
open Spec

/-- Cells of the Unicode file. -/
def exampleUcd (code name radical strokes on : Str) : UcdRow where
  code := code
  name := name
  radical := radical
  strokes := strokes
  pinyin := u8!"yī"
  meaning := u8!"number"
  on := on

/-- Cells of the other files. -/
def exampleRow (name strokes old reading : Str) : CellRow where
  number := u8!"1"
  name := name
  radical := u8!"一"
  strokes := strokes
  grade := u8!"1"
  oldNames := old
  reason := u8!"Names"
  reading := reading
  meaning := u8!"one"

/-- The columns of the radical file. -/
def exampleCols : RadicalCols := ⟨⟨u8!"Number", 0⟩, ⟨u8!"Name", 1⟩, ⟨u8!"LongName", 2⟩, ⟨u8!"Reading", 3⟩⟩

/-- The radical file. -/
def exampleRadicals : Res ColumnFile :=
  openColumnFile [u8!"Number", u8!"Name", u8!"LongName", u8!"Reading"]
    [u8!"Number	Name	LongName	Reading", u8!"1	一	L1	いち", u8!"2	丨 亅	L2	ぼう"]
    [exampleCols.number, exampleCols.name, exampleCols.longName, exampleCols.reading]

/-- All files. -/
def exampleFiles (radicals : ColumnFile) : DataFiles where
  levels := fun l => if l = .n5 then u8!"一\n" else []
  kyus := fun k => if k = .k10 then u8!"一\n" else if k = .k1 then u8!"七\n" else []
  frequency := u8!"一\n三\n"
  ucd := [exampleUcd (u8!"4E00") (u8!"一") (u8!"1") (u8!"1") (u8!"ICHI"), exampleUcd (u8!"58F1") (u8!"壱") (u8!"2") (u8!"7") (u8!"ITSU"),
    exampleUcd (u8!"4E09") (u8!"三") (u8!"1") (u8!"3") (u8!"SAN"), exampleUcd (u8!"4E03") (u8!"七") (u8!"1") (u8!"2") (u8!"SHICHI"),
    exampleUcd (u8!"4E01") (u8!"丁") (u8!"1") (u8!"2") (u8!"CHOU"), exampleUcd (u8!"4E0A") (u8!"上") (u8!"1") (u8!"3") (u8!"JOU")]
  radicalCols := exampleCols
  radicals := radicals
  kanji := {
    frequencyReadings := [(u8!"三", u8!"サン、み")]
    jouyou := [exampleRow (u8!"一") (u8!"1") (u8!"壱") (u8!"イチ、ひと")]
    linkedJinmei := []
    jinmei := [exampleRow (u8!"丁") [] [] (u8!"チョウ")]
    extra := [] }

/-- The kanji with their types, readings and meanings. -/
def exampleKanjiTexts : Res (List (Str × KanjiType × Str × Str)) :=
  exampleRadicals.bind fun r => (loadData true (exampleFiles r)).bind fun d =>
    .ok (d.store.all.map fun k => (k.kanji.name, k.kanji.type, k.kanji.reading, k.kanji.meaning))

example : exampleKanjiTexts = .ok [
    (u8!"一", .jouyou, u8!"イチ、ひと", u8!"one"), (u8!"壱", .linkedOld, u8!"イチ、ひと", u8!"one"),
    (u8!"丁", .jinmei, u8!"チョウ", u8!"number"), (u8!"三", .frequency, u8!"サン、み", u8!"number"),
    (u8!"七", .kentei, u8!"シチ", u8!"number"), (u8!"上", .ucd, u8!"ジョウ", u8!"number")] := by decide +kernel

/-- The kanji with their radicals, strokes and Pinyin. -/
def exampleKanjiValues : Res (List (Str × Str × List Nat × Str)) :=
  exampleRadicals.bind fun r => (loadData true (exampleFiles r)).bind fun d =>
    .ok (d.store.all.map fun k => (k.kanji.name, k.kanji.radicalName, [k.kanji.radicalNumber, k.kanji.strokes.value.toNat],
      k.kanji.pinyin.getD []))

example : exampleKanjiValues = .ok [
    (u8!"一", u8!"一", [1, 1], u8!"yī"), (u8!"壱", u8!"丨", [2, 7], u8!"yī"),
    (u8!"丁", u8!"一", [1, 2], u8!"yī"), (u8!"三", u8!"一", [1, 3], u8!"yī"),
    (u8!"七", u8!"一", [1, 2], u8!"yī"), (u8!"上", u8!"一", [1, 3], u8!"yī")] := by decide +kernel

/-- Loading ends with data without variants and without groups. -/
def exampleLoads : Bool :=
  match exampleRadicals with
  | .ok r =>
    match loadData true (exampleFiles r) with
    | .ok d => d.store.all.all (fun k => !k.kanji.variant) &&
        d.detail.meanings.groups.isEmpty && d.detail.patterns.groups.isEmpty
    | _ => false
  | _ => false

/-- The hypotheses of `C171_quiz` can be met. -/
example : ∃ r d, exampleRadicals = .ok r ∧ loadData true (exampleFiles r) = .ok d ∧ WithinLimits (exampleFiles r) d := by
  have h : exampleLoads = true := by decide +kernel
  unfold exampleLoads at h
  cases hr : exampleRadicals with
  | ok r =>
    rw [hr] at h
    dsimp only at h
    cases hd : loadData true (exampleFiles r) with
    | ok d =>
      rw [hd] at h
      simp only [Bool.and_eq_true, List.all_eq_true, List.isEmpty_iff, Bool.not_eq_true'] at h
      obtain ⟨⟨h1, h2⟩, h3⟩ := h
      refine ⟨r, d, rfl, hd, ⟨by simp [exampleFiles], ?_, fun k hk _ _ hv => ?_, fun t mt => ?_⟩⟩
      · show (fileTokens (u8!"一\n三\n")).length ≤ 2750
        decide +kernel
      · rw [h1 k hk] at hv; cases hv
      · have : groupsOf d.detail t = [] := by cases t <;> simp [groupsOf, h2, h3]
        rw [this]
        exact ⟨by simp, by simp⟩
    | throw _ => rw [hd] at h; cases h
    | ub => rw [hd] at h; cases h
  | throw _ => rw [hr] at h; cases h
  | ub => rw [hr] at h; cases h

end KT
