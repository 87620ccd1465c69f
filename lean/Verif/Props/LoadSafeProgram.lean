import Verif.Props.LoadSafeDirectory
/-!
# C181: loading the data ends with the data or an exception
-/
namespace KT
open Spec

/-- **C181** (other files): loading a list file, the Unicode file, the radicals, the readings of the frequency kanji, the groups
or the jukugo ends with a result or an exception, whatever the texts are. -/
theorem C181_files (reg : List Str) (hreg : reg.Nodup) (x : Disk) (dir text : Str) (find : Str → Option KanjiRec) :
    (∀ o ty names, (ListFile.load o ty names text).2 ≠ .ub) ∧ loadListsFrom x dir ≠ .ub ∧ loadUcdText reg text ≠ .ub ∧
    loadRadicalText reg text ≠ .ub ∧ loadReadingText reg text ≠ .ub ∧ loadMeaningText reg find text ≠ .ub ∧
    loadPatternText reg find text ≠ .ub ∧ loadJukugoFiles x dir jukugoFiles {} ≠ .ub ∧
    ∀ ltr u, getReadingsAsKana ltr u ≠ .ub := by
  refine ⟨fun o ty names => listFile_safe o ty names text, (listsFrom_safe x dir).noub, (ucdText_safe reg hreg text).noub,
    radicalText_safe reg hreg text, readingText_safe reg hreg text, (groupText_safe reg hreg find text).1,
    (groupText_safe reg hreg find text).2, jukugoFiles_safe x dir _ _ jinv_empty, fun ltr u => ?_⟩
  unfold getReadingsAsKana
  split
  · exact fun h => by cases h
  · rename_i u
    obtain ⟨a, ha⟩ := C97_total ltr .katakana (spacesToCommas u.on)
    rw [ha]
    simp only [Res.bind]
    split
    · exact fun h => by cases h
    · rename_i u _
      obtain ⟨b, hb⟩ := C97_total ltr .hiragana (if a.isEmpty then spacesToCommas u.kun else 0x2c :: spacesToCommas u.kun)
      rw [hb]
      exact fun h => by cases h

/-- Loading the data of a directory always ends with the data or an exception. -/
def C181_statement : Prop :=
  ∀ reg : List Str, reg.Nodup → ∀ (ltr : Bool) (x : Disk) (dir : Str), loadDataFrom reg ltr x dir ≠ .ub

/-- The sample directory with another text for a file. -/
def sampleWith (file text : Str) : Disk := diskOf (sampleDisk.map fun p => if p.1 = file then (p.1, text) else p)

/-- A kanji of the Unicode file in the list of a JLPT level: `assert(kanji->hasLevel())` (KanjiData.cpp:252-260) fails, since
only Jouyou and Jinmei kanji have a level. -/
theorem level_ub : loadDataFrom [] true (sampleWith (u8!"d/jlpt/n4.txt") (u8!"三\n")) (u8!"d") = .ub := by
  have h : loadedTexts (loadDataFrom [] true (sampleWith (u8!"d/jlpt/n4.txt") (u8!"三\n")) (u8!"d")) = .ub := by decide +kernel
  revert h
  cases loadDataFrom [] true (sampleWith (u8!"d/jlpt/n4.txt") (u8!"三\n")) (u8!"d") <;> simp [loadedTexts, Res.bind]

theorem C181_violated : ¬ C181_statement := fun h =>
  h [] (by simp) true (sampleWith (u8!"d/jlpt/n4.txt") (u8!"三\n")) (u8!"d") level_ub

/-- A kanji of 'extra.txt' in the frequency list: the assertion at KanjiData.cpp:263 fails. -/
example : loadedTexts (loadDataFrom [] true (sampleWith (u8!"d/extra.txt")
    (u8!"Number	Name	Radical	Strokes	Meaning	Reading\n1	三	一	3	x	サン\n")) (u8!"d")) = .ub := by decide +kernel

/-- **C181** (rows and texts): if the names fit together, loading the data ends with the data or an exception. -/
theorem C181_load_partial (ltr : Bool) (f : DataFiles) (hf : NamesFit f)
    (hr : RadicalData.load f.radicalCols f.radicals ≠ .ub) : loadData ltr f ≠ .ub := loadData_safe ltr f hf hr

/-- **C181** (directory): if the names in the files of a directory fit together, loading it ends with the data or an
exception; it is the data exactly if all files are there, the tables have the right columns and the rows and texts are accepted. -/
theorem C181_directory_partial (reg : List Str) (hreg : reg.Nodup) (ltr : Bool) (x : Disk) (dir : Str)
    (hf : NamesFit (dirData x dir)) :
    loadDataFrom reg ltr x dir ≠ .ub ∧
    ((∃ e, loadDataFrom reg ltr x dir = .throw e) ↔
      ¬ (CompleteDir x dir ∧ TablesFit x dir ∧ ∃ d, loadData ltr (dirData x dir) = .ok d)) := by
  have hs := dataFrom_safe reg hreg ltr x dir hf
  refine ⟨hs, ?_⟩
  constructor
  · rintro ⟨e, he⟩ ⟨h1, h2, d, h3⟩
    rw [(C180_load reg hreg ltr x dir d).mpr ⟨h1, h2, h3⟩] at he
    cases he
  · intro h
    cases hx : loadDataFrom reg ltr x dir with
    | throw e => exact ⟨e, rfl⟩
    | ub => exact absurd hx hs
    | ok d =>
      obtain ⟨h1, h2, h3⟩ := (C180_load reg hreg ltr x dir d).mp hx
      exact absurd ⟨h1, h2, d, h3⟩ h

/-! ## An example -/

/-- The data of the sample directory. -/
def sampleData : DataFiles := dirData (diskOf sampleDisk) (u8!"d")

theorem sample_levels (x : JlptLevel) (n : Str) (h : n ∈ wordsIn (sampleData.levels x)) : n = u8!"一" := by
  have key : ∀ x ∈ levelOrder, ∀ n ∈ wordsIn (sampleData.levels x), n = u8!"一" := by decide +kernel
  exact key x (by cases x <;> decide) n h

theorem sample_kyus (x : KenteiKyu) (n : Str) (h : n ∈ wordsIn (sampleData.kyus x)) : n = u8!"一" ∨ n = u8!"七" := by
  have key : ∀ x ∈ kyuOrder, ∀ n ∈ wordsIn (sampleData.kyus x), n = u8!"一" ∨ n = u8!"七" := by decide +kernel
  exact key x (by cases x <;> decide) n h

theorem sample_named (n : Str) (h : NamedIn sampleData n) : n ∈ [u8!"一", u8!"壱", u8!"三", u8!"七"] := by
  rcases h with h | h | (⟨x, h⟩ | h | ⟨x, h⟩) | ⟨r, h, rfl⟩
  · exact (by decide +kernel : ∀ n ∈ rowNames sampleData.kanji, n ∈ [u8!"一", u8!"壱", u8!"三", u8!"七"]) n h
  · exact (by decide +kernel : ∀ n ∈ linkedNames sampleData.kanji, n ∈ [u8!"一", u8!"壱", u8!"三", u8!"七"]) n h
  · rw [sample_levels x n h]; decide
  · exact (by decide +kernel : ∀ n ∈ wordsIn sampleData.frequency, n ∈ [u8!"一", u8!"壱", u8!"三", u8!"七"]) n h
  · rcases sample_kyus x n h with rfl | rfl <;> decide
  · exact (by decide +kernel : ∀ r ∈ sampleData.ucd, r.name ∈ [u8!"一", u8!"壱", u8!"三", u8!"七"]) r h

/-- The names of the sample directory fit together. -/
theorem sample_fits : NamesFit sampleData where
  character := fun n h =>
    (by decide +kernel : ∀ n ∈ [u8!"一", u8!"壱", u8!"三", u8!"七"], utf8Size n = some 1) n (sample_named n h)
  level := fun x n h => by rw [sample_levels x n h]; exact .inl (by decide +kernel)
  frequency := by decide +kernel
  variants := fun n h hv => absurd hv
    ((by decide +kernel : ∀ n ∈ [u8!"一", u8!"壱", u8!"三", u8!"七"], isCharWithVariationSelector n ≠ some true) n
      (sample_named n h))

example : loadDataFrom [] true (diskOf sampleDisk) (u8!"d") ≠ .ub :=
  (C181_directory_partial [] (by simp) true (diskOf sampleDisk) (u8!"d") sample_fits).1

end KT
