import Verif.Props.QuizPrintAll
import Verif.Props.LoadSafeProgram
/-!
# C187: the columns of the texts printed for groups and Jukugo are filled with blanks

Model: `Verif/Model/QuizPrint.lean`.
-/
namespace KT
open Spec

/-- In every debug mode the output ends with the lines for the types of kanji with Jukugo, in which the names of the types are
aligned with blanks. -/
def C187_statement : Prop :=
  ∀ (mode : DebugMode) (sort : List KanjiRec → List KanjiRec) (ltr : Bool) (f : DataFiles) (v : DetailStore), mode ≠ .none →
    (loadDataPrinting mode sort ltr f).result = .ok v →
    ∃ before, (loadDataPrinting mode sort ltr f).prints.out =
      before ++ jukugoLines 0x20 v.store.typeOfName (nameOrder (v.detail.jukugo.kanjiTo.map (·.1)))

/-- The sample data with a third radical, two pattern groups and no meaning group. -/
def zeroData : DataFiles :=
  { dirData (sampleWith (u8!"d/radicals")
      (u8!"Number	Name	LongName	Reading\n1	一	L1	いち\n2	丨 亅	L2	ぼう\n3	丶	L3	てん\n")) (u8!"d") with
    meanings := []
    patterns := [⟨u8!"1", u8!"一：イチ", u8!"三"⟩, ⟨u8!"2", u8!"：シチ", u8!"七,三"⟩] }

/-- Printing the radicals without kanji leaves '0' as fill character (Radical.cpp:21). -/
theorem C187_violated : ¬ C187_statement := by
  intro h
  have key : (match (loadDataPrinting .full id true zeroData).result with
      | .ok v => decide ((jukugoLines 0x20 v.store.typeOfName (nameOrder (v.detail.jukugo.kanjiTo.map (·.1)))) <:+
          (loadDataPrinting .full id true zeroData).prints.out)
      | _ => true) = false := by decide +kernel
  cases hr : (loadDataPrinting .full id true zeroData).result with
  | ok v =>
    rw [hr] at key
    obtain ⟨before, hb⟩ := h .full id true zeroData v (by decide) hr
    simp only [decide_eq_false_iff_not] at key
    exact key ⟨before, hb.symm⟩
  | throw _ => rw [hr] at key; cases key
  | ub => rw [hr] at key; cases key

theorem groupTypeLines_fill (found all : KanjiType → List Str) : ∀ (ts : List KanjiType) (f : OutFormat),
    (groupTypeLines found all f ts).2.fill = f.fill
  | [], _ => rfl
  | t :: ts, f => by
    rw [groupTypeLines]
    split
    · exact groupTypeLines_fill found all ts f
    · exact groupTypeLines_fill found all ts _

theorem groupLines_fill (t : GroupType) (width : Nat) : ∀ (gs : List Group) (f : OutFormat),
    (groupLines t width f gs).2.fill = if t = .meaning ∧ gs ≠ [] then 0x20 else f.fill
  | [], _ => by simp [groupLines]
  | g :: gs, f => by
    rw [groupLines]
    simp only
    rw [groupLines_fill t width gs]
    cases t
    · simp [meaningGroupText]
    · simp [patternGroupText]

/-- The fill character after the lists of groups. -/
theorem printAllGroups_fill (full : Bool) (f : OutFormat) (m : MeaningGroups) (p : PatternGroups) (all : KanjiType → List Str) :
    (printAllGroups full f m p all).2.fill = if full = true ∧ m.groups ≠ [] then 0x20 else f.fill := by
  unfold printAllGroups printGroups
  simp only [groupTypeLines_fill]
  cases full
  · simp only [Bool.false_eq_true, if_false, groupTypeLines_fill, false_and]
  · simp only [if_true, groupLines_fill, groupTypeLines_fill, reduceCtorEq, false_and, if_false, true_and]

/-- **C187** (partial): so it is with info, if there is a meaning group, if there is a kanji with variation selector, and if
every radical has a common kanji. -/
theorem C187_partial (mode : DebugMode) (sort : List KanjiRec → List KanjiRec) (ltr : Bool) (f : DataFiles) (v : DetailStore)
    (hm : mode ≠ .none) (h : (loadDataPrinting mode sort ltr f).result = .ok v)
    (hf : mode = .info ∨ f.meanings ≠ [] ∨ (∃ k ∈ v.store.all, k.kanji.variant = true) ∨
      ∀ rad, RadicalData.load f.radicalCols f.radicals = .ok rad →
        ∀ r ∈ rad.radicals, ∃ k ∈ v.store.all, k.common = true ∧ k.kanji.radicalNumber = r.number) :
    ∃ before, (loadDataPrinting mode sort ltr f).prints.out =
      before ++ jukugoLines 0x20 v.store.typeOfName (nameOrder (v.detail.jukugo.kanjiTo.map (·.1))) := by
  rw [loadDataPrinting_eq, Printing.bind_result] at h
  obtain ⟨t, ht, h⟩ := Res.bind_eq_ok h
  have hl : loadTextData ltr f = .ok t := by
    obtain ⟨h1, h2, h3⟩ := C184_result mode sort ltr f
    by_cases hx : ∃ t', loadTextData ltr f = .ok t'
    · obtain ⟨⟨d, u, l⟩, hx⟩ := hx
      by_cases hm : mode = .full
      · by_cases hv : NoVariantEntry u d
        · rw [(h3 d u l hx).2 hm hv] at ht; cases ht
        · rw [(h3 d u l hx).1 hv] at ht; rw [hx]; exact ht
      · rw [← h1 hm]; exact ht
    · rw [← h2 fun t' e => hx ⟨t', e⟩]; exact ht
  unfold loadAfterKanji at h
  rw [Printing.bind_result] at h
  obtain ⟨m, h1, h⟩ := Res.bind_eq_ok h
  rw [Printing.bind_result] at h
  obtain ⟨p, h2, h⟩ := Res.bind_eq_ok h
  rw [quietly_bind_result] at h
  obtain ⟨rad, h3, h⟩ := Res.bind_eq_ok h
  rw [Printing.bind_result] at h
  simp only [printing, Res.bind] at h
  rw [Printing.bind_result, (C185_result _ _ _ _).1] at h
  obtain ⟨st, h4, h⟩ := Res.bind_eq_ok h
  cases h
  have hd : decide (mode ≠ .none) = true := by simpa using hm
  have hfill : (printGroupData mode (formatAfterKanji mode rad t.1) m p t.1).2.fill = 0x20 := by
    unfold printGroupData
    rw [if_neg hm, printAllGroups_fill]
    obtain ⟨d, u, l⟩ := t
    obtain ⟨g1, g2, g3⟩ := C186_format ltr f d u l rad hl
    cases mode with
    | none => exact absurd rfl hm
    | info => simp [g1]
    | full =>
      simp only [decide_true, true_and]
      split
      · rfl
      · rename_i hg
        rcases hf with hf | hf | hf | hf
        · cases hf
        · exfalso
          have hg : m.groups = [] := Classical.not_not.mp hg
          rw [loadMeaningPrinting_result] at h1
          have := (((C89_load d.findByName f.meanings).1 m.groups).1 ⟨m, h1, rfl⟩).1
          rw [hg] at this
          exact hf (List.length_eq_zero_iff.mp this.symm)
        · rw [g2 hf]
        · by_cases hv : ∃ k ∈ d.all, k.kanji.variant = true
          · rw [g2 hv]
          · rw [(g3 fun k hk => by
              cases hx : k.kanji.variant with
              | false => rfl
              | true => exact absurd ⟨k, hk, hx⟩ hv).1 (hf rad h3)]
  rw [loadDataPrinting_eq, Printing.bind_out ht]
  unfold loadAfterKanji
  rw [Printing.bind_out h1, Printing.bind_out h2, Printing.bind_out (a := rad) h3, Printing.bind_out (a := ()) rfl, hd]
  rw [Printing.bind_out (a := st) (by rw [(C185_result _ _ _ _).1]; exact h4)]
  unfold loadJukugoPrinting
  rw [Printing.bind_out (a := ()) rfl,
    Printing.bind_out (a := st) (by rw [loadJukugoPrintingFiles_result]; exact h4), Printing.bind_out (a := ()) rfl]
  simp only [printing, quietly, if_true, List.append_nil, jukugoSummary, jukugoTypeLines_eq, hfill, ← List.append_assoc]
  exact ⟨_, rfl⟩

end KT
