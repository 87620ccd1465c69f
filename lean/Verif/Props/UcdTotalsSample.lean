import Verif.Props.UcdTotalsText
/-! # C198: violation and examples -/
namespace KT
open Spec

/-- A Joyo kanji without readings, Morohashi number and Japanese source. -/
def uncountedEntries : List UcdEntry :=
  [{ cp := u8!"4E9C", radical := 7, rest := 5, totalStrokes := 7, joyo := some (.listed 2010) }]

theorem uncountedEntries_records : AllRecords (uncountedEntries.map shortXml) uncountedEntries := by
  refine allRecords_short _ ?_
  intro e he
  simp only [uncountedEntries, List.mem_cons, List.not_mem_nil, or_false] at he
  have hw : ∀ s : Str, s ≠ [] ∧ s.all isHexChar = true → UcdCode s := fun s h => ⟨h.1, List.all_eq_true.mp h.2⟩
  subst he
  constructor
  case cp => exact hw _ (by decide)
  case more => exact .inl rfl
  case moreStrokes => exact .inl rfl
  case joyo => intro c h; cases h
  case jinmei => intro y c h; cases h
  case compatibility => intro c h; cases h
  case traditional => intro c hc; cases hc
  case simplified => intro c hc; cases hc
  case mandarin => intro c hc; cases hc
  case adobe => intro c hc; cases hc
  case nelson => intro p hp; cases hp
  case semantic => intro p hp; cases hp
  case morohashi => intro p hp; cases hp

/-- It is counted although it has no row. -/
theorem C198_violated : ¬ C198_statement := by
  intro h
  have := h _ _ _ _ [] uncountedEntries_records uncountedEntries_records (by decide +kernel) (by decide +kernel)
  revert this
  decide +kernel

/-- The hypotheses of `C198_summary_partial` hold for the entries of C193. -/
example : (∀ e ∈ sampleEntries, ∀ p ∈ e.nelson, 0x2c ∉ p.2) ∧
    (ucdScript (sampleEntries.map shortXml) (sampleEntries.map shortXml) []).2 = true ∧
    (∀ e ∈ sampleEntries, e.kept = true → e.joyo.isSome = true ∨ e.jinmei.isSome = true →
      (ucdEntryRow sampleEntries [] e).isSome = true) ∧
    (∀ e ∈ sampleEntries, e.joyo.isSome = false ∨ e.jinmei.isSome = false) ∧
    ∀ r ∈ (ucdScript (sampleEntries.map shortXml) (sampleEntries.map shortXml) []).1.map ScriptRow.row,
      borrows r = true → hasReadings r = true := by decide +kernel

/-- Their summary. -/
example : (ucdTotals (sampleEntries.map shortXml) (sampleEntries.map shortXml) []).summary =
    u8!"Unique JSource: 2 *** expected 16222 ***\nUnique Morohashi: 2 *** expected 49019 ***\nUnique Nelson ID: 1 *** expected 5442 ***\nTotal Jouyou: 1 *** expected 2136 ***\nTotal Jinmei: 1 *** expected 633 ***\nJinmei Links: 2 *** expected 230 ***\nOther Links:\n  Traditional 1, Simplified 0, Compatibility 0, Definition 0, Semantic 0\nOther Fields:\n  Meaning 3, Pinyin 0, Reading 6 (Direct 4 Linked 2 Manual 0)\n" := by
  decide +kernel

end KT
