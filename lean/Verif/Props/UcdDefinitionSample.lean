import Verif.Props.UcdDefinitionNames
import Verif.Props.UcdScriptSample
/-! # C197: violation and examples -/
namespace KT
open Spec

/-- 犬 and 猫 with readings; a word that is repeated, a kanji in the third part, a code, a kanji in the fourth part. -/
def definitionEntries : List UcdEntry :=
  [{ cp := u8!"72AC", radical := 94, totalStrokes := 4, on := u8!"KEN", definition := u8!"dog" },
   { cp := u8!"732B", radical := 94, rest := 8, totalStrokes := 11, on := u8!"BYOU", definition := u8!"cat" },
   { cp := u8!"3400", radical := 1, rest := 4, totalStrokes := 5, definition := u8!"(same as 犬, of the same kind)" },
   { cp := u8!"3401", radical := 1, rest := 5, totalStrokes := 6, definition := u8!"(a) (b) same as 狗犬猫; dog" },
   { cp := u8!"3402", radical := 1, rest := 5, totalStrokes := 6, definition := u8!"(variant of U+732B) cat" },
   { cp := u8!"3403", radical := 1, rest := 5, totalStrokes := 6, definition := u8!"(a) (b) (c) same as 犬" }]

theorem definitionEntries_fit : ∀ e ∈ definitionEntries, e.Fits := by
  intro e he
  simp only [definitionEntries, List.mem_cons, List.not_mem_nil, or_false] at he
  have hw : ∀ s : Str, s ≠ [] ∧ s.all isHexChar = true → UcdCode s := fun s h => ⟨h.1, List.all_eq_true.mp h.2⟩
  rcases he with rfl | rfl | rfl | rfl | rfl | rfl
  all_goals
    constructor
    case cp => exact hw _ (by decide)
    case more => exact .inl rfl
    case moreStrokes => exact .inl rfl
    case joyo => intro c h; cases h
    case jinmei => intro y c h; cases h
    case compatibility => intro c h; cases h
    case traditional => intro c hc; cases hc
    case simplified => intro c hc; cases hc
    case mandarin => intro c hc; cases hc
    case adobe => intro c hc; cases hc
    case nelson => intro p hp; cases hp
    case semantic => intro p hp; cases hp
    case morohashi => intro p hp; cases hp

theorem definitionEntries_records : AllRecords (definitionEntries.map shortXml) definitionEntries :=
  allRecords_short _ definitionEntries_fit

/-- The links: nothing for the repeated word and for the fourth part. -/
example : (definitionEntries.map fun e =>
    (scriptArrays (definitionEntries.map shortXml) (definitionFound (definitionEntries.map shortXml))).readingLink e.cp) =
    [[], [], [], u8!"72AC", u8!"732B", []] := by decide +kernel

/-- `sed` takes the last "same" and nothing is behind it. -/
theorem C197_violated : ¬ C197_statement := by
  intro h
  have := h _ _ _ _ definitionEntries_records definitionEntries_records (by decide +kernel) (by decide +kernel)
    { cp := u8!"3400", radical := 1, rest := 4, totalStrokes := 5, definition := u8!"(same as 犬, of the same kind)" }
    (by simp [definitionEntries]) rfl (u8!"same") (u8!"(") (u8!" as ") ['犬'] (u8!", of the same kind)")
    ⟨⟨by decide +kernel, by decide, by decide, by decide, .inl rfl⟩, by decide, by decide⟩
    ⟨'犬', by simp, by decide +kernel⟩
  exact this (by decide +kernel)

/-- The hypotheses of `C197_named_partial` hold for the fourth entry. -/
example : Named (u8!"(a) (b) same as 狗犬猫; dog") (u8!"same") (u8!"(a) (b) ") (u8!" as ") ['狗', '犬', '猫'] (u8!"; dog") ∧
    (readingOf definitionEntries (charCode '犬')).isSome = true :=
  ⟨⟨⟨by decide +kernel, by decide, by decide, by decide, .inl rfl⟩, by decide, by decide⟩, by decide +kernel⟩

/-- And those of `C197_unicode_partial` for the fifth. -/
example : Announced (u8!"(variant of U+732B) cat") (u8!"variant") (u8!"(") (u8!" of ") (u8!"U+732B") (u8!") cat") ∧
    (readingOf definitionEntries (u8!"732B")).isSome = true :=
  ⟨⟨by decide +kernel, by decide, by decide, by decide, .inl rfl⟩, by decide +kernel⟩

end KT
