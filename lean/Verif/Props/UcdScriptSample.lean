import Verif.Props.UcdScript
/-! # C193: examples -/
namespace KT
open Spec

/-- 亜, 亞 (no readings), 亚 (simplified, no readings), 亘 and 亙 (the link leads from the standard form to the variant), a
record with a simplified radical, one without readings and numbers, and one with glyph references. -/
def sampleEntries : List UcdEntry :=
  [{ cp := u8!"4E9C", radical := 7, rest := 5, totalStrokes := 7, joyo := some (.listed 2010), on := u8!"A", definition := u8!"Asia"
     jSource := u8!"J0-3021", morohashi := [⟨2, u8!"256", 0, none⟩], nelson := [(2, u8!"43")] },
   { cp := u8!"4E9E", radical := 7, rest := 6, totalStrokes := 8, jinmei := some (2010, some (u8!"4E9C")), jSource := u8!"J0-5033"
     morohashi := [⟨2, u8!"260", 1, none⟩, ⟨0, u8!"260", 0, none⟩] },
   { cp := u8!"4E9A", radical := 1, rest := 5, totalStrokes := 6, traditional := [u8!"4E9A", u8!"4E9E", u8!"4E9C", u8!"4E9E"] },
   { cp := u8!"4E98", radical := 1, rest := 5, totalStrokes := 6, jinmei := some (2010, some (u8!"4E99")), on := u8!"KOU" },
   { cp := u8!"4E99", radical := 7, rest := 4, totalStrokes := 6, jinmei := some (2010, none) },
   { cp := u8!"4336", radical := 120, marks := 1, rest := 3, totalStrokes := 6, on := u8!"X" },
   { cp := u8!"3400", radical := 1, rest := 4, totalStrokes := 5, semantic := [(u8!"4E18", u8!"&lt;kMatthews")] },
   { cp := u8!"5091", radical := 9, rest := 10, totalStrokes := 12, on := u8!"KETSU"
     adobe := [⟨0x43, 1852, 9, 2, 11⟩, ⟨0x56, 13743, 9, 2, 10⟩] }]

/-- They are well-formed. -/
theorem sampleEntries_fit : ∀ e ∈ sampleEntries, e.Fits := by
  intro e he
  simp only [sampleEntries, List.mem_cons, List.not_mem_nil, or_false] at he
  have hw : ∀ s : Str, s ≠ [] ∧ s.all isHexChar = true → UcdCode s := fun s h => ⟨h.1, List.all_eq_true.mp h.2⟩
  rcases he with rfl | rfl | rfl | rfl | rfl | rfl | rfl | rfl
  all_goals
    constructor
    case cp => exact hw _ (by decide)
    case more => exact .inl rfl
    case moreStrokes => exact .inl rfl
    case joyo => intro c h; first | (cases h; done) | cases h
    case jinmei => intro y c h; first | (cases h; done) | (cases h; exact hw _ (by decide))
    case compatibility => intro c h; cases h
    case traditional => intro c hc; revert hc; simp only [List.mem_cons, List.not_mem_nil, or_false, false_implies]; try (rintro (rfl | rfl | rfl | rfl) <;> exact hw _ (by decide))
    case simplified => intro c hc; cases hc
    case mandarin => intro c hc; cases hc
    case adobe => intro c hc; revert hc; simp only [List.mem_cons, List.not_mem_nil, or_false, false_implies]; try (rintro (rfl | rfl) <;> decide)
    case nelson => intro p hp; revert hp; simp only [List.mem_cons, List.not_mem_nil, or_false, false_implies]; try (rintro rfl; exact ⟨⟨by decide, by decide⟩, by decide⟩)
    case semantic => intro p hp; revert hp; simp only [List.mem_cons, List.not_mem_nil, or_false, false_implies]; try (rintro rfl; exact ⟨hw _ (by decide), by decide, by decide⟩)
    case morohashi =>
      intro p hp; revert hp; simp only [List.mem_cons, List.not_mem_nil, or_false, false_implies]
      try (rintro (rfl | rfl) <;> exact ⟨by decide, by decide, by decide, by simp⟩)
      try (rintro rfl; exact ⟨by decide, by decide, by decide, by simp⟩)

theorem allRecords_short (es : List UcdEntry) (h : ∀ e ∈ es, e.Fits) : AllRecords (es.map shortXml) es := by
  induction es with
  | nil => trivial
  | cons e es ih => exact ⟨⟨shortXml_records e, h e (by simp)⟩, ih fun d hd => h d (by simp [hd])⟩

/-- The hypotheses of `C193_rows` hold for them. -/
example : AllRecords (sampleEntries.map shortXml) sampleEntries := allRecords_short _ sampleEntries_fit

/-- Their rows: link type, links and On reading. -/
example : ((ucdScript (sampleEntries.map shortXml) (sampleEntries.map shortXml) []).1.map fun r =>
    (r.row.code, r.row.linkType, r.row.linkCodes, r.row.on)) =
    [(u8!"4E9C", [], [], u8!"A"), (u8!"4E9E", u8!"Jinmei*", u8!"4E9C", u8!"A"),
     (u8!"4E9A", u8!"Traditional*", u8!"4E9C,4E9E", u8!"A"), (u8!"4E98", [], [], u8!"KOU"),
     (u8!"4E99", u8!"Jinmei", u8!"4E98", u8!"KOU"), (u8!"5091", [], [], u8!"KETSU")] := by decide +kernel

/-- Numbers and strokes. -/
example : ((ucdScript (sampleEntries.map shortXml) (sampleEntries.map shortXml) []).1.map fun r =>
    (r.row.morohashiId, r.row.nelsonIds, r.row.strokes, r.row.vStrokes)) =
    [(u8!"256", u8!"43", u8!"7", []), (u8!"260P", [], u8!"8", []), ([], [], u8!"6", []), ([], [], u8!"6", []),
     ([], [], u8!"6", []), ([], [], u8!"12", u8!"13")] := by decide +kernel

/-- 亘 without readings: the script ends. -/
example : ucdScript [] ([{ cp := u8!"4E98", radical := 1, rest := 5, totalStrokes := 6, jinmei := some (2010, some (u8!"4E99"))
    : UcdEntry }].map shortXml) [] = ([], false) := by decide +kernel

end KT
