import Verif.Model.ConvertProgram
import Verif.Spec.ChartDocument
import Verif.Props.KanaChart
/-!
# `kanaConvert -m` prints the file in the documentation
-/
namespace KT
open Spec

/-- The text printed with `-m` is the file docs/KanaConversionChart.md, byte for byte. -/
theorem C169_documented : wholeKanaChart true = .ok (KT.textOf documentedFile) := by
  have h : printChartHeader true = KT.textOf documentedNotes := by decide +kernel
  unfold wholeKanaChart
  rw [C99_document, h]
  show Res.ok _ = _
  unfold documentedFile KT.textOf
  rw [List.map_append, List.flatten_append, List.flatMap_def]

/-- The text printed with `-p` is a heading, the same notes and the chart for a terminal. -/
theorem C169_terminal : ∃ t, printKanaChart false = .ok t ∧
    wholeKanaChart false = .ok (u8!">>> Notes:\n" ++ KT.textOf ((documentedNotes.drop 2).dropLast) ++ t) := by
  obtain ⟨_, _, _, _, h, _⟩ := C99_terminal
  refine ⟨_, h, ?_⟩
  have h2 : printChartHeader false = u8!">>> Notes:\n" ++ KT.textOf ((documentedNotes.drop 2).dropLast) := by decide +kernel
  unfold wholeKanaChart
  rw [h, h2]
  rfl

end KT
