import Verif.Props.UcdLinkCountsText
import Verif.Props.UcdDefinitionSample
/-! # C199: violation and examples -/
namespace KT
open Spec

/-- Without links the header is written again for each word. -/
theorem C199_violated : ¬ C199_statement := by
  intro h
  have := h [] [] [] [] linkWords trivial trivial List.nodup_nil (by simp) (List.Perm.refl _)
  revert this
  decide +kernel

/-- The first word of the list has a link in the entries of C197. -/
example : ∃ e ∈ definitionEntries, e.searched = true ∧ ∃ w k b, linkWords.head? = some w ∧
    firstPlace definitionEntries e.definition = some (w, k, b) :=
  ⟨_, .tail _ (.tail _ (.tail _ (.tail _ (.head _)))), by decide +kernel, _, 0, true, rfl, by decide +kernel⟩

/-- Their report. -/
example : definitionLog (definitionEntries.map shortXml) (definitionEntries.map shortXml) linkWords =
    u8!"found 6\n  Types: 8           Total   utf uni    utf uni    utf uni   \n    'variant'            1  (  0,  1)  (  0,  0)  (  0,  0)  \n    'interchangeable'    0  (  0,  0)  (  0,  0)  (  0,  0)  \n    'same'               1  (  0,  0)  (  0,  0)  (  1,  0)  \n    'non-classical'      0  (  0,  0)  (  0,  0)  (  0,  0)  \n    'Variant'            0  (  0,  0)  (  0,  0)  (  0,  0)  \n    'standard'           0  (  0,  0)  (  0,  0)  (  0,  0)  \n    'simplified'         0  (  0,  0)  (  0,  0)  (  0,  0)  \n    'ancient'            0  (  0,  0)  (  0,  0)  (  0,  0)  \n    (manually set)       4\n" := by
  decide +kernel

end KT
