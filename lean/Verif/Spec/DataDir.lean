import Verif.Model.Basic
/-!
# What a data directory is, independent of the program
-/
namespace Spec

/-- A name with the extension `.txt`: something followed by `.txt`. -/
def TextName (n : KT.Str) : Prop := ∃ b, b ≠ [] ∧ n = b ++ u8!".txt"

instance (n : KT.Str) : Decidable (TextName n) :=
  decidable_of_iff (4 < n.length ∧ n.drop (n.length - 4) = u8!".txt") <| by
    constructor
    · rintro ⟨h, e⟩
      refine ⟨n.take (n.length - 4), ?_, ?_⟩
      · intro h0
        have := congrArg List.length h0
        simp at this
        omega
      · rw [← e, List.take_append_drop]
    · rintro ⟨b, hb, rfl⟩
      have := List.length_pos_iff.2 hb
      simp
      omega

/-- Ten of the names have the extension. -/
def DataNames (names : List KT.Str) : Prop := (names.filter fun n => TextName n).length = 10

end Spec
