import Verif.Model.HelpText
import Verif.Props.Bitmask
import Verif.Spec.HelpText
/-!
# The help texts and the options of the programs (C154, C155), the interactive mode as text (C152)
-/
namespace KT
open Spec

theorem byte_all {P : UInt8 → Prop} (h : ∀ n < 256, P (UInt8.ofNat n)) (c : UInt8) : P c := by
  have := h c.toNat c.toNat_lt
  simpa using this

/-! ## C154 -/

def resOk {α : Type} : Res α → Bool
  | .ok _ => true
  | _ => false

/-- The programs accept `-` and this letter: kanjiQuiz, kanjiStats with a file, and kanaConvert (where `-f` has a
valid value). -/
def quizAccepts (c : UInt8) : Bool := resOk (launchLoop false {} [[0x2d, c]])
def statsAccepts (c : UInt8) : Bool := statsArgs false [[0x2d, c], u8!"file"] != .usage
def convertAccepts (c : UInt8) : Bool :=
  match convArgsLoop [u8!"kanaConvert", [0x2d, c], u8!"h"] 5 1 {} with
  | some r => resOk r
  | none => false

/-- Each program accepts exactly the options with one letter that its help text explains. -/
def C154_statement : Prop :=
  ∀ c : UInt8, (quizAccepts c = true ↔ c ∈ explainedOptions quizHelp) ∧
    (statsAccepts c = true ↔ c ∈ explainedOptions statsHelp) ∧
    (convertAccepts c = true ↔ c ∈ explainedOptions (convertUsage true))

/-- `--` isn't explained by kanjiQuiz and kanjiStats. -/
theorem C154_violated : ¬ C154_statement := by
  intro h
  have := (h 0x2d).2.1
  revert this
  decide +kernel

/-- It is the only exception. -/
theorem C154_partial (c : UInt8) :
    (c ≠ 0x2d → (quizAccepts c = true ↔ c ∈ explainedOptions quizHelp) ∧
      (statsAccepts c = true ↔ c ∈ explainedOptions statsHelp)) ∧
    (convertAccepts c = true ↔ c ∈ explainedOptions (convertUsage true)) := by
  refine byte_all (P := fun c => (c ≠ 0x2d → (quizAccepts c = true ↔ c ∈ explainedOptions quizHelp) ∧
      (statsAccepts c = true ↔ c ∈ explainedOptions statsHelp)) ∧
    (convertAccepts c = true ↔ c ∈ explainedOptions (convertUsage true))) ?_ c
  decide +kernel

/-- The values of `-f` are those explained, and the options explained in the interactive mode are those for types. -/
theorem C154_flags (st : ConvState) (c : UInt8) :
    ((st.flagArgs c).isSome = true ↔ c ∈ explainedLetters (convertUsage true)) ∧
    ((st.charTypeArgs [0x2d, c]).isSome = true ↔ c ∈ explainedOptions (convertUsage false)) := by
  have h1 : explainedLetters (convertUsage true) = u8!"hknr" := by decide +kernel
  have h2 : explainedOptions (convertUsage false) = u8!"hkrHKR" := by decide +kernel
  rw [h1, h2]
  constructor
  · unfold ConvState.flagArgs
    simp only
    repeat' split
    all_goals simp_all
  · unfold ConvState.charTypeArgs
    simp only
    repeat' split
    all_goals simp_all

/-! ## C155 -/

/-- The first line of the help text of kanjiQuiz. -/
def quizSynopsis : Str := quizHelp.head!

/-- The lists accepted for a quiz type are those of the first line of the help text. -/
def C155_statement : Prop :=
  ∀ t ∈ u8!"fgklmp", ∃ s, bracketed t quizSynopsis = some s ∧ ∀ c : UInt8, listAllowed t c = true ↔ c ∈ expandSet s

/-- The first line says `-f[1-5]`, but there are lists 0 to 9. -/
theorem C155_violated : ¬ C155_statement := by
  intro h
  obtain ⟨s, h1, h2⟩ := h 0x66 (by decide)
  have h3 : bracketed 0x66 quizSynopsis = some (u8!"1-5") := by decide +kernel
  rw [h3] at h1
  cases h1
  have := h2 0x30
  revert this
  decide +kernel

/-- For all other types they are; for frequencies the five lists are accepted, and all ten of the explanation. -/
theorem C155_partial (t : UInt8) (ht : t ∈ u8!"fgklmp") :
    ∃ s, bracketed t quizSynopsis = some s ∧
      ∀ c : UInt8, (c ∈ expandSet s → listAllowed t c = true) ∧
        (listAllowed t c = true → c ∈ expandSet s ∨ (t = 0x66 ∧ c ∈ expandSet (u8!"0-9"))) ∧
        (t = 0x66 → (listAllowed t c = true ↔ c ∈ expandSet (u8!"0-9"))) := by
  have k1 : ∀ t ∈ u8!"fgklmp", ∀ n < 256,
      UInt8.ofNat n ∈ expandSet ((bracketed t quizSynopsis).getD []) → listAllowed t (UInt8.ofNat n) = true := by
    decide +kernel
  have k2 : ∀ t ∈ u8!"gklmp", ∀ n < 256,
      listAllowed t (UInt8.ofNat n) = true → UInt8.ofNat n ∈ expandSet ((bracketed t quizSynopsis).getD []) := by
    decide +kernel
  have k3 : ∀ n < 256, listAllowed 0x66 (UInt8.ofNat n) = true ↔ UInt8.ofNat n ∈ expandSet (u8!"0-9") := by
    decide +kernel
  have hs : ∀ t ∈ u8!"fgklmp", (bracketed t quizSynopsis).isSome = true := by decide +kernel
  obtain ⟨s, h⟩ := Option.isSome_iff_exists.1 (hs t ht)
  refine ⟨s, h, fun c => ?_⟩
  have g1 := k1 t ht c.toNat c.toNat_lt
  rw [h] at g1
  simp only [Option.getD_some, UInt8.ofNat_toNat] at g1
  by_cases hf : t = 0x66
  · subst hf
    have g3 := k3 c.toNat c.toNat_lt
    simp only [UInt8.ofNat_toNat] at g3
    exact ⟨g1, fun hc => Or.inr ⟨rfl, g3.1 hc⟩, fun _ => g3⟩
  · have g2 := k2 t (by simp at ht ⊢; simp [hf] at ht; exact ht) c.toNat c.toNat_lt
    rw [h] at g2
    simp only [Option.getD_some, UInt8.ofNat_toNat] at g2
    exact ⟨g1, fun hc => Or.inl (g2 hc), fun hc => absurd hc hf⟩

/-! ## C152: the interactive mode -/

/-- The options shown are the current ones: the text tells the source, the target and the flags. -/
theorem C152_shown (s s' : Option CharType) (t t' : CharType) (f f' : ConvertFlags)
    (h : (ConvEvent.options s t f).shown = (ConvEvent.options s' t' f').shown) : s = s' ∧ t = t' ∧ f = f' := by
  obtain ⟨a, b, c, d⟩ := f
  obtain ⟨a', b', c', d'⟩ := f'
  have hlt : ∀ a b c d : Bool, ((if a then flagHepburn else 0) + (if b then flagKunrei else 0) +
      (if c then flagNoProlongMark else 0) + (if d then flagRemoveSpaces else 0)) < 16 := by decide +kernel
  have hinj : ∀ a b c d a' b' c' d' : Bool, ((if a then flagHepburn else 0) + (if b then flagKunrei else 0) +
      (if c then flagNoProlongMark else 0) + (if d then flagRemoveSpaces else 0)) =
      ((if a' then flagHepburn else 0) + (if b' then flagKunrei else 0) +
      (if c' then flagNoProlongMark else 0) + (if d' then flagRemoveSpaces else 0)) →
      ConvertFlags.mk a b c d = ⟨a', b', c', d'⟩ := by decide +kernel
  obtain ⟨h1, h2, h3⟩ := C152_options s s' t t' _ _ (hlt a b c d) (hlt a' b' c' d') h
  exact ⟨h1, h2, hinj _ _ _ _ _ _ _ _ h3⟩

/-- The number shown for a set of flags is the one with these flags. -/
theorem C152_number (s : Option CharType) (t : CharType) (n : Nat) (h : n < 16) :
    (ConvEvent.options s t (flagsOfBits n)).shown = optionsText s t n := by
  have : ∀ n < 16, ((if (flagsOfBits n).hepburn then flagHepburn else 0) + (if (flagsOfBits n).kunrei then flagKunrei else 0) +
      (if (flagsOfBits n).noProlongMark then flagNoProlongMark else 0) +
      (if (flagsOfBits n).removeSpaces then flagRemoveSpaces else 0)) = n := by decide +kernel
  simp only [ConvEvent.shown, this n h]

-- tests/kana/KanaConvertTest.cpp: InteractiveHelp
example : ConvEvent.shown .usage = u8!"  -h: set conversion output to Hiragana\n  -k: set conversion output to Katakana\n" ++
    u8!"  -r: set conversion output to Rōmaji\n  -H: restrict conversion input to Hiragana\n" ++
    u8!"  -K: restrict conversion input to Katakana\n  -R: restrict conversion input to Rōmaji\n" := by decide +kernel

end KT
