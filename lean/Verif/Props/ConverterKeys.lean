import Verif.Lemmas.ConverterKeys
import Verif.Props.ConverterTyped
/-!
# C207: kana typed with any spelling of the table
-/
namespace KT
open Spec

/-- The kana of a spelling. -/
def kanaOfKey (t : CharType) (w : Str) : Str := ((findKana .romaji w).map (·.str t)).getD []

def readKeys (c : Converter) (us : List KeyUnit) : Str :=
  us.flatMap (KeyUnit.read (kanaOfKey c.target) (c.target == .katakana) c.flags.noProlongMark c.flags.removeSpaces)

/-- Spellings are those that the table has. -/
def IsKey (w : Str) : Prop := (findKana .romaji w).isSome

namespace Converter

theorem keys_run (c : Converter) (ht : c.target ≠ .romaji) : ∀ us : List KeyUnit, (∀ u ∈ us, u.Known IsKey) → Separated us →
    ∃ ps, (∀ p ∈ ps, IsPiece p) ∧ ps.flatten = us.flatMap KeyUnit.text ∧
      ∀ L R, Pending L → (L ≠ [] → joinsN us = false) → c.run ⟨L, R⟩ ps = .ok (R ++ pend c L ++ readKeys c us) := by
  have hn : kanaOut c kanaN = String.utf8EncodeChar (nn (c.target == .katakana)) := by
    rw [kanaOut_str ht rfl]
    cases hc : c.target with
    | romaji => exact absurd hc ht
    | hiragana => decide
    | katakana => decide
  have htsu : kanaOut c smallTsu = String.utf8EncodeChar (tsu (c.target == .katakana)) := by
    rw [kanaOut_str ht rfl]
    cases hc : c.target with
    | romaji => exact absurd hc ht
    | hiragana => decide
    | katakana => decide
  intro us
  induction us with
  | nil =>
    intro _ _
    refine ⟨[], by simp, rfl, ?_⟩
    intro L R hL _
    simp only [run]
    rw [end_pending c hL]
    simp [readKeys]
  | cons u us ih =>
    intro hu hsep
    obtain ⟨ps, h5, h6, h7⟩ := ih (fun p hp => hu p (List.mem_cons_of_mem _ hp)) hsep.2
    have hu' := hu u List.mem_cons_self
    have hread : readKeys c (u :: us) =
        u.read (kanaOfKey c.target) (c.target == .katakana) c.flags.noProlongMark c.flags.removeSpaces ++ readKeys c us := by
      simp [readKeys]
    cases u with
    | key d w l =>
      obtain ⟨k, hf⟩ := Option.isSome_iff_exists.mp hu'.1
      obtain ⟨g1, g2, g3⟩ := feed_key c ht hf hu'
      refine ⟨keyPieces d w l ++ ps, ?_, ?_, ?_⟩
      · intro p hp
        rcases List.mem_append.mp hp with h | h
        · exact (g1 p h).1
        · exact h5 p h
      · rw [List.flatten_append, g2, h6]; simp
      · intro L R hL hj
        rw [run_append c _ _ (fun p hp => (g1 p hp).2), g3 L R hL (by
          intro h; have := hj h; cases d <;> exact this)]
        simp only [Res.bind]
        rw [h7 [] _ (Or.inl rfl) (by simp), hread]
        have hk : kanaOfKey c.target w = kanaOut c k := by
          rw [kanaOut_str ht rfl]; simp [kanaOfKey, hf]
        simp [pend, KeyUnit.read, hk, htsu, longOut]
    | other x =>
      obtain ⟨qs, g1, g2, g3⟩ := typed_other c hu' .unique h5 (y := readKeys c us) (by
        intro R; rw [h7 [] R (Or.inl rfl) (by simp)]; simp [pend])
      refine ⟨qs, g1, ?_, ?_⟩
      · rw [g2, h6]; simp [KeyUnit.text, KanaUnit.roman, utf8Encode]
      · intro L R hL _
        rw [g3 L R hL, hread]
        by_cases hs : x = '　' ∧ c.flags.removeSpaces = true <;> simp [KanaUnit.read, KeyUnit.read, hs, utf8Encode]
    | n s =>
      have stepN : ∀ L R, Pending L → c.toKanaStep ⟨L, R⟩ [0x6e] = .ok ⟨[0x6e], R ++ pend c L⟩ := by
        intro L R hL
        rcases hL with rfl | rfl
        · rw [step_n_empty]; simp [pend]
        · rw [step_n_n]; simp [pend]
      cases s with
      | some y =>
        have hy := hu' y rfl
        have hyd : y ∈ narrowDelimList ∧ y.toNat < 128 ∧ y ≠ 0 ∧ c.delimOut y = .ok [] := by
          rcases hy with rfl | rfl
          · exact ⟨by decide, by decide, by decide, by unfold delimOut; rw [if_neg (by simp [apostrophe])]⟩
          · exact ⟨by decide, by decide, by decide, by unfold delimOut; rw [if_neg (by simp [dash])]⟩
        refine ⟨[0x6e] :: [y] :: ps, ?_, by simp [KeyUnit.text, h6], ?_⟩
        · intro q hqm
          rcases List.mem_cons.mp hqm with rfl | h
          · exact isPiece_letter (by decide)
          · rcases List.mem_cons.mp h with rfl | h
            · exact Or.inl ⟨y, hyd.2.1, hyd.2.2.1, rfl⟩
            · exact h5 q h
        · intro L R hL _
          rw [run_cons c _ _ (letter_not_delim (by decide)), stepN L R hL]
          simp only [Res.bind]
          rw [run_delim c _ _ hyd.1]
          simp only [end_pending c (Or.inr rfl), Res.bind, hyd.2.2.2]
          have h8 := h7 [] [] (Or.inl rfl) (by simp)
          rw [show ({ } : ToState) = ⟨[], []⟩ from rfl, h8, hread]
          simp [pend, KeyUnit.read, hn]
      | none =>
        refine ⟨[0x6e] :: ps, ?_, by simp [KeyUnit.text, h6], ?_⟩
        · intro q hqm
          rcases List.mem_cons.mp hqm with rfl | h
          · exact isPiece_letter (by decide)
          · exact h5 q h
        · intro L R hL _
          rw [run_cons c _ _ (letter_not_delim (by decide)), stepN L R hL]
          simp only [Res.bind]
          rw [h7 [0x6e] _ (Or.inr rfl) (fun _ => hsep.1 rfl), hread]
          simp [pend, KeyUnit.read, hn]

end Converter

/-- Any text made of spellings in the table, in any order, is read as the kana of these spellings. -/
theorem C207_keys (c : Converter) (ht : c.target ≠ .romaji) (us : List KeyUnit) (hu : ∀ u ∈ us, u.Known IsKey)
    (hs : Separated us) : c.convertFrom .romaji (us.flatMap KeyUnit.text) = .ok (readKeys c us) := by
  obtain ⟨ps, h1, h2, h3⟩ := Converter.keys_run c ht us hu hs
  rw [← h2, Converter.convert_run c h1 ht, show ({} : Converter.ToState) = ⟨[], []⟩ from rfl, h3 [] [] (Or.inl rfl) (by simp)]
  simp [Converter.pend]

theorem key_variants : allKana.all (fun k => (k.romaji :: k.rec'.variants).all fun w => findKana .romaji w == some k) = true := by
  decide +kernel

/-- The spelling of every kana, and each of its variants, is such a spelling and leads to this kana. -/
theorem C207_table (t : CharType) (k : Kana) (hk : k ∈ allKana) (w : Str) (hw : w = k.romaji ∨ w ∈ k.rec'.variants) :
    IsKey w ∧ kanaOfKey t w = k.str t := by
  have h := List.all_eq_true.mp (List.all_eq_true.mp key_variants k hk) w (List.mem_cons.mpr hw)
  simp only [beq_iff_eq] at h
  simp [IsKey, kanaOfKey, h]

/-- Words with spellings outside the standard syllables: ティッシュ, フォーク, マッチ typed with cch. -/
example : ([.key none (u8!"thi") false, .key (some 0x73) (u8!"syu") false, .other '、', .key none (u8!"fo") true, .key none (u8!"ku") false,
    .other '、', .key none (u8!"ma") false, .key (some 0x63) (u8!"chi") false, .other '、', .key none (u8!"xtu") false, .n (some 0x2d),
    .key none (u8!"i") false] : List KeyUnit).flatMap KeyUnit.text = u8!"thissyu,fōku,macchi,xtun-i" ∧
    (⟨.katakana, .none, true⟩ : Converter).convertFrom .romaji (u8!"thissyu,fōku,macchi,xtun-i") =
      .ok u8!"ティッシュ、フォーク、マッチ、ッンイ" := by decide +kernel

end KT
