import Verif.Lemmas.ConverterTyped
import Verif.Spec.TypedKeys
/-!
# Reading all spellings of the table
-/
namespace KT
open Spec
namespace Converter

/-- What is checked for a spelling of the table. -/
def keyEntry (w : Str) : Bool :=
  wordShape w && ((badWords w).all fun x => !nmem (pack x) romajiKeys) &&
  "aiueo".toList.contains (lastLetter w) && w.getLast? == some (vowelByte (lastLetter w)) &&
  (!repList.contains (w.headD 0) || ((doubledWords (w.headD 0) w).all fun x => !nmem (pack x) romajiKeys) &&
    ((doubledWords 0x74 w).all fun x => w.headD 0 != 0x63 || !nmem (pack x) romajiKeys))

theorem key_table : (kanaMap .romaji).all (fun p => p.1 == [0x6e] || keyEntry p.1) = true := by decide +kernel

theorem key_entry {w : Str} {k : Kana} (h : findKana .romaji w = some k) (hn : w ≠ [0x6e]) : keyEntry w = true := by
  have := List.all_eq_true.mp key_table _ (lookup_mem h)
  simp only [Bool.or_eq_true, beq_iff_eq] at this
  exact this.resolve_left hn

theorem doubled_rep : ∀ a ∈ doubledConsonants, a ∈ repList := by decide

/-- The pieces of a part. -/
def keyPieces (d : Option UInt8) (w : Str) (l : Bool) : List Str :=
  let x := d.toList ++ w
  if l then x.dropLast.map ([·]) ++ [String.utf8EncodeChar (longVowel (lastLetter w))] else x.map ([·])

theorem flatten_singletons : ∀ l : Str, (l.map ([·])).flatten = l
  | [] => rfl
  | b :: l => by simp [flatten_singletons l]

/-- A spelling is read to its end. -/
theorem feed_key (c : Converter) (ht : c.target ≠ .romaji) {d : Option UInt8} {w : Str} {l : Bool} {k : Kana}
    (hf : findKana .romaji w = some k) (hu : KeyUnit.Known (fun w => (findKana .romaji w).isSome) (.key d w l)) :
    (∀ p ∈ keyPieces d w l, IsPiece p ∧ ¬ IsDelim p) ∧
    (keyPieces d w l).flatten = KeyUnit.text (.key d w l) ∧
    ∀ L R, Pending L → (L ≠ [] → joinsN [.key d w l] = false) →
      c.toKanaLoop ⟨L, R⟩ (keyPieces d w l) = .ok ⟨[], R ++ pend c L ++
        ((if d.isSome then kanaOut c smallTsu else []) ++ kanaOut c k ++ (if l then longOut c (lastLetter w) else []))⟩ := by
  obtain ⟨_, hn, hd⟩ := hu
  have h := key_entry hf hn
  unfold keyEntry at h
  simp only [Bool.and_eq_true, beq_iff_eq] at h
  obtain ⟨⟨⟨⟨hshape, hbad⟩, hv⟩, hlast⟩, hdbl⟩ := h
  have hword : WordOf w k := by
    refine ⟨hf, ?_, word_shape hshape⟩
    intro x hx
    have := List.all_eq_true.mp hbad x hx
    exact romaji_none (by simpa using this)
  have hletters : ∀ b ∈ w, letterOk b = true := by
    rcases hword.shape with ⟨a, rfl, h1⟩ | ⟨a, b, rfl, h1, _, h2⟩ | ⟨a, b, e, rfl, h1, _, h2, _, h3⟩
    · simp [vowel_letter h1]
    · simp [h1, vowel_letter h2]
    · simp [h1, h2, vowel_letter h3]
  have hne : w ≠ [] := by rintro rfl; cases hlast
  have letters : (∀ b ∈ d.toList ++ w, letterOk b = true) ∧
      ∀ L R, Pending L → (L ≠ [] → joinsN [.key d w l] = false) →
        c.toKanaLoop ⟨L, R⟩ ((d.toList ++ w).map ([·])) =
          .ok ⟨[], R ++ pend c L ++ ((if d.isSome then kanaOut c smallTsu else []) ++ kanaOut c k)⟩ := by
    cases d with
    | none =>
      refine ⟨by simpa using hletters, ?_⟩
      intro L R hL hj
      have := feed_word c hword hL (by
        intro hne' hjoin
        have h1 := hj hne'
        obtain ⟨b, hb, hb'⟩ := hjoin
        simp only [joinsN, hb, Option.any_some] at h1
        rcases hb' with hb' | rfl
        · have h2 : ∀ b, isVowel b = true → (u8!"aiueoy" : Str).contains b = true := by
            intro b hb
            simp only [isVowel, List.contains_eq_mem, decide_eq_true_eq, List.mem_cons, List.not_mem_nil, or_false] at hb
            rcases hb with rfl | rfl | rfl | rfl | rfl <;> decide
          rw [h2 b hb'] at h1; cases h1
        · revert h1; decide) R
      simpa using this
    | some y =>
      obtain ⟨a, ha, hwa, hy⟩ := hd y rfl
      have hr := doubled_rep a ha
      have hh : w.headD 0 = a := by
        cases w with
        | nil => exact absurd rfl hne
        | cons b r => simp at hwa; subst hwa; rfl
      rw [hh] at hdbl
      have hnone : ∀ s ∈ doubledWords y w, findKana .romaji s = none := by
        intro s hs
        simp only [Bool.or_eq_true, Bool.not_eq_true', Bool.and_eq_true] at hdbl
        rcases hdbl with h1 | ⟨h1, h2⟩
        · simp [hr] at h1
        · rcases hy with rfl | ⟨rfl, rfl⟩
          · have := List.all_eq_true.mp h1 s hs
            exact romaji_none (by simpa using this)
          · have := List.all_eq_true.mp h2 s hs
            exact romaji_none (by simpa using this)
      have hyl : letterOk y = true := by
        rcases hy with rfl | ⟨rfl, _⟩
        · exact (sokuon_letter hr).1
        · decide
      refine ⟨?_, ?_⟩
      · intro b hb
        simp only [Option.toList_some, List.cons_append, List.nil_append, List.mem_cons] at hb
        rcases hb with rfl | hb
        · exact hyl
        · exact hletters b hb
      · intro L R hL _
        have := feed_double_word c hword hwa hr hy hnone hL R
        simpa using this
  obtain ⟨hxl, hxr⟩ := letters
  have hpieces : ∀ y : Str, (∀ b ∈ y, letterOk b = true) → ∀ p ∈ y.map ([·]), IsPiece p ∧ ¬ IsDelim p := by
    intro y hy p hp
    obtain ⟨b, hb, rfl⟩ := List.mem_map.mp hp
    exact ⟨isPiece_letter (hy b hb), letter_not_delim (hy b hb)⟩
  obtain ⟨f1, f2, f3, f4, f5, f6, f7⟩ := vowel_facts hv
  unfold keyPieces KeyUnit.text
  cases l with
  | false =>
    simp only [Bool.false_eq_true, if_false, List.append_nil]
    refine ⟨hpieces _ hxl, flatten_singletons _, ?_⟩
    intro L R hL hj
    rw [hxr L R hL hj]
  | true =>
    simp only [if_true]
    obtain ⟨init, hw⟩ : ∃ init, w = init ++ [vowelByte (lastLetter w)] := List.getLast?_eq_some_iff.mp hlast
    generalize hvv : lastLetter w = v at *
    subst hw
    rw [← List.append_assoc, List.dropLast_concat, List.dropLast_concat]
    refine ⟨?_, by simp [flatten_singletons], ?_⟩
    · intro p hp
      rcases List.mem_append.mp hp with hp | hp
      · exact hpieces _ (fun b hb => hxl b (by
          rw [← List.append_assoc]; exact List.mem_append_left _ hb)) p hp
      · simp only [List.mem_singleton] at hp
        subst hp
        exact ⟨isPiece_char _ f4 f5 f6, f7⟩
    · intro L R hL hj
      have h1 := hxr L R hL hj
      rw [← List.append_assoc, List.map_append, loop_append] at h1
      rw [loop_append]
      cases hi : c.toKanaLoop ⟨L, R⟩ ((d.toList ++ init).map ([·])) with
      | throw e => rw [hi] at h1; cases h1
      | ub => rw [hi] at h1; cases h1
      | ok q =>
        rw [hi] at h1
        simp only [Res.bind, List.map_cons, List.map_nil, loop1] at h1 ⊢
        rw [step_longVowel c ht hv h1]
        simp

end Converter
end KT
