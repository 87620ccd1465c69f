import Verif.Lemmas.ConverterRound
import Verif.Spec.TypedRomaji
/-!
# Reading Romaji part by part, in any spelling
-/
namespace KT
open Spec
namespace Converter

/-! ## The table -/

/-- The letters of a spelling, as bytes. -/
def spelled (s : Syllable) (st : RomajiStyle) : Str := utf8Encode (s.spelling st)

def vowelByte (v : Char) : UInt8 := UInt8.ofNat v.toNat

/-- The shape of a spelling. -/
def wordShape : Str → Bool
  | [a] => isVowel a
  | [a, b] => letterOk a && !isVowel a && isVowel b
  | [a, b, d] => letterOk a && !isVowel a && letterOk b && b != 0x6e && isVowel d
  | _ => false

/-- The pieces of a syllable: its letters, the first one doubled, a vowel with macron at the end. -/
def typedPieces (s : Syllable) (st : RomajiStyle) (d l : Bool) : List Str :=
  let w := spelled s st
  let x := if d then sokuonLetter (w.headD 0) :: w else w
  if l then x.dropLast.map ([·]) ++ [String.utf8EncodeChar (longVowel s.vowel)] else x.map ([·])

/-- What is checked for a spelling. -/
def typedEntry (s : Syllable) (st : RomajiStyle) : Bool :=
  let w := spelled s st
  wordShape w && ((badWords w).all fun x => !nmem (pack x) romajiKeys) &&
  (match findKana .romaji w with
    | some k => k.hiragana == utf8Encode ((s.readAs st).text false) && k.katakana == utf8Encode ((s.readAs st).text true)
    | none => false) &&
  "aiueo".toList.contains s.vowel && w.getLast? == some (vowelByte s.vowel) &&
  (!s.doubles || repList.contains (w.headD 0)) &&
  (apostropheBefore st [.syllable false s false] == (isVowel (w.headD 0) || w.headD 0 == 0x79)) &&
  [false, true].all fun d => [false, true].all fun l =>
    (d && !s.doubles) || (typedPieces s st d l).flatten == utf8Encode (KanaUnit.roman st (.syllable d s l))

theorem typed_table : [RomajiStyle.unique, .hepburn, .kunrei, .both].all (fun st => syllables.all (typedEntry · st)) = true := by
  decide +kernel

theorem typed_entry {s : Syllable} (hs : s ∈ syllables) (st : RomajiStyle) : typedEntry s st = true := by
  have := List.all_eq_true.mp (List.all_eq_true.mp typed_table st (by cases st <;> decide)) s hs
  exact this

theorem word_shape {w : Str} (h : wordShape w = true) : (∃ a, w = [a] ∧ isVowel a = true) ∨
    (∃ a b, w = [a, b] ∧ letterOk a = true ∧ isVowel a = false ∧ isVowel b = true) ∨
    (∃ a b d, w = [a, b, d] ∧ letterOk a = true ∧ isVowel a = false ∧ letterOk b = true ∧ b ≠ 0x6e ∧ isVowel d = true) := by
  unfold wordShape at h
  split at h
  · exact Or.inl ⟨_, rfl, h⟩
  · simp only [Bool.and_eq_true, Bool.not_eq_true'] at h
    exact Or.inr (Or.inl ⟨_, _, rfl, h.1.1, h.1.2, h.2⟩)
  · simp only [Bool.and_eq_true, Bool.not_eq_true', bne_iff_ne] at h
    exact Or.inr (Or.inr ⟨_, _, _, rfl, h.1.1.1.1, h.1.1.1.2, h.1.1.2, h.1.2, h.2⟩)
  · cases h

theorem vowel_facts {v : Char} (h : "aiueo".toList.contains v = true) :
    isVowel (vowelByte v) = true ∧ isSingleByte (String.utf8EncodeChar (longVowel v)) = false ∧
    macrons.lookup (String.utf8EncodeChar (longVowel v)) = some (vowelByte v, String.utf8EncodeChar (vowelLetter v)) ∧
    128 ≤ (longVowel v).toNat ∧ ¬ IsSelector (longVowel v) ∧ ¬ IsKanaMark (longVowel v) ∧
    ¬ IsDelim (String.utf8EncodeChar (longVowel v)) := by
  have : ∀ v ∈ "aiueo".toList,
    isVowel (vowelByte v) = true ∧ isSingleByte (String.utf8EncodeChar (longVowel v)) = false ∧
    macrons.lookup (String.utf8EncodeChar (longVowel v)) = some (vowelByte v, String.utf8EncodeChar (vowelLetter v)) ∧
    128 ≤ (longVowel v).toNat ∧ ¬ IsSelector (longVowel v) ∧ ¬ IsKanaMark (longVowel v) ∧
    ¬ IsDelim (String.utf8EncodeChar (longVowel v)) := by decide +kernel
  exact this v (by simpa using h)

/-- What is written for a long vowel. -/
def longOut (c : Converter) (v : Char) : Str :=
  String.utf8EncodeChar (if c.flags.noProlongMark && !(c.target == .katakana) then vowelLetter v else 'ー')

theorem step_longVowel (c : Converter) (ht : c.target ≠ .romaji) {v : Char} (hv : "aiueo".toList.contains v = true)
    {st : ToState} {X : Str} (h : c.toKanaStep st [vowelByte v] = .ok ⟨[], X⟩) :
    c.toKanaStep st (String.utf8EncodeChar (longVowel v)) = .ok ⟨[], X ++ longOut c v⟩ := by
  obtain ⟨h0, h1, h2, _⟩ := vowel_facts hv
  obtain ⟨l, R⟩ := st
  rw [step_letter c (vowel_ne h0) (vowel_letter h0)] at h
  unfold toKanaStep
  rw [if_neg (by simp [h1])]
  unfold processRomajiMacron
  rw [h2]
  simp only [h, Res.bind_ok, if_true]
  have hp : prolongMark = String.utf8EncodeChar 'ー' := by decide
  unfold longOut
  rw [hp]
  cases hc : c.target with
  | romaji => exact absurd hc ht
  | hiragana => cases c.flags.noProlongMark <;> simp
  | katakana => cases c.flags.noProlongMark <;> simp

/-- A syllable is read as specified. -/
theorem feed_typed (c : Converter) (ht : c.target ≠ .romaji) {s : Syllable} (hs : s ∈ syllables) (st : RomajiStyle)
    {d l : Bool} (hd : d = true → s.doubles = true) :
    (∀ p ∈ typedPieces s st d l, IsPiece p ∧ ¬ IsDelim p) ∧
    (typedPieces s st d l).flatten = utf8Encode (KanaUnit.roman st (.syllable d s l)) ∧
    ∀ L R, Pending L → (L ≠ [] → apostropheBefore st [.syllable d s l] = false) →
      c.toKanaLoop ⟨L, R⟩ (typedPieces s st d l) = .ok ⟨[], R ++ pend c L ++
        utf8Encode (KanaUnit.read (c.target == .katakana) c.flags.noProlongMark c.flags.removeSpaces st (.syllable d s l))⟩ := by
  have h := typed_entry hs st
  unfold typedEntry at h
  simp only [Bool.and_eq_true, beq_iff_eq] at h
  obtain ⟨⟨⟨⟨⟨⟨⟨hshape, hbad⟩, hk⟩, hv⟩, hlast⟩, hdbl⟩, hap⟩, hall⟩ := h
  generalize hw : spelled s st = w at *
  cases hf : findKana .romaji w with
  | none => rw [hf] at hk; cases hk
  | some k =>
  rw [hf] at hk
  simp only [Bool.and_eq_true, beq_iff_eq] at hk
  have hword : WordOf w k := by
    refine ⟨hf, ?_, word_shape hshape⟩
    intro x hx
    have := List.all_eq_true.mp hbad x hx
    exact romaji_none (by simpa using this)
  have hout : kanaOut c k = utf8Encode ((s.readAs st).text (c.target == .katakana)) := by
    rw [kanaOut_str ht rfl]
    unfold Kana.str
    cases hc : c.target with
    | romaji => exact absurd hc ht
    | hiragana => exact hk.1
    | katakana => exact hk.2
  have htsu : kanaOut c smallTsu = String.utf8EncodeChar (tsu (c.target == .katakana)) := by
    rw [kanaOut_str ht rfl]
    cases hc : c.target with
    | romaji => exact absurd hc ht
    | hiragana => decide
    | katakana => decide
  have hletters : ∀ b ∈ w, letterOk b = true := by
    rcases hword.shape with ⟨a, rfl, h1⟩ | ⟨a, b, rfl, h1, _, h2⟩ | ⟨a, b, e, rfl, h1, _, h2, _, h3⟩
    · simp [vowel_letter h1]
    · simp [h1, vowel_letter h2]
    · simp [h1, h2, vowel_letter h3]
  have hne : w ≠ [] := by rintro rfl; cases hlast
  obtain ⟨a, r, har⟩ : ∃ a r, w = a :: r := by
    cases w with
    | nil => exact absurd rfl hne
    | cons a r => exact ⟨a, r, rfl⟩
  have hhead : w.headD 0 = a := by rw [har]; rfl
  rw [hhead] at hdbl hap
  have hrep : s.doubles = true → a ∈ repList := by
    intro h; simpa [h] using hdbl
  -- the letters without macron
  have letters : ∃ x, x = (if d then sokuonLetter a :: w else w) ∧ (∀ b ∈ x, letterOk b = true) ∧
      x.getLast? = some (vowelByte s.vowel) ∧
      ∀ L R, Pending L → (L ≠ [] → apostropheBefore st [.syllable d s l] = false) →
        c.toKanaLoop ⟨L, R⟩ (x.map ([·])) = .ok ⟨[], R ++ pend c L ++ ((if d then kanaOut c smallTsu else []) ++ kanaOut c k)⟩ := by
    cases d with
    | false =>
      refine ⟨w, rfl, hletters, hlast, ?_⟩
      intro L R hL hj
      rw [feed_word c hword hL ?_ R]
      · simp
      · intro hne' hjoin
        have h1 := hj hne'
        have h2 : apostropheBefore st [.syllable false s l] = apostropheBefore st [.syllable false s false] := rfl
        rw [h2, hap] at h1
        obtain ⟨b, hb, hb'⟩ := hjoin
        rw [har] at hb
        simp only [List.head?_cons, Option.some.injEq] at hb
        subst hb
        simp only [Bool.or_eq_false_iff, beq_eq_false_iff_ne] at h1
        rcases hb' with hb' | hb'
        · rw [h1.1] at hb'; cases hb'
        · exact h1.2 hb'
    | true =>
      have hr := hrep (hd rfl)
      refine ⟨sokuonLetter a :: w, rfl, ?_, ?_, ?_⟩
      · intro b hb
        rcases List.mem_cons.mp hb with rfl | hb
        · exact (sokuon_letter hr).2.2.1
        · exact hletters b hb
      · rw [har] at hlast ⊢; simpa using hlast
      · intro L R hL _
        obtain ⟨a', r', h1, h2⟩ := feed_sokuon_word c hword ⟨a, by rw [har]; rfl, (rep_iff a).mpr hr⟩ hL R
        rw [har] at h1
        simp only [List.cons.injEq] at h1
        obtain ⟨rfl, rfl⟩ := h1
        rw [h2]; simp
  obtain ⟨x, hx, hxl, hxv, hxr⟩ := letters
  have hpieces : ∀ y : Str, (∀ b ∈ y, letterOk b = true) → ∀ p ∈ y.map ([·]), IsPiece p ∧ ¬ IsDelim p := by
    intro y hy p hp
    obtain ⟨b, hb, rfl⟩ := List.mem_map.mp hp
    exact ⟨isPiece_letter (hy b hb), letter_not_delim (hy b hb)⟩
  have htp : typedPieces s st d l = if l then x.dropLast.map ([·]) ++ [String.utf8EncodeChar (longVowel s.vowel)] else x.map ([·]) := by
    unfold typedPieces
    simp only [hw, hhead, ← hx]
  have hread : utf8Encode (KanaUnit.read (c.target == .katakana) c.flags.noProlongMark c.flags.removeSpaces st (.syllable d s l)) =
      (if d then kanaOut c smallTsu else []) ++ kanaOut c k ++ (if l then longOut c s.vowel else []) := by
    rw [hout, htsu]
    unfold KanaUnit.read longOut
    cases d <;> cases l <;> simp [utf8Encode]
  obtain ⟨f1, f2, f3, f4, f5, f6, f7⟩ := vowel_facts hv
  refine ⟨?_, ?_, ?_⟩
  · rw [htp]
    cases l with
    | false => exact hpieces x hxl
    | true =>
      intro p hp
      simp only [if_true] at hp
      rcases List.mem_append.mp hp with hp | hp
      · exact hpieces _ (fun b hb => hxl b (List.dropLast_subset _ hb)) p hp
      · simp only [List.mem_singleton] at hp
        subst hp
        exact ⟨isPiece_char _ f4 f5 f6, f7⟩
  · have hb : ∀ b : Bool, b ∈ [false, true] := by decide
    have := List.all_eq_true.mp (List.all_eq_true.mp hall d (hb d)) l (hb l)
    simp only [Bool.or_eq_true, Bool.and_eq_true, beq_iff_eq, Bool.not_eq_true'] at this
    rcases this with ⟨h1, h2⟩ | h1
    · rw [hd h1] at h2; cases h2
    · exact h1
  · intro L R hL hj
    rw [htp, hread]
    have h1 := hxr L R hL hj
    cases l with
    | false =>
      simp only [Bool.false_eq_true, if_false]
      rw [h1]; simp
    | true =>
      simp only [if_true]
      obtain ⟨init, rfl⟩ : ∃ init, x = init ++ [vowelByte s.vowel] := List.getLast?_eq_some_iff.mp hxv
      rw [List.map_append, loop_append] at h1
      rw [List.dropLast_concat, loop_append]
      cases hi : c.toKanaLoop ⟨L, R⟩ (init.map ([·])) with
      | throw e => rw [hi] at h1; cases h1
      | ub => rw [hi] at h1; cases h1
      | ok q =>
        rw [hi] at h1
        simp only [Res.bind, List.map_cons, List.map_nil, loop1] at h1 ⊢
        rw [step_longVowel c ht hv h1]
        simp

end Converter
end KT
