import Verif.Spec.Format
import Verif.Lemmas.UnicodeBlock
/-!
# Properties of block ranges and the format program (C63, C84)
-/
namespace KT
open Spec

/-! ## C84 -/

/-- The ranges match exactly the characters of their classes; the kanji range also the variation
selectors. -/
theorem C84_ranges (c : Nat) :
    (classMatches (blockRange kanjiRange) c = true ↔ Spec.Kanji c ∨ (0xfe00 ≤ c ∧ c ≤ 0xfe0f)) ∧
    (classMatches (blockRange kanaRange) c = true ↔ Spec.Kana c) ∧
    (classMatches (blockRange hiraganaRange) c = true ↔ Hiragana c) ∧
    (classMatches (blockRange katakanaRange) c = true ↔ Katakana c) ∧
    (classMatches (blockRange wideLetterRange) c = true ↔ 0xff00 ≤ c ∧ c ≤ 0xffef) := by
  refine ⟨?_, ?_, ?_, ?_, ?_⟩ <;>
    simp only [blockRange, kanjiRange, kanaRange, hiraganaRange, katakanaRange, wideLetterRange,
      commonKanjiBlocks, rareKanjiBlocks, nonSpacingBlocks, letterBlocks, hiraganaBlocks, katakanaBlocks,
      commonKanaBlock, List.flatMap_cons, List.flatMap_nil, List.cons_append, List.nil_append,
      List.append_nil, classMatches, List.getElem_cons_zero, List.getElem_cons_succ, Bool.or_eq_true, Bool.and_eq_true,
      decide_eq_true_eq, Spec.Kanji, Spec.Kana, CommonKanji, RareKanji, Hiragana, Katakana,
      Bool.or_false] <;> omega

/-- For every range of blocks the class matches what is in one of the blocks. -/
theorem C84_any (blocks : List Block) (c : Nat) :
    classMatches (blockRange blocks) c = true ↔ ∃ b ∈ blocks, b.start ≤ c ∧ c ≤ b.stop := by
  induction blocks with
  | nil => simp [blockRange, classMatches]
  | cons b bs ih =>
    rw [show blockRange (b :: bs) = b.start :: 0x2d :: b.stop :: blockRange bs by simp [blockRange],
      classMatches]
    simp [ih]

/-- Indexing: the characters of the range, then the null, then a `RangeError`. -/
theorem C84_index (blocks : List Block) (i : Nat) :
    blockRangeAt blocks i =
      if i < (blockRange blocks).length then .ok ((blockRange blocks).getD i 0)
      else if i = (blockRange blocks).length then .ok 0 else .throw .range := by
  have hl : (blockRange blocks).length = blocks.length * 3 := by
    induction blocks with
    | nil => rfl
    | cons b bs ih =>
      rw [show blockRange (b :: bs) = b.start :: 0x2d :: b.stop :: blockRange bs by simp [blockRange]]
      simp only [List.length_cons, ih]; omega
  unfold blockRangeAt
  rw [← hl]
  simp only
  by_cases h1 : i < (blockRange blocks).length
  · rw [if_neg (by omega), if_pos h1, List.getElem?_append_left h1, List.getElem?_eq_getElem h1,
      List.getD_eq_getElem?_getD, List.getElem?_eq_getElem h1, Option.getD_some]
  · rw [if_neg h1]
    by_cases h2 : i = (blockRange blocks).length
    · subst h2; simp
    · rw [if_neg h2, if_pos (by omega)]

/-! ## C63 -/

/-- Every line is written, in order. -/
def C63_statement : Prop := ∀ text : Str, KeepsLines (fields 0x0a text) (formatFile text)

/-- A last line that ends with a kanji isn't written. -/
theorem C63_violated : ¬ C63_statement := by
  intro h
  obtain ⟨ends, h1, -, h3⟩ := h (u8!"漢")
  have h4 : formatFile (u8!"漢") = [] := by decide +kernel
  have h5 : fields 0x0a (u8!"漢") = [u8!"漢"] := by decide +kernel
  rw [h4, h5] at h3
  rw [h5] at h1
  cases ends with
  | nil => cases h1
  | cons e es => simp at h3

theorem endsWithKanji_not_kana {line : Str} (h : endsWithKanji line = true) : allKanaLine line = false := by
  unfold endsWithKanji at h
  unfold allKanaLine
  cases hl : (decode line).getLast? with
  | none => rw [hl] at h; cases h
  | some c =>
    rw [hl] at h
    simp only at h
    have hm : c ∈ decode line := List.mem_of_getLast? hl
    have : classMatches (blockRange kanaRange) c = false := by
      rw [Bool.eq_false_iff]
      intro hc
      have h1 := (C84_ranges c).1.1 h
      have h2 := (C84_ranges c).2.1.1 hc
      simp only [Spec.Kanji, Spec.Kana, CommonKanji, RareKanji, Hiragana, Katakana] at h1 h2
      omega
    rw [Bool.and_eq_false_iff]
    right
    rw [List.all_eq_false]
    exact ⟨c, hm, by simp [this]⟩

/-- The lines without a last line that ends with a kanji. -/
def keptLines (lines : List Str) : List Str :=
  match lines.getLast? with
  | none => []
  | some l => if endsWithKanji l then lines.dropLast else lines

theorem formatLoop_eq (lines : List Str) :
    (∀ prev, formatLoop prev false lines = formatted (keptLines lines)) ∧
    (∀ prev, endsWithKanji prev = true → formatLoop prev true lines = formatted (keptLines (prev :: lines))) := by
  induction lines with
  | nil =>
    refine ⟨fun prev => rfl, fun prev h => ?_⟩
    simp [formatLoop, keptLines, h, formatted]
  | cons l ls ih =>
    obtain ⟨ih1, ih2⟩ := ih
    have hkept : ∀ a : Str, endsWithKanji a = false ∨ ls ≠ [] → keptLines (a :: ls) = a :: keptLines ls := by
      intro a ha
      cases ls with
      | nil =>
        rcases ha with ha | ha
        · simp [keptLines, ha]
        · exact absurd rfl ha
      | cons b bs =>
        unfold keptLines
        rw [show (a :: b :: bs).getLast? = (b :: bs).getLast? from rfl]
        cases h : (b :: bs).getLast? with
        | none => simp at h
        | some x => simp only; split <;> rfl
    have hkept2 : ∀ a : Str, keptLines (a :: l :: ls) = a :: keptLines (l :: ls) := by
      intro a
      unfold keptLines
      rw [show (a :: l :: ls).getLast? = (l :: ls).getLast? from rfl]
      cases h : (l :: ls).getLast? with
      | none => simp at h
      | some x => simp only; split <;> rfl
    have hone : ∀ a : Str, endsWithKanji a = false → ∀ r, formatted (a :: r) = a ++ u8!"\n" ++ formatted r := by
      intro a ha r
      cases r with
      | nil => simp [formatted]
      | cons b r => rw [formatted, if_neg (by simp [ha])]
    constructor
    · intro prev
      rw [formatLoop, if_neg (by simp)]
      by_cases hl : endsWithKanji l = true
      · rw [if_pos hl, ih2 l hl]
      · have hl : endsWithKanji l = false := by simpa using hl
        rw [if_neg (by simp [hl]), ih1, hkept l (Or.inl hl), hone l hl]
    · intro prev hp
      rw [formatLoop, if_pos rfl, hkept2]
      by_cases hk : allKanaLine l = true
      · have hl : endsWithKanji l = false := by
          rw [Bool.eq_false_iff]
          intro h
          rw [endsWithKanji_not_kana h] at hk; cases hk
        rw [if_pos hk, ih1, hkept l (Or.inl hl), formatted, if_pos ⟨hp, hk⟩]
      · rw [if_neg hk]
        by_cases hl : endsWithKanji l = true
        · rw [if_neg (by simp [hl]), ih2 l hl]
          cases hkl : keptLines (l :: ls) with
          | nil => simp [formatted]
          | cons a r =>
            have ha : a = l := by
              cases ls with
              | nil => simp [keptLines, hl] at hkl
              | cons b bs => rw [hkept l (Or.inr (by simp))] at hkl; simp at hkl; exact hkl.1.symm
            subst ha
            rw [formatted, if_neg (by simp [hk])]
        · have hl : endsWithKanji l = false := by simpa using hl
          rw [if_pos (by simp [hl]), ih1, hkept l (Or.inl hl), formatted, if_neg (by simp [hk]), hone l hl]
          simp only [List.append_assoc]

/-- The output is the documented one for all lines, except that a last line that ends with a kanji is
left out. -/
theorem C63_exact_partial (text : Str) : formatFile text = formatted (keptLines (fields 0x0a text)) :=
  (formatLoop_eq _).1 []

theorem formatted_keeps : ∀ lines : List Str, KeepsLines lines (formatted lines)
  | [] => ⟨[], rfl, by simp, rfl⟩
  | [a] => ⟨[u8!"\n"], rfl, by simp [lineEnds], by simp [formatted]⟩
  | a :: b :: r => by
    rw [formatted]
    split
    · obtain ⟨ends, h1, h2, h3⟩ := formatted_keeps r
      refine ⟨(u8!"（") :: (u8!"）") :: ends, by simp [h1], ?_, by simp [h3]⟩
      intro e he
      simp only [List.mem_cons] at he
      rcases he with rfl | rfl | he
      · simp [lineEnds]
      · simp [lineEnds]
      · exact h2 e he
    · obtain ⟨ends, h1, h2, h3⟩ := formatted_keeps (b :: r)
      refine ⟨(u8!"\n") :: ends, by simp [h1], ?_, by simp [h3]⟩
      intro e he
      simp only [List.mem_cons] at he
      rcases he with rfl | he
      · simp [lineEnds]
      · exact h2 e he

/-- Every line is written if the last one doesn't end with a kanji. -/
theorem C63_lines_partial (text : Str)
    (h : ∀ l, (fields 0x0a text).getLast? = some l → endsWithKanji l = false) :
    KeepsLines (fields 0x0a text) (formatFile text) := by
  rw [C63_exact_partial]
  have : keptLines (fields 0x0a text) = fields 0x0a text := by
    unfold keptLines
    cases hl : (fields 0x0a text).getLast? with
    | none => simp at hl; simp [hl]
    | some l => simp [h l hl]
  rw [this]
  exact formatted_keeps _

example : formatFile (u8!"漢字\nかんじ\nです\n漢\n字\nだ") = u8!"漢字（かんじ）です\n漢\n字（だ）" := by
  decide +kernel

end KT
