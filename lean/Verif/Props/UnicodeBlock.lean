import Verif.Lemmas.UnicodeBlock
/-!
# C11 - C14: character classes

Specification: `Verif/Spec/Unicode.lean`, `Verif/Spec/Utf8.lean`.
Model: `Verif/Model/UnicodeBlock.lean`.  `decode s` is the result of `fromUtf8 s` (C01-C05).
-/
namespace KT
open Spec

/-! ## C11: the early-exit search is set membership -/

/-- For any table with non-empty blocks in increasing order, the search answers exactly whether some
block contains the code. -/
theorem C11_search (t : List Block) (c : Nat) (hne : ∀ b ∈ t, b.start ≤ b.stop)
    (ho : t.Pairwise fun a b => a.stop < b.start) :
    inRange c t = true ↔ ∃ b ∈ t, b.start ≤ c ∧ c ≤ b.stop := by
  have : Ordered t := by
    induction t with
    | nil => trivial
    | cons a t ih =>
      cases t with
      | nil => exact hne a (by simp)
      | cons b t =>
        refine ⟨hne a (by simp), ?_, ih (fun x hx => hne x (by simp [hx])) (List.pairwise_cons.mp ho).2⟩
        exact (List.pairwise_cons.mp ho).1 b (by simp)
  rw [inRange_eq_any c t this]
  simp [Block.contains]

/-- The tables of the program meet the hypotheses of `C11_search`. -/
theorem C11_tables_ordered : ∀ t ∈ nonSpacingBlocks :: recognizedBlocks,
    (∀ b ∈ t, b.start ≤ b.stop) ∧ t.Pairwise fun a b => a.stop < b.start := by decide

/-- The search in each of the program's tables decides the intended set of code points. -/
theorem C11_tables (c : Nat) :
    (inRange c hiraganaBlocks = true ↔ Hiragana c) ∧
    (inRange c katakanaBlocks = true ↔ Katakana c) ∧
    (inRange c commonKanjiBlocks = true ↔ CommonKanji c) ∧
    (inRange c rareKanjiBlocks = true ↔ RareKanji c) ∧
    (inRange c punctuationBlocks = true ↔ Punctuation c) ∧
    (inRange c symbolBlocks = true ↔ MBSymbol c) ∧
    (inRange c letterBlocks = true ↔ MBLetter c) ∧
    (isNonSpacing c = true ↔ NonSpacing c) :=
  ⟨hiragana_iff c, katakana_iff c, commonKanji_iff c, rareKanji_iff c, punctuation_iff c,
    symbol_iff c, letter_iff c, nonSpacing_iff c⟩

example : inRange 0x2fa1f rareKanjiBlocks = true ∧ inRange 0x2fa20 rareKanjiBlocks = false ∧
    inRange 0x2ec00 rareKanjiBlocks = false := by decide
/-- The order matters: out of order the search misses a block. -/
example : inRange 0x10 [⟨0x20, 0x2f⟩, ⟨0x10, 0x1f⟩] = false := by decide

/-! ## C12: classes do not overlap -/

theorem wideSpace_prefix {s : Str} (h : wideSpace.isPrefixOf s = true) :
    ∃ r, s = enc 0x3000 ++ r := by
  obtain ⟨r, hr⟩ := List.isPrefixOf_iff_prefix.mp h
  exact ⟨r, by rw [← hr]; rfl⟩

theorem punct_first {s : Str} {sp so : Bool} (h : isMBPunctuation s sp so = true) :
    ∃ c r, decode s = c :: r ∧ Punctuation c := by
  unfold isMBPunctuation at h
  split at h
  · rename_i hw
    obtain ⟨r, rfl⟩ := wideSpace_prefix hw
    exact ⟨0x3000, decode r, decode_enc_append (by decide) (by decide) r, by decide⟩
  · exact inWCharRange_first decides_punctuation h

/-- The seven classes of a string. -/
def classes (s : Str) (sp so : Bool) : List Bool :=
  [isHiragana s so, isKatakana s so, isCommonKanji s so, isRareKanji s so, isMBSymbol s so,
   isMBLetter s so, isMBPunctuation s sp so]

/-- No string is in two of the seven classes. -/
theorem C12_disjoint (s : Str) (sp so : Bool) :
    (classes s sp so).Pairwise fun a b => ¬ (a = true ∧ b = true) := by
  have key : ∀ (X Y : Nat → Prop), (∀ c, X c → Y c → False) → ∀ a b : Bool,
      (a = true → ∃ c r, decode s = c :: r ∧ X c) → (b = true → ∃ c r, decode s = c :: r ∧ Y c) →
      ¬ (a = true ∧ b = true) := by
    rintro X Y hXY a b ha hb ⟨h1, h2⟩
    obtain ⟨c, r, hc, hx⟩ := ha h1
    obtain ⟨d, q, hd, hy⟩ := hb h2
    rw [hc] at hd
    simp at hd
    rw [hd.1] at hx
    exact hXY d hx hy
  have h1 : isHiragana s so = true → _ := inWCharRange_first decides_hiragana
  have h2 : isKatakana s so = true → _ := inWCharRange_first decides_katakana
  have h3 : isCommonKanji s so = true → _ := inWCharRange_first decides_commonKanji
  have h4 : isRareKanji s so = true → _ := inWCharRange_first decides_rareKanji
  have h5 : isMBSymbol s so = true → _ := inWCharRange_first decides_symbol
  have h6 : isMBLetter s so = true → _ := inWCharRange_first decides_letter
  have h7 : isMBPunctuation s sp so = true → _ := punct_first
  simp only [classes, List.pairwise_cons, List.mem_cons, List.not_mem_nil, or_false]
  refine ⟨?_, ?_, ?_, ?_, ?_, ?_, by simp⟩
  · rintro b (rfl|rfl|rfl|rfl|rfl|rfl)
    · refine key _ _ ?_ _ _ h1 h2; intro c; simp only [Hiragana, Katakana]; omega
    · refine key _ _ ?_ _ _ h1 h3; intro c; simp only [Hiragana, CommonKanji]; omega
    · refine key _ _ ?_ _ _ h1 h4; intro c; simp only [Hiragana, RareKanji]; omega
    · refine key _ _ ?_ _ _ h1 h5; intro c; simp only [Hiragana, MBSymbol]; omega
    · refine key _ _ ?_ _ _ h1 h6; intro c; simp only [Hiragana, MBLetter]; omega
    · refine key _ _ ?_ _ _ h1 h7; intro c; simp only [Hiragana, Punctuation]; omega
  · rintro b (rfl|rfl|rfl|rfl|rfl)
    · refine key _ _ ?_ _ _ h2 h3; intro c; simp only [Katakana, CommonKanji]; omega
    · refine key _ _ ?_ _ _ h2 h4; intro c; simp only [Katakana, RareKanji]; omega
    · refine key _ _ ?_ _ _ h2 h5; intro c; simp only [Katakana, MBSymbol]; omega
    · refine key _ _ ?_ _ _ h2 h6; intro c; simp only [Katakana, MBLetter]; omega
    · refine key _ _ ?_ _ _ h2 h7; intro c; simp only [Katakana, Punctuation]; omega
  · rintro b (rfl|rfl|rfl|rfl)
    · refine key _ _ ?_ _ _ h3 h4; intro c; simp only [CommonKanji, RareKanji]; omega
    · refine key _ _ ?_ _ _ h3 h5; intro c; simp only [CommonKanji, MBSymbol]; omega
    · refine key _ _ ?_ _ _ h3 h6; intro c; simp only [CommonKanji, MBLetter]; omega
    · refine key _ _ ?_ _ _ h3 h7; intro c; simp only [CommonKanji, Punctuation]; omega
  · rintro b (rfl|rfl|rfl)
    · refine key _ _ ?_ _ _ h4 h5; intro c; simp only [RareKanji, MBSymbol]; omega
    · refine key _ _ ?_ _ _ h4 h6; intro c; simp only [RareKanji, MBLetter]; omega
    · refine key _ _ ?_ _ _ h4 h7; intro c; simp only [RareKanji, Punctuation]; omega
  · rintro b (rfl|rfl)
    · refine key _ _ ?_ _ _ h5 h6; intro c; simp only [MBSymbol, MBLetter]; omega
    · refine key _ _ ?_ _ _ h5 h7; intro c; simp only [MBSymbol, Punctuation]; omega
  · rintro b rfl
    refine key _ _ ?_ _ _ h6 h7; intro c; simp only [MBLetter, Punctuation]; omega

theorem inWCharRange_union (s : Str) (so : Bool) (ts : List (List Block)) :
    inWCharRange s so ts = ts.any fun t => inWCharRange s so [t] := by
  have hr : ∀ a, inRanges a ts = ts.any fun t => inRanges a [t] := by
    intro a
    induction ts with
    | nil => rfl
    | cons t ts ih => simp only [inRanges, List.any_cons, Bool.or_false] at *; rw [ih]
  have hf : (ts.any fun _ => false) = false := by simp
  unfold inWCharRange
  by_cases h1 : s.length > 1
  · simp only [if_pos h1]
    cases so with
    | false =>
      simp only [if_true]
      split
      · exact hr _
      · exact hf.symm
    | true =>
      simp only [Bool.true_eq_false, if_false]
      by_cases h2 : s.length ≤ 4 * 2
      · simp only [if_pos h2]
        split
        · exact hr _
        · rename_i a b _
          rw [hr]
          cases isNonSpacing b <;> simp
        · exact hf.symm
      · simp only [if_neg h2]; exact hf.symm
  · simp only [if_neg h1]; exact hf.symm

/-- Kana is Hiragana or Katakana, Kanji is common or rare Kanji. -/
theorem C12_unions (s : Str) (so : Bool) :
    isKana s so = (isHiragana s so || isKatakana s so) ∧
    isKanji s so = (isCommonKanji s so || isRareKanji s so) := by
  constructor
  · have := inWCharRange_union s so [hiraganaBlocks, katakanaBlocks]
    simpa [isKana, isHiragana, isKatakana] using this
  · have := inWCharRange_union s so [commonKanjiBlocks, rareKanjiBlocks]
    simpa [isKanji, isCommonKanji, isRareKanji] using this

/-- The last part of C12: recognized is exactly the union of the classes, wide space counted. -/
def C12_statement : Prop := ∀ (s : Str) (so : Bool),
  isRecognizedUtf8 s so = (classes s true so).any id

/-- The code violates it: a wide space followed by a variation selector is recognized as one
character, but is in none of the classes. -/
theorem C12_violated : ¬ C12_statement := by
  intro h
  have := h [0xe3, 0x80, 0x80, 0xef, 0xb8, 0x80] true
  revert this
  decide +kernel

/-- Apart from wide space with something after it (in "size one" mode) the union is exact. -/
theorem C12_partial (s : Str) (so : Bool)
    (h : so = false ∨ s.length ≤ 3 ∨ ¬ StartsWith s '　') :
    isRecognizedUtf8 s so = (classes s true so).any id := by
  have hu := inWCharRange_union s so recognizedBlocks
  have hp : inWCharRange s so [punctuationBlocks] = isMBPunctuation s true so := by
    unfold isMBPunctuation
    split
    · rename_i hw
      have hw' := hw
      obtain ⟨r, rfl⟩ := wideSpace_prefix hw
      have hd : decode (enc 0x3000 ++ r) = 0x3000 :: decode r :=
        decode_enc_append (by decide) (by decide) r
      have hl : (enc 0x3000).length = 3 := rfl
      rcases h with rfl | h | h
      · rw [(inWCharRange_iff_false _ decides_punctuation).mpr ⟨by simp [hl]; omega, _, _, hd, by decide⟩]
        simp
      · have : r = [] := by
          rw [List.length_append, hl] at h
          exact List.eq_nil_of_length_eq_zero (by omega)
        subst this
        cases so <;> decide +kernel
      · exfalso; apply h; rw [startsWith_enc]; exact ⟨r, rfl⟩
    · rfl
  unfold isRecognizedUtf8
  rw [hu]
  simp only [recognizedBlocks, List.any_cons, List.any_nil, classes, hp, id, isHiragana, isKatakana,
    isCommonKanji, isRareKanji, isMBSymbol, isMBLetter]
  generalize inWCharRange s so [hiraganaBlocks] = a
  generalize inWCharRange s so [katakanaBlocks] = b
  generalize inWCharRange s so [commonKanjiBlocks] = c
  generalize inWCharRange s so [rareKanjiBlocks] = d
  generalize inWCharRange s so [symbolBlocks] = e
  generalize inWCharRange s so [letterBlocks] = f
  generalize isMBPunctuation s true so = g
  revert a b c d e f g
  decide

/-- On well-formed text without NUL, the single character functions answer exactly whether the text
is one character of the class, optionally with a non-spacing mark. -/
theorem C12_single (cs : List Char) (h0 : ∀ c ∈ cs, c ≠ Char.ofNat 0) :
    (isHiragana (utf8Encode cs) = true ↔ OneOf Hiragana (cs.map Char.toNat)) ∧
    (isKatakana (utf8Encode cs) = true ↔ OneOf Katakana (cs.map Char.toNat)) ∧
    (isKana (utf8Encode cs) = true ↔ OneOf Kana (cs.map Char.toNat)) ∧
    (isCommonKanji (utf8Encode cs) = true ↔ OneOf CommonKanji (cs.map Char.toNat)) ∧
    (isRareKanji (utf8Encode cs) = true ↔ OneOf RareKanji (cs.map Char.toNat)) ∧
    (isKanji (utf8Encode cs) = true ↔ OneOf Kanji (cs.map Char.toNat)) ∧
    (isMBSymbol (utf8Encode cs) = true ↔ OneOf MBSymbol (cs.map Char.toNat)) ∧
    (isMBLetter (utf8Encode cs) = true ↔ OneOf MBLetter (cs.map Char.toNat)) ∧
    (isRecognizedUtf8 (utf8Encode cs) = true ↔ OneOf Recognized (cs.map Char.toNat)) ∧
    (isMBPunctuation (utf8Encode cs) = true ↔
      OneOf (fun c => Punctuation c ∧ c ≠ 0x3000) (cs.map Char.toNat)) := by
  have key : ∀ (t : List (List Block)) (X : Nat → Prop), Decides t X → (∀ c, X c → 128 ≤ c) →
      (inWCharRange (utf8Encode cs) true t = true ↔ OneOf X (cs.map Char.toNat)) := by
    intro t X hd hx
    rw [inWCharRange_iff_true _ hd, decode_utf8Encode h0]
    constructor
    · exact fun h => h.2.2
    · intro h
      refine ⟨?_, ?_, h⟩
      · obtain ⟨c, hc, h⟩ := h
        have := enc_length_gt (hx c hc)
        rw [utf8Encode_eq]
        rcases h with h | ⟨m, _, h⟩
        · rw [h]; simp only [List.flatMap_cons, List.length_append]; omega
        · rw [h]; simp only [List.flatMap_cons, List.length_append]; omega
      · rw [utf8Encode_eq]
        have := flatMap_enc_length (cs.map Char.toNat)
        obtain ⟨c, hc, h | ⟨m, _, h⟩⟩ := h
        · rw [h] at this ⊢; simp only [List.length_cons, List.length_nil] at this; omega
        · rw [h] at this ⊢; simp only [List.length_cons, List.length_nil] at this; omega
  refine ⟨key _ _ decides_hiragana ?_, key _ _ decides_katakana ?_, key _ _ decides_kana ?_,
    key _ _ decides_commonKanji ?_, key _ _ decides_rareKanji ?_, key _ _ decides_kanji ?_,
    key _ _ decides_symbol ?_, key _ _ decides_letter ?_, key _ _ decides_recognized ?_, ?_⟩
  · intro c; simp only [Hiragana]; omega
  · intro c; simp only [Katakana]; omega
  · intro c; simp only [Kana, Hiragana, Katakana]; omega
  · intro c; simp only [CommonKanji]; omega
  · intro c; simp only [RareKanji]; omega
  · intro c; simp only [Kanji, CommonKanji, RareKanji]; omega
  · intro c; simp only [MBSymbol]; omega
  · intro c; simp only [MBLetter]; omega
  · intro c; simp only [Recognized, Hiragana, Katakana, CommonKanji, RareKanji, Punctuation,
      MBSymbol, MBLetter]; omega
  · have hp := key _ _ decides_punctuation (fun c => by simp only [Punctuation]; omega)
    have hdec := decode_utf8Encode h0
    unfold isMBPunctuation
    split
    · rename_i hw
      obtain ⟨r, hr⟩ := wideSpace_prefix hw
      rw [hr, decode_enc_append (by decide) (by decide) r] at hdec
      simp only [Bool.false_and, Bool.false_eq_true, false_iff]
      rintro ⟨c, ⟨_, hc⟩, h | ⟨m, _, h⟩⟩
      · rw [← hdec] at h; simp at h; exact hc h.1.symm
      · rw [← hdec] at h; simp at h; exact hc h.1.symm
    · rename_i hw
      rw [hp]
      constructor
      · rintro ⟨c, hc, h⟩
        refine ⟨c, ⟨hc, ?_⟩, h⟩
        rintro rfl
        apply hw
        rw [List.isPrefixOf_iff_prefix]
        rw [utf8Encode_eq]
        rcases h with h | ⟨m, _, h⟩
        · rw [h]; exact ⟨[], rfl⟩
        · rw [h]; exact ⟨enc m, by simp [List.flatMap_cons]; rfl⟩
      · rintro ⟨c, ⟨hc, _⟩, h⟩; exact ⟨c, hc, h⟩

example : isKanji (u8!"漢") = true ∧ isKanji (u8!"漢字") = false ∧ isKanji (u8!"漢字") false = true ∧
    isHiragana [0xe3, 0x81, 0x8b, 0xe3, 0x82, 0x99] = true ∧ isMBLetter (u8!"é") = true ∧
    isMBPunctuation (u8!"　") true = true ∧ isMBPunctuation (u8!"　") = false := by decide +kernel

/-! ## C13: the `isAll` functions -/

/-- The ten `isAll` functions with the class each one tests. -/
def isAllTable : List ((Str → Bool) × (Nat → Prop)) :=
  [(isAllHiragana, Hiragana), (isAllKatakana, Katakana), (isAllKana, Kana),
   (isAllCommonKanji, CommonKanji), (isAllRareKanji, RareKanji), (isAllKanji, Kanji),
   (isAllMBSymbol, MBSymbol), (isAllMBLetter, MBLetter), (isAllMBPunctuation, Punctuation),
   (isAllRecognizedUtf8, Recognized)]

/-- The full claim. -/
def C13_statement : Prop := ∀ p ∈ isAllTable,
  (∀ s, p.1 s = true ↔ AllOf p.2 (decode s)) ∧
  (∀ a b, p.1 a = true → p.1 b = true → p.1 (a ++ b) = true)

/-- The code violates the claim for Hiragana: the combining voiced mark U+3099 is also in the
Hiragana block but a mark that can be attached to the previous character always is, so that
か + U+3099 + U+FE00 is refused although か and U+3099 U+FE00 both are accepted. -/
theorem C13_violated : ¬ C13_statement ∧
    ¬ (∀ s, AllOf Hiragana (decode s) → isAllHiragana s = true) ∧
    ¬ (∀ a b, isAllHiragana a = true → isAllHiragana b = true → isAllHiragana (a ++ b) = true) ∧
    ¬ (∀ a b, isAllMBPunctuation a = true → isAllMBPunctuation b = true →
      isAllMBPunctuation (a ++ b) = true) := by
  have hh : ¬ (∀ s, AllOf Hiragana (decode s) → isAllHiragana s = true) := by
    intro h
    have := h [0xe3, 0x81, 0x8b, 0xe3, 0x82, 0x99, 0xef, 0xb8, 0x80] (by
      have : decode [0xe3, 0x81, 0x8b, 0xe3, 0x82, 0x99, 0xef, 0xb8, 0x80] =
        [0x304b, 0x3099, 0xfe00] := by decide +kernel
      rw [this]
      exact .char (by decide) (.marked (by decide) (by decide) .nil))
    revert this
    decide +kernel
  refine ⟨?_, hh, ?_, ?_⟩
  · intro h
    exact hh fun s => ((h _ (List.mem_cons_self ..)).1 s).mpr
  · intro h
    have := h [0xe3, 0x81, 0x8b] [0xe3, 0x82, 0x99, 0xef, 0xb8, 0x80] (by decide +kernel)
      (by decide +kernel)
    revert this
    decide +kernel
  · intro h
    have := h [0xe3, 0x81] [0x82] (by decide +kernel) (by decide +kernel)
    revert this
    decide +kernel

/-- For all ten functions and all strings: a true result means the claimed shape, and the empty
string is accepted. -/
theorem C13_sound : ∀ p ∈ isAllTable,
    p.1 [] = true ∧ ∀ s, p.1 s = true → AllOf p.2 (decode s) := by
  have e : decode [] = [] := by decide
  have key : ∀ (t : List (List Block)) (X : Nat → Prop), Decides t X →
      allInWCharRange [] t = true ∧ ∀ s, allInWCharRange s t = true → AllOf X (decode s) :=
    fun t X hd => ⟨by simp [allInWCharRange, e, allInRangeLoop], fun s => (allLoop_sound hd _).1⟩
  simp only [isAllTable, List.mem_cons, List.not_mem_nil, or_false]
  rintro p (rfl|rfl|rfl|rfl|rfl|rfl|rfl|rfl|rfl|rfl)
  · exact key _ _ decides_hiragana
  · exact key _ _ decides_katakana
  · exact key _ _ decides_kana
  · exact key _ _ decides_commonKanji
  · exact key _ _ decides_rareKanji
  · exact key _ _ decides_kanji
  · exact key _ _ decides_symbol
  · exact key _ _ decides_letter
  · exact key _ _ decides_punctuation
  · exact key _ _ decides_recognized

/-- For the classes that contain no non-spacing mark (Katakana, the three Kanji classes, symbols,
letters and punctuation) the function decides exactly the claimed shape.  Missing: the Hiragana,
Kana and Recognized classes, where it is false (`C13_violated`). -/
theorem C13_exact_partial : ∀ p ∈ isAllTable, (∀ c, p.2 c → ¬ NonSpacing c) →
    ∀ s, p.1 s = true ↔ AllOf p.2 (decode s) := by
  intro p hp hno s
  refine ⟨(C13_sound p hp).2 s, ?_⟩
  have key : ∀ (t : List (List Block)) (X : Nat → Prop), Decides t X → (∀ c, X c → ¬ NonSpacing c) →
      AllOf X (decode s) → allInWCharRange s t = true :=
    fun t X hd hno h => allLoop_complete hd hno _ h
  revert hno
  simp only [isAllTable, List.mem_cons, List.not_mem_nil, or_false] at hp
  rcases hp with (rfl|rfl|rfl|rfl|rfl|rfl|rfl|rfl|rfl|rfl)
  · exact key _ _ decides_hiragana
  · exact key _ _ decides_katakana
  · exact key _ _ decides_kana
  · exact key _ _ decides_commonKanji
  · exact key _ _ decides_rareKanji
  · exact key _ _ decides_kanji
  · exact key _ _ decides_symbol
  · exact key _ _ decides_letter
  · exact key _ _ decides_punctuation
  · exact key _ _ decides_recognized

/-- Seven of the ten classes meet the hypothesis of `C13_exact_partial`. -/
theorem C13_classes_without_marks : ∀ X ∈ [Katakana, CommonKanji, RareKanji, Kanji, MBSymbol,
    MBLetter, Punctuation], ∀ c, X c → ¬ NonSpacing c := by
  simp only [List.mem_cons, List.not_mem_nil, or_false]
  rintro X (rfl|rfl|rfl|rfl|rfl|rfl|rfl) c <;>
    simp only [Katakana, CommonKanji, RareKanji, Kanji, MBSymbol, MBLetter, Punctuation,
      NonSpacing] <;> omega

/-- In the three remaining classes the function is still exact for text without the two combining
marks. -/
theorem C13_no_marks_exact (X : Nat → Prop) (f : Str → Bool) (h : (f, X) ∈ isAllTable) (s : Str)
    (h1 : 0x3099 ∉ decode s) (h2 : 0x309a ∉ decode s) : f s = true ↔ AllOf X (decode s) := by
  refine ⟨(C13_sound _ h).2 s, ?_⟩
  have key : ∀ (t : List (List Block)) (X : Nat → Prop), Decides t X →
      (∀ c, X c → NonSpacing c → c = 0x3099 ∨ c = 0x309a) →
      AllOf X (decode s) → allInWCharRange s t = true := by
    intro t X hd hx ha
    unfold allInWCharRange
    generalize decode s = cs at h1 h2 ha
    have : ∀ cs, 0x3099 ∉ cs → 0x309a ∉ cs → allInRangeLoop t false cs = true →
        allInRangeLoop t true cs = true := by
      intro cs h1 h2 h
      cases cs with
      | nil => rfl
      | cons c cs =>
        simp only [allInRangeLoop, Bool.false_and, Bool.false_eq_true, if_false] at h
        split at h
        · rename_i h3
          have h4 : isNonSpacing c = false := by
            cases hq : isNonSpacing c with
            | false => rfl
            | true =>
              rcases hx c ((hd c).mp h3) ((nonSpacing_iff c).mp hq) with rfl | rfl
              · simp at h1
              · simp at h2
          simp [allInRangeLoop, h3, h4, h]
        · simp at h
    induction ha with
    | nil => rfl
    | char hc _ ih =>
      simp only [List.mem_cons, not_or] at h1 h2
      simp only [allInRangeLoop, Bool.false_and, Bool.false_eq_true, if_false, (hd _).mpr hc,
        if_true]
      exact this _ h1.2 h2.2 (ih h1.2 h2.2)
    | marked hc hm _ ih =>
      simp only [List.mem_cons, not_or] at h1 h2
      simp only [allInRangeLoop, Bool.false_and, Bool.false_eq_true, if_false, (hd _).mpr hc,
        if_true, (nonSpacing_iff _).mpr hm, Bool.true_and]
      exact ih h1.2.2 h2.2.2
  simp only [isAllTable, List.mem_cons, List.not_mem_nil, or_false, Prod.mk.injEq] at h
  rcases h with ⟨rfl, rfl⟩|⟨rfl, rfl⟩|⟨rfl, rfl⟩|⟨rfl, rfl⟩|⟨rfl, rfl⟩|⟨rfl, rfl⟩|⟨rfl, rfl⟩|
    ⟨rfl, rfl⟩|⟨rfl, rfl⟩|⟨rfl, rfl⟩
  · apply key _ _ decides_hiragana; intro c; simp only [Hiragana, NonSpacing]; omega
  · apply key _ _ decides_katakana; intro c; simp only [Katakana, NonSpacing]; omega
  · apply key _ _ decides_kana; intro c; simp only [Kana, Hiragana, Katakana, NonSpacing]; omega
  · apply key _ _ decides_commonKanji; intro c; simp only [CommonKanji, NonSpacing]; omega
  · apply key _ _ decides_rareKanji; intro c; simp only [RareKanji, NonSpacing]; omega
  · apply key _ _ decides_kanji; intro c; simp only [Kanji, CommonKanji, RareKanji, NonSpacing]; omega
  · apply key _ _ decides_symbol; intro c; simp only [MBSymbol, NonSpacing]; omega
  · apply key _ _ decides_letter; intro c; simp only [MBLetter, NonSpacing]; omega
  · apply key _ _ decides_punctuation; intro c; simp only [Punctuation, NonSpacing]; omega
  · apply key _ _ decides_recognized; intro c
    simp only [Recognized, Hiragana, Katakana, CommonKanji, RareKanji, Punctuation,
      MBSymbol, MBLetter, NonSpacing]; omega

/-- Concatenation keeps the result for all byte strings, for the classes with neither non-spacing
marks nor U+FFFD. -/
theorem C13_append_partial : ∀ p ∈ isAllTable, (∀ c, p.2 c → ¬ NonSpacing c) → ¬ p.2 0xfffd →
    ∀ a b, p.1 a = true → p.1 b = true → p.1 (a ++ b) = true := by
  intro p hp hno hf a b ha hb
  have iff := C13_exact_partial p hp hno
  rw [iff] at ha hb ⊢
  have : 0xfffd ∉ decode a := by
    intro h
    rcases allOf_mem ha _ h with h | h
    · exact hf h
    · simp only [NonSpacing] at h; omega
  rcases decode_append_cases this (b := b) with h | h
  · rw [h]; exact ha
  · rw [h]; exact allOf_append ha hb

theorem C13_classes_without_replacement : ∀ X ∈ [Katakana, CommonKanji, RareKanji, Kanji, MBSymbol,
    MBLetter], ¬ X 0xfffd := by
  simp only [List.mem_cons, List.not_mem_nil, or_false]
  rintro X (rfl|rfl|rfl|rfl|rfl|rfl) <;>
    simp only [Katakana, CommonKanji, RareKanji, Kanji, MBSymbol, MBLetter] <;> omega

example : isAllKanji (u8!"漢字" ++ [0xef, 0xb8, 0x80] ++ u8!"学") = true ∧
    isAllKanji (u8!"漢字" ++ [0xef, 0xb8, 0x80, 0xef, 0xb8, 0x80] ++ u8!"学") = false ∧
    isAllKatakana (u8!"カタカナ") = true ∧ isAllKatakana (u8!"カタかナ") = false := by decide +kernel

/-! ## C14: malformed UTF-8 is never classified -/

/-- The first character of `s` is malformed: no character's encoding starts `s`. -/
def Malformed (s : Str) : Prop := s ≠ [] ∧ ∀ c : Char, ¬ StartsWith s c

/-- The full claim. -/
def C14_statement : Prop := ∀ s, Malformed s →
  (∀ sp so, ∀ b ∈ isKana s so :: isKanji s so :: isRecognizedUtf8 s so :: classes s sp so, b = false) ∧
  ∀ p ∈ isAllTable, p.1 s = false

theorem malformed_ff : Malformed [0xff, 0x41] := by
  refine ⟨by simp, fun c h => ?_⟩
  rw [startsWith_enc] at h
  obtain ⟨r, hr⟩ := h
  have := char_isScalar c
  have hd : decode (enc c.toNat ++ r) = [0xfffd, 0x41] := by rw [← hr]; decide
  have h0 : c.toNat ≠ 0 := by
    intro h0; rw [h0] at hr; simp [enc] at hr
  rw [decode_enc_append this h0] at hd
  simp at hd
  rw [hd.1] at hr
  simp [enc] at hr

/-- The code violates the claim: the replacement character U+FFFD that stands for malformed bytes is
in the "Specials" block, which counts as punctuation. -/
theorem C14_violated : ¬ C14_statement ∧
    isMBPunctuation [0xff, 0x41] false false = true ∧ isMBPunctuation [0xc0, 0x80] = true ∧
    isRecognizedUtf8 [0xff, 0x41] false = true ∧ isAllMBPunctuation [0xff] = true := by
  refine ⟨fun h => ?_, by decide +kernel, by decide +kernel, by decide +kernel, by decide +kernel⟩
  have := (h _ malformed_ff).1 false false (isMBPunctuation [0xff, 0x41] false false) (by
    simp [classes])
  revert this
  decide +kernel

/-- For every other class malformed text is refused by all functions, at the first character by the
`is` functions. -/
theorem C14_is_partial (s : Str) (so : Bool) (h : Malformed s) :
    isHiragana s so = false ∧ isKatakana s so = false ∧ isKana s so = false ∧
    isCommonKanji s so = false ∧ isRareKanji s so = false ∧ isKanji s so = false ∧
    isMBSymbol s so = false ∧ isMBLetter s so = false := by
  obtain ⟨r, hr⟩ := decode_malformed h.2 h.1
  have key : ∀ (t : List (List Block)) (X : Nat → Prop), Decides t X → ¬ X 0xfffd →
      inWCharRange s so t = false := by
    intro t X hd hx
    cases hq : inWCharRange s so t with
    | false => rfl
    | true =>
      obtain ⟨c, q, hc, h2⟩ := inWCharRange_first hd hq
      rw [hr] at hc; simp at hc
      exact absurd (hc.1 ▸ h2) hx
  refine ⟨key _ _ decides_hiragana ?_, key _ _ decides_katakana ?_, key _ _ decides_kana ?_,
    key _ _ decides_commonKanji ?_, key _ _ decides_rareKanji ?_, key _ _ decides_kanji ?_,
    key _ _ decides_symbol ?_, key _ _ decides_letter ?_⟩ <;>
  simp only [Kana, Kanji, Hiragana, Katakana, CommonKanji, RareKanji, MBSymbol, MBLetter] <;> omega

/-- The `isAll` functions of these classes accept no malformed text at all, wherever the malformed
character is (up to a NUL, where C++ strings read through `c_str()` end). -/
theorem C14_isAll_partial : ∀ p ∈ isAllTable, ¬ p.2 0xfffd → ∀ s, p.1 s = true →
    WellFormed (cStr s) := by
  intro p hp hf s hs
  have ha := (C13_sound p hp).2 s hs
  have : 0xfffd ∉ decode s := by
    intro h
    rcases allOf_mem ha _ h with h | h
    · exact hf h
    · simp only [NonSpacing] at h; omega
  rw [cStr_of_decode this]
  obtain ⟨ds, hds⟩ := exists_chars (decodes_decode s).scalar
  exact ⟨ds, by rw [hds, utf8Encode_eq]⟩

theorem C14_classes_without_replacement : ∀ X ∈ [Hiragana, Katakana, Kana, CommonKanji, RareKanji,
    Kanji, MBSymbol, MBLetter], ¬ X 0xfffd := by
  simp only [List.mem_cons, List.not_mem_nil, or_false]
  rintro X (rfl|rfl|rfl|rfl|rfl|rfl|rfl|rfl) <;>
    simp only [Hiragana, Kana, Katakana, CommonKanji, RareKanji, Kanji, MBSymbol, MBLetter] <;> omega

example : Malformed [0xff, 0x41] ∧ isKana [0xe3, 0x81, 0x41] false = false ∧
    isAllHiragana (u8!"あ" ++ [0xe3, 0x81]) = false := ⟨malformed_ff, by decide +kernel, by decide +kernel⟩

end KT
