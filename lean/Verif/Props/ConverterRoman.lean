import Verif.Lemmas.ConverterRoman
import Verif.Props.ConverterMarks
import Verif.Spec.Romanization
/-!
# C205: Rōmaji of standard kana text
-/
namespace KT
open Spec

/-- The style of the flags. -/
def styleOf (f : ConvertFlags) : RomajiStyle :=
  match f.hepburn, f.kunrei with
  | false, false => .unique
  | true, false => .hepburn
  | false, true => .kunrei
  | true, true => .both

/-- The text of all parts. -/
def unitsText (katakana : Bool) (us : List KanaUnit) : List Char := us.flatMap (KanaUnit.text katakana)

namespace Converter

/-! ## The table -/

/-- The spellings are checked with these flags. -/
def plainConverter (h u : Bool) : Converter := ⟨.romaji, { hepburn := h, kunrei := u }, true⟩

def syllableOut (h u d l : Bool) (k : Kana) : Str :=
  let c := plainConverter h u
  macronOut c l (if d then sokuonOut c k else kanaOut c k)

theorem syllableOut_eq (c : Converter) (hc : c.target = .romaji) (d l : Bool) (k : Kana) :
    macronOut c l (if d then sokuonOut c k else kanaOut c k) = syllableOut c.flags.hepburn c.flags.kunrei d l k := by
  obtain ⟨t, ⟨h, u, n, r⟩, o⟩ := c
  simp only at hc
  subst hc
  rfl

/-- What is checked for the entry of a syllable. -/
def spellingEntry (s : Syllable) (k : Kana) : Bool :=
  (!s.doubles || decide (Doubles k)) &&
  [false, true].all fun h => [false, true].all fun u => [false, true].all fun d => [false, true].all fun l =>
    (d && !s.doubles) || syllableOut h u d l k ==
      utf8Encode (KanaUnit.roman (styleOf { hepburn := h, kunrei := u }) (.syllable d s l))

/-- What is checked for a syllable. -/
def syllableEntry (t : CharType) (s : Syllable) : Bool :=
  let kat := t == .katakana
  decide (IsNormal kat (inScript kat s.letter)) &&
  (s.small.all fun z => decide (IsSmall kat (inScript kat z))) &&
  (match findKana t (utf8Encode (s.text kat)) with
    | some k => spellingEntry s k
    | none => false) &&
  (match findKana t (String.utf8EncodeChar (inScript kat s.letter)) with
    | some y => y.afterN == (s.consonant == none || s.consonant == some 'y')
    | none => false)

theorem syllables_hiragana : syllables.all (syllableEntry .hiragana) = true := by decide +kernel
theorem syllables_katakana : syllables.all (syllableEntry .katakana) = true := by decide +kernel

theorem syllable_table {t : CharType} (ht : t ≠ .romaji) {s : Syllable} (hs : s ∈ syllables) : syllableEntry t s = true := by
  cases t
  · exact List.all_eq_true.mp syllables_hiragana s hs
  · exact List.all_eq_true.mp syllables_katakana s hs
  · exact absurd rfl ht

/-- The entry of a syllable: its letters are read together, and it is written as in the specification. -/
theorem syllable_reads {t : CharType} (ht : t ≠ .romaji) {s : Syllable} (hs : s ∈ syllables) :
    ∃ P k y, Reads t P k ∧ P.map (·.str t) = (s.text (t == .katakana)).map String.utf8EncodeChar ∧
      (s.doubles = true → Doubles k) ∧
      (∀ (c : Converter) (d l : Bool), c.target = .romaji → (d = true → s.doubles = true) →
        macronOut c l (if d then sokuonOut c k else kanaOut c k) =
          utf8Encode (KanaUnit.roman (styleOf c.flags) (.syllable d s l))) ∧
      (P.map (·.str t)).head? = some (y.str t) ∧ y ∈ allKana ∧ y.small = false ∧
      y.afterN = (s.consonant == none || s.consonant == some 'y') := by
  have h := syllable_table ht hs
  unfold syllableEntry at h
  simp only [Bool.and_eq_true, decide_eq_true_eq] at h
  obtain ⟨⟨⟨h1, h2⟩, h3⟩, h4⟩ := h
  have hr : ReadTogether t (inScript (t == .katakana) s.letter) (s.small.toList.map (inScript (t == .katakana))) := by
    refine ⟨h1, ?_⟩
    cases hz : s.small with
    | none => exact Or.inl rfl
    | some z =>
      rw [hz] at h2
      simp only [Option.all_some, decide_eq_true_eq] at h2
      refine Or.inr ⟨_, rfl, h2, ?_⟩
      rintro ⟨_, _, hu⟩
      have : utf8Encode (s.text (t == .katakana)) = String.utf8EncodeChar (inScript (t == .katakana) s.letter) ++
          String.utf8EncodeChar (inScript (t == .katakana) z) := by
        simp [Syllable.text, hz, utf8Encode]
      rw [this, hu] at h3
      cases h3
  obtain ⟨P, k, hP, hPs, hfk, _⟩ := together_reads ht hr
  have hfk' : findKana t (utf8Encode (s.text (t == .katakana))) = some k := hfk
  rw [hfk'] at h3
  cases hy : findKana t (String.utf8EncodeChar (inScript (t == .katakana) s.letter)) with
  | none => rw [hy] at h4; cases h4
  | some y =>
    rw [hy] at h4
    simp only [beq_iff_eq] at h4
    obtain ⟨hm, hmono, he⟩ := char_mono ht hy
    simp only [spellingEntry, Bool.and_eq_true, Bool.or_eq_true, Bool.not_eq_true', decide_eq_true_eq] at h3
    refine ⟨P, k, y, hP, hPs, ?_, ?_, ?_, hm, ((normal_char ht hm he).mpr h1).2.2, h4⟩
    · intro hd
      rcases h3.1 with h | h
      · rw [hd] at h; cases h
      · exact h
    · intro c d l hc hd
      rw [syllableOut_eq c hc]
      have hb : ∀ b : Bool, b ∈ [false, true] := by decide
      have := h3.2
      simp only [List.all_eq_true] at this
      have := this c.flags.hepburn (hb _) c.flags.kunrei (hb _) d (hb _) l (hb _)
      simp only [Bool.or_eq_true, Bool.and_eq_true, beq_iff_eq, Bool.not_eq_true'] at this
      rcases this with ⟨h5, h6⟩ | h5
      · rw [hd h5] at h6; cases h6
      · rw [h5]; rfl
    · rw [hPs, he]; rfl

/-! ## Other characters -/

theorem lookup_map_inj {α β γ δ : Type} [BEq α] [LawfulBEq α] [BEq γ] [LawfulBEq γ] (f : α → γ) (g : β → δ)
    (hf : ∀ a b, f a = f b → a = b) (x : α) : ∀ l : List (α × β),
    (l.map (fun p => (f p.1, g p.2))).lookup (f x) = (l.lookup x).map g
  | [] => rfl
  | (a, b) :: l => by
    simp only [List.map_cons, List.lookup_cons]
    have : (f x == f a) = (x == a) := by
      rw [Bool.eq_iff_iff, beq_iff_eq, beq_iff_eq]
      exact ⟨hf _ _, fun h => by rw [h]⟩
    rw [this]
    split
    · rfl
    · exact lookup_map_inj f g hf x l

theorem other_roman (c : Converter) (hc : c.target = .romaji) (x : Char) :
    otherOut c (String.utf8EncodeChar x) = String.utf8EncodeChar (narrowMark x) := by
  have h : delims.map (fun p => (p.2, p.1)) =
      (wideMarks.zip narrowMarks).map (fun p => (String.utf8EncodeChar p.1, UInt8.ofNat p.2.toNat)) := by decide +kernel
  have hn : ∀ p ∈ wideMarks.zip narrowMarks, String.utf8EncodeChar p.2 = [UInt8.ofNat p.2.toNat] := by decide +kernel
  unfold otherOut wideDelimFind narrowMark
  rw [if_pos hc, h, lookup_map_inj String.utf8EncodeChar (fun d : Char => UInt8.ofNat d.toNat) (fun a b e => encodeChar_inj e)]
  cases hl : (wideMarks.zip narrowMarks).lookup x with
  | none => rfl
  | some n =>
    have hm : (x, n) ∈ wideMarks.zip narrowMarks := by
      obtain ⟨l1, l2, h1, _⟩ := List.lookup_eq_some_iff.mp hl
      rw [h1]; simp
    exact (hn _ hm).symm

/-! ## Texts -/

/-- The letters that the program takes for the ones that require an apostrophe: あ, い, う, え, お, や, ゆ and よ. -/
def letterBefore : List KanaUnit → Bool
  | .syllable false s _ :: _ => s.consonant == none || s.consonant == some 'y'
  | _ => false

/-- Rōmaji with these. -/
def programRoman (st : RomajiStyle) : List KanaUnit → List Char
  | [] => []
  | u :: r => u.roman st ++ (if u = .n ∧ letterBefore r = true then ['\''] else []) ++ programRoman st r

theorem unit_simple {t : CharType} (ht : t ≠ .romaji) {u : KanaUnit} (hu : u.Standard (t == .katakana)) :
    ∀ x ∈ u.text (t == .katakana), Simple x ∧ findIterationMark t (String.utf8EncodeChar x) = none := by
  have noMark : ∀ y : Char, ¬ IsIterationMark (t == .katakana) y → findIterationMark t (String.utf8EncodeChar y) = none := by
    intro y hy
    cases h : findIterationMark t (String.utf8EncodeChar y) with
    | none => rfl
    | some m => exact absurd ((iteration_char ht).mp ⟨m, h⟩) hy
  have letter : ∀ x, IsLetter (t == .katakana) x → Simple x ∧ findIterationMark t (String.utf8EncodeChar x) = none := by
    intro x hx
    refine ⟨letter_simple hx, noMark x ?_⟩
    unfold IsLetter at hx
    unfold IsIterationMark
    split at hx <;> simp_all <;> omega
  have hz : ∀ z, IsSmall (t == .katakana) z → IsLetter (t == .katakana) z := by
    intro z hz
    have h : ∀ b : Bool, ∀ n ∈ smallCodes.map (· + if b = true then 0x60 else 0),
        if b = true then 0x30a1 ≤ n ∧ n ≤ 0x30f6 else 0x3041 ≤ n ∧ n ≤ 0x3096 := by decide
    exact h _ _ hz
  have htn : IsLetter (t == .katakana) (tsu (t == .katakana)) ∧ IsLetter (t == .katakana) (nn (t == .katakana)) := by
    cases t <;> decide
  intro x hx
  cases u with
  | n => simp only [KanaUnit.text, List.mem_singleton] at hx; subst hx; exact letter _ htn.2
  | other y =>
    simp only [KanaUnit.text, List.mem_singleton] at hx
    subst hx
    exact ⟨hu.1, noMark x hu.2.2.1⟩
  | syllable d s l =>
    have h := syllable_table ht hu.1
    unfold syllableEntry at h
    simp only [Bool.and_eq_true, decide_eq_true_eq] at h
    obtain ⟨⟨⟨h1, h2⟩, _⟩, _⟩ := h
    simp only [KanaUnit.text, Syllable.text, List.mem_append] at hx
    rcases hx with (hx | hx) | hx
    · split at hx
      · simp at hx; subst hx; exact letter _ htn.1
      · cases hx
    · simp only [List.map_cons, List.mem_cons] at hx
      rcases hx with rfl | hx
      · exact letter _ h1.1
      · obtain ⟨z, hz1, rfl⟩ := List.mem_map.mp hx
        cases hs : s.small with
        | none => rw [hs] at hz1; simp at hz1
        | some z' =>
          rw [hs] at hz1 h2
          simp at hz1 h2
          subst hz1
          exact letter _ (hz _ h2)
    · split at hx
      · simp at hx
        subst hx
        refine ⟨by decide, noMark _ ?_⟩
        cases t <;> decide
      · cases hx

theorem units_pieces {t : CharType} (ht : t ≠ .romaji) {us : List KanaUnit} (hs : ∀ u ∈ us, u.Standard (t == .katakana)) :
    Follows t ((unitsText (t == .katakana) us).map String.utf8EncodeChar) ∧
    (startsAfterN t ((unitsText (t == .katakana) us).map String.utf8EncodeChar) ↔ letterBefore us = true) := by
  cases us with
  | nil => exact ⟨Or.inl rfl, by simp [unitsText, startsAfterN, letterBefore]⟩
  | cons u us =>
    have hu := hs u List.mem_cons_self
    have letter : ∀ {y : Kana} {B : List Str}, y ∈ allKana → y.small = false →
        (unitsText (t == .katakana) (u :: us)).map String.utf8EncodeChar = y.str t :: B → y.afterN = letterBefore (u :: us) →
        Follows t ((unitsText (t == .katakana) (u :: us)).map String.utf8EncodeChar) ∧
        (startsAfterN t ((unitsText (t == .katakana) (u :: us)).map String.utf8EncodeChar) ↔
          letterBefore (u :: us) = true) := by
      intro y B h1 h2 h3 h4
      refine ⟨Or.inr (Or.inl ⟨y, B, h1, h2, h3⟩), ?_⟩
      rw [h3, ← h4, ← mem_afterN ht h1]
      simp [startsAfterN]
    cases u with
    | n =>
      refine letter kanaN_mem (by decide) (B := (unitsText (t == .katakana) us).map String.utf8EncodeChar) ?_
        (by show kanaN.afterN = false; decide)
      simp [unitsText, KanaUnit.text, (tsu_char ht).2]
    | other x =>
      have hf : findKana t (String.utf8EncodeChar x) = none := by
        cases h : findKana t (String.utf8EncodeChar x) with
        | none => rfl
        | some k => exact absurd ((letter_char ht).mp ⟨k, h⟩) hu.2.1
      have hp : String.utf8EncodeChar x ≠ prolongMark := by
        intro e
        exact hu.2.2.2 (encodeChar_inj (e.trans (by decide : prolongMark = String.utf8EncodeChar 'ー')))
      constructor
      · refine Or.inr (Or.inr ⟨?_, String.utf8EncodeChar x, (unitsText (t == .katakana) us).map String.utf8EncodeChar, hp, hf, ?_⟩)
        · intro p hp
          obtain ⟨y, hy, rfl⟩ := List.mem_map.mp hp
          obtain ⟨v, hv, hy⟩ := List.mem_flatMap.mp hy
          exact (unit_simple ht (hs v hv) y hy).2
        · simp [unitsText, KanaUnit.text]
      · have := other_not_afterN ht hf
        simp [unitsText, KanaUnit.text, startsAfterN, letterBefore, this]
    | syllable d s l =>
      obtain ⟨P, k, y, hP, hPs, _, _, hh, hy, hsm, ha⟩ := syllable_reads ht hu.1
      cases d with
      | true =>
        refine letter smallTsu_mem (by decide) (B := (s.text (t == .katakana) ++ (if l then ['ー'] else []) ++
          unitsText (t == .katakana) us).map String.utf8EncodeChar) ?_ (by show smallTsu.afterN = false; decide)
        simp [unitsText, KanaUnit.text, (tsu_char ht).1]
      | false =>
        obtain ⟨B, hB⟩ : ∃ B, P.map (·.str t) = y.str t :: B := by
          cases hl : P.map (·.str t) with
          | nil => rw [hl] at hh; cases hh
          | cons a B => rw [hl] at hh; simp at hh; subst hh; exact ⟨B, rfl⟩
        refine letter hy hsm (B := B ++ ((if l then ['ー'] else []) ++ unitsText (t == .katakana) us).map String.utf8EncodeChar) ?_ ha
        rw [← List.cons_append, ← hB, hPs]
        simp [unitsText, KanaUnit.text]

theorem utf8Encode_app (a b : List Char) : utf8Encode (a ++ b) = utf8Encode a ++ utf8Encode b := by simp [utf8Encode]

theorem n_roman (c : Converter) (hc : c.target = .romaji) : kanaOut c kanaN = utf8Encode ['n'] := by
  have : ∀ h u n r : Bool, kanaOut ⟨.romaji, ⟨h, u, n, r⟩, true⟩ kanaN = utf8Encode ['n'] := by decide +kernel
  obtain ⟨t, ⟨h, u, n, r⟩, o⟩ := c
  simp only at hc
  subst hc
  exact this h u n r

theorem units_finish (c : Converter) {t : CharType} (ht : t ≠ .romaji) (hc : c.target = .romaji) :
    ∀ us : List KanaUnit, (∀ u ∈ us, u.Standard (t == .katakana)) →
    c.finish t {} ((unitsText (t == .katakana) us).map String.utf8EncodeChar) =
      .ok (utf8Encode (programRoman (styleOf c.flags) us)) := by
  intro us
  induction us with
  | nil => intro _; simp [unitsText, finish, fromKanaLoop, processKana, programRoman, utf8Encode]
  | cons u us ih =>
    intro hs
    have hu := hs u List.mem_cons_self
    have hs' : ∀ v ∈ us, v.Standard (t == .katakana) := fun v hv => hs v (List.mem_cons_of_mem _ hv)
    have hr := ih hs'
    obtain ⟨hF, hA⟩ := units_pieces ht hs'
    cases u with
    | n =>
      have := finish_n c ht hc hF hr
      have e : (unitsText (t == .katakana) (.n :: us)).map String.utf8EncodeChar =
          kanaN.str t :: (unitsText (t == .katakana) us).map String.utf8EncodeChar := by
        simp [unitsText, KanaUnit.text, (tsu_char ht).2]
      rw [e, this, n_roman c hc]
      simp only [programRoman, KanaUnit.roman, true_and, utf8Encode_app, hA]
      by_cases hl : letterBefore us = true
      · simp only [hl, if_true]; rfl
      · simp only [hl]; rfl
    | other x =>
      have hf : findKana t (String.utf8EncodeChar x) = none := by
        cases h : findKana t (String.utf8EncodeChar x) with
        | none => rfl
        | some k => exact absurd ((letter_char ht).mp ⟨k, h⟩) hu.2.1
      have hp : String.utf8EncodeChar x ≠ prolongMark := by
        intro e
        exact hu.2.2.2 (encodeChar_inj (e.trans (by decide : prolongMark = String.utf8EncodeChar 'ー')))
      have := finish_other c hp (unit_simple ht hu x (by simp [KanaUnit.text])).2 hf hr
      rw [other_roman c hc] at this
      simp only [unitsText, List.flatMap_cons, KanaUnit.text, List.cons_append, List.nil_append, List.map_cons]
      rw [show us.flatMap (KanaUnit.text (t == .katakana)) = unitsText (t == .katakana) us from rfl, this]
      simp [programRoman, KanaUnit.roman, utf8Encode]
    | syllable d s l =>
      obtain ⟨P, k, y, hP, hPs, hd, ho, _⟩ := syllable_reads ht hu.1
      have := finish_syllable c ht hc hP d l (fun e => hd (hu.2 e)) hF hr
      rw [ho c d l hc hu.2] at this
      have e : (unitsText (t == .katakana) (.syllable d s l :: us)).map String.utf8EncodeChar =
          (if d then [smallTsu.str t] else []) ++ P.map (·.str t) ++ (if l then [prolongMark] else []) ++
            (unitsText (t == .katakana) us).map String.utf8EncodeChar := by
        rw [hPs]
        cases d <;> cases l <;> simp [unitsText, KanaUnit.text, (tsu_char ht).1] <;> decide
      rw [e, this]
      simp [programRoman, utf8Encode]

end Converter
open Converter

/-! ## The claims -/

/-- Standard text is written by the rules of the style. -/
def C205_statement : Prop :=
  ∀ (c : Converter) (t : CharType), t ≠ .romaji → c.target = .romaji → ∀ us : List KanaUnit,
    (∀ u ∈ us, u.Standard (t == .katakana)) →
    c.convertFrom t (utf8Encode (unitsText (t == .katakana) us)) = .ok (utf8Encode (romanize (styleOf c.flags) us))

/-- ほんを ("a book" as object) becomes "hono" with the flag for Hepburn, as ほの does, although it is "hon'o". -/
theorem C205_violated : ¬ C205_statement := by
  intro h
  have := h ⟨.romaji, { hepburn := true }, true⟩ .hiragana (by decide) rfl
    [.syllable false ⟨'ほ', none, 'h', 'o'⟩ false, .n, .syllable false ⟨'を', none, 'w', 'o'⟩ false] (by
      intro u hu
      simp only [List.mem_cons, List.not_mem_nil, or_false] at hu
      rcases hu with rfl | rfl | rfl
      · exact ⟨by decide +kernel, by decide⟩
      · trivial
      · exact ⟨by decide +kernel, by decide⟩)
  revert this
  decide +kernel

/-- For every standard text: the apostrophe is written before あ, い, う, え, お, や, ゆ and よ, everything else is by the rules. -/
theorem C205_text (c : Converter) (t : CharType) (ht : t ≠ .romaji) (hc : c.target = .romaji) (us : List KanaUnit)
    (hs : ∀ u ∈ us, u.Standard (t == .katakana)) :
    c.convertFrom t (utf8Encode (unitsText (t == .katakana) us)) = .ok (utf8Encode (programRoman (styleOf c.flags) us)) := by
  have hne : c.target ≠ t := by rw [hc]; exact fun h => ht h.symm
  rw [convertFrom_simple c ht hne (by
    intro x hx
    obtain ⟨u, hu, hx⟩ := List.mem_flatMap.mp hx
    exact (unit_simple ht (hs u hu) x hx).1)]
  exact units_finish c ht hc us hs

/-- The letters ゐ, ゑ and を, which Hepburn and Kunrei write as vowels. -/
def OldW (s : Syllable) : Prop := s.consonant = some 'w' ∧ s.vowel ≠ 'a'

theorem apostrophe_same (st : RomajiStyle) {s : Syllable} (hs : s ∈ syllables) (h : st = .unique ∨ ¬ OldW s) (l : Bool)
    (r : List KanaUnit) : apostropheBefore st (.syllable false s l :: r) = letterBefore (.syllable false s l :: r) := by
  have key : ∀ st ∈ [RomajiStyle.unique, .hepburn, .kunrei, .both], ∀ s ∈ syllables,
      st = .unique ∨ ¬ (s.consonant = some 'w' ∧ s.vowel ≠ 'a') →
      ((s.spelling st).head?.any fun x => "aiueoy".toList.contains x) = (s.consonant == none || s.consonant == some 'y') := by
    decide +kernel
  exact key st (by cases st <;> decide) s hs h

/-- Standard text is written by the rules of the style, except where ん goes before ゐ, ゑ or を and Hepburn or Kunrei is asked
for. -/
theorem C205_standard_partial (c : Converter) (t : CharType) (ht : t ≠ .romaji) (hc : c.target = .romaji) (us : List KanaUnit)
    (hs : ∀ u ∈ us, u.Standard (t == .katakana))
    (hw : ∀ a s l b, us = a ++ .n :: .syllable false s l :: b → styleOf c.flags = .unique ∨ ¬ OldW s) :
    c.convertFrom t (utf8Encode (unitsText (t == .katakana) us)) = .ok (utf8Encode (romanize (styleOf c.flags) us)) := by
  rw [C205_text c t ht hc us hs]
  congr 2
  clear hc
  induction us with
  | nil => rfl
  | cons u us ih =>
    have ih := ih (fun v hv => hs v (List.mem_cons_of_mem _ hv)) (fun a s l b e => hw (u :: a) s l b (by rw [e]; rfl))
    unfold programRoman romanize
    rw [ih]
    congr 2
    by_cases hu : u = .n
    · subst hu
      match us with
      | [] => rfl
      | .n :: r => rfl
      | .other x :: r => rfl
      | .syllable true s l :: r => rfl
      | .syllable false s l :: r =>
        rw [apostrophe_same (styleOf c.flags) (hs (.syllable false s l) (by simp)).1 (hw [] s l r rfl) l r]
    · simp [hu]

/-! ## Samples -/

example : romanize .hepburn [.syllable false ⟨'ま', none, 'm', 'a'⟩ false, .syllable true ⟨'ち', some 'ゃ', 't', 'a'⟩ true,
    .other '。', .n, .syllable false ⟨'よ', none, 'y', 'o'⟩ false] = "matchā.n'yo".toList := by decide +kernel
example : Converter.convertFrom ⟨.romaji, { hepburn := true }, true⟩ .hiragana (u8!"ほんをよむ") = .ok (u8!"honoyomu") := by
  decide +kernel
/-- With both flags most syllables are written by Kunrei. -/
example : Converter.convertFrom ⟨.romaji, { hepburn := true, kunrei := true }, true⟩ .hiragana (u8!"しちぢ") =
    .ok (u8!"sitiji") := by decide +kernel
/-- っ before を doubles the vowel. -/
example : Converter.convertFrom ⟨.romaji, { hepburn := true }, true⟩ .hiragana (u8!"っを") = .ok (u8!"oo") := by decide +kernel
example : syllables.length = 108 ∧ (syllables.map fun s => s.spelling .unique).Nodup ∧
    ¬ (syllables.map fun s => s.spelling .hepburn).Nodup := by decide +kernel

end KT
