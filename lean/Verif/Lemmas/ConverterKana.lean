import Verif.Lemmas.ConverterText
/-!
# Letter by letter conversion between the kana scripts
-/
namespace KT
open Spec
namespace Converter

/-- Two letters after っ that the converter doesn't convert: a normal letter and a small one that
together aren't in the table. -/
def Unsplit (t : CharType) (x s : Char) : Prop :=
  IsNormal (t == .katakana) x ∧ IsSmall (t == .katakana) s ∧
    findKana t (String.utf8EncodeChar x ++ String.utf8EncodeChar s) = none

instance (t : CharType) (x s : Char) : Decidable (Unsplit t x s) := by unfold Unsplit; infer_instance

theorem small_char {t : CharType} (ht : t ≠ .romaji) {k : Kana} (hk : k ∈ allKana) {c : Char}
    (he : k.str t = String.utf8EncodeChar c) : k.small = true ↔ IsSmall (t == .katakana) c := by
  have h : ∀ t : CharType, t ≠ .romaji → allKana.all (fun k => k.small ==
      (smallCodes.map (· + if (t == .katakana) = true then 0x60 else 0)).any fun n => k.str t == enc n) = true := by
    intro t ht; cases t
    · decide +kernel
    · decide +kernel
    · exact absurd rfl ht
  have := eq_of_beq (List.all_eq_true.mp (h t ht) k hk)
  rw [this, List.any_eq_true]
  unfold IsSmall
  constructor
  · rintro ⟨n, hn, h2⟩
    simp only [beq_iff_eq] at h2
    have hs : IsScalar n := by
      have hall : ∀ b : Bool, ∀ n ∈ smallCodes.map (· + if b = true then 0x60 else 0), n < 0xd800 := by decide
      have := hall _ n hn
      simp only [IsScalar]; omega
    rw [he, ← encodeChar_charOf n hs] at h2
    rw [encodeChar_inj h2, charOf_toNat]; exact hn
  · intro hc
    exact ⟨c.toNat, hc, by rw [he, utf8EncodeChar_eq_enc]; simp⟩

theorem tsu_char {t : CharType} (ht : t ≠ .romaji) :
    smallTsu.str t = String.utf8EncodeChar (tsu (t == .katakana)) ∧
    kanaN.str t = String.utf8EncodeChar (nn (t == .katakana)) := by
  cases t
  · decide
  · decide
  · exact absurd rfl ht

theorem normal_char {t : CharType} (ht : t ≠ .romaji) {k : Kana} (hk : k ∈ allKana) {c : Char}
    (he : k.str t = String.utf8EncodeChar c) : Normal k ↔ IsNormal (t == .katakana) c := by
  have hl : IsLetter (t == .katakana) c := (letter_char ht).mp ⟨k, by rw [← he, found ht hk]⟩
  have h1 := small_char ht hk he
  obtain ⟨h2, h3⟩ := tsu_char ht
  unfold Normal IsNormal
  have e1 : k = smallTsu ↔ c = tsu (t == .katakana) := by
    constructor
    · rintro rfl; rw [h2] at he; exact (encodeChar_inj he).symm
    · rintro rfl; rw [← h2] at he; exact str_inj ht hk smallTsu_mem he
  have e2 : k = kanaN ↔ c = nn (t == .katakana) := by
    constructor
    · rintro rfl; rw [h3] at he; exact (encodeChar_inj he).symm
    · rintro rfl; rw [← h3] at he; exact str_inj ht hk kanaN_mem he
  rw [← h1, ne_eq, ne_eq, ne_eq, ne_eq, ← e1, ← e2]
  simp only [hl, true_and, Bool.not_eq_true]
  constructor
  · rintro ⟨a, b, c⟩; exact ⟨c, a, b⟩
  · rintro ⟨c, a, b⟩; exact ⟨a, b, c⟩

/-- Groups with letters that aren't converted come from such letters in the text. -/
theorem bad_infix {t : CharType} (ht : t ≠ .romaji) {items : List Item} (hv : Valid t items) {cs : List Char}
    (hsrc : items.flatMap (Item.src t) = cs.map String.utf8EncodeChar) {x s : Kana} {pr : Bool} {n : Option Kana}
    (hb : Bad t x s) (hm : .group [smallTsu, x, s] pr n ∈ items) :
    ∃ a x' s' b, cs = a ++ [tsu (t == .katakana), x', s'] ++ b ∧ Unsplit t x' s' ∧
      (pr = true → ∃ b', b = 'ー' :: b') := by
  have hl : Letters [smallTsu, x, s] := by
    clear hsrc
    induction items with
    | nil => cases hm
    | cons i items ih =>
      rcases List.mem_cons.mp hm with h | h
      · subst h; exact hv.2.2.1
      · refine ih ?_ h
        cases i with
        | group => exact hv.2.2.2.2
        | prolong => exact hv
        | mark => exact hv.2.2.2
        | other => exact hv.2.2.2
  obtain ⟨A, B, rfl⟩ := List.append_of_mem hm
  simp only [List.flatMap_append, List.flatMap_cons, Item.src, List.map_cons, List.map_nil] at hsrc
  obtain ⟨a, r, hcs, ha, hr⟩ := List.map_eq_append_iff.mp hsrc.symm
  match r, hr with
  | [], hr => simp at hr
  | [_], hr => simp at hr
  | [_, _], hr => simp at hr
  | c1 :: c2 :: c3 :: r, hr =>
    simp only [List.map_cons, List.cons_append, List.nil_append, List.cons.injEq] at hr
    obtain ⟨h1, h2, h3, h4⟩ := hr
    have hx := hl x (by simp)
    have hs := hl s (by simp)
    refine ⟨a, c2, c3, r, ?_, ⟨(normal_char ht hx.1 h2.symm).mp hb.1, (small_char ht hs.1 h3.symm).mp hb.2.1, ?_⟩, ?_⟩
    · rw [(tsu_char ht).1] at h1
      rw [hcs, encodeChar_inj h1]; simp
    · rw [h2, h3]; exact hb.2.2
    · intro hpr
      subst hpr
      match r, h4 with
      | c4 :: r, h4 =>
        simp only [List.map_cons, if_true, List.cons_append, List.nil_append, List.cons.injEq] at h4
        refine ⟨r, ?_⟩
        have : String.utf8EncodeChar c4 = String.utf8EncodeChar 'ー' := h4.1
        rw [encodeChar_inj this]

/-- Conversion of one piece to the other script. -/
def swapPiece (t t' : CharType) (p : Str) : Str :=
  match findKana t p with
  | some k => k.str t'
  | none => match findIterationMark t p with
    | some m => if t' = .hiragana then m.hiragana else m.katakana
    | none => p

theorem macron_kana {c : Converter} (hc : c.target ≠ .romaji) (pr : Bool) (r : Str) :
    macronOut c pr r = r ++ mark pr := by
  cases pr
  · simp [macronOut, mark]
  · simp [macronOut, mark, hc]

theorem items_swap (c : Converter) {t : CharType} (ht : t ≠ .romaji) (hc : c.target ≠ .romaji) :
    ∀ items, Valid t items → (∀ x s pr n, Bad t x s → .group [smallTsu, x, s] pr n ∉ items) →
      items.flatMap (itemOut c t) = (items.flatMap (Item.src t)).flatMap (swapPiece t c.target) := by
  intro items
  induction items with
  | nil => intro _ _; rfl
  | cons i items ih =>
    intro hv hb
    have hb' : ∀ x s pr n, Bad t x s → .group [smallTsu, x, s] pr n ∉ items :=
      fun x s pr n h hm => hb x s pr n h (List.mem_cons_of_mem _ hm)
    simp only [List.flatMap_cons, List.flatMap_append]
    have hpm : swapPiece t c.target prolongMark = prolongMark := by
      unfold swapPiece
      rw [prolong_none ht]
      have : findIterationMark t prolongMark = none := by cases t <;> decide
      rw [this]
    cases i with
    | prolong => rw [ih hv hb']; simp [itemOut, Item.src, hpm]
    | mark p m prev =>
      rw [ih hv.2.2.2 hb']
      have : swapPiece t c.target p = if c.target = .hiragana then m.hiragana else m.katakana := by
        unfold swapPiece; rw [mark_none ht hv.2.1, hv.2.1]
      simp only [itemOut, Item.src, List.flatMap_cons, List.flatMap_nil, List.append_nil, this]
      congr 1
      cases htt : c.target
      · rfl
      · rfl
      · exact absurd htt hc
    | other p =>
      rw [ih hv.2.2.2 hb']
      have : swapPiece t c.target p = p := by
        unfold swapPiece; rw [hv.2.2.1, hv.2.1]
      simp [itemOut, Item.src, this, hc]
    | group g pr next =>
      obtain ⟨hg, hs, hl, hnext, hvi⟩ := hv
      rw [ih hvi hb']
      congr 1
      have hsw : ∀ g : List Kana, Letters g → (g.map (·.str t)).flatMap (swapPiece t c.target) = chars c.target g := by
        intro g hl
        induction g with
        | nil => rfl
        | cons k g ih =>
          have hk := hl k List.mem_cons_self
          have : swapPiece t c.target (k.str t) = k.str c.target := by
            unfold swapPiece; rw [found ht hk.1]
          simp only [List.map_cons, List.flatMap_cons, this, ih fun j hj => hl j (List.mem_cons_of_mem _ hj), chars]
      have hsrc : ((Item.group g pr next).src t).flatMap (swapPiece t c.target) = chars c.target g ++ mark pr := by
        simp only [Item.src, List.flatMap_append, hsw g hl]
        cases pr <;> simp [mark, hpm]
      rw [hsrc]
      have hko : ∀ k, kanaOut c k = k.str c.target := fun k => kanaOut_str hc rfl k
      simp only [itemOut, hc, false_and, if_false, List.append_nil]
      cases group_kind ht hg hs hl with
      | one k hk hN hst ho => rw [ho, macron_kana hc, hst _ hc, hko]
      | two x k hx hk hxN hkN hkt hd hlen hh hst ho =>
        rw [ho, if_neg (by simp [hc]), macron_kana hc, hst _ hc, hko, hko]; simp
      | bad x s hbad hgg ho =>
        exact absurd (by rw [hgg]; exact List.mem_cons_self) (hb x s pr next hbad)

theorem swap_char {t : CharType} (ht : t ≠ .romaji) (c : Char) :
    swapPiece t (other t) (String.utf8EncodeChar c) = String.utf8EncodeChar (otherScript (t == .katakana) c) := by
  unfold swapPiece
  split
  · rename_i k h
    exact letter_other ht h
  · rename_i h
    have hl : ¬ IsLetter (t == .katakana) c := by
      intro hl
      obtain ⟨k, hk⟩ := (letter_char ht).mpr hl
      rw [hk] at h; cases h
    split
    · rename_i m hm
      have hi := (iteration_char ht).mp ⟨m, hm⟩
      unfold findIterationMark IterationMark.matches at hm
      cases t
      · simp only [IsIterationMark, show (CharType.hiragana == CharType.katakana) = false from rfl,
          Bool.false_eq_true, if_false] at hi
        rcases hi with hi | hi
        · have : c = 'ゝ' := char_toNat_inj hi
          subst this; revert hm; revert m; decide
        · have : c = 'ゞ' := char_toNat_inj hi
          subst this; revert hm; revert m; decide
      · simp only [IsIterationMark, show (CharType.katakana == CharType.katakana) = true from rfl,
          if_true] at hi
        rcases hi with hi | hi
        · have : c = 'ヽ' := char_toNat_inj hi
          subst this
          have : m = repeatPlain := by revert hm; simp; intro h; rw [if_pos (by decide)] at h; simpa using h.symm
          subst this; decide
        · have : c = 'ヾ' := char_toNat_inj hi
          subst this
          have : m = repeatAccented := by
            revert hm; simp; intro h; rw [if_neg (by decide), if_pos (by decide)] at h; simpa using h.symm
          subst this; decide
      · exact absurd rfl ht
    · rename_i hm
      have hi : ¬ IsIterationMark (t == .katakana) c := by
        intro hi
        obtain ⟨m, hk⟩ := (iteration_char ht).mpr hi
        rw [hk] at hm; cases hm
      unfold otherScript
      rw [if_neg (by simp [hl, hi])]

/-- Text in which the converter converts every letter. -/
def Readable (t : CharType) (cs : List Char) : Prop :=
  ∀ a x s b, cs = a ++ [tsu (t == .katakana), x, s] ++ b → ¬ Unsplit t x s

/-- Conversion to the other script is letter by letter. -/
theorem swap_text (c : Converter) {t : CharType} (ht : t ≠ .romaji) (hc : c.target = other t)
    {cs : List Char} (h : ∀ x ∈ cs, Simple x) (hr : Readable t cs) :
    c.convertFrom t (utf8Encode cs) = .ok (utf8Encode (cs.map (otherScript (t == .katakana)))) := by
  have hc1 : c.target ≠ .romaji := by rw [hc]; exact (other_ne t).1
  rw [convertFrom_simple c ht (by rw [hc]; exact ((other_ne t).2 ht).1) h]
  obtain ⟨items, h1, h2, h3⟩ := fromKana_items c ht (simple_pieces h).1
  rw [h3, items_swap c ht hc1 items h1, h2, hc]
  · congr 1
    induction cs with
    | nil => rfl
    | cons x cs ih => simp only [utf8Encode, List.map_cons, List.flatMap_cons, swap_char ht] at *; congr 1; clear ih hr h1 h2 h3; induction cs <;> simp_all [swap_char ht]
  · intro x s pr n hb hm
    obtain ⟨a, x', s', b, he, hu, _⟩ := bad_infix ht h1 h2 hb hm
    exact hr a x' s' b he hu

end Converter
end KT
