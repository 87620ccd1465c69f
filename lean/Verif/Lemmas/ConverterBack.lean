import Verif.Lemmas.ConverterKana
/-!
# Converting back, and what is left in the output
-/
namespace KT
open Spec
namespace Converter

/-! ## Back to the first script -/

/-- A letter with its entry. -/
theorem letter_kana {t : CharType} (ht : t ≠ .romaji) {c : Char} (h : IsLetter (t == .katakana) c) :
    ∃ k ∈ allKana, k.mono = true ∧ k.str t = String.utf8EncodeChar c ∧
      k.str (other t) = String.utf8EncodeChar (otherScript (t == .katakana) c) := by
  obtain ⟨k, hk⟩ := (letter_char ht).mpr h
  obtain ⟨h1, h2, h3⟩ := char_mono ht hk
  exact ⟨k, h1, h2, h3, letter_other ht hk⟩

theorem other_beq {t : CharType} (ht : t ≠ .romaji) : (other t == .katakana) = !(t == .katakana) := by
  cases t
  · rfl
  · rfl
  · exact absurd rfl ht

theorem unsplit_other {t : CharType} (ht : t ≠ .romaji) {x s : Char} (hx : IsLetter (t == .katakana) x)
    (hs : IsLetter (t == .katakana) s)
    (h : Unsplit (other t) (otherScript (t == .katakana) x) (otherScript (t == .katakana) s)) : Unsplit t x s := by
  obtain ⟨k, hk, hkm, h1, h2⟩ := letter_kana ht hx
  obtain ⟨l, hl, hlm, h3, h4⟩ := letter_kana ht hs
  have ht' := (other_ne t).1
  refine ⟨(normal_char ht hk h1).mp ((normal_char ht' hk h2).mpr h.1),
    (small_char ht hl h3).mp ((small_char ht' hl h4).mpr h.2.1), ?_⟩
  cases hf : findKana t (String.utf8EncodeChar x ++ String.utf8EncodeChar s) with
  | none => rfl
  | some d =>
    rw [← h1, ← h3] at hf
    obtain ⟨hd, _, _, _, _, hstr⟩ := digraph_found ht ⟨hk, hkm⟩ ⟨hl, hlm⟩ hf
    have h5 := h.2.2
    rw [← h2, ← h4, ← hstr _ ht', found ht' hd] at h5
    cases h5

theorem otherScript_cases (b : Bool) (c : Char) :
    (IsLetter b c ∧ IsLetter (!b) (otherScript b c) ∧ ¬ IsIterationMark (!b) (otherScript b c) ∧
      otherScript (!b) (otherScript b c) = c) ∨
    (IsIterationMark b c ∧ IsIterationMark (!b) (otherScript b c) ∧ ¬ IsLetter (!b) (otherScript b c) ∧
      otherScript (!b) (otherScript b c) = c) ∨
    (¬ IsLetter b c ∧ ¬ IsIterationMark b c ∧ otherScript b c = c) := by
  by_cases h : IsLetter b c ∨ IsIterationMark b c
  · have hv : (otherScript b c).toNat = if b then c.toNat - 0x60 else c.toNat + 0x60 := by
      unfold otherScript
      rw [if_pos h]
      refine ofNat_toNat ?_
      cases b <;> simp only [IsLetter, IsIterationMark, IsScalar, Bool.false_eq_true, if_false, if_true] at h ⊢ <;> omega
    have hb : (IsLetter (!b) (otherScript b c) ∨ IsIterationMark (!b) (otherScript b c)) ∧
        (IsLetter b c ↔ IsLetter (!b) (otherScript b c)) ∧
        (IsIterationMark b c ↔ IsIterationMark (!b) (otherScript b c)) ∧
        (IsLetter b c → ¬ IsIterationMark b c) := by
      cases b <;> simp only [IsLetter, IsIterationMark, Bool.false_eq_true, if_false, if_true, Bool.not_false, Bool.not_true] at h hv ⊢ <;> omega
    have hback : otherScript (!b) (otherScript b c) = c := by
      apply char_toNat_inj
      rw [show otherScript (!b) (otherScript b c) = Char.ofNat (if (!b) = true then (otherScript b c).toNat - 0x60
        else (otherScript b c).toNat + 0x60) from by rw [otherScript, if_pos hb.1]]
      have e : (if (!b) = true then (otherScript b c).toNat - 0x60 else (otherScript b c).toNat + 0x60) = c.toNat := by
        rw [hv]
        cases b <;> simp only [IsLetter, IsIterationMark, Bool.false_eq_true, if_false, if_true, Bool.not_false, Bool.not_true] at h ⊢ <;> omega
      rw [e]
      refine ofNat_toNat ?_
      cases b <;> simp only [IsLetter, IsIterationMark, IsScalar, Bool.false_eq_true, if_false, if_true] at h ⊢ <;> omega
    rcases h with h | h
    · exact Or.inl ⟨h, hb.2.1.mp h, fun hh => hb.2.2.2 h (hb.2.2.1.mpr hh), hback⟩
    · exact Or.inr (Or.inl ⟨h, hb.2.2.1.mp h, fun hh => hb.2.2.2 (hb.2.1.mpr hh) h, hback⟩)
  · refine Or.inr (Or.inr ⟨fun h1 => h (Or.inl h1), fun h1 => h (Or.inr h1), ?_⟩)
    unfold otherScript
    rw [if_neg h]

/-- Letters of the other script in converted text come from letters. -/
theorem letter_back {b : Bool} {c : Char} (hc : ¬ IsLetter (!b) c) (h : IsLetter (!b) (otherScript b c)) :
    IsLetter b c ∧ otherScript (!b) (otherScript b c) = c := by
  rcases otherScript_cases b c with h1 | h1 | h1
  · exact ⟨h1.1, h1.2.2.2⟩
  · exact absurd h h1.2.2.1
  · rw [h1.2.2] at h; exact absurd h hc

theorem small_letter {b : Bool} {c : Char} (h : IsSmall b c) : IsLetter b c := by
  cases b <;> simp only [IsSmall, smallCodes, List.map_cons, List.map_nil, List.mem_cons, List.not_mem_nil,
    or_false, IsLetter, Bool.false_eq_true, if_false, if_true] at h ⊢ <;> omega

theorem tsu_other (b : Bool) : otherScript (!b) (tsu (!b)) = tsu b := by cases b <;> decide

theorem readable_other {t : CharType} (ht : t ≠ .romaji) {cs : List Char}
    (ho : ∀ c ∈ cs, ¬ IsLetter (!(t == .katakana)) c) (h : Readable t cs) :
    Readable (other t) (cs.map (otherScript (t == .katakana))) := by
  intro a x s b he hu
  have hxs : IsLetter (!(t == .katakana)) x ∧ IsLetter (!(t == .katakana)) s ∧
      IsLetter (!(t == .katakana)) (tsu (!(t == .katakana))) := by
    rw [← other_beq ht]
    refine ⟨hu.1.1, small_letter hu.2.1, ?_⟩
    cases t
    · decide
    · decide
    · exact absurd rfl ht
  rw [other_beq ht, List.append_assoc] at he
  obtain ⟨a', r, rfl, _, hr⟩ := List.map_eq_append_iff.mp he
  match r, hr with
  | [], hr => simp at hr
  | [_], hr => simp at hr
  | [_, _], hr => simp at hr
  | c1 :: c2 :: c3 :: r, hr =>
    simp only [List.map_cons, List.cons_append, List.nil_append, List.cons.injEq] at hr
    obtain ⟨h1, h2, h3, _⟩ := hr
    have hc : ∀ c ∈ [c1, c2, c3], ¬ IsLetter (!(t == .katakana)) c := by
      intro c hc
      exact ho c (by simp only [List.mem_cons, List.not_mem_nil, or_false, List.mem_append] at hc ⊢; grind)
    have k1 := letter_back (hc c1 (by simp)) (by rw [h1]; exact hxs.2.2)
    have k2 := letter_back (hc c2 (by simp)) (by rw [h2]; exact hxs.1)
    have k3 := letter_back (hc c3 (by simp)) (by rw [h3]; exact hxs.2.1)
    have hc1 : c1 = tsu (t == .katakana) := by rw [← k1.2, h1, tsu_other]
    subst hc1
    refine h a' c2 c3 r (by simp) ?_
    refine unsplit_other ht k2.1 k3.1 ?_
    rw [h2, h3]; exact hu

theorem otherScript_back {b : Bool} {c : Char} (h : ¬ IsLetter (!b) c ∧ ¬ IsIterationMark (!b) c) :
    otherScript (!b) (otherScript b c) = c := by
  rcases otherScript_cases b c with h1 | h1 | h1
  · exact h1.2.2.2
  · exact h1.2.2.2
  · rw [h1.2.2]; unfold otherScript; rw [if_neg (by simp [h])]

theorem simple_other {b : Bool} {c : Char} (h : Simple c) : Simple (otherScript b c) := by
  have key : ∀ {b : Bool} {d : Char}, IsLetter b d ∨ IsIterationMark b d → Simple d := by
    intro b d h
    unfold Simple IsSelector IsKanaMark
    cases b <;> simp only [IsLetter, IsIterationMark, Bool.false_eq_true, if_false, if_true] at h <;> omega
  rcases otherScript_cases b c with h1 | h1 | h1
  · exact key (Or.inl h1.2.1)
  · exact key (Or.inr h1.2.1)
  · rw [h1.2.2]; exact h

/-! ## No letters left -/

/-- Text without letters of a script. -/
def Clean (t : CharType) (s : Str) : Prop :=
  ∃ rs : List Char, s = utf8Encode rs ∧ ∀ r ∈ rs, ¬ IsLetter (t == .katakana) r

theorem clean_append {t : CharType} {a b : Str} (ha : Clean t a) (hb : Clean t b) : Clean t (a ++ b) := by
  obtain ⟨ra, rfl, h1⟩ := ha
  obtain ⟨rb, rfl, h2⟩ := hb
  refine ⟨ra ++ rb, by simp [utf8Encode], ?_⟩
  intro r hr
  rcases List.mem_append.mp hr with h | h
  · exact h1 r h
  · exact h2 r h

theorem clean_char {t : CharType} {c : Char} (h : ¬ IsLetter (t == .katakana) c) :
    Clean t (String.utf8EncodeChar c) := ⟨[c], by simp [utf8Encode], by simpa using h⟩

theorem clean_ascii (t : CharType) {s : Str} (h : ∀ b ∈ s, b.toNat < 128) : Clean t s := by
  induction s with
  | nil => exact ⟨[], rfl, by simp⟩
  | cons b s ih =>
    have hb := h b List.mem_cons_self
    have hs : IsScalar b.toNat := by simp only [IsScalar]; omega
    have : Clean t [b] := by
      have e : [b] = String.utf8EncodeChar (charOf b.toNat hs) := by
        rw [encodeChar_charOf, enc, if_pos (by omega)]; simp
      rw [e]
      refine clean_char ?_
      unfold IsLetter
      rw [charOf_toNat]
      split <;> omega
    exact clean_append this (ih fun b hb => h b (List.mem_cons_of_mem _ hb))

theorem romaji_ascii {k : Kana} (hk : k ∈ allKana) (f : ConvertFlags) {r : Str} (h : k.getRomaji f = some r) :
    ∀ b ∈ r, b.toNat < 128 := by
  have hall : ∀ f ∈ [(⟨false, false, false, false⟩ : ConvertFlags), ⟨false, true, false, false⟩,
      ⟨true, false, false, false⟩, ⟨true, true, false, false⟩],
      allKana.all (fun k => ((k.getRomaji f).getD []).all fun b => decide (b.toNat < 128)) = true := by
    decide +kernel
  have hf : k.getRomaji f = k.getRomaji ⟨f.hepburn, f.kunrei, false, false⟩ := rfl
  rw [hf] at h
  have := List.all_eq_true.mp (hall ⟨f.hepburn, f.kunrei, false, false⟩ (by
    cases f.hepburn <;> cases f.kunrei <;> simp)) k hk
  rw [h] at this
  simpa using this

theorem prolong_clean {t : CharType} : Clean t prolongMark := by
  have : Clean t (String.utf8EncodeChar 'ー') := clean_char (by cases t <;> decide)
  exact this

theorem macron_clean {c : Converter} {t : CharType} {s : Str} (h : ∀ b ∈ s, b.toNat < 128) (pr : Bool) :
    Clean t (macronOut c pr s) := by
  unfold macronOut
  split
  · split
    · exact clean_append (clean_ascii t h) prolong_clean
    · split
      · exact clean_ascii t (by simp)
      · rename_i b hb
        split
        · rename_i m hm
          refine clean_append (clean_ascii t fun b hb => h b (List.dropLast_subset _ hb)) ?_
          have mc : ∀ c ∈ ['ā', 'ī', 'ū', 'ē', 'ō'], Clean t (String.utf8EncodeChar c) := by
            intro c hc
            refine clean_char ?_
            revert hc; revert c; cases t <;> decide
          unfold macronLetter at hm
          split at hm
          · cases hm; exact mc 'ā' (by decide)
          split at hm
          · cases hm; exact mc 'ī' (by decide)
          split at hm
          · cases hm; exact mc 'ū' (by decide)
          split at hm
          · cases hm; exact mc 'ē' (by decide)
          split at hm
          · cases hm; exact mc 'ō' (by decide)
          · cases hm
        · exact clean_append (clean_ascii t h) prolong_clean
  · exact clean_ascii t h

theorem kanaOut_ascii {c : Converter} (hc : c.target = .romaji) {k : Kana} (hk : k ∈ allKana) :
    (∀ b ∈ kanaOut c k, b.toNat < 128) ∧ ∀ b ∈ sokuonOut c k, b.toNat < 128 := by
  obtain ⟨x, r, h⟩ := getRomaji_some hk c.flags
  have ha := romaji_ascii hk c.flags h
  constructor
  · simpa [kanaOut, Kana.get, hc, h] using ha
  · intro b hb
    simp only [sokuonOut, Kana.getSokuonRomaji, h, Option.map_some, Option.getD_some, List.mem_cons] at hb
    rcases hb with hb | hb
    · subst hb
      split
      · decide
      · exact ha _ (by simp)
    · exact ha b (by simpa using hb)

theorem itemOut_clean {c : Converter} {t : CharType} (ht : t ≠ .romaji) (hc : c.target = .romaji) :
    ∀ items, Valid t items → (∀ p ∈ items.flatMap (Item.src t), ∃ x, p = String.utf8EncodeChar x) →
    (∀ x s pr n, Bad t x s → .group [smallTsu, x, s] pr n ∉ items) → Clean t (items.flatMap (itemOut c t)) := by
  intro items
  induction items with
  | nil => intro _ _ _; exact clean_ascii t (by simp)
  | cons i items ih =>
    intro hv hp hb
    have hb' : ∀ x s pr n, Bad t x s → .group [smallTsu, x, s] pr n ∉ items :=
      fun x s pr n h hm => hb x s pr n h (List.mem_cons_of_mem _ hm)
    have hp' : ∀ p ∈ items.flatMap (Item.src t), ∃ x, p = String.utf8EncodeChar x :=
      fun p h => hp p (by rw [List.flatMap_cons]; exact List.mem_append_right _ h)
    rw [List.flatMap_cons]
    cases i with
    | prolong => exact clean_append prolong_clean (ih hv hp' hb')
    | mark p m prev =>
      refine clean_append (clean_ascii t ?_) (ih hv.2.2.2 hp' hb')
      obtain ⟨s, hs⟩ := mark_get (m := m) hv.2.2.1 c.target c.flags
      simp only [itemOut, hs, Option.getD_some]
      rw [hc] at hs
      unfold IterationMark.get at hs
      simp only at hs
      split at hs
      · cases hs; simp
      · rename_i q
        have hk := hv.2.2.1 q rfl
        have hd : allKana.all (fun k => (k.dakuten.getD k) ∈ allKana && (k.plain.getD k) ∈ allKana) = true := by
          decide +kernel
        have := List.all_eq_true.mp hd q hk
        simp only [Bool.and_eq_true, decide_eq_true_eq] at this
        refine romaji_ascii (k := if m.dakuten = true then q.dakuten.getD q else q.plain.getD q) ?_ c.flags hs
        split
        · exact this.1
        · exact this.2
    | other p =>
      refine clean_append ?_ (ih hv.2.2.2 hp' hb')
      simp only [itemOut, hc, if_true]
      split
      · rename_i n hn
        refine clean_ascii t ?_
        intro b hb
        simp at hb; subst hb
        have hall : (delims.map fun p => (p.2, p.1)).all (fun q => decide (q.2.toNat < 128)) = true := by
          decide +kernel
        exact of_decide_eq_true (List.all_eq_true.mp hall (p, b) (lookup_mem hn))
      · obtain ⟨x, rfl⟩ := hp p (by rw [List.flatMap_cons]; exact List.mem_append_left _ (by simp [Item.src]))
        refine clean_char fun hl => ?_
        obtain ⟨k, hk⟩ := (letter_char ht).mpr hl
        rw [hv.2.2.1] at hk; cases hk
    | group g pr next =>
      obtain ⟨hg, hs, hl, hnext, hvi⟩ := hv
      refine clean_append (clean_append ?_ ?_) (ih hvi hp' hb')
      · cases group_kind ht hg hs hl with
        | one k hk hN hst ho => rw [ho]; exact macron_clean (kanaOut_ascii hc hk).1 pr
        | two x k hx hk hxN hkN hkt hd hlen hh hst ho =>
          rw [ho]
          split
          · exact macron_clean (kanaOut_ascii hc hk).2 pr
          · exact clean_append (clean_ascii t (kanaOut_ascii hc hx.1).1) (macron_clean (kanaOut_ascii hc hk).1 pr)
        | bad x s hbad hgg ho =>
          exact absurd (by rw [hgg]; exact List.mem_cons_self) (hb x s pr next hbad)
      · split
        · exact clean_ascii t (by decide)
        · exact clean_ascii t (by simp)

end Converter
end KT
