import Verif.Lemmas.Utf8Char
/-!
# Lemmas about the pieces of well-formed text, sizes and variation selectors
-/
namespace KT
open Spec

theorem encodeChar_first {c : Char} (hc : 128 ≤ c.toNat) :
    ∃ b t, String.utf8EncodeChar c = b :: t ∧ 192 ≤ b.toNat ∧
      ∀ x ∈ t, 128 ≤ x.toNat ∧ x.toNat < 192 := by
  rw [utf8EncodeChar_eq_enc]
  rcases enc_bytes (char_isScalar c) hc with ⟨_, b1, b2, he, h1, h2⟩ |
    ⟨_, _, b1, b2, b3, he, h1, h2, h3⟩ | ⟨_, b1, b2, b3, b4, he, h1, h2, h3, h4⟩
  · refine ⟨b1, [b2], he, by omega, ?_⟩
    intro x hx; simp only [List.mem_singleton] at hx; subst hx; omega
  · refine ⟨b1, [b2, b3], he, by omega, ?_⟩
    intro x hx; simp only [List.mem_cons, List.not_mem_nil, or_false] at hx
    rcases hx with rfl | rfl <;> omega
  · refine ⟨b1, [b2, b3, b4], he, by omega, ?_⟩
    intro x hx; simp only [List.mem_cons, List.not_mem_nil, or_false] at hx
    rcases hx with rfl | rfl | rfl <;> omega

/-- Two characters at the start of the same string are equal. -/
theorem prefix_unique {c d : Char} {r r' : Str}
    (h : String.utf8EncodeChar c ++ r = String.utf8EncodeChar d ++ r') : c = d ∧ r = r' := by
  have h1 := convertOne_enc (char_isScalar c) (r ++ [0])
  have h2 := convertOne_enc (char_isScalar d) (r' ++ [0])
  rw [← utf8EncodeChar_eq_enc] at h1 h2
  rw [← List.append_assoc, h, List.append_assoc, h2] at h1
  simp only [Option.some.injEq, Prod.mk.injEq] at h1
  have hcd : c = d := Char.toNat_inj.mp h1.1.symm
  subst hcd
  exact ⟨rfl, List.append_cancel_left h⟩

theorem startsWith_ascii {b : UInt8} (h : b.toNat < 128) (r : Str) :
    ∃ c : Char, c.toNat < 128 ∧ StartsWith (b :: r) c := by
  have hs : IsScalar b.toNat := by simp only [IsScalar]; omega
  refine ⟨charOf b.toNat hs, by rw [charOf_toNat]; exact h, ?_⟩
  rw [startsWith_enc, charOf_toNat]
  exact ⟨r, by rw [enc, if_pos (by omega), byte_ofNat_toNat]; rfl⟩

theorem tokens_unique {s : Str} {ts ts' : List Token} (h : Tokens s ts) (h' : Tokens s ts') :
    ts = ts' := by
  have key : ∀ (s : Str) (ts : List Token), Tokens s ts → ∀ s' ts', s = s' → Tokens s' ts' → ts = ts' := by
    intro s ts h
    induction h with
    | nil =>
      intro s' ts' he h'
      cases h' with
      | nil => rfl
      | nul => cases he
      | ascii => cases he
      | @char c r _ _ _ =>
        have := congrArg List.length he
        have := List.length_pos_iff.mpr (encodeChar_ne_nil c)
        simp only [List.length_nil, List.length_append] at *; omega
      | bad => cases he
    | nul r =>
      intro s' ts' he h'
      cases h' with
      | nil => rfl
      | nul => rfl
      | ascii h0 => simp only [List.cons.injEq] at he; exact absurd he.1.symm h0
      | @char c r _ hc _ =>
        obtain ⟨b, t, hbt, hb, _⟩ := encodeChar_first hc
        rw [hbt] at he
        simp only [List.cons_append, List.cons.injEq] at he
        rw [← he.1] at hb; exact absurd hb (by decide)
      | @bad b r _ hb _ =>
        simp only [List.cons.injEq] at he
        obtain ⟨c, _, hc⟩ := startsWith_ascii (b := 0) (by decide) r
        rw [← he.1] at hb
        exact absurd hc (hb c)
    | @ascii b r ts h0 hb ht ih =>
      intro s' ts' he h'
      cases h' with
      | nil => cases he
      | nul => simp only [List.cons.injEq] at he; exact absurd he.1 h0
      | ascii _ _ ht' =>
        simp only [List.cons.injEq] at he
        rw [he.1, ih _ _ he.2 ht']
      | @char c r _ hc _ =>
        obtain ⟨b', t, hbt, hb', _⟩ := encodeChar_first hc
        rw [hbt] at he
        simp only [List.cons_append, List.cons.injEq] at he
        rw [← he.1] at hb'; omega
      | @bad b' r' _ hb' _ =>
        simp only [List.cons.injEq] at he
        obtain ⟨c, _, hc⟩ := startsWith_ascii hb r'
        rw [← he.1] at hb'
        exact absurd hc (hb' c)
    | @char c r ts hc ht ih =>
      intro s' ts' he h'
      obtain ⟨b, t, hbt, hb, _⟩ := encodeChar_first hc
      cases h' with
      | nil => rw [hbt] at he; cases he
      | nul =>
        rw [hbt] at he
        simp only [List.cons_append, List.cons.injEq] at he
        rw [he.1] at hb; exact absurd hb (by decide)
      | ascii h0 hb' _ =>
        rw [hbt] at he
        simp only [List.cons_append, List.cons.injEq] at he
        rw [he.1] at hb; omega
      | @char c' r' _ hc' ht' =>
        obtain ⟨hcc, hrr⟩ := prefix_unique he
        rw [hcc, ih _ _ hrr ht']
      | bad hb' _ => exact absurd ⟨_, he⟩ (hb' c)
    | @bad b r ts hb ht ih =>
      intro s' ts' he h'
      cases h' with
      | nil => cases he
      | nul =>
        simp only [List.cons.injEq] at he
        obtain ⟨c, _, hc⟩ := startsWith_ascii (b := 0) (by decide) r
        rw [he.1] at hb
        exact absurd hc (hb c)
      | @ascii b' r' _ _ hb' _ =>
        simp only [List.cons.injEq] at he
        obtain ⟨c, _, hc⟩ := startsWith_ascii hb' r
        rw [he.1] at hb
        exact absurd hc (hb c)
      | @char c r' _ hc _ => exact absurd ⟨_, he.symm⟩ (hb c)
      | bad _ ht' =>
        simp only [List.cons.injEq] at he
        rw [he.1, ih _ _ he.2 ht']
  exact key s ts h s ts' rfl h'

/-! ## Well-formed text -/

theorem compose_range {n m d : Nat} (h : compose n m = some d) :
    128 ≤ d ∧ d < 0xfe00 ∧ d ≠ 0x3099 ∧ d ≠ 0x309a := by
  have hn : n ∈ 0x3046 :: (kstRow ++ hRow) ++ (0x3046 :: (kstRow ++ hRow)).map (· + 0x60) := by
    have aux : ∀ (f : Nat → Option Nat), (∀ n m, f n = some m → n ∈ 0x3046 :: (kstRow ++ hRow)) →
        kanaForm f n = some d →
        n ∈ 0x3046 :: (kstRow ++ hRow) ++ (0x3046 :: (kstRow ++ hRow)).map (· + 0x60) := by
      intro f hf hk
      rw [List.mem_append]
      rcases kanaForm_cases hk with ⟨q, hq⟩ | ⟨hge, q, hq⟩
      · exact Or.inl (hf _ _ hq)
      · refine Or.inr (List.mem_map.mpr ⟨n - 0x60, hf _ _ hq, by omega⟩)
    unfold compose at h
    split at h
    · exact aux _ (fun _ _ => voicedHiragana_mem) h
    · split at h
      · exact aux _ (fun _ _ => semiVoicedHiragana_mem) h
      · simp at h
  have key : ∀ n ∈ 0x3046 :: (kstRow ++ hRow) ++ (0x3046 :: (kstRow ++ hRow)).map (· + 0x60),
      ∀ o ∈ [kanaForm voicedHiragana n, kanaForm semiVoicedHiragana n],
      ∀ d ∈ o.toList, 128 ≤ d ∧ d < 0xfe00 ∧ d ≠ 0x3099 ∧ d ≠ 0x309a := by decide +kernel
  unfold compose at h
  split at h
  · exact key n hn (kanaForm voicedHiragana n) (by simp) d (by rw [h]; simp)
  · split at h
    · exact key n hn (kanaForm semiVoicedHiragana n) (by simp) d (by rw [h]; simp)
    · simp at h

theorem compose_ge {n m d : Nat} (h : compose n m = some d) : 128 ≤ (Char.ofNat d).toNat := by
  rw [compose_toNat h]; exact (compose_range h).1

theorem compose_not {n m d : Nat} (h : compose n m = some d) :
    ¬ IsSelector (Char.ofNat d) ∧ ¬ IsKanaMark (Char.ofNat d) := by
  unfold IsSelector IsKanaMark
  rw [compose_toNat h]
  have := compose_range h
  omega

theorem counted_ge (onlyMB : Bool) {c : Char} (hm : ¬ (IsSelector c ∨ IsKanaMark c))
    (h : 128 ≤ c.toNat) : counted onlyMB c = true := by
  have h1 : ¬ IsSelector c := fun h => hm (Or.inl h)
  have h2 : ¬ IsKanaMark c := fun h => hm (Or.inr h)
  simp [counted, shown, h1, h2, h]

theorem shown_ge (onlyMB : Bool) {c : Char} (h : 128 ≤ c.toNat) : shown onlyMB c = true := by
  simp [shown, h]

theorem selector_ge {c : Char} (h : IsSelector c) : 128 ≤ c.toNat := by
  unfold IsSelector at h; omega
theorem mark_ge {c : Char} (h : IsKanaMark c) : 128 ≤ c.toNat := by
  unfold IsKanaMark at h; omega

theorem textTokens_ascii {c : Char} (h : c.toNat < 128) (cs : List Char) :
    textTokens (c :: cs) = .ascii (UInt8.ofNat c.toNat) :: textTokens cs := by
  simp [textTokens, h]
theorem textTokens_char {c : Char} (h : 128 ≤ c.toNat) (cs : List Char) :
    textTokens (c :: cs) = .char c :: textTokens cs := by
  simp [textTokens]; omega

theorem pieces_other (onlyMB : Bool) {c : Char} {ts : List Token} (hm : ¬ (IsSelector c ∨ IsKanaMark c))
    (h : ∀ v ts', ts = .char v :: ts' → ¬ IsSelector v ∧ ¬ IsKanaMark v) :
    pieces onlyMB (.char c :: ts) = String.utf8EncodeChar c :: pieces onlyMB ts := by
  cases ts with
  | nil => simp [pieces, hm]
  | cons t ts =>
    cases t with
    | char v => obtain ⟨h1, h2⟩ := h v ts rfl; rw [pieces.eq_4]; simp [hm, h1, h2]
    | ascii b => rw [pieces.eq_5 _ _ _ (by simp)]; simp [hm]
    | bad b => rw [pieces.eq_5 _ _ _ (by simp)]; simp [hm]

theorem counts_other {c : Char} {ts : List Token} (hm : ¬ (IsSelector c ∨ IsKanaMark c))
    (h : ∀ v ts', ts = .char v :: ts' → ¬ IsSelector v ∧ ¬ IsKanaMark v) :
    counts (.char c :: ts) = counts ts := by
  cases ts with
  | nil => simp [counts, hm]
  | cons t ts =>
    cases t with
    | char v => obtain ⟨h1, h2⟩ := h v ts rfl; rw [counts.eq_4]; simp [hm, h1, h2]
    | ascii b => rw [counts.eq_5 _ _ (by simp)]; simp [hm]
    | bad b => rw [counts.eq_5 _ _ (by simp)]; simp [hm]

theorem merge_other {c : Char} {cs : List Char} (hm : ¬ (IsSelector c ∨ IsKanaMark c))
    (h : ∀ v cs', cs = v :: cs' → ¬ IsSelector v ∧ ¬ IsKanaMark v) :
    merge (c :: cs) = c :: merge cs := by
  by_cases hc : c.toNat < 128
  · cases cs <;> simp [merge, hc]
  · cases cs with
    | nil => simp [merge, hm]
    | cons v cs => obtain ⟨h1, h2⟩ := h v cs rfl; rw [merge.eq_2]; simp [hm, hc, h1, h2]

theorem merge_ascii {c : Char} (h : c.toNat < 128) (cs : List Char) :
    merge (c :: cs) = c :: merge cs := by
  cases cs <;> simp [merge, h]

theorem merge_drop {c : Char} (hm : IsSelector c ∨ IsKanaMark c) (cs : List Char) :
    merge (c :: cs) = merge cs := by
  have h : ¬ c.toNat < 128 := by
    rcases hm with h | h
    · have := selector_ge h; omega
    · have := mark_ge h; omega
  cases cs <;> simp [merge, h, hm]

theorem char_cases (cs : List Char) :
    (∃ v cs', cs = v :: cs' ∧ IsSelector v) ∨ (∃ v cs', cs = v :: cs' ∧ IsKanaMark v) ∨
    (∀ v cs', cs = v :: cs' → ¬ IsSelector v ∧ ¬ IsKanaMark v) := by
  cases cs with
  | nil => right; right; intro _ _ h; cases h
  | cons v cs =>
    by_cases h1 : IsSelector v
    · exact Or.inl ⟨v, cs, rfl, h1⟩
    · by_cases h2 : IsKanaMark v
      · exact Or.inr (Or.inl ⟨v, cs, rfl, h2⟩)
      · refine Or.inr (Or.inr ?_)
        intro _ _ h; cases h; exact ⟨h1, h2⟩

theorem selector_not_mark {v : Char} (h : IsSelector v) : ¬ IsKanaMark v := by
  unfold IsSelector at h; unfold IsKanaMark; omega

theorem pieces_flatten (onlyMB : Bool) (cs : List Char) :
    (pieces onlyMB (textTokens cs)).flatten =
      utf8Encode ((merge cs).filter (shown onlyMB)) := by
  generalize hn : cs.length = n
  induction n using Nat.strongRecOn generalizing cs with
  | ind n ih =>
  cases cs with
  | nil => rfl
  | cons c cs =>
    have ih1 := ih cs.length (by simp [← hn]) cs rfl
    by_cases hc : c.toNat < 128
    · rw [textTokens_ascii hc, merge_ascii hc]
      cases onlyMB with
      | true =>
        simp only [pieces, if_true, ih1]
        rw [List.filter_cons_of_neg (by simp [shown]; omega)]
      | false =>
        simp only [pieces, Bool.false_eq_true, if_false, List.flatten_cons, ih1]
        rw [List.filter_cons_of_pos (by simp [shown])]
        simp [utf8Encode, encodeChar_ascii hc]
    · rw [textTokens_char (by omega)]
      by_cases hm : IsSelector c ∨ IsKanaMark c
      · rw [pieces_drop onlyMB hm, merge_drop hm]; exact ih1
      · have hp : shown onlyMB c = true := shown_ge _ (by omega)
        rcases char_cases cs with ⟨v, cs', rfl, hv⟩ | ⟨v, cs', rfl, hv⟩ | h
        · have ih2 := ih cs'.length (by simp only [List.length_cons] at hn; omega) cs' rfl
          rw [textTokens_char (selector_ge hv), pieces.eq_4, merge.eq_2]
          simp only [if_neg hm, if_pos hv, if_neg hc, List.flatten_cons, ih2]
          rw [List.filter_cons_of_pos hp, List.filter_cons_of_pos (shown_ge _ (selector_ge hv))]
          simp [utf8Encode]
        · have ih2 := ih cs'.length (by simp only [List.length_cons] at hn; omega) cs' rfl
          have hs : ¬ IsSelector v := fun h => selector_not_mark h hv
          rw [textTokens_char (mark_ge hv), pieces.eq_4, merge.eq_2]
          simp only [if_neg hm, if_neg hs, if_pos hv, if_neg hc, List.flatten_cons, ih2]
          cases hd : compose c.toNat v.toNat with
          | none =>
            simp only
            rw [List.filter_cons_of_pos hp]; simp [utf8Encode]
          | some d =>
            simp only
            rw [List.filter_cons_of_pos (shown_ge _ (compose_ge hd))]; simp [utf8Encode]
        · rw [pieces_other onlyMB hm, merge_other hm h]
          · rw [List.filter_cons_of_pos hp, List.flatten_cons, ih1]; simp [utf8Encode]
          · intro v ts' he
            cases cs with
            | nil => cases he
            | cons w cs =>
              by_cases hw : w.toNat < 128
              · rw [textTokens_ascii hw] at he; cases he
              · rw [textTokens_char (by omega)] at he
                cases he
                exact h v cs rfl

theorem textTokens_next {cs : List Char} {v : Char} {ts' : List Token}
    (he : textTokens cs = .char v :: ts') : ∃ cs', cs = v :: cs' ∧ ts' = textTokens cs' := by
  cases cs with
  | nil => cases he
  | cons w cs =>
    by_cases hw : w.toNat < 128
    · rw [textTokens_ascii hw] at he; cases he
    · rw [textTokens_char (by omega)] at he
      cases he
      exact ⟨cs, rfl, rfl⟩

/-- The number of pieces of well-formed text. -/
theorem pieces_length (onlyMB : Bool) (cs : List Char) :
    (pieces onlyMB (textTokens cs)).length = (cs.filter (counted onlyMB)).length := by
  generalize hn : cs.length = n
  induction n using Nat.strongRecOn generalizing cs with
  | ind n ih =>
  cases cs with
  | nil => rfl
  | cons c cs =>
    have ih1 := ih cs.length (by simp [← hn]) cs rfl
    by_cases hc : c.toNat < 128
    · have h1 : ¬ IsSelector c := fun h => by have := selector_ge h; omega
      have h2 : ¬ IsKanaMark c := fun h => by have := mark_ge h; omega
      rw [textTokens_ascii hc]
      cases onlyMB with
      | true =>
        simp only [pieces, if_true, ih1]
        rw [List.filter_cons_of_neg (by simp [counted, shown]; omega)]
      | false =>
        simp only [pieces, Bool.false_eq_true, if_false, List.length_cons, ih1]
        rw [List.filter_cons_of_pos (by simp [counted, shown, h1, h2])]
        simp
    · rw [textTokens_char (by omega)]
      by_cases hm : IsSelector c ∨ IsKanaMark c
      · rw [pieces_drop onlyMB hm, ih1, List.filter_cons_of_neg]
        rcases hm with h | h <;> simp [counted, h]
      · have hp : counted onlyMB c = true := counted_ge onlyMB hm (by omega)
        rw [List.filter_cons_of_pos hp, List.length_cons]
        rcases char_cases cs with ⟨v, cs', rfl, hv⟩ | ⟨v, cs', rfl, hv⟩ | h
        · have ih2 := ih cs'.length (by simp only [List.length_cons] at hn; omega) cs' rfl
          rw [textTokens_char (selector_ge hv), pieces.eq_4]
          simp only [if_neg hm, if_pos hv, List.length_cons, ih2]
          rw [List.filter_cons_of_neg (by simp [counted, hv])]
        · have ih2 := ih cs'.length (by simp only [List.length_cons] at hn; omega) cs' rfl
          have hs : ¬ IsSelector v := fun h => selector_not_mark h hv
          rw [textTokens_char (mark_ge hv), pieces.eq_4]
          simp only [if_neg hm, if_neg hs, if_pos hv, List.length_cons, ih2]
          rw [List.filter_cons_of_neg (by simp [counted, hv])]
        · rw [pieces_other onlyMB hm, List.length_cons, ih1]
          intro v ts' he
          obtain ⟨cs', hcs, _⟩ := textTokens_next he
          exact h v cs' hcs

theorem plain_cons {c : Char} {cs : List Char} (h : Plain (c :: cs)) :
    ¬ (IsSelector c ∨ IsKanaMark c) := by
  cases cs <;> (simp only [Plain] at h; rintro (h1 | h1) <;> simp_all)

theorem plain_cases {c : Char} {cs : List Char} (h : Plain (c :: cs)) :
    (∃ v cs', cs = v :: cs' ∧ IsSelector v ∧ 128 ≤ c.toNat ∧ Plain cs') ∨
    (Plain cs ∧ ∀ v cs', cs = v :: cs' → ¬ IsSelector v ∧ ¬ IsKanaMark v) := by
  cases cs with
  | nil => right; exact ⟨trivial, by intro _ _ h; cases h⟩
  | cons v cs =>
    unfold Plain at h
    simp only at h
    obtain ⟨h1, h2, h3⟩ := h
    split at h3
    · rename_i hv; exact Or.inl ⟨v, cs, rfl, hv.1, hv.2, h3⟩
    · refine Or.inr ⟨h3, ?_⟩
      intro _ _ he
      cases he
      have := plain_cons h3
      exact ⟨fun h => this (Or.inl h), fun h => this (Or.inr h)⟩

theorem merge_plain (cs : List Char) (h : Plain cs) : merge cs = cs := by
  generalize hn : cs.length = n
  induction n using Nat.strongRecOn generalizing cs with
  | ind n ih =>
  cases cs with
  | nil => rfl
  | cons c cs =>
    have hm := plain_cons h
    rcases plain_cases h with ⟨v, cs', rfl, hv, hc, hp⟩ | ⟨hp, hx⟩
    · rw [merge.eq_2, if_neg (by omega), if_neg hm]
      simp only [if_pos hv]
      rw [ih cs'.length (by simp only [List.length_cons] at hn; omega) cs' hp rfl]
    · rw [merge_other hm hx, ih cs.length (by simp [← hn]) cs hp rfl]

theorem counts_plain (cs : List Char) (h : Plain cs) : (counts (textTokens cs)).errors = 0 := by
  generalize hn : cs.length = n
  induction n using Nat.strongRecOn generalizing cs with
  | ind n ih =>
  cases cs with
  | nil => rfl
  | cons c cs =>
    have hm := plain_cons h
    rcases plain_cases h with ⟨v, cs', rfl, hv, hc, hp⟩ | ⟨hp, hx⟩
    · have := ih cs'.length (by simp only [List.length_cons] at hn; omega) cs' hp rfl
      rw [textTokens_char hc, textTokens_char (selector_ge hv), counts.eq_4]
      simp only [if_neg hm, if_pos hv, this]
    · have := ih cs.length (by simp [← hn]) cs hp rfl
      by_cases hc : c.toNat < 128
      · rw [textTokens_ascii hc]; exact this
      · rw [textTokens_char (by omega), counts_other hm]
        · exact this
        · intro v ts' he
          obtain ⟨cs', hcs, _⟩ := textTokens_next he
          exact hx v cs' hcs

/-- Shape of the pieces. -/
theorem pieces_shape (onlyMB : Bool) {s : Str} {ts : List Token} (ht : Tokens s ts) :
    ∀ p ∈ pieces onlyMB ts, (∃ b : UInt8, b.toNat < 128 ∧ b ≠ 0 ∧ p = [b] ∧ onlyMB = false) ∨
      (∃ c : Char, 128 ≤ c.toNat ∧ ¬ IsSelector c ∧ ¬ IsKanaMark c ∧
        (p = String.utf8EncodeChar c ∨
          ∃ v : Char, IsSelector v ∧ p = String.utf8EncodeChar c ++ String.utf8EncodeChar v)) := by
  generalize hn : s.length = n
  induction n using Nat.strongRecOn generalizing s ts with
  | ind n ih =>
  cases ht with
  | nil => intro p hp; simp [pieces] at hp
  | nul => intro p hp; simp [pieces] at hp
  | @ascii b r ts h0 hb ht =>
    have ih1 := ih r.length (by simp [← hn]) ht rfl
    intro p hp
    cases onlyMB with
    | true => simp only [pieces, if_true] at hp; exact ih1 p hp
    | false =>
      simp only [pieces, Bool.false_eq_true, if_false, List.mem_cons] at hp
      rcases hp with rfl | hp
      · exact Or.inl ⟨b, hb, h0, rfl, rfl⟩
      · exact ih1 p hp
  | @bad b r ts hb ht =>
    have ih1 := ih r.length (by simp [← hn]) ht rfl
    intro p hp
    simp only [pieces] at hp
    exact ih1 p hp
  | @char c r ts hc ht =>
    have hlen := List.length_pos_iff.mpr (encodeChar_ne_nil c)
    have ih1 := ih r.length (by rw [← hn, List.length_append]; omega) ht rfl
    intro p hp
    by_cases hm : IsSelector c ∨ IsKanaMark c
    · rw [pieces_drop onlyMB hm] at hp; exact ih1 p hp
    · have hm1 : ¬ IsSelector c := fun h => hm (Or.inl h)
      have hm2 : ¬ IsKanaMark c := fun h => hm (Or.inr h)
      by_cases hx : ∃ v ts', ts = .char v :: ts' ∧ (IsSelector v ∨ IsKanaMark v)
      · obtain ⟨v, ts', rfl, hv⟩ := hx
        cases ht with
        | @char _ r' _ hv' ht' =>
        have ih2 := ih r'.length (by
          rw [← hn, List.length_append, List.length_append]; omega) ht' rfl
        rw [pieces.eq_4, if_neg hm] at hp
        by_cases hs : IsSelector v
        · simp only [if_pos hs, List.mem_cons] at hp
          rcases hp with rfl | hp
          · exact Or.inr ⟨c, hc, hm1, hm2, Or.inr ⟨v, hs, rfl⟩⟩
          · exact ih2 p hp
        · have hk : IsKanaMark v := hv.resolve_left hs
          simp only [if_neg hs, if_pos hk, List.mem_cons] at hp
          rcases hp with rfl | hp
          · cases hd : compose c.toNat v.toNat with
            | none => exact Or.inr ⟨c, hc, hm1, hm2, Or.inl rfl⟩
            | some d =>
              exact Or.inr ⟨_, compose_ge hd, (compose_not hd).1, (compose_not hd).2, Or.inl rfl⟩
          · exact ih2 p hp
      · rw [pieces_other onlyMB hm] at hp
        · simp only [List.mem_cons] at hp
          rcases hp with rfl | hp
          · exact Or.inr ⟨c, hc, hm1, hm2, Or.inl rfl⟩
          · exact ih1 p hp
        · intro v ts' he
          exact ⟨fun h => hx ⟨v, ts', he, Or.inl h⟩, fun h => hx ⟨v, ts', he, Or.inr h⟩⟩

/-! ## Size -/

theorem sizeLoop_tail (onlyMB : Bool) (rest : List UInt8) (n : Nat) : ∀ (t : List UInt8) (fuel : Nat),
    (∀ x ∈ t, 128 ≤ x.toNat ∧ x.toNat < 192) →
      sizeLoop onlyMB (fuel + t.length) (t ++ rest) n = sizeLoop onlyMB fuel rest n := by
  intro t
  induction t with
  | nil => intro fuel _; rfl
  | cons b t ih =>
    intro fuel h
    have hb := h b (by simp)
    have e1 : b ≠ 0 := by rintro rfl; exact absurd hb.1 (by decide)
    have e2 : b ≠ 0xe3 := by rintro rfl; exact absurd hb.2 (by decide)
    have e3 : b ≠ 0xef := by rintro rfl; exact absurd hb.2 (by decide)
    have h80 : b.toNat &&& 0xc0 = 0x80 := (andC0 _ b.toNat_lt).mpr (by omega)
    rw [List.length_cons, ← Nat.add_assoc]
    simp only [List.cons_append, sizeLoop, e1, if_false, isCombiningMark, isVariationSelector]
    simp only [ne_eq, e2, e3, not_false_eq_true, if_true, Option.bind_eq_bind, Option.bind_some,
      Bool.false_eq_true, if_false, h80]
    have := ih fuel fun x hx => h x (by simp [hx])
    cases onlyMB <;> simpa using this

theorem sizeLoop_text (onlyMB : Bool) (rest : Str) : ∀ (cs : List Char), (∀ c ∈ cs, c.toNat ≠ 0) →
    ∀ (fuel n : Nat), (utf8Encode cs).length < fuel →
      sizeLoop onlyMB fuel (utf8Encode cs ++ 0 :: rest) n =
        some (n + (cs.filter (counted onlyMB)).length) := by
  intro cs
  induction cs with
  | nil =>
    intro _ fuel n hf
    obtain ⟨fuel, rfl⟩ : ∃ f, fuel = f + 1 := ⟨fuel - 1, by omega⟩
    simp [utf8Encode, sizeLoop]
  | cons c cs ih =>
    intro h0 fuel n hf
    have ih := ih fun x hx => h0 x (by simp [hx])
    have hc0 := h0 c (by simp)
    simp only [utf8Encode, List.flatMap_cons, List.length_append] at hf
    have hlen := List.length_pos_iff.mpr (encodeChar_ne_nil c)
    by_cases hc : c.toNat < 128
    · have h1 : ¬ IsSelector c := fun h => by have := selector_ge h; omega
      have h2 : ¬ IsKanaMark c := fun h => by have := mark_ge h; omega
      have hb : (UInt8.ofNat c.toNat).toNat = c.toNat := toNat_ofNat_lt (by omega)
      have e1 : UInt8.ofNat c.toNat ≠ 0 := by
        intro h; have := congrArg UInt8.toNat h; rw [hb] at this; exact hc0 this
      have hne80 : ¬ (UInt8.ofNat c.toNat).toNat &&& 0xc0 = 0x80 := by
        rw [andC0 _ (by omega)]; omega
      have hnec0 : ¬ (UInt8.ofNat c.toNat).toNat &&& 0xc0 = 0xc0 := by
        rw [hb]
        intro h
        have : ∀ m < 128, ¬ m &&& 0xc0 = 0xc0 := by decide
        exact this _ hc h
      obtain ⟨fuel, rfl⟩ : ∃ f, fuel = f + 1 := ⟨fuel - 1, by omega⟩
      have hf' : (utf8Encode cs).length < fuel := by simp only [utf8Encode]; omega
      rw [utf8Encode, List.flatMap_cons, encodeChar_ascii hc, ← utf8Encode]
      simp only [List.cons_append, List.nil_append, sizeLoop, e1, if_false,
        isCombiningMark_ascii (b := UInt8.ofNat c.toNat) (by omega),
        isVariationSelector_ascii (b := UInt8.ofNat c.toNat) (by omega), Option.bind_eq_bind,
        Option.bind_some, Bool.false_eq_true, hnec0, ne_eq, hne80, not_false_eq_true, if_true]
      cases onlyMB with
      | true =>
        rw [List.filter_cons_of_neg (by simp [counted, shown]; omega)]
        simp only [if_true]
        exact ih fuel _ hf'
      | false =>
        rw [List.filter_cons_of_pos (by simp [counted, shown, h1, h2])]
        simp only [Bool.false_eq_true, if_false, List.length_cons]
        rw [ih fuel _ hf']
        congr 1; omega
    · obtain ⟨b, t, hbt, hb, ht⟩ := encodeChar_first (c := c) (by omega)
      have hl : (String.utf8EncodeChar c).length = t.length + 1 := by rw [hbt]; rfl
      obtain ⟨fuel, rfl⟩ : ∃ f, fuel = f + t.length + 1 := ⟨fuel - t.length - 1, by omega⟩
      have hf' : (utf8Encode cs).length < fuel := by simp only [utf8Encode]; omega
      have e1 : b ≠ 0 := by rintro rfl; exact absurd hb (by decide)
      have hc0' : b.toNat &&& 0xc0 = 0xc0 := by
        have : ∀ m < 256, 192 ≤ m → m &&& 0xc0 = 0xc0 := by decide +kernel
        exact this _ b.toNat_lt hb
      have hcm := isCombiningMark_char (c := c) (by omega) (utf8Encode cs ++ 0 :: rest)
      have hvs := isVariationSelector_char (c := c) (by omega) (utf8Encode cs ++ 0 :: rest)
      rw [utf8Encode, List.flatMap_cons, ← utf8Encode, List.append_assoc]
      have step : sizeLoop onlyMB (fuel + t.length + 1)
          (String.utf8EncodeChar c ++ (utf8Encode cs ++ 0 :: rest)) n =
          if IsKanaMark c ∨ IsSelector c then
            (advance varSelectorSize (String.utf8EncodeChar c ++ (utf8Encode cs ++ 0 :: rest))).bind
              fun i' => sizeLoop onlyMB (fuel + t.length) i' n
          else sizeLoop onlyMB (fuel + t.length) (t ++ (utf8Encode cs ++ 0 :: rest)) (n + 1) := by
        rw [sizeLoop.eq_def]
        simp only [hcm, hvs, Option.bind_eq_bind, Option.bind_some]
        simp only [hbt, List.cons_append, e1, if_false, hc0', if_true]
        by_cases h1 : IsKanaMark c <;> by_cases h2 : IsSelector c <;> cases onlyMB <;> simp [h1, h2]
      rw [step]
      by_cases hm : IsKanaMark c ∨ IsSelector c
      · have h3 : (String.utf8EncodeChar c).length = 3 := by
          rcases hm with h | h
          · exact mark_length h
          · exact selector_length h
        rw [if_pos hm, advance_char h3, List.filter_cons_of_neg]
        · exact ih _ _ (by omega)
        · rcases hm with h | h <;> simp [counted, h]
      · rw [if_neg hm, sizeLoop_tail onlyMB _ _ t fuel ht, ih fuel _ hf', List.filter_cons_of_pos,
          List.length_cons]
        · congr 1; omega
        · exact counted_ge onlyMB (fun h => hm h.symm) (by omega)

theorem isVariationSelector_safe (s : Str) (h : s ≠ []) (r : List UInt8) :
    ∃ b, isVariationSelector (s ++ 0 :: r) = some b ∧ (b = true → 3 ≤ s.length) := by
  cases s with
  | nil => exact absurd rfl h
  | cons a s =>
    unfold isVariationSelector
    by_cases ha : a ≠ 0xef
    · exact ⟨false, by simp [ha], by simp⟩
    · cases s with
      | nil => exact ⟨false, by simp [ha], by simp⟩
      | cons b s =>
        by_cases hb : b ≠ 0xb8
        · exact ⟨false, by simp [ha, hb], by simp⟩
        · cases s with
          | nil => exact ⟨false, by simp [ha, hb], by simp⟩
          | cons c s => exact ⟨_, by simp [ha, hb]; rfl, by simp⟩

theorem isCombiningMark_safe (s : Str) (h : s ≠ []) (r : List UInt8) :
    ∃ b, isCombiningMark (s ++ 0 :: r) = some b ∧ (b = true → 3 ≤ s.length) := by
  cases s with
  | nil => exact absurd rfl h
  | cons a s =>
    unfold isCombiningMark
    by_cases ha : a ≠ 0xe3
    · exact ⟨false, by simp [ha], by simp⟩
    · cases s with
      | nil => exact ⟨false, by simp [ha], by simp⟩
      | cons b s =>
        by_cases hb : b ≠ 0x82
        · exact ⟨false, by simp [ha, hb], by simp⟩
        · cases s with
          | nil => exact ⟨false, by simp [ha, hb], by simp⟩
          | cons c s => exact ⟨_, by simp [ha, hb]; rfl, by simp⟩

theorem utf8Size_safe (s : Str) (onlyMB : Bool) :
    ∃ n, utf8Size s onlyMB = some n ∧ n ≤ s.length := by
  have key : ∀ (k : Nat) (s : Str) (fuel n : Nat), s.length = k → s.length < fuel →
      ∃ m, sizeLoop onlyMB fuel (s ++ [0]) n = some m ∧ m ≤ n + s.length := by
    intro k
    induction k using Nat.strongRecOn with
    | ind k ih =>
    intro s fuel n hk hf
    obtain ⟨fuel, rfl⟩ : ∃ f, fuel = f + 1 := ⟨fuel - 1, by omega⟩
    cases s with
    | nil => exact ⟨n, by simp [sizeLoop], by omega⟩
    | cons b s =>
      by_cases h0 : b = 0
      · subst h0; exact ⟨n, by simp [sizeLoop], by omega⟩
      · obtain ⟨cm, hcm, hcm3⟩ := isCombiningMark_safe (b :: s) (by simp) []
        obtain ⟨vs, hvs, hvs3⟩ := isVariationSelector_safe (b :: s) (by simp) []
        have step : sizeLoop onlyMB (fuel + 1) (b :: s ++ [0]) n =
            if cm = true ∨ vs = true then
              (advance varSelectorSize (b :: s ++ [0])).bind fun i' => sizeLoop onlyMB fuel i' n
            else sizeLoop onlyMB fuel (s ++ [0])
              (n + if onlyMB then (if b.toNat &&& 0xc0 = 0xc0 then 1 else 0)
                else (if b.toNat &&& 0xc0 ≠ 0x80 then 1 else 0)) := by
          rw [sizeLoop.eq_def]
          simp only [hcm, hvs, Option.bind_eq_bind, Option.bind_some]
          simp only [List.cons_append, h0, if_false]
          cases cm <;> cases vs <;> cases onlyMB <;> simp
        rw [step]
        simp only [List.length_cons] at hk hf hcm3 hvs3 ⊢
        split
        · rename_i hm
          have h3 : 3 ≤ s.length + 1 := hm.elim hcm3 hvs3
          rw [advance, varSelectorSize, if_pos (by simp; omega)]
          simp only [Option.bind_some]
          rw [List.drop_append_of_le_length (by simp; omega)]
          have hdl : ((b :: s).drop 3).length = s.length - 2 := by simp
          obtain ⟨m, hm1, hm2⟩ := ih (s.length - 2) (by omega) ((b :: s).drop 3) fuel n hdl (by omega)
          exact ⟨m, hm1, by omega⟩
        · obtain ⟨m, hm1, hm2⟩ := ih s.length (by omega) s fuel
            (n + if onlyMB then (if b.toNat &&& 0xc0 = 0xc0 then 1 else 0)
                else (if b.toNat &&& 0xc0 ≠ 0x80 then 1 else 0)) rfl (by omega)
          refine ⟨m, hm1, ?_⟩
          revert hm2
          split <;> split <;> intro hm2 <;> omega
  obtain ⟨m, h1, h2⟩ := key s.length s (s.length + 1) 0 rfl (by omega)
  exact ⟨m, h1, by omega⟩

/-! ## Selectors -/

theorem encodeChar_length {c : Char} (h : 128 ≤ c.toNat) :
    2 ≤ (String.utf8EncodeChar c).length ∧ (String.utf8EncodeChar c).length ≤ 4 := by
  rw [utf8EncodeChar_eq_enc]
  rcases enc_bytes (char_isScalar c) h with ⟨_, b1, b2, he, _⟩ |
    ⟨_, _, b1, b2, b3, he, _⟩ | ⟨_, b1, b2, b3, b4, he, _⟩ <;> simp [he]


theorem isVariationSelector_three (a b c : UInt8) :
    isVariationSelector [a, b, c, 0] = some (a == 0xef && b == 0xb8 && (c ≥ 0x80 && c ≤ 0x8f)) := by
  unfold isVariationSelector
  by_cases ha : a = 0xef
  · by_cases hb : b = 0xb8 <;> simp [ha, hb]
  · simp [ha]

theorem selector_three {a b c : UInt8} :
    (a == 0xef && b == 0xb8 && (c ≥ 0x80 && c ≤ 0x8f)) = true ↔
      ∃ v : Char, IsSelector v ∧ [a, b, c] = String.utf8EncodeChar v := by
  constructor
  · intro h
    simp only [Bool.and_eq_true, beq_iff_eq, decide_eq_true_eq, ge_iff_le, byte_le_iff] at h
    obtain ⟨⟨rfl, rfl⟩, h1, h2⟩ := h
    have h1 : 128 ≤ c.toNat := h1
    have h2 : c.toNat ≤ 143 := h2
    have hs : IsScalar (0xfe00 + (c.toNat - 128)) := by simp only [IsScalar]; omega
    refine ⟨charOf _ hs, ?_, ?_⟩
    · unfold IsSelector; rw [charOf_toNat]; omega
    · rw [utf8EncodeChar_eq_enc, charOf_toNat]
      have : ∀ n < 16, enc (0xfe00 + n) = [0xef, 0xb8, UInt8.ofNat (128 + n)] := by decide
      rw [this _ (by omega), show 128 + (c.toNat - 128) = c.toNat by omega, byte_ofNat_toNat]
  · rintro ⟨v, hv, he⟩
    have h := isVariationSelector_char (selector_ge hv) [0]
    rw [← he, decide_eq_true hv] at h
    have h' := isVariationSelector_three a b c
    simp only [List.cons_append, List.nil_append] at h
    rw [h] at h'
    simpa using h'.symm

theorem isCharWith_total (s : Str) : ∃ b, isCharWithVariationSelector s = some b := by
  unfold isCharWithVariationSelector varSelectorSize minMBSize maxMBSize
  split
  · rename_i h
    obtain ⟨a, b, c, hd⟩ : ∃ a b c, s.drop (s.length - 3) = [a, b, c] := by
      have hl : (s.drop (s.length - 3)).length = 3 := by rw [List.length_drop]; omega
      match s.drop (s.length - 3), hl with
      | [a, b, c], _ => exact ⟨a, b, c, rfl⟩
    rw [hd]
    exact ⟨_, isVariationSelector_three a b c⟩
  · exact ⟨false, rfl⟩

theorem isCharWith_iff (s : Str) :
    isCharWithVariationSelector s = some true ↔
      ∃ (p : Str) (v : Char), IsSelector v ∧ 2 ≤ p.length ∧ p.length ≤ 4 ∧
        s = p ++ String.utf8EncodeChar v := by
  unfold isCharWithVariationSelector varSelectorSize minMBSize maxMBSize
  constructor
  · intro h
    split at h
    · rename_i hl
      obtain ⟨a, b, c, hd⟩ : ∃ a b c, s.drop (s.length - 3) = [a, b, c] := by
        have hl : (s.drop (s.length - 3)).length = 3 := by rw [List.length_drop]; omega
        match s.drop (s.length - 3), hl with
        | [a, b, c], _ => exact ⟨a, b, c, rfl⟩
      rw [hd] at h
      simp only [List.cons_append, List.nil_append, isVariationSelector_three, Option.some.injEq] at h
      obtain ⟨v, hv, he⟩ := selector_three.mp h
      refine ⟨s.take (s.length - 3), v, hv, ?_, ?_, ?_⟩
      · rw [List.length_take]; omega
      · rw [List.length_take]; omega
      · rw [← he, ← hd, List.take_append_drop]
    · simp at h
  · rintro ⟨p, v, hv, h1, h2, rfl⟩
    have h3 := selector_length hv
    rw [if_pos (by rw [List.length_append, h3]; omega), List.length_append, h3]
    rw [show p.length + 3 - 3 = p.length by omega, List.drop_left]
    rw [isVariationSelector_char (selector_ge hv), decide_eq_true hv]

end KT
