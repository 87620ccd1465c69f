import Verif.Lemmas.ConverterParse
/-!
# What the converter does with a group of kana
-/
namespace KT
open Spec
namespace Converter

/-- The string for a kana. -/
def kanaOut (c : Converter) (k : Kana) : Str := (k.get c.target c.flags).getD []
/-- The string for a kana after っ. -/
def sokuonOut (c : Converter) (k : Kana) : Str := (k.getSokuonRomaji c.flags).getD []
/-- The prolong mark applied to a string. -/
def macronOut (c : Converter) (pr : Bool) (r : Str) : Str :=
  if pr then
    if c.target ≠ .romaji then r ++ prolongMark
    else match r.getLast? with
      | none => []
      | some b => match macronLetter b with
        | some m => r.dropLast ++ m
        | none => r ++ prolongMark
  else r

/-- The kana can follow a doubled consonant. -/
def Doubles (k : Kana) : Prop := ∃ b ∈ k.romaji.head?, b ∈ repeatingConsonants

instance (k : Kana) : Decidable (Doubles k) := by unfold Doubles; infer_instance

theorem get_kanaOut (c : Converter) {k : Kana} (hk : k ∈ allKana) : c.get k = .ok (kanaOut c k) := by
  obtain ⟨s, h⟩ := get_some hk c.target c.flags
  simp [get, kanaOut, h, Res.ofOption]

theorem macron_out (c : Converter) (pr : Bool) (prev : Option Kana) {k : Kana} (hk : k ∈ allKana)
    (sok : Bool) : ∃ p, c.processKanaMacron pr prev k sok =
      .ok (macronOut c pr (if sok then sokuonOut c k else kanaOut c k), p) := by
  have h : (if sok = true then Res.ofOption (k.getSokuonRomaji c.flags) else c.get k) =
      .ok (if sok then sokuonOut c k else kanaOut c k) := by
    cases sok with
    | true =>
      obtain ⟨b, r, h⟩ := getRomaji_some hk c.flags
      simp [sokuonOut, Kana.getSokuonRomaji, h, Res.ofOption]
    | false => simpa using get_kanaOut c hk
  have hne : c.target = .romaji → (if sok then sokuonOut c k else kanaOut c k) ≠ [] := by
    intro ht
    obtain ⟨b, r, h3⟩ := getRomaji_some hk c.flags
    cases sok with
    | true => simp [sokuonOut, Kana.getSokuonRomaji, h3]
    | false => simp [kanaOut, Kana.get, ht, h3]
  rw [macron_eq, h]
  simp only [Res.bind]
  unfold macronTail macronOut
  split
  · split
    · exact ⟨_, rfl⟩
    · rename_i ht
      have := hne (by simpa using ht)
      revert this
      generalize (if sok = true then sokuonOut c k else kanaOut c k) = s
      intro this
      obtain ⟨b, hb⟩ : ∃ b, s.getLast? = some b := by
        cases s with
        | nil => exact absurd rfl this
        | cons a s => exact ⟨_, List.getLast?_eq_some_getLast (by simp)⟩
      simp only [hb]
      cases macronLetter b
      · exact ⟨_, rfl⟩
      · exact ⟨_, rfl⟩
  · exact ⟨_, rfl⟩

theorem processFirst_out (c : Converter) {t : CharType} (ht : t ≠ .romaji) {k : Kana}
    (hk : k ∈ allKana) : ∃ p, c.processFirstKana t (k.str t) = .ok (kanaOut c k, p) := by
  unfold processFirstKana
  rw [found ht hk]
  obtain ⟨p, h⟩ := macron_out c false none hk false
  exact ⟨p, by simpa [macronOut] using h⟩

/-- Digraphs are made of two letters of the table, the first not っ or ん, in both scripts. -/
theorem digraph_parts {k : Kana} (hk : k ∈ allKana) (hm : k.mono = false) :
    ∃ x ∈ allKana, ∃ s ∈ allKana, x.mono = true ∧ s.mono = true ∧ x ≠ smallTsu ∧ x ≠ kanaN ∧
      k ≠ smallTsu ∧ k ≠ kanaN ∧
      ∀ t, t ≠ .romaji → k.str t = x.str t ++ s.str t := by
  have h : allKana.all (fun k => k.mono || match findKana .hiragana (k.hiragana.take 3), findKana .hiragana (k.hiragana.drop 3) with
    | some x, some s => x.mono && s.mono && x != smallTsu && x != kanaN && k != smallTsu && k != kanaN && k.hiragana == x.hiragana ++ s.hiragana && k.katakana == x.katakana ++ s.katakana
    | _, _ => false) = true := by decide +kernel
  have := List.all_eq_true.mp h k hk
  rw [hm] at this
  simp only [Bool.false_or] at this
  split at this
  · rename_i x s hx hs
    simp only [Bool.and_eq_true, bne_iff_ne, ne_eq, beq_iff_eq] at this
    obtain ⟨⟨⟨⟨⟨⟨⟨h1, h2⟩, h3⟩, h4⟩, h5⟩, h6⟩, h7⟩, h8⟩ := this
    refine ⟨x, (findKana_mem hx).1, s, (findKana_mem hs).1, h1, h2, h3, h4, h5, h6, ?_⟩
    intro t ht
    cases t
    · simp [Kana.str, h7]
    · simp [Kana.str, h8]
    · exact absurd rfl ht
  · cases this

theorem letters_inj {t : CharType} (ht : t ≠ .romaji) {x s y u : Kana} (hx : x ∈ allKana ∧ x.mono = true)
    (hs : s ∈ allKana) (hy : y ∈ allKana ∧ y.mono = true) (hu : u ∈ allKana)
    (h : x.str t ++ s.str t = y.str t ++ u.str t) : x = y ∧ s = u := by
  have l1 := mono_length3 hx.1 hx.2 t
  have l2 := mono_length3 hy.1 hy.2 t
  obtain ⟨h1, h2⟩ := List.append_inj h (by omega)
  exact ⟨str_inj ht hx.1 hy.1 h1, str_inj ht hs hu h2⟩

/-- A digraph that is found has the same letters in both scripts. -/
theorem digraph_found {t : CharType} (ht : t ≠ .romaji) {x s k : Kana} (hx : x ∈ allKana ∧ x.mono = true)
    (hs : s ∈ allKana ∧ s.mono = true) (h : findKana t (x.str t ++ s.str t) = some k) :
    k ∈ allKana ∧ x ≠ smallTsu ∧ x ≠ kanaN ∧ k ≠ smallTsu ∧ k ≠ kanaN ∧
      ∀ t', t' ≠ .romaji → k.str t' = x.str t' ++ s.str t' := by
  obtain ⟨hk, he⟩ := (found_iff ht).mp h
  have hm : k.mono = false := by
    have l1 := mono_length3 hx.1 hx.2 t
    have l2 := mono_length3 hs.1 hs.2 t
    have l := mono_length hk t
    rw [← he, List.length_append] at l
    cases hk : k.mono with
    | true => rw [hk] at l; simp at l; omega
    | false => rfl
  obtain ⟨y, hy, u, hu, h1, h2, h3, h4, h5, h6, h7⟩ := digraph_parts hk hm
  rw [h7 t ht] at he
  obtain ⟨rfl, rfl⟩ := letters_inj ht hx hs.1 ⟨hy, h1⟩ hu he
  exact ⟨hk, h3, h4, h5, h6, h7⟩

/-- Two letters that aren't a digraph, after っ: the case that the converter gets wrong. -/
def Bad (t : CharType) (x s : Kana) : Prop :=
  Normal x ∧ s.small = true ∧ findKana t (x.str t ++ s.str t) = none

/-- `processKana` for a group of two entries. -/
theorem processKana_two (c : Converter) {t : CharType} (ht : t ≠ .romaji) {x k : Kana}
    (hx : x ∈ allKana ∧ x.mono = true) (hk : k ∈ allKana) (hn : findKana t (x.str t ++ k.str t) = none)
    (pr : Bool) : ∃ p, c.processKana t (x.str t ++ k.str t) none pr = .ok
      (if c.target = .romaji ∧ x = smallTsu ∧ Doubles k then macronOut c pr (sokuonOut c k)
        else kanaOut c x ++ macronOut c pr (kanaOut c k), p) := by
  have l1 := mono_length3 hx.1 hx.2 t
  have lk := str_length k hk t
  have hne : x.str t ++ k.str t ≠ [] := by intro h; simp at h; exact lk h.2
  have htake : (x.str t ++ k.str t).take 3 = x.str t := by rw [List.take_left' l1]
  have hdrop : (x.str t ++ k.str t).drop 3 = k.str t := by rw [List.drop_left' l1]
  unfold processKana
  rw [if_pos hne, hn]
  simp only
  rw [if_pos (by
    rw [List.length_append, l1]
    have : (k.str t).length ≠ 0 := by intro h; exact lk (List.length_eq_zero_iff.mp h)
    omega), htake, hdrop, found ht hk]
  simp only [containsKana_iff ht smallTsu_mem hx.1]
  by_cases hc : c.target = .romaji ∧ x = smallTsu ∧ Doubles k
  · rw [if_pos (show c.target = .romaji ∧ x = smallTsu ∧ ∃ b ∈ k.romaji.head?, b ∈ repeatingConsonants from hc),
      if_pos hc]
    simpa using macron_out c pr none hk true
  · rw [if_neg (show ¬ (c.target = .romaji ∧ x = smallTsu ∧ ∃ b ∈ k.romaji.head?, b ∈ repeatingConsonants) from hc),
      if_neg hc]
    obtain ⟨p1, h1⟩ := processFirst_out c ht hx.1
    split
    · obtain ⟨p2, h2⟩ := macron_out c pr p1 hk false
      exact ⟨p2, by rw [h1, Res.bind_ok]; simp only; rw [h2]; simp⟩
    · obtain ⟨p2, h2⟩ := macron_out c pr none hk false
      exact ⟨p1, by rw [h2, Res.bind_ok]; simp only; rw [h1]; simp⟩

/-- The three kinds of groups. -/
inductive GroupKind (t : CharType) (g : List Kana) : Prop where
  | one (k : Kana) (hk : k ∈ allKana) (hN : k = kanaN ↔ g = [kanaN])
      (hs : ∀ t', t' ≠ .romaji → chars t' g = k.str t')
      (ho : ∀ (c : Converter) pr, groupOut c t g pr = macronOut c pr (kanaOut c k))
  | two (x k : Kana) (hx : x ∈ allKana ∧ x.mono = true) (hk : k ∈ allKana) (hxN : x ≠ kanaN)
      (hkN : k ≠ kanaN) (hkt : k ≠ smallTsu) (hd : findKana t (x.str t ++ k.str t) = none)
      (hl : 2 ≤ g.length) (hh : g.head? = some x) 
      (hs : ∀ t', t' ≠ .romaji → chars t' g = x.str t' ++ k.str t')
      (ho : ∀ (c : Converter) pr, groupOut c t g pr =
        if c.target = .romaji ∧ x = smallTsu ∧ Doubles k then macronOut c pr (sokuonOut c k)
        else kanaOut c x ++ macronOut c pr (kanaOut c k))
  | bad (x s : Kana) (hb : Bad t x s) (hg : g = [smallTsu, x, s])
      (ho : ∀ (c : Converter) pr, groupOut c t g pr = kanaOut c smallTsu ++ (x.str t ++ s.str t))

theorem find_long {t : CharType} (ht : t ≠ .romaji) {s : Str} (h : 6 < s.length) : findKana t s = none := by
  cases hf : findKana t s with
  | none => rfl
  | some k =>
    obtain ⟨hk, he⟩ := (found_iff ht).mp hf
    have := mono_length hk t
    rw [← he] at this
    split at this <;> omega

theorem group_kind {t : CharType} (ht : t ≠ .romaji) {g : List Kana} (hg : g ≠ []) (hs : ∃ s, Shape s g)
    (hl : Letters g) : GroupKind t g := by
  have one : ∀ k, k ∈ allKana → g = [k] → GroupKind t g := by
    rintro k hk rfl
    refine .one k hk (by simp) (by simp [chars]) ?_
    intro c pr
    unfold groupOut processKana
    rw [if_pos (by simpa [chars] using str_length k hk t)]
    simp only [chars, List.flatMap_cons, List.flatMap_nil, List.append_nil, found ht hk]
    obtain ⟨p, h⟩ := macron_out c pr none hk false
    rw [h]; rfl
  have two : ∀ x k, x ∈ allKana ∧ x.mono = true → k ∈ allKana → x ≠ kanaN → k ≠ kanaN → k ≠ smallTsu →
      2 ≤ g.length → g.head? = some x → (∀ t', t' ≠ .romaji → chars t' g = x.str t' ++ k.str t') →
      findKana t (x.str t ++ k.str t) = none → GroupKind t g := by
    intro x k hx hk h1 h2 h3 h4 h5 h6 h7
    refine .two x k hx hk h1 h2 h3 h7 h4 h5 h6 ?_
    intro c pr
    obtain ⟨p, h⟩ := processKana_two c ht hx hk h7 pr
    unfold groupOut
    rw [h6 t ht, h]
  have tsuNone : ∀ k, k ∈ allKana ∧ k.mono = true → findKana t (smallTsu.str t ++ k.str t) = none := by
    intro k hk
    cases hf : findKana t (smallTsu.str t ++ k.str t) with
    | none => rfl
    | some d =>
      exact absurd rfl (digraph_found ht ⟨smallTsu_mem, by decide⟩ hk hf).2.1
  obtain ⟨s, hs⟩ := hs
  cases hs with
  | nil => exact absurd rfl hg
  | @one x h1 h2 => exact one x (hl x (by simp)).1 rfl
  | tsu => exact one _ (hl _ (by simp)).1 rfl
  | @tsuOne x h1 =>
    exact two smallTsu x (hl _ (by simp)) (hl x (by simp)).1 (by decide) h1.2.1 h1.1 (by simp) rfl
      (by simp [chars]) (tsuNone x (hl x (by simp)))
  | n => exact one _ (hl _ (by simp)).1 rfl
  | @small s h1 => exact one s (hl s (by simp)).1 rfl
  | @two x s h1 h2 h3 =>
    have hx := hl x (by simp)
    have hs := hl s (by simp)
    have hsp := not_special (Or.inl h3)
    cases hf : findKana t (x.str t ++ s.str t) with
    | none => exact two x s hx hs.1 h2 hsp.2 hsp.1 (by simp) rfl (by simp [chars]) hf
    | some k =>
      obtain ⟨hk, h4, h5, h6, h7, h8⟩ := digraph_found ht hx hs hf
      refine .one k hk (by simp [h7]) (fun t' ht' => by rw [h8 t' ht']; simp [chars]) ?_
      intro c pr
      unfold groupOut
      have : chars t [x, s] = k.str t := by rw [h8 t ht]; simp [chars]
      rw [this]
      unfold processKana
      rw [if_pos (fun h => str_length k hk t h), found ht hk]
      obtain ⟨p, h⟩ := macron_out c pr none hk false
      simp only [h]; rfl
  | @tsuSmall s h1 =>
    have hsp := not_special (Or.inl h1)
    exact two smallTsu s (hl _ (by simp)) (hl s (by simp)).1 (by decide) hsp.2 hsp.1 (by simp) rfl
      (by simp [chars]) (tsuNone s (hl s (by simp)))
  | @tsuTwo x s h1 h2 =>
    have hx := hl x (by simp)
    have hs := hl s (by simp)
    have ht1 := hl smallTsu (by simp)
    have l1 := mono_length3 hx.1 hx.2 t
    have l2 := mono_length3 hs.1 hs.2 t
    have l3 := mono_length3 ht1.1 ht1.2 t
    cases hf : findKana t (x.str t ++ s.str t) with
    | some k =>
      obtain ⟨hk, h4, h5, h6, h7, h8⟩ := digraph_found ht hx hs hf
      refine two smallTsu k ht1 hk (by decide) h7 h6 (by simp) rfl
        (fun t' ht' => by rw [h8 t' ht']; simp [chars]) ?_
      refine find_long ht ?_
      rw [h8 t ht]; simp only [List.length_append]; omega
    | none =>
      refine .bad x s ⟨h1, h2, hf⟩ rfl ?_
      intro c pr
      have hc : chars t [smallTsu, x, s] = smallTsu.str t ++ (x.str t ++ s.str t) := by simp [chars]
      unfold groupOut
      rw [hc]
      unfold processKana
      rw [if_pos (by intro h; simp at h; exact str_length _ ht1.1 t h.1), find_long ht (by simp only [List.length_append]; omega)]
      simp only
      rw [if_pos (by simp only [List.length_append]; omega), List.take_left' l3, List.drop_left' l3, hf]
      simp only
      obtain ⟨p, h⟩ := processFirst_out c ht ht1.1
      rw [h]; rfl

end Converter
end KT
