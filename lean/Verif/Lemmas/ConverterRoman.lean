import Verif.Lemmas.ConverterMarks
/-!
# Converting text in standard kana to Romaji part by part
-/
namespace KT
open Spec
namespace Converter

/-- What may follow a part of a text. -/
def Follows (t : CharType) (Y : List Str) : Prop :=
  Y = [] ∨ (∃ y B, y ∈ allKana ∧ y.small = false ∧ Y = y.str t :: B) ∨
    ((∀ p ∈ Y, findIterationMark t p = none) ∧ ∃ y B, y ≠ prolongMark ∧ findKana t y = none ∧ Y = y :: B)

/-- The state after っ and letters that are read together. -/
theorem tsu_start (c : Converter) {t : CharType} (ht : t ≠ .romaji) {P : List Kana} {k : Kana} (hP : Reads t P k) :
    ∃ s, c.fromKanaLoop t {} (smallTsu.str t :: P.map (·.str t)) = .ok ⟨s, [], chars t (smallTsu :: P), none⟩ ∧
      After t P k (smallTsu :: P) ⟨s, [], chars t (smallTsu :: P), none⟩ := by
  have h0 : c.fromKanaStep t {} (smallTsu.str t) = .ok ⟨.smallTsu, [], smallTsu.str t, none⟩ := by
    rw [step_letter_kana c ht smallTsu_mem]
    unfold processOneKana
    rw [if_pos ((containsKana_iff ht smallTsu_mem smallTsu_mem).mpr rfl), doneGroup_empty c rfl]
    simp
  have l1 : (smallTsu.str t).length = 3 := mono_length3 smallTsu_mem (by decide) t
  have first : ∀ x, x ∈ allKana → Normal x → c.fromKanaStep t ⟨.smallTsu, [], smallTsu.str t, none⟩ (x.str t) =
      .ok ⟨.smallTsu, [], smallTsu.str t ++ x.str t, none⟩ := by
    intro x hx hn
    rw [step_letter_kana c ht hx]
    unfold processOneKana
    rw [if_neg (fun h => hn.1 ((containsKana_iff ht smallTsu_mem hx).mp h)),
      if_neg (fun h => hn.2.1 ((containsKana_iff ht kanaN_mem hx).mp h)), if_pos (by simp),
      if_neg (fun h => by have := (mem_smallKana ht hx).mp h; rw [hn.2.2] at this; cases this), if_pos (by simp [l1])]
  have hl : Letters (smallTsu :: P) := by
    intro j hj
    rcases List.mem_cons.mp hj with rfl | hj
    · exact ⟨smallTsu_mem, by decide⟩
    · exact (hP.mem ht).2.2 j hj
  cases hP with
  | one h1 h2 h3 =>
    refine ⟨.smallTsu, ?_, ⟨⟨.tsuOne h3, hl, rfl, prevOk_none⟩, .one h1 h2 h3, Or.inr rfl⟩⟩
    simp only [List.map_cons, List.map_nil, fromKanaLoop, h0, first k h1 h3, Res.bind_ok]
    simp [chars]
  | @two x s _ h1 h2 h3 h4 h5 h6 h7 =>
    refine ⟨.done, ?_, ⟨⟨.tsuTwo h3 h6, hl, rfl, prevOk_none⟩, .two h1 h2 h3 h4 h5 h6 h7, Or.inr rfl⟩⟩
    simp only [List.map_cons, List.map_nil, fromKanaLoop, h0, first x h1 h3, Res.bind_ok]
    rw [step_letter_kana c ht h4, small_step c ht h4 h6 (by simp)]
    simp [chars]

theorem macron_long (c : Converter) {k : Kana} (hk : k ∈ allKana) (sok : Bool) {s : Str} {p : Option Kana}
    (h : c.processKanaMacron true none k sok = .ok (s, p)) : p = none := by
  rw [macron_eq] at h
  cases he : (if sok = true then Res.ofOption (k.getSokuonRomaji c.flags) else c.get k) with
  | ok v =>
    rw [he] at h
    simp only [Res.bind] at h
    unfold macronTail at h
    simp only [if_true] at h
    repeat' split at h
    all_goals first | (simp only [Res.ok.injEq, Prod.mk.injEq] at h; exact h.2.symm) | cases h
  | throw e => rw [he] at h; cases h
  | ub => rw [he] at h; cases h

/-- What is written for letters that are read together, also after っ. -/
theorem group_reads (c : Converter) {t : CharType} (ht : t ≠ .romaji) (hc : c.target = .romaji) {P : List Kana} {k : Kana}
    (hP : Reads t P k) (d l : Bool) (hd : d = true → Doubles k) :
    ∃ q, c.processKana t (chars t (if d then smallTsu :: P else P)) none l =
      .ok (macronOut c l (if d then sokuonOut c k else kanaOut c k), q) ∧ (l = true → q = none) := by
  obtain ⟨hk, he, hl⟩ := hP.mem ht
  have hne : k.str t ≠ [] := fun e => str_length k hk t e
  obtain ⟨q, hq⟩ := macron_out c l none hk d
  refine ⟨q, ?_, fun e => macron_long c hk d (e ▸ hq)⟩
  rw [← hq]
  cases d with
  | false =>
    simp only [Bool.false_eq_true, if_false, he]
    unfold processKana
    rw [if_pos hne, found ht hk]
  | true =>
    simp only [if_true]
    have e : chars t (smallTsu :: P) = smallTsu.str t ++ k.str t := by rw [← he]; simp [chars]
    have l1 : (smallTsu.str t).length = 3 := mono_length3 smallTsu_mem (by decide) t
    have hn : findKana t (smallTsu.str t ++ k.str t) = none := by
      cases hP with
      | one h1 h2 h3 =>
        cases hf : findKana t (smallTsu.str t ++ k.str t) with
        | none => rfl
        | some d => exact absurd rfl (digraph_found ht ⟨smallTsu_mem, by decide⟩ ⟨h1, h2⟩ hf).2.1
      | two h1 h2 h3 h4 h5 h6 h7 =>
        apply find_long ht
        rw [((found_iff ht).mp h7).2.symm, List.length_append, List.length_append, l1, mono_length3 h1 h2, mono_length3 h4 h5]
        decide
    rw [e]
    unfold processKana
    rw [if_pos (by simp [hne]), hn]
    simp only
    rw [if_pos (by
      rw [List.length_append, l1]
      have : (k.str t).length ≠ 0 := fun h => hne (List.length_eq_zero_iff.mp h)
      omega), List.take_left' l1, List.drop_left' l1, found ht hk]
    simp only
    rw [if_pos ⟨hc, (containsKana_iff ht smallTsu_mem smallTsu_mem).mpr rfl, hd rfl⟩]

/-- A syllable at the beginning of a text. -/
theorem finish_syllable (c : Converter) {t : CharType} (ht : t ≠ .romaji) (hc : c.target = .romaji) {P : List Kana} {k : Kana}
    (hP : Reads t P k) (d l : Bool) (hd : d = true → Doubles k) {Y : List Str} (hY : Follows t Y) {r : Str}
    (hr : c.finish t {} Y = .ok r) :
    c.finish t {} ((if d then [smallTsu.str t] else []) ++ P.map (·.str t) ++ (if l then [prolongMark] else []) ++ Y) =
      .ok (macronOut c l (if d then sokuonOut c k else kanaOut c k) ++ r) := by
  obtain ⟨s, g, hg, e, hA⟩ : ∃ s g, g = (if d then smallTsu :: P else P) ∧
      c.fromKanaLoop t {} ((if d then [smallTsu.str t] else []) ++ P.map (·.str t)) = .ok ⟨s, [], chars t g, none⟩ ∧
      After t P k g ⟨s, [], chars t g, none⟩ := by
    cases d with
    | false => obtain ⟨s, h1, h2⟩ := reads_start c ht hP; exact ⟨s, P, rfl, by simpa using h1, h2⟩
    | true => obtain ⟨s, h1, h2⟩ := tsu_start c ht hP; exact ⟨s, _, rfl, by simpa using h1, h2⟩
  obtain ⟨q, hq, hq'⟩ := group_reads c ht hc hP d l hd
  rw [← hg] at hq
  rw [List.append_assoc, finish_append c t e]
  cases l with
  | false =>
    have hR : c.finish t ⟨s, [], chars t g, none⟩ [] = .ok (macronOut c false (if d then sokuonOut c k else kanaOut c k)) := by
      unfold finish
      simp only [fromKanaLoop, Res.bind_ok, hq, List.nil_append]
    have := after_units c ht hc hY hr [] (by simp) hA hR
    simpa using this
  | true =>
    obtain rfl := hq' rfl
    simp only [if_true, List.cons_append, List.nil_append]
    rw [finish_cons]
    unfold fromKanaStep
    rw [if_pos rfl]
    unfold doneGroup
    have hN : ¬ (c.target = .romaji ∧ kanaN.containsKana (chars t g) = true ∧ prolongMark ∈ KT.afterN t) := by
      rintro ⟨_, _, h⟩
      exact other_not_afterN ht (prolong_none ht) h
    rw [show (DoneType.prolong == DoneType.prolong) = true from rfl, hq, Res.bind_ok]
    simp only [hN, if_false, reduceCtorEq, Res.bind, List.nil_append]
    exact finish_upTo c t _ _ {} ⟨⟨rfl, rfl, by simp⟩, Or.inr rfl⟩ hr

/-- Does the text start with a letter that requires an apostrophe? -/
def startsAfterN (t : CharType) (Y : List Str) : Prop := ∃ y ∈ Y.head?, y ∈ KT.afterN t

instance (t : CharType) (Y : List Str) : Decidable (startsAfterN t Y) := by unfold startsAfterN; infer_instance

/-- ん at the beginning of a text. -/
theorem finish_n (c : Converter) {t : CharType} (ht : t ≠ .romaji) (hc : c.target = .romaji) {Y : List Str} (hY : Follows t Y)
    {r : Str} (hr : c.finish t {} Y = .ok r) :
    c.finish t {} (kanaN.str t :: Y) = .ok (kanaOut c kanaN ++ (if startsAfterN t Y then [apostrophe] else []) ++ r) := by
  have hne : kanaN.str t ≠ [] := fun e => str_length kanaN kanaN_mem t e
  have h0 : c.fromKanaStep t {} (kanaN.str t) = .ok ⟨.done, [], kanaN.str t, none⟩ := by
    rw [step_letter_kana c ht kanaN_mem]
    unfold processOneKana
    have : kanaN ≠ smallTsu := by decide
    rw [if_neg (fun h => this ((containsKana_iff ht smallTsu_mem kanaN_mem).mp h)),
      if_pos ((containsKana_iff ht kanaN_mem kanaN_mem).mpr rfl), doneGroup_empty c rfl]
    simp
  obtain ⟨q, hq⟩ := macron_out c false none kanaN_mem false
  have hp : c.processKana t (kanaN.str t) none false = .ok (kanaOut c kanaN, q) := by
    unfold processKana
    rw [if_pos hne, found ht kanaN_mem]
    simpa [macronOut] using hq
  have hdone : ∀ (y : Str) (dt : DoneType) (ns : State), dt ≠ .prolong → c.doneGroup t y ⟨.done, [], kanaN.str t, none⟩ dt ns =
      .ok ⟨ns, kanaOut c kanaN ++ (if y ∈ KT.afterN t then [apostrophe] else []), if dt = .newGroup then y else [], q⟩ := by
    intro y dt ns hdt
    unfold doneGroup
    simp only [show (dt == .prolong) = false by cases dt <;> simp_all, hp, Res.bind_ok, hc, true_and, List.nil_append,
      (containsKana_iff ht kanaN_mem kanaN_mem).mpr rfl]
    split <;> simp
  rw [finish_cons, h0]
  show c.finish t _ Y = _
  rcases hY with rfl | ⟨y, B, hy, hsm, rfl⟩ | ⟨hm, y, B, hpr, hf, rfl⟩
  · have : r = [] := by
      simp [finish, fromKanaLoop, processKana] at hr
      exact hr
    subst this
    simp only [finish, fromKanaLoop, Res.bind_ok, hp, startsAfterN]
    simp
  · rw [finish_cons, step_letter_kana c ht hy] at hr ⊢
    obtain ⟨s1, h1, e1⟩ : ∃ s1, Shape s1 [y] ∧ c.processOneKana t (y.str t) ⟨.done, [], kanaN.str t, none⟩ =
        c.doneGroup t (y.str t) ⟨.done, [], kanaN.str t, none⟩ .newGroup s1 := by
      have hL : Letters [kanaN] := by intro j hj; simp at hj; subst hj; exact ⟨kanaN_mem, by decide⟩
      rcases processOneKana_cases c ht (st := ⟨.done, [], kanaN.str t, none⟩) .n hL hy rfl (by simp [chars]) with
        ⟨s', h3, h4⟩ | ⟨s', h3, h4⟩
      · exfalso
        simp only [List.cons_append, List.nil_append] at h3
        cases h3 with
        | two _ h6 _ => exact h6 rfl
      · exact ⟨s', h3, h4⟩
    obtain ⟨s2, h2, e2⟩ : ∃ s2, Shape s2 [y] ∧ c.processOneKana t (y.str t) {} = .ok ⟨s2, [], y.str t, none⟩ := by
      have hs := holds_start t
      rcases processOneKana_cases c ht hs.shape hs.letters hy rfl hs.group with ⟨s', h7, h8⟩ | ⟨s', h7, h8⟩
      · exact ⟨s', h7, by rw [h8]; simp [chars]⟩
      · exact ⟨s', h7, by rw [h8, doneGroup_empty c rfl]; simp⟩
    have := shape_unique hsm h1 h2
    subst this
    rw [e2] at hr
    rw [e1, hdone _ _ _ (by decide)]
    simp only [Res.bind, if_true] at hr ⊢
    simp only [show (startsAfterN t (y.str t :: B)) = (y.str t ∈ KT.afterN t) by simp [startsAfterN]]
    exact finish_upTo c t B _ ⟨s1, [], y.str t, none⟩
      ⟨⟨rfl, rfl, by simp⟩, Or.inl (fun e => str_length y hy t e)⟩ hr
  · have hna := other_not_afterN ht hf
    have : c.fromKanaStep t ⟨.done, [], kanaN.str t, none⟩ y = c.fromKanaStep t ⟨.new, kanaOut c kanaN, [], q⟩ y := by
      unfold fromKanaStep
      rw [if_neg hpr, if_neg hpr, hm y List.mem_cons_self]
      simp only [hf, Option.isSome_none, Bool.false_eq_true, if_false]
      rw [hdone _ _ _ (by decide), doneGroup_empty c rfl]
      simp [hna]
    have hsn : ¬ startsAfterN t (y :: B) := by simpa [startsAfterN] using hna
    rw [finish_cons, this, ← finish_cons, if_neg hsn, List.append_nil]
    exact finish_rest c ht q _ (Or.inl hm) hr

/-- Another character at the beginning of a text. -/
theorem finish_other (c : Converter) {t : CharType} {p : Str} (hpr : p ≠ prolongMark) (hm : findIterationMark t p = none)
    (hf : findKana t p = none) {Y : List Str} {r : Str} (hr : c.finish t {} Y = .ok r) :
    c.finish t {} (p :: Y) = .ok (otherOut c p ++ r) := by
  have : c.fromKanaStep t {} p = .ok ⟨.new, otherOut c p, [], none⟩ := by
    unfold fromKanaStep
    rw [if_neg hpr, hm]
    simp only [hf, Option.isSome_none, Bool.false_eq_true, if_false]
    rw [doneGroup_empty c rfl, Res.bind_ok]
    unfold otherOut
    split
    · cases wideDelimFind p <;> simp
    · simp
  rw [finish_cons, this]
  exact finish_upTo c t _ _ {} ⟨⟨rfl, rfl, by simp⟩, Or.inr rfl⟩ hr

end Converter
end KT
