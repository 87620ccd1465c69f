import Verif.Props.Converter
/-!
# C28: the place of characters that aren't converted

`C28_in_place` splits the result at a character that isn't kana; for a Romaji target it leaves out text
with iteration marks after the character, because such a mark may repeat kana from before it. The part
of the result up to the character is the same in this case as well.
-/
namespace KT
open Spec
namespace Converter

theorem doneGroup_grows (c : Converter) (t : CharType) (k : Str) (st : FromState) (dt : DoneType) (ns : State)
    {r : FromState} (h : c.doneGroup t k st dt ns = .ok r) : st.result <+: r.result := by
  unfold doneGroup at h
  cases hp : c.processKana t st.kanaGroup st.prevKana (dt == .prolong) with
  | ok v =>
    rw [hp, Res.bind_ok] at h
    cases h
    simp only
    split <;> simp [List.append_assoc]
  | throw e => rw [hp] at h; cases h
  | ub => rw [hp] at h; cases h

theorem step_grows (c : Converter) (t : CharType) (st : FromState) (k : Str) {r : FromState}
    (h : c.fromKanaStep t st k = .ok r) : st.result <+: r.result := by
  unfold fromKanaStep at h
  split at h
  · exact doneGroup_grows c t k st _ _ h
  · split at h
    · rename_i m _
      cases hd : c.doneGroup t k st .newEmptyGroup with
      | ok d =>
        rw [hd, Res.bind_ok] at h
        cases hv : Res.ofOption (m.get c.target c.flags d.prevKana) with
        | ok v =>
          rw [hv, Res.bind_ok] at h
          cases h
          exact (doneGroup_grows c t k st _ _ hd).trans (List.prefix_append _ _)
        | throw e => rw [hv] at h; cases h
        | ub => rw [hv] at h; cases h
      | throw e => rw [hd] at h; cases h
      | ub => rw [hd] at h; cases h
    · split at h
      · unfold processOneKana at h
        split at h
        · exact doneGroup_grows c t k st _ _ h
        · split at h
          · exact doneGroup_grows c t k st _ _ h
          · split at h
            · split at h
              · cases h; exact List.prefix_refl _
              · by_cases hy : st.kanaGroup.length ≤ (if st.state = .smallTsu then 3 else 0)
                · rw [if_pos hy] at h; cases h; exact List.prefix_refl _
                · rw [if_neg hy] at h; exact doneGroup_grows c t k st _ _ h
            · exact doneGroup_grows c t k st _ _ h
      · cases hd : c.doneGroup t k st .newEmptyGroup with
        | ok d =>
          rw [hd, Res.bind_ok] at h
          have hg := doneGroup_grows c t k st _ _ hd
          split at h
          · split at h <;> (cases h; exact hg.trans (List.prefix_append _ _))
          · cases h; exact hg.trans (List.prefix_append _ _)
        | throw e => rw [hd] at h; cases h
        | ub => rw [hd] at h; cases h

theorem finish_grows (c : Converter) (t : CharType) : ∀ (ks : List Str) (st : FromState) {r : Str},
    c.finish t st ks = .ok r → st.result <+: r := by
  intro ks
  induction ks with
  | nil =>
    intro st r h
    simp only [finish, fromKanaLoop, Res.bind_ok] at h
    cases hp : c.processKana t st.kanaGroup st.prevKana with
    | ok v => rw [hp, Res.bind_ok] at h; cases h; exact List.prefix_append _ _
    | throw e => rw [hp] at h; cases h
    | ub => rw [hp] at h; cases h
  | cons k ks ih =>
    intro st r h
    rw [finish_cons] at h
    cases hp : c.fromKanaStep t st k with
    | ok v => rw [hp] at h; exact (step_grows c t st k hp).trans (ih v h)
    | throw e => rw [hp] at h; cases h
    | ub => rw [hp] at h; cases h

/-- The part of the result up to a character that isn't kana. -/
theorem fromKana_upTo (c : Converter) {t : CharType} (ht : t ≠ .romaji) {a b : List Str} {p ra r : Str}
    (h1 : p ≠ prolongMark) (h2 : findIterationMark t p = none) (h3 : findKana t p = none)
    (ha : c.fromKanaChars t a = .ok ra) (hr : c.fromKanaChars t (a ++ p :: b) = .ok r) :
    ra ++ otherOut c p <+: r := by
  have hs : c.fromKanaChars t (a ++ [p]) = .ok (ra ++ otherOut c p ++ []) :=
    fromKana_split c ht h1 h2 h3 (.inr (by simp)) ha (by rfl)
  rw [List.append_nil] at hs
  rw [show a ++ p :: b = (a ++ [p]) ++ b by simp] at hr
  have hr' : c.finish t {} ((a ++ [p]) ++ b) = .ok r := hr
  have hs' : c.finish t {} (a ++ [p]) = .ok (ra ++ otherOut c p) := hs
  unfold finish at hr' hs'
  rw [fromKanaLoop_append] at hr'
  cases hl : c.fromKanaLoop t {} (a ++ [p]) with
  | ok st =>
    rw [hl, Res.bind_ok] at hs'
    rw [hl] at hr'
    have hst : st.kanaGroup = [] := by
      rw [fromKanaLoop_append] at hl
      cases hl' : c.fromKanaLoop t {} a with
      | ok s0 =>
        rw [hl'] at hl
        simp only [Res.bind, fromKanaLoop] at hl
        cases hp : c.fromKanaStep t s0 p with
        | ok v =>
          rw [hp, Res.bind_ok] at hl
          cases hl
          unfold fromKanaStep at hp
          rw [if_neg h1, h2] at hp
          simp only [h3, Option.isSome_none, Bool.false_eq_true, if_false] at hp
          cases hd : c.doneGroup t p s0 .newEmptyGroup with
          | ok d =>
            have hdg : d.kanaGroup = [] := by
              unfold doneGroup at hd
              cases hk : c.processKana t s0.kanaGroup s0.prevKana (DoneType.newEmptyGroup == .prolong) with
              | ok w => rw [hk, Res.bind_ok] at hd; cases hd; rfl
              | throw e => rw [hk] at hd; cases hd
              | ub => rw [hk] at hd; cases hd
            rw [hd, Res.bind_ok] at hp
            split at hp
            · split at hp <;> (cases hp; exact hdg)
            · cases hp; exact hdg
          | throw e => rw [hd] at hp; cases hp
          | ub => rw [hd] at hp; cases hp
        | throw e => rw [hp] at hl; cases hl
        | ub => rw [hp] at hl; cases hl
      | throw e => rw [hl'] at hl; cases hl
      | ub => rw [hl'] at hl; cases hl
    have he : st.result = ra ++ otherOut c p := by
      rw [hst] at hs'
      unfold processKana at hs'
      simp only [ne_eq, not_true, if_false, Bool.false_eq_true] at hs'
      simpa using hs'
    have := finish_grows c t b st (r := r) (by unfold finish; exact hr')
    rwa [he] at this
  | throw e => rw [hl] at hs'; cases hs'
  | ub => rw [hl] at hs'; cases hs'

end Converter
open Converter

/-- Whatever follows (also iteration marks), the result for text up to a character that isn't kana of the
source is followed by this character (or by what a wide delimiter stands for, for a Romaji target). -/
theorem C28_place (c : Converter) (t : CharType) (ht : t ≠ .romaji) (hc : c.target ≠ t)
    (a b : List Char) (x : Char) (hs : ∀ y ∈ a ++ x :: b, Simple y)
    (hx : ¬ IsLetter (t == .katakana) x ∧ ¬ IsIterationMark (t == .katakana) x ∧ x ≠ 'ー') :
    ∃ ra rest, c.convertFrom t (utf8Encode a) = .ok ra ∧
      c.convertFrom t (utf8Encode (a ++ x :: b)) =
        .ok (ra ++ otherOut c (String.utf8EncodeChar x) ++ rest) := by
  obtain ⟨ra, h1⟩ := convertFrom_ok c t (utf8Encode a)
  obtain ⟨r, h2⟩ := convertFrom_ok c t (utf8Encode (a ++ x :: b))
  have h1' := h1
  have h2' := h2
  rw [convertFrom_simple c ht hc (fun y hy => hs y (by simp [hy]))] at h1'
  rw [convertFrom_simple c ht hc hs, List.map_append, List.map_cons] at h2'
  obtain ⟨rest, he⟩ := Converter.fromKana_upTo c ht
    (fun h => hx.2.2 (encodeChar_inj (h.trans (show prolongMark = String.utf8EncodeChar 'ー' from rfl))))
    (by
      cases hf : findIterationMark t (String.utf8EncodeChar x) with
      | none => rfl
      | some m => exact absurd ((iteration_char ht).mp ⟨m, hf⟩) hx.2.1)
    (by
      cases hf : findKana t (String.utf8EncodeChar x) with
      | none => rfl
      | some k => exact absurd ((letter_char ht).mp ⟨k, hf⟩) hx.1)
    h1' h2'
  exact ⟨ra, rest, h1, by rw [h2, he]⟩

/-- The mark after the character repeats kana from before it. -/
example : (⟨.romaji, .none, true⟩ : Converter).convertFrom .hiragana (u8!"か漢ゝ") = .ok u8!"ka漢ka" := by
  decide +kernel

end KT
