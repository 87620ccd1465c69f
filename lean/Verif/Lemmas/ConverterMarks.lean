import Verif.Lemmas.ConverterSplit
import Verif.Lemmas.ConverterKana
/-!
# Iteration marks in text that is converted to Romaji
-/
namespace KT
open Spec
namespace Converter

/-! ## The previous kana -/

/-- States that differ in the result so far, and in the previous kana if there is a group. -/
def SameUpTo (pre : Str) (s1 s2 : FromState) : Prop :=
  Same pre s1 s2 ∧ (s2.kanaGroup ≠ [] ∨ s1.prevKana = s2.prevKana)

theorem doneGroup_upTo (c : Converter) (t : CharType) (k : Str) {pre : Str} {s1 s2 r2 : FromState}
    (hs : SameUpTo pre s1 s2) (dt : DoneType) (ns : State) (h : c.doneGroup t k s2 dt ns = .ok r2) :
    ∃ r1, c.doneGroup t k s1 dt ns = .ok r1 ∧ Same pre r1 r2 ∧ r1.prevKana = r2.prevKana := by
  obtain ⟨⟨h1, h2, h3⟩, h4⟩ := hs
  have e : ∀ pr, c.processKana t s1.kanaGroup s1.prevKana pr = c.processKana t s2.kanaGroup s2.prevKana pr := by
    intro pr
    rw [h2]
    rcases h4 with h4 | h4
    · rw [processKana_prev c t h4, processKana_prev c t h4 s2.prevKana]
    · rw [h4]
  unfold doneGroup at *
  rw [e]
  cases hp : c.processKana t s2.kanaGroup s2.prevKana (dt == .prolong) with
  | ok v =>
    obtain ⟨s, q⟩ := v
    rw [hp, Res.bind_ok] at h
    rw [h2, Res.bind_ok]
    cases h
    refine ⟨_, rfl, ⟨rfl, rfl, ?_⟩, rfl⟩
    simp only [h3]
    split <;> simp
  | throw e => rw [hp] at h; cases h
  | ub => rw [hp] at h; cases h

theorem step_upTo (c : Converter) (t : CharType) (k : Str) {pre : Str} {s1 s2 r2 : FromState}
    (hs : SameUpTo pre s1 s2) (h : c.fromKanaStep t s2 k = .ok r2) :
    ∃ r1, c.fromKanaStep t s1 k = .ok r1 ∧ SameUpTo pre r1 r2 := by
  unfold fromKanaStep at *
  split at h
  · rename_i hk
    rw [if_pos hk]
    obtain ⟨r1, h1, h2, h3⟩ := doneGroup_upTo c t k hs _ _ h
    exact ⟨r1, h1, h2, Or.inr h3⟩
  · rename_i hk
    rw [if_neg hk]
    cases hf : findIterationMark t k with
    | some m =>
      rw [hf] at h
      simp only at h ⊢
      cases hd : c.doneGroup t k s2 .newEmptyGroup with
      | ok v =>
        obtain ⟨r1, h1, ⟨e1, e2, e3⟩, h3⟩ := doneGroup_upTo c t k hs _ _ hd
        rw [hd, Res.bind_ok] at h
        rw [h1, Res.bind_ok, h3]
        cases hm : m.get c.target c.flags v.prevKana with
        | none => rw [hm] at h; cases h
        | some s =>
          rw [hm] at h
          cases h
          exact ⟨_, rfl, ⟨e1, e2, by simp [e3]⟩, Or.inr rfl⟩
      | throw e => rw [hd] at h; cases h
      | ub => rw [hd] at h; cases h
    | none =>
      rw [hf] at h
      simp only at h ⊢
      by_cases hk' : (findKana t k).isSome = true
      · rw [if_pos hk'] at h ⊢
        have hne : k ≠ [] := by
          intro e
          rw [e] at hk'
          revert hk'
          cases t <;> decide +kernel
        have happ : ∀ st', SameUpTo pre { s1 with state := st', kanaGroup := s1.kanaGroup ++ k }
            { s2 with state := st', kanaGroup := s2.kanaGroup ++ k } := by
          intro st'
          exact ⟨⟨rfl, by simp [hs.1.2.1], hs.1.2.2⟩, Or.inl (by simp [hne])⟩
        have hdone : ∀ dt ns, c.doneGroup t k s2 dt ns = .ok r2 →
            ∃ r1, c.doneGroup t k s1 dt ns = .ok r1 ∧ SameUpTo pre r1 r2 := by
          intro dt ns h
          obtain ⟨r1, h1, h2, h3⟩ := doneGroup_upTo c t k hs dt ns h
          exact ⟨r1, h1, h2, Or.inr h3⟩
        have e1 := hs.1.1
        have e2 := hs.1.2.1
        unfold processOneKana at *
        rw [e1, e2]
        split at h
        · rename_i h1; rw [if_pos h1]; exact hdone _ _ h
        · rename_i h1; rw [if_neg h1]
          split at h
          · rename_i h2; rw [if_pos h2]; exact hdone _ _ h
          · rename_i h2; rw [if_neg h2]
            split at h
            · rename_i h3; rw [if_pos h3]
              split at h
              · rename_i h4; rw [if_pos h4]
                cases h
                have := happ .done
                rw [e2] at this
                exact ⟨_, rfl, this⟩
              · rename_i h4; rw [if_neg h4]
                by_cases h5 : s2.kanaGroup.length ≤ (if s2.state = .smallTsu then 3 else 0)
                · rw [if_pos h5] at h ⊢
                  cases h
                  have := happ s2.state
                  rw [e2] at this
                  exact ⟨_, rfl, by simpa [← e1] using this⟩
                · rw [if_neg h5] at h ⊢
                  exact hdone _ _ h
            · rename_i h3; rw [if_neg h3]; exact hdone _ _ h
      · rw [if_neg hk'] at h ⊢
        cases hd : c.doneGroup t k s2 .newEmptyGroup with
        | ok v =>
          obtain ⟨r1, h1, ⟨e1, e2, e3⟩, h3⟩ := doneGroup_upTo c t k hs _ _ hd
          rw [hd, Res.bind_ok] at h
          rw [h1, Res.bind_ok]
          split at h
          · rename_i hx; rw [if_pos hx]
            cases hw : wideDelimFind k with
            | none => rw [hw] at h; cases h; exact ⟨_, rfl, ⟨e1, e2, by simp [e3]⟩, Or.inr h3⟩
            | some n => rw [hw] at h; cases h; exact ⟨_, rfl, ⟨e1, e2, by simp [e3]⟩, Or.inr h3⟩
          · rename_i hx; rw [if_neg hx]
            cases h; exact ⟨_, rfl, ⟨e1, e2, by simp [e3]⟩, Or.inr h3⟩
        | throw e => rw [hd] at h; cases h
        | ub => rw [hd] at h; cases h

theorem finish_upTo (c : Converter) (t : CharType) {pre r : Str} : ∀ (ks : List Str) (s1 s2 : FromState),
    SameUpTo pre s1 s2 → c.finish t s2 ks = .ok r → c.finish t s1 ks = .ok (pre ++ r) := by
  intro ks
  induction ks with
  | nil =>
    intro s1 s2 hs h
    exact finish_same c t [] s1 s2 hs.1 (Or.inr (by simp)) h
  | cons k ks ih =>
    intro s1 s2 hs h
    rw [finish_cons] at h ⊢
    cases hp : c.fromKanaStep t s2 k with
    | ok v =>
      obtain ⟨r1, h1, h2⟩ := step_upTo c t k hs hp
      rw [hp] at h
      rw [h1]
      exact ih _ _ h2 h
    | throw e => rw [hp] at h; cases h
    | ub => rw [hp] at h; cases h

/-! ## States that can be reached -/

/-- What holds of a state with the pending letters `g`. -/
structure Holds (t : CharType) (g : List Kana) (st : FromState) : Prop where
  shape : Shape st.state g
  letters : Letters g
  group : st.kanaGroup = chars t g
  prev : PrevOk st.prevKana

theorem holds_start (t : CharType) : Holds t [] {} := ⟨.nil, (by intro _ h; cases h), rfl, prevOk_none⟩

theorem doneGroup_any (c : Converter) {t : CharType} (ht : t ≠ .romaji) {g : List Kana} {st : FromState} (h : Holds t g st)
    (kana : Str) (dt : DoneType) (ns : State) : ∃ p R, PrevOk p ∧ c.doneGroup t kana st dt ns = .ok
      { state := ns, result := R, kanaGroup := if dt = .newGroup then kana else [], prevKana := p } := by
  by_cases hg : g = []
  · subst hg
    exact ⟨_, _, h.prev, doneGroup_empty c h.group kana dt ns⟩
  · obtain ⟨p, hp, e⟩ := doneGroup_group c ht hg h.letters h.group kana dt ns
    exact ⟨p, _, hp, e⟩

theorem step_holds (c : Converter) {t : CharType} (ht : t ≠ .romaji) {g : List Kana} {st : FromState} (h : Holds t g st)
    {k : Str} (hk : IsPiece k) : ∃ st' g' pre, c.fromKanaStep t st k = .ok st' ∧ Holds t g' st' ∧
      g.map (·.str t) ++ [k] = pre ++ g'.map (·.str t) := by
  have hnil : ∀ R p, PrevOk p → Holds t [] { state := .new, result := R, kanaGroup := [], prevKana := p } :=
    fun R p hp => ⟨.nil, (by intro _ h; cases h), rfl, hp⟩
  unfold fromKanaStep
  by_cases hpr : k = prolongMark
  · rw [if_pos hpr]
    obtain ⟨p, R, hp, e⟩ := doneGroup_any c ht h k .prolong .new
    exact ⟨_, [], g.map (·.str t) ++ [k], e, hnil _ _ hp, by simp⟩
  · rw [if_neg hpr]
    cases hm : findIterationMark t k with
    | some m =>
      simp only
      obtain ⟨p, R, hp, e⟩ := doneGroup_any c ht h k .newEmptyGroup .new
      obtain ⟨s, hs⟩ := mark_get (m := m) hp c.target c.flags
      rw [e, Res.bind_ok]
      simp only [hs, Res.ofOption, Res.bind_ok]
      exact ⟨_, [], g.map (·.str t) ++ [k], rfl, hnil _ _ hp, by simp⟩
    | none =>
      simp only
      cases hf : findKana t k with
      | some k' =>
        obtain ⟨he, hk', hmono⟩ := piece_mono ht hk hf
        subst he
        simp only [Option.isSome_some, if_true]
        rcases processOneKana_cases c ht h.shape h.letters hk' rfl h.group with ⟨s', h3, h4⟩ | ⟨s', h3, h4⟩
        · refine ⟨_, g ++ [k'], [], h4, ⟨h3, ?_, rfl, h.prev⟩, by simp⟩
          intro j hj
          rcases List.mem_append.mp hj with h' | h'
          · exact h.letters j h'
          · simp at h'; subst h'; exact ⟨hk', hmono⟩
        · obtain ⟨p, R, hp, e⟩ := doneGroup_any c ht h (k'.str t) .newGroup s'
          refine ⟨_, [k'], g.map (·.str t), h4.trans e, ⟨h3, ?_, by simp [chars], hp⟩, by simp⟩
          intro j hj
          simp at hj; subst hj; exact ⟨hk', hmono⟩
      | none =>
        simp only [Option.isSome_none, Bool.false_eq_true, if_false]
        obtain ⟨p, R, hp, e⟩ := doneGroup_any c ht h k .newEmptyGroup .new
        rw [e, Res.bind_ok]
        split
        · cases wideDelimFind k with
          | none => exact ⟨_, [], g.map (·.str t) ++ [k], rfl, hnil _ _ hp, by simp⟩
          | some n => exact ⟨_, [], g.map (·.str t) ++ [k], rfl, hnil _ _ hp, by simp⟩
        · exact ⟨_, [], g.map (·.str t) ++ [k], rfl, hnil _ _ hp, by simp⟩

theorem loop_holds (c : Converter) {t : CharType} (ht : t ≠ .romaji) : ∀ (ks : List Str), (∀ p ∈ ks, IsPiece p) →
    ∀ (g : List Kana) (st : FromState), Holds t g st → ∃ st' g' pre, c.fromKanaLoop t st ks = .ok st' ∧ Holds t g' st' ∧
      g.map (·.str t) ++ ks = pre ++ g'.map (·.str t) := by
  intro ks
  induction ks with
  | nil => intro _ g st h; exact ⟨st, g, [], rfl, h, by simp⟩
  | cons k ks ih =>
    intro hps g st h
    obtain ⟨st1, g1, pre1, e1, h1, s1⟩ := step_holds c ht h (hps k List.mem_cons_self)
    obtain ⟨st2, g2, pre2, e2, h2, s2⟩ := ih (fun p hp => hps p (List.mem_cons_of_mem _ hp)) g1 st1 h1
    refine ⟨st2, g2, pre1 ++ pre2, ?_, h2, ?_⟩
    · rw [fromKanaLoop, e1, Res.bind_ok, e2]
    · rw [show k :: ks = [k] ++ ks from rfl, ← List.append_assoc, s1, List.append_assoc, s2, List.append_assoc]

/-! ## Letters that are read as one kana -/

inductive Reads (t : CharType) : List Kana → Kana → Prop where
  | one {k} : k ∈ allKana → k.mono = true → Normal k → Reads t [k] k
  | two {x s k} : x ∈ allKana → x.mono = true → Normal x → s ∈ allKana → s.mono = true → s.small = true →
      findKana t (x.str t ++ s.str t) = some k → Reads t [x, s] k

theorem Reads.mem {t : CharType} (ht : t ≠ .romaji) {P : List Kana} {k : Kana} (h : Reads t P k) :
    k ∈ allKana ∧ chars t P = k.str t ∧ Letters P := by
  cases h with
  | one h1 h2 h3 => exact ⟨h1, by simp [chars], by intro j hj; simp at hj; subst hj; exact ⟨h1, h2⟩⟩
  | two h1 h2 h3 h4 h5 h6 h7 =>
    obtain ⟨hk, he⟩ := (found_iff ht).mp h7
    refine ⟨hk, by simp [chars, he], ?_⟩
    intro j hj
    simp at hj
    rcases hj with rfl | rfl
    · exact ⟨h1, h2⟩
    · exact ⟨h4, h5⟩

/-- The state after letters that are read as one kana. -/
structure After (t : CharType) (P : List Kana) (k : Kana) (g : List Kana) (st : FromState) : Prop where
  holds : Holds t g st
  reads : Reads t P k
  group : g = P ∨ g = smallTsu :: P

theorem step_letter_kana (c : Converter) {t : CharType} (ht : t ≠ .romaji) {k : Kana} (hk : k ∈ allKana) (st : FromState) :
    c.fromKanaStep t st (k.str t) = c.processOneKana t (k.str t) st := by
  unfold fromKanaStep
  have h1 : k.str t ≠ prolongMark := by
    intro e
    have := found ht hk
    rw [e, prolong_none ht] at this
    cases this
  have h2 : findIterationMark t (k.str t) = none := by
    cases hm : findIterationMark t (k.str t) with
    | none => rfl
    | some m =>
      have := mark_none ht hm
      rw [found ht hk] at this
      cases this
  rw [if_neg h1, h2]
  simp only [found ht hk, Option.isSome_some, if_true]

theorem small_step (c : Converter) {t : CharType} (ht : t ≠ .romaji) {s : Kana} (hs : s ∈ allKana) (hsm : s.small = true)
    {st : FromState} (h : st.state ≠ .done) :
    c.processOneKana t (s.str t) st = .ok { st with state := .done, kanaGroup := st.kanaGroup ++ s.str t } := by
  have hsp := not_special (Or.inl hsm)
  unfold processOneKana
  rw [if_neg (fun h => hsp.1 ((containsKana_iff ht smallTsu_mem hs).mp h)),
    if_neg (fun h => hsp.2 ((containsKana_iff ht kanaN_mem hs).mp h)), if_pos h, if_pos ((mem_smallKana ht hs).mpr hsm)]

theorem reads_loop (c : Converter) {t : CharType} (ht : t ≠ .romaji) {P : List Kana} {k : Kana} (hP : Reads t P k)
    {g : List Kana} {st : FromState} (h : Holds t g st) :
    ∃ st' g', c.fromKanaLoop t st (P.map (·.str t)) = .ok st' ∧ After t P k g' st' ∧ (g' = smallTsu :: P → g = [smallTsu]) := by
  have first : ∀ x, x ∈ allKana → x.mono = true → Normal x → ∃ st' g', c.fromKanaStep t st (x.str t) = .ok st' ∧
      Holds t g' st' ∧ st'.state ≠ .done ∧ (g' = [x] ∨ g' = [smallTsu, x] ∧ g = [smallTsu]) := by
    intro x hx hm hn
    rw [step_letter_kana c ht hx]
    rcases processOneKana_cases c ht h.shape h.letters hx rfl h.group with ⟨s', h3, h4⟩ | ⟨s', h3, h4⟩
    · have hl : Letters (g ++ [x]) := by
        intro j hj
        rcases List.mem_append.mp hj with h' | h'
        · exact h.letters j h'
        · simp at h'; subst h'; exact ⟨hx, hm⟩
      have hg : s' ≠ .done ∧ (g ++ [x] = [x] ∨ g ++ [x] = [smallTsu, x] ∧ g = [smallTsu]) := by
        generalize hgx : g ++ [x] = gx at h3
        have hlast : gx.getLast? = some x := by rw [← hgx]; simp
        cases h3 with
        | nil => simp at hlast
        | one h5 h6 => simp at hlast; subst hlast; exact ⟨by simp, Or.inl rfl⟩
        | tsu => simp at hlast; exact absurd hlast.symm hn.1
        | tsuOne h5 =>
          simp at hlast; subst hlast
          refine ⟨by simp, Or.inr ⟨rfl, ?_⟩⟩
          have := congrArg List.dropLast hgx
          simpa using this
        | small h5 => simp at hlast; subst hlast; rw [hn.2.2] at h5; cases h5
        | two h5 h6 h7 => simp at hlast; subst hlast; rw [hn.2.2] at h7; cases h7
        | tsuSmall h5 => simp at hlast; subst hlast; rw [hn.2.2] at h5; cases h5
        | tsuTwo h5 h6 => simp at hlast; subst hlast; rw [hn.2.2] at h6; cases h6
        | n => simp at hlast; exact absurd hlast.symm hn.2.1
      exact ⟨_, _, h4, ⟨h3, hl, rfl, h.prev⟩, hg.1, hg.2⟩
    · obtain ⟨p, R, hp, e⟩ := doneGroup_any c ht h (x.str t) .newGroup s'
      refine ⟨_, [x], h4.trans e, ⟨h3, ?_, by simp [chars], hp⟩, ?_, Or.inl rfl⟩
      · intro j hj; simp at hj; subst hj; exact ⟨hx, hm⟩
      · simp only
        rintro rfl
        cases h3 with
        | small h5 => rw [hn.2.2] at h5; cases h5
        | n => exact hn.2.1 rfl
  cases hP with
  | one h1 h2 h3 =>
    obtain ⟨st', g', e, hh, _, hg⟩ := first k h1 h2 h3
    refine ⟨st', g', ?_, ⟨hh, .one h1 h2 h3, ?_⟩, ?_⟩
    · simp only [List.map_cons, List.map_nil, fromKanaLoop, e, Res.bind_ok]
    · exact hg.imp_right And.left
    · intro e
      rcases hg with hg | hg
      · rw [hg] at e; simp at e
      · exact hg.2
  | @two x s _ h1 h2 h3 h4 h5 h6 h7 =>
    obtain ⟨st', g', e, hh, hd, hg⟩ := first x h1 h2 h3
    refine ⟨{ st' with state := .done, kanaGroup := st'.kanaGroup ++ s.str t }, g' ++ [s], ?_,
      ⟨⟨?_, ?_, ?_, hh.prev⟩, .two h1 h2 h3 h4 h5 h6 h7, ?_⟩, ?_⟩
    · simp only [List.map_cons, List.map_nil, fromKanaLoop, e, Res.bind_ok]
      rw [step_letter_kana c ht h4, small_step c ht h4 h6 hd]
      rfl
    · rcases hg with rfl | ⟨rfl, _⟩
      · exact .two h3.1 h3.2.1 h6
      · exact .tsuTwo h3 h6
    · intro j hj
      rcases List.mem_append.mp hj with h' | h'
      · exact hh.letters j h'
      · simp at h'; subst h'; exact ⟨h4, h5⟩
    · simp only [hh.group, chars_append]; simp [chars]
    · rcases hg with rfl | ⟨rfl, _⟩ <;> simp
    · intro e
      rcases hg with rfl | ⟨rfl, hg⟩
      · simp at e
      · exact hg

/-- From the beginning nothing has been written. -/
theorem reads_start (c : Converter) {t : CharType} (ht : t ≠ .romaji) {P : List Kana} {k : Kana} (hP : Reads t P k) :
    ∃ s, c.fromKanaLoop t {} (P.map (·.str t)) = .ok ⟨s, [], chars t P, none⟩ ∧ After t P k P ⟨s, [], chars t P, none⟩ := by
  have first : ∀ x, x ∈ allKana → Normal x → c.fromKanaStep t {} (x.str t) = .ok ⟨.new, [], x.str t, none⟩ := by
    intro x hx hn
    rw [step_letter_kana c ht hx]
    unfold processOneKana
    rw [if_neg (fun h => hn.1 ((containsKana_iff ht smallTsu_mem hx).mp h)),
      if_neg (fun h => hn.2.1 ((containsKana_iff ht kanaN_mem hx).mp h)), if_pos (by decide),
      if_neg (fun h => by have := (mem_smallKana ht hx).mp h; rw [hn.2.2] at this; cases this), if_pos (by decide)]
    rfl
  have hl := (hP.mem ht).2.2
  cases hP with
  | one h1 h2 h3 =>
    refine ⟨.new, ?_, ⟨⟨.one h3.1 h3.2.1, hl, rfl, prevOk_none⟩, .one h1 h2 h3, Or.inl rfl⟩⟩
    simp only [List.map_cons, List.map_nil, fromKanaLoop, first k h1 h3, Res.bind_ok]
    simp [chars]
  | @two x s _ h1 h2 h3 h4 h5 h6 h7 =>
    refine ⟨.done, ?_, ⟨⟨.two h3.1 h3.2.1 h6, hl, rfl, prevOk_none⟩, .two h1 h2 h3 h4 h5 h6 h7, Or.inl rfl⟩⟩
    simp only [List.map_cons, List.map_nil, fromKanaLoop, first x h1 h3, Res.bind_ok]
    rw [step_letter_kana c ht h4, small_step c ht h4 h6 (by simp)]
    simp [chars]

theorem macron_false (c : Converter) (prev : Option Kana) {k : Kana} (hk : k ∈ allKana) (sok : Bool) :
    ∃ s, c.processKanaMacron false prev k sok = .ok (s, some k) := by
  obtain ⟨p, h⟩ := macron_out c false prev hk sok
  rw [macron_eq] at h ⊢
  cases he : (if sok = true then Res.ofOption (k.getSokuonRomaji c.flags) else c.get k) with
  | ok v => exact ⟨v, rfl⟩
  | throw e => rw [he] at h; cases h
  | ub => rw [he] at h; cases h

/-- After っ the order in which the compiler evaluates matters, unless the consonant is doubled. -/
def Clear (c : Converter) (g P : List Kana) (k : Kana) : Prop := g = P ∨ c.ltr = true ∨ Doubles k

theorem after_prev (c : Converter) {t : CharType} (ht : t ≠ .romaji) (hc : c.target = .romaji) {P g : List Kana} {k : Kana}
    {st : FromState} (h : After t P k g st) (hcl : Clear c g P k) (prev : Option Kana) :
    ∃ s, c.processKana t st.kanaGroup prev false = .ok (s, some k) := by
  obtain ⟨hk, he, hl⟩ := h.reads.mem ht
  have hne : k.str t ≠ [] := fun e => str_length k hk t e
  rw [h.holds.group]
  rcases h.group with rfl | rfl
  · rw [he]
    unfold processKana
    rw [if_pos hne, found ht hk]
    exact macron_false c none hk false
  · have e : chars t (smallTsu :: P) = smallTsu.str t ++ k.str t := by rw [← he]; simp [chars]
    have l1 : (smallTsu.str t).length = 3 := mono_length3 smallTsu_mem (by decide) t
    have hn : findKana t (smallTsu.str t ++ k.str t) = none := by
      cases hP : h.reads with
      | one h1 h2 h3 =>
        cases hf : findKana t (smallTsu.str t ++ k.str t) with
        | none => rfl
        | some d => exact absurd rfl (digraph_found ht ⟨smallTsu_mem, by decide⟩ ⟨h1, h2⟩ hf).2.1
      | two h1 h2 h3 h4 h5 h6 h7 =>
        apply find_long ht
        rw [((found_iff ht).mp h7).2.symm, List.length_append, List.length_append, l1, mono_length3 h1 h2, mono_length3 h4 h5]
        decide
    rw [e]
    unfold processKana
    rw [if_pos (by simp [hne]), hn]
    simp only
    rw [if_pos (by
      rw [List.length_append, l1]
      have : (k.str t).length ≠ 0 := fun h => hne (List.length_eq_zero_iff.mp h)
      omega), List.take_left' l1, List.drop_left' l1, found ht hk]
    simp only
    split
    · exact macron_false c none hk true
    · rename_i hd
      have hl : c.ltr = true := by
        rcases hcl with h' | h' | h'
        · have := congrArg List.length h'; simp at this
        · exact h'
        · exact absurd ⟨hc, (containsKana_iff ht smallTsu_mem smallTsu_mem).mpr rfl, h'⟩ hd
      rw [if_pos hl]
      obtain ⟨p1, e1⟩ := processFirst_out c ht smallTsu_mem
      obtain ⟨s2, e2⟩ := macron_false c p1 hk false
      rw [e1, Res.bind_ok]
      simp only
      rw [e2, Res.bind_ok]
      exact ⟨_, rfl⟩

/-- The group ends without prolong mark. -/
theorem after_done (c : Converter) {t : CharType} (ht : t ≠ .romaji) (hc : c.target = .romaji) {P g : List Kana} {k : Kana}
    {st : FromState} (h : After t P k g st) : ∃ R q, c.finish t st [] = .ok R ∧ PrevOk q ∧ (Clear c g P k → q = some k) ∧
      ∀ (kana : Str) (dt : DoneType) (ns : State), dt ≠ .prolong → c.doneGroup t kana st dt ns =
        .ok { state := ns, result := R, kanaGroup := if dt = .newGroup then kana else [], prevKana := q } := by
  obtain ⟨s, q, e, hq⟩ := processKana_ok c t st.kanaGroup h.holds.prev false
  refine ⟨st.result ++ s, q, ?_, hq, ?_, ?_⟩
  · simp only [finish, fromKanaLoop, Res.bind_ok, e]
  · intro hcl
    obtain ⟨s', e'⟩ := after_prev c ht hc h hcl st.prevKana
    rw [e] at e'
    simp only [Res.ok.injEq, Prod.mk.injEq] at e'
    exact e'.2
  · intro kana dt ns hdt
    have hN : kanaN.containsKana st.kanaGroup = false := by
      cases hx : kanaN.containsKana st.kanaGroup with
      | false => rfl
      | true =>
        rw [h.holds.group, contains_group ht h.holds.letters] at hx
        exfalso
        rcases h.group with e | e
        · rw [e] at hx
          cases h.reads with
          | one h1 h2 h3 => simp at hx; exact h3.2.1 hx
          | two => simp at hx
        · rw [e] at hx
          cases h.reads <;> simp at hx
    unfold doneGroup
    rw [show (dt == .prolong) = false by cases dt <;> simp_all, e, Res.bind_ok]
    simp only [hN, Bool.false_eq_true, false_and, and_false, if_false]

theorem shape_unique {s s' : State} {y : Kana} (hy : y.small = false) (h : Shape s [y]) (h' : Shape s' [y]) : s = s' := by
  cases h with
  | one h1 h2 =>
    cases h' with
    | one => rfl
    | tsu => exact absurd rfl h1
    | small h3 => rw [hy] at h3; cases h3
    | n => exact absurd rfl h2
  | tsu =>
    cases h' with
    | one h1 => exact absurd rfl h1
    | tsu => rfl
    | small h3 => rw [hy] at h3; cases h3
  | small h3 => rw [hy] at h3; cases h3
  | n =>
    cases h' with
    | one _ h1 => exact absurd rfl h1
    | small h3 => first | rfl | (rw [hy] at h3; cases h3)
    | n => rfl

/-- A letter that isn't small starts a new group, as at the beginning. -/
theorem after_letter (c : Converter) {t : CharType} (ht : t ≠ .romaji) (hc : c.target = .romaji) {P g : List Kana} {k : Kana}
    {st : FromState} (h : After t P k g st) {R : Str} (hR : c.finish t st [] = .ok R) {y : Kana} (hy : y ∈ allKana)
    (hsm : y.small = false) {B : List Str} {r : Str} (hr : c.finish t {} (y.str t :: B) = .ok r) :
    c.finish t st (y.str t :: B) = .ok (R ++ r) := by
  obtain ⟨R', q, e1, _, _, e2⟩ := after_done c ht hc h
  rw [hR] at e1
  simp only [Res.ok.injEq] at e1
  subst e1
  rw [finish_cons, step_letter_kana c ht hy] at hr ⊢
  rcases processOneKana_cases c ht h.holds.shape h.holds.letters hy rfl h.holds.group with ⟨s', h3, h4⟩ | ⟨s', h3, h4⟩
  · exfalso
    have hrd := h.reads
    generalize hgx : g ++ [y] = gx at h3
    rcases h.group with e | e
    · rw [e] at hgx
      cases hrd with
      | one h5 h6 h7 =>
        subst hgx
        cases h3 with
        | tsuOne => exact h7.1 rfl
        | two _ _ h8 => rw [hsm] at h8; cases h8
        | tsuSmall h8 => rw [hsm] at h8; cases h8
      | two h5 h6 h7 =>
        subst hgx
        cases h3 with
        | tsuTwo h8 h9 => rw [hsm] at h9; cases h9
    · rw [e] at hgx
      cases hrd with
      | one h5 h6 h7 =>
        subst hgx
        cases h3 with
        | tsuTwo h8 h9 => rw [hsm] at h9; cases h9
      | two h5 h6 h7 =>
        subst hgx
        cases h3
  · rw [h4, e2 _ _ _ (by decide)]
    obtain ⟨s'', h5, h6⟩ : ∃ s'', Shape s'' [y] ∧ c.processOneKana t (y.str t) {} = .ok ⟨s'', [], y.str t, none⟩ := by
      have hs := holds_start t
      rcases processOneKana_cases c ht hs.shape hs.letters hy rfl hs.group with ⟨s', h7, h8⟩ | ⟨s', h7, h8⟩
      · exact ⟨s', h7, by rw [h8]; simp [chars]⟩
      · exact ⟨s', h7, by rw [h8, doneGroup_empty c rfl]; simp⟩
    rw [h6] at hr
    have := shape_unique hsm h3 h5
    subst this
    simp only [Res.bind, if_true] at hr ⊢
    exact finish_upTo c t B _ ⟨s', [], y.str t, none⟩
      ⟨⟨rfl, rfl, by simp⟩, Or.inl (fun e => str_length y hy t e)⟩ hr

/-! ## Marks -/

/-- What is written for an iteration mark after a kana. -/
def markOut (c : Converter) (t : CharType) (k : Kana) (p : Str) : Str :=
  match findIterationMark t p with
  | some m => (m.get c.target c.flags (some k)).getD []
  | none => []

theorem finish_marks (c : Converter) {t : CharType} {k : Kana} (hk : k ∈ allKana) (Y : List Str) :
    ∀ (ms : List Str), (∀ p ∈ ms, p ≠ prolongMark ∧ (findIterationMark t p).isSome = true) → ∀ R : Str,
    c.finish t ⟨.new, R, [], some k⟩ (ms ++ Y) = c.finish t ⟨.new, R ++ ms.flatMap (markOut c t k), [], some k⟩ Y := by
  intro ms
  induction ms with
  | nil => intro _ R; simp
  | cons p ms ih =>
    intro h R
    obtain ⟨h1, h2⟩ := h p List.mem_cons_self
    rw [List.cons_append, finish_cons]
    unfold fromKanaStep
    cases hm : findIterationMark t p with
    | none => rw [hm] at h2; cases h2
    | some m =>
      obtain ⟨s, hs⟩ := mark_get (m := m) (prevOk_some hk) c.target c.flags
      rw [if_neg h1]
      simp only
      rw [doneGroup_empty c rfl, Res.bind_ok]
      simp only [hs, Res.ofOption, Res.bind_ok]
      simp only [Res.bind, reduceCtorEq, if_false, List.append_nil]
      rw [ih (fun q hq => h q (List.mem_cons_of_mem _ hq))]
      simp [markOut, hm, hs]

/-- The text after the marks: without marks, or starting with a letter. -/
theorem finish_rest (c : Converter) {t : CharType} (ht : t ≠ .romaji) (q : Option Kana) (R : Str) {Y : List Str} {r : Str}
    (hY : (∀ p ∈ Y, findIterationMark t p = none) ∨ ∃ y B, y ∈ allKana ∧ Y = y.str t :: B)
    (h : c.finish t {} Y = .ok r) : c.finish t ⟨.new, R, [], q⟩ Y = .ok (R ++ r) := by
  rcases hY with hY | ⟨y, B, hy, rfl⟩
  · exact finish_same c t Y _ {} ⟨rfl, rfl, by simp⟩ (Or.inr hY) h
  · rw [finish_cons, step_letter_kana c ht hy] at h ⊢
    have key : ∀ q R, ∃ s, c.processOneKana t (y.str t) ⟨.new, R, [], q⟩ = .ok ⟨s, R, y.str t, q⟩ ∧
        c.processOneKana t (y.str t) {} = .ok ⟨s, [], y.str t, none⟩ := by
      intro q R
      unfold processOneKana
      split
      · rw [doneGroup_empty c rfl, doneGroup_empty c rfl]
        exact ⟨.smallTsu, by simp, by simp⟩
      · split
        · rw [doneGroup_empty c rfl, doneGroup_empty c rfl]
          exact ⟨.done, by simp, by simp⟩
        · have h3 : (⟨.new, R, [], q⟩ : FromState).state ≠ .done := by simp
          have h4 : ({} : FromState).state ≠ .done := by simp
          rw [if_pos h3, if_pos h4]
          by_cases h5 : y.str t ∈ smallKana t
          · rw [if_pos h5, if_pos h5]
            exact ⟨.done, by simp, by simp⟩
          · rw [if_neg h5, if_neg h5]
            exact ⟨.new, by simp, by simp⟩
    obtain ⟨s, e1, e2⟩ := key q R
    rw [e1]
    rw [e2] at h
    simp only [Res.bind] at h ⊢
    exact finish_upTo c t B _ ⟨s, [], y.str t, none⟩
      ⟨⟨rfl, rfl, by simp⟩, Or.inl (fun e => str_length y hy t e)⟩ h

theorem finish_append (c : Converter) (t : CharType) {st st' : FromState} {A : List Str} (h : c.fromKanaLoop t st A = .ok st')
    (B : List Str) : c.finish t st (A ++ B) = c.finish t st' B := by
  unfold finish
  rw [fromKanaLoop_append, h]
  rfl

/-- Marks after a kana. -/
theorem after_marks (c : Converter) {t : CharType} (ht : t ≠ .romaji) (hc : c.target = .romaji) {P g : List Kana} {k : Kana}
    {st : FromState} (h : After t P k g st) (hcl : Clear c g P k) {R : Str} (hR : c.finish t st [] = .ok R) {ms Y : List Str}
    (hne : ms ≠ []) (hms : ∀ p ∈ ms, p ≠ prolongMark ∧ (findIterationMark t p).isSome = true) {r : Str}
    (hY : (∀ p ∈ Y, findIterationMark t p = none) ∨ ∃ y B, y ∈ allKana ∧ Y = y.str t :: B)
    (hr : c.finish t {} Y = .ok r) : c.finish t st (ms ++ Y) = .ok (R ++ ms.flatMap (markOut c t k) ++ r) := by
  obtain ⟨R', q, e1, _, hq, e2⟩ := after_done c ht hc h
  rw [hR] at e1
  simp only [Res.ok.injEq] at e1
  subst e1
  have hk := (h.reads.mem ht).1
  have hq := hq hcl
  subst hq
  have : c.finish t st (ms ++ Y) = c.finish t ⟨.new, R, [], some k⟩ (ms ++ Y) := by
    cases ms with
    | nil => exact absurd rfl hne
    | cons p ms =>
      rw [List.cons_append, finish_cons, finish_cons]
      congr 1
      obtain ⟨h1, h2⟩ := hms p List.mem_cons_self
      unfold fromKanaStep
      rw [if_neg h1, if_neg h1]
      cases hm : findIterationMark t p with
      | none => rw [hm] at h2; cases h2
      | some m =>
        simp only
        rw [e2 _ _ _ (by decide), doneGroup_empty c rfl]
        simp
  rw [this, finish_marks c hk Y ms hms, finish_rest c ht _ _ hY hr]

/-- The same letters written out. -/
theorem after_units (c : Converter) {t : CharType} (ht : t ≠ .romaji) (hc : c.target = .romaji) {Y : List Str} {r : Str}
    (hY : Y = [] ∨ (∃ y B, y ∈ allKana ∧ y.small = false ∧ Y = y.str t :: B) ∨
      ((∀ p ∈ Y, findIterationMark t p = none) ∧ ∃ y B, y ≠ prolongMark ∧ findKana t y = none ∧ Y = y :: B))
    (hr : c.finish t {} Y = .ok r) : ∀ (us : List (List Kana × Kana)), (∀ u ∈ us, Reads t u.1 u.2) →
    ∀ {P g : List Kana} {k : Kana} {st : FromState}, After t P k g st → ∀ {R : Str}, c.finish t st [] = .ok R →
    c.finish t st (us.flatMap (fun u => u.1.map (·.str t)) ++ Y) = .ok (R ++ us.flatMap (fun u => kanaOut c u.2) ++ r) := by
  intro us
  induction us with
  | nil =>
    intro _ P g k st h R hR
    simp only [List.flatMap_nil, List.nil_append, List.append_nil]
    rcases hY with rfl | ⟨y, B, hy, hs, rfl⟩ | ⟨hm, y, B, h1, h2, rfl⟩
    · have : r = [] := by
        have e : c.finish t {} [] = .ok [] := rfl
        rw [e] at hr
        simpa using hr.symm
      rw [hR, this, List.append_nil]
    · exact after_letter c ht hc h hR hy hs hr
    · obtain ⟨R', q, e1, _, _, e2⟩ := after_done c ht hc h
      rw [hR] at e1
      simp only [Res.ok.injEq] at e1
      subst e1
      have : c.finish t st (y :: B) = c.finish t ⟨.new, R, [], q⟩ (y :: B) := by
        rw [finish_cons, finish_cons]
        congr 1
        unfold fromKanaStep
        rw [if_neg h1, if_neg h1, hm y List.mem_cons_self]
        simp only [h2, Option.isSome_none, Bool.false_eq_true, if_false]
        rw [e2 _ _ _ (by decide), doneGroup_empty c rfl]
        simp
      rw [this, finish_rest c ht q R (Or.inl hm) hr]
  | cons u us ih =>
    intro hus P g k st h R hR
    obtain ⟨P1, k1⟩ := u
    have h1 : Reads t P1 k1 := hus (P1, k1) List.mem_cons_self
    obtain ⟨s, e, ha⟩ := reads_start c ht h1
    obtain ⟨hk1, hch, _⟩ := h1.mem ht
    have hR1 : c.finish t ⟨s, [], chars t P1, none⟩ [] = .ok (kanaOut c k1) := by
      simp only [finish, fromKanaLoop, Res.bind_ok, hch]
      unfold processKana
      rw [if_pos (fun e => str_length k1 hk1 t e), found ht hk1]
      simp only
      obtain ⟨p, h⟩ := macron_out c false none hk1 false
      rw [h, Res.bind_ok]
      simp [macronOut]
    have hrest := ih (fun u hu => hus u (List.mem_cons_of_mem _ hu)) ha hR1
    rw [← finish_append c t e] at hrest
    simp only [List.flatMap_cons, List.append_assoc] at hrest ⊢
    cases h1 with
    | one h2 h3 h4 => exact after_letter c ht hc h hR h2 h4.2.2 hrest
    | two h2 h3 h4 h5 h6 h7 h8 => exact after_letter c ht hc h hR h2 h4.2.2 hrest

end Converter
end KT
