import Verif.Lemmas.ConverterBack
/-!
# Converting text in parts
-/
namespace KT
open Spec
namespace Converter

/-! ## From kana -/

/-- States of `fromKana` that differ in the result so far and in the previous kana. -/
def Same (pre : Str) (s1 s2 : FromState) : Prop :=
  s1.state = s2.state ∧ s1.kanaGroup = s2.kanaGroup ∧ s1.result = pre ++ s2.result

theorem processKana_same (c : Converter) (t : CharType) (g : Str) (p1 p2 : Option Kana) (pr : Bool)
    {s : Str} {q : Option Kana} (h : c.processKana t g p2 pr = .ok (s, q)) :
    ∃ q', c.processKana t g p1 pr = .ok (s, q') := by
  by_cases hg : g = []
  · subst hg
    unfold processKana at *
    simp only [ne_eq, not_true, if_false] at *
    split at h
    · rename_i hp; cases h; exact ⟨_, by rw [if_pos hp]⟩
    · rename_i hp; cases h; exact ⟨_, by rw [if_neg hp]⟩
  · exact ⟨q, by rw [processKana_prev c t hg, ← processKana_prev c t hg p2, h]⟩

theorem doneGroup_same (c : Converter) (t : CharType) (k : Str) {pre : Str} {s1 s2 r2 : FromState}
    (hs : Same pre s1 s2) (dt : DoneType) (ns : State) (h : c.doneGroup t k s2 dt ns = .ok r2) :
    ∃ r1, c.doneGroup t k s1 dt ns = .ok r1 ∧ Same pre r1 r2 := by
  obtain ⟨h1, h2, h3⟩ := hs
  unfold doneGroup at *
  cases hp : c.processKana t s2.kanaGroup s2.prevKana (dt == .prolong) with
  | ok v =>
    obtain ⟨s, q⟩ := v
    obtain ⟨q', hq⟩ := processKana_same c t s2.kanaGroup s1.prevKana s2.prevKana _ hp
    rw [hp, Res.bind_ok] at h
    rw [h2, hq, Res.bind_ok]
    cases h
    refine ⟨_, rfl, rfl, rfl, ?_⟩
    simp only [h3]
    split <;> simp
  | throw e => rw [hp] at h; cases h
  | ub => rw [hp] at h; cases h

theorem step_same (c : Converter) (t : CharType) (k : Str) {pre : Str} {s1 s2 r2 : FromState}
    (hs : Same pre s1 s2) (hm : c.target ≠ .romaji ∨ findIterationMark t k = none)
    (h : c.fromKanaStep t s2 k = .ok r2) :
    ∃ r1, c.fromKanaStep t s1 k = .ok r1 ∧ Same pre r1 r2 := by
  unfold fromKanaStep at *
  split at h
  · rename_i hk
    rw [if_pos hk]
    exact doneGroup_same c t k hs _ _ h
  · rename_i hk
    rw [if_neg hk]
    cases hf : findIterationMark t k with
    | some m =>
      have hr : c.target ≠ .romaji := by rcases hm with h | h; exact h; rw [hf] at h; cases h
      rw [hf] at h
      simp only at h ⊢
      cases hd : c.doneGroup t k s2 .newEmptyGroup with
      | ok d =>
        obtain ⟨d1, hd1, e1, e2, e3⟩ := doneGroup_same c t k hs _ _ hd
        rw [hd, Res.bind_ok] at h
        rw [hd1, Res.bind_ok]
        have hg : m.get c.target c.flags d1.prevKana = m.get c.target c.flags d.prevKana := by
          unfold IterationMark.get
          cases ht : c.target
          · rfl
          · rfl
          · exact absurd ht hr
        rw [hg]
        cases hv : Res.ofOption (m.get c.target c.flags d.prevKana) with
        | ok v =>
          rw [hv, Res.bind_ok] at h
          rw [Res.bind_ok]
          cases h
          exact ⟨_, rfl, e1, e2, by simp [e3]⟩
        | throw e => rw [hv] at h; cases h
        | ub => rw [hv] at h; cases h
      | throw e => rw [hd] at h; cases h
      | ub => rw [hd] at h; cases h
    | none =>
      rw [hf] at h
      simp only at h ⊢
      split at h
      · rename_i hk2
        rw [if_pos hk2]
        unfold processOneKana at *
        split at h
        · rename_i hx; rw [if_pos hx]; exact doneGroup_same c t k hs _ _ h
        · rename_i hx; rw [if_neg hx]
          split at h
          · rename_i hx; rw [if_pos hx]; exact doneGroup_same c t k hs _ _ h
          · rename_i hx; rw [if_neg hx]
            obtain ⟨e1, e2, e3⟩ := hs
            split at h
            · rename_i hx; rw [if_pos (by rw [e1]; exact hx)]
              split at h
              · rename_i hx; rw [if_pos hx]
                cases h
                exact ⟨_, rfl, rfl, by simp [e2], e3⟩
              · rename_i hx; rw [if_neg hx]
                by_cases hy : s2.kanaGroup.length ≤ (if s2.state = .smallTsu then 3 else 0)
                · rw [if_pos hy] at h
                  rw [if_pos (by rw [e1, e2]; exact hy)]
                  cases h
                  exact ⟨_, rfl, e1, by simp [e2], e3⟩
                · rw [if_neg hy] at h
                  rw [if_neg (by rw [e1, e2]; exact hy)]
                  exact doneGroup_same c t k ⟨e1, e2, e3⟩ _ _ h
            · rename_i hx; rw [if_neg (by rw [e1]; exact hx)]
              exact doneGroup_same c t k ⟨e1, e2, e3⟩ _ _ h
      · rename_i hk2
        rw [if_neg hk2]
        cases hd : c.doneGroup t k s2 .newEmptyGroup with
        | ok d =>
          obtain ⟨d1, hd1, e1, e2, e3⟩ := doneGroup_same c t k hs _ _ hd
          rw [hd, Res.bind_ok] at h
          rw [hd1, Res.bind_ok]
          split at h
          · rename_i hx; rw [if_pos hx]
            split at h
            · cases h; exact ⟨_, rfl, e1, e2, by simp [e3]⟩
            · cases h; exact ⟨_, rfl, e1, e2, by simp [e3]⟩
          · rename_i hx; rw [if_neg hx]
            cases h; exact ⟨_, rfl, e1, e2, by simp [e3]⟩
        | throw e => rw [hd] at h; cases h
        | ub => rw [hd] at h; cases h

theorem finish_same (c : Converter) (t : CharType) {pre r : Str} : ∀ (ks : List Str) (s1 s2 : FromState),
    Same pre s1 s2 → (c.target ≠ .romaji ∨ ∀ k ∈ ks, findIterationMark t k = none) →
    c.finish t s2 ks = .ok r → c.finish t s1 ks = .ok (pre ++ r) := by
  intro ks
  induction ks with
  | nil =>
    intro s1 s2 hs _ h
    simp only [finish, fromKanaLoop, Res.bind_ok] at h ⊢
    obtain ⟨e1, e2, e3⟩ := hs
    cases hp : c.processKana t s2.kanaGroup s2.prevKana with
    | ok v =>
      obtain ⟨s, q⟩ := v
      obtain ⟨q', hq⟩ := processKana_same c t s2.kanaGroup s1.prevKana s2.prevKana _ hp
      rw [hp, Res.bind_ok] at h
      rw [e2, hq, Res.bind_ok]
      cases h
      simp [e3]
    | throw e => rw [hp] at h; cases h
    | ub => rw [hp] at h; cases h
  | cons k ks ih =>
    intro s1 s2 hs hm h
    rw [finish_cons] at h ⊢
    cases hp : c.fromKanaStep t s2 k with
    | ok v =>
      obtain ⟨r1, h1, h2⟩ := step_same c t k hs (hm.imp_right fun h => h k List.mem_cons_self) hp
      rw [hp] at h
      rw [h1]
      exact ih _ _ h2 (hm.imp_right fun h p hp => h p (List.mem_cons_of_mem _ hp)) h
    | throw e => rw [hp] at h; cases h
    | ub => rw [hp] at h; cases h

theorem fromKanaLoop_append (c : Converter) (t : CharType) (st : FromState) (xs ys : List Str) :
    c.fromKanaLoop t st (xs ++ ys) = (c.fromKanaLoop t st xs).bind fun st => c.fromKanaLoop t st ys := by
  induction xs generalizing st with
  | nil => rfl
  | cons x xs ih =>
    simp only [List.cons_append, fromKanaLoop]
    cases c.fromKanaStep t st x with
    | ok v => rw [Res.bind_ok, Res.bind_ok]; exact ih v
    | throw e => rfl
    | ub => rfl

/-- What is written for a character that isn't kana. -/
def otherOut (c : Converter) (p : Str) : Str :=
  if c.target = .romaji then
    match wideDelimFind p with
    | some n => [n]
    | none => p
  else p

theorem fromKana_split (c : Converter) {t : CharType} (ht : t ≠ .romaji) {a b : List Str} {p ra rb : Str}
    (h1 : p ≠ prolongMark) (h2 : findIterationMark t p = none) (h3 : findKana t p = none)
    (hb : c.target ≠ .romaji ∨ ∀ k ∈ b, findIterationMark t k = none)
    (ha : c.fromKanaChars t a = .ok ra) (hrb : c.fromKanaChars t b = .ok rb) :
    c.fromKanaChars t (a ++ p :: b) = .ok (ra ++ otherOut c p ++ rb) := by
  have hrb' : c.finish t {} b = .ok rb := hrb
  show c.finish t {} (a ++ p :: b) = _
  unfold finish
  rw [fromKanaLoop_append]
  unfold fromKanaChars at ha
  cases hl : c.fromKanaLoop t {} a with
  | ok st =>
    rw [hl, Res.bind_ok] at ha
    simp only [Res.bind]
    show c.finish t st (p :: b) = _
    rw [finish_cons]
    unfold fromKanaStep
    rw [if_neg h1, h2]
    simp only [h3, Option.isSome_none, Bool.false_eq_true, if_false]
    unfold doneGroup
    cases hp : c.processKana t st.kanaGroup st.prevKana with
    | ok v =>
      obtain ⟨s, q⟩ := v
      rw [hp, Res.bind_ok] at ha
      rw [show (DoneType.newEmptyGroup == DoneType.prolong) = false from rfl, hp, Res.bind_ok]
      have hna : p ∉ KT.afterN t := other_not_afterN ht h3
      rw [Res.bind_ok]
      simp only [hna, and_false, if_false, reduceCtorEq]
      have key : ∀ o : Str, c.finish t { state := .new, result := st.result ++ s ++ o, kanaGroup := [], prevKana := q } b =
          .ok (st.result ++ s ++ o ++ rb) := by
        intro o
        exact finish_same c t b _ {} ⟨rfl, rfl, by simp⟩ hb hrb'
      have he : ra = st.result ++ s := by cases ha; rfl
      rw [he]
      unfold otherOut
      by_cases hr : c.target = .romaji
      · simp only [hr, if_true]
        cases wideDelimFind p with
        | none => exact key _
        | some n => exact key _
      · simp only [hr, if_false]
        exact key _
    | throw e => rw [hp] at ha; cases ha
    | ub => rw [hp] at ha; cases ha
  | throw e => rw [hl] at ha; cases ha
  | ub => rw [hl] at ha; cases ha

/-- Text with nothing to convert. -/
theorem fromKana_nothing (c : Converter) {t : CharType} (ht : t ≠ .romaji) {ks : List Str}
    (hp : ∀ k ∈ ks, IsPiece k)
    (h : ∀ k ∈ ks, findIterationMark t k = none ∧ findKana t k = none ∧
      (c.target = .romaji → wideDelimFind k = none)) :
    c.fromKanaChars t ks = .ok ks.flatten := by
  obtain ⟨items, h1, h2, h3⟩ := fromKana_items c ht hp
  rw [h3, ← h2]
  congr 1
  subst h2
  clear h3 hp
  induction items with
  | nil => rfl
  | cons i items ih =>
    have hi : ∀ k ∈ i.src t, findIterationMark t k = none ∧ findKana t k = none ∧
        (c.target = .romaji → wideDelimFind k = none) := by
      intro k hk; exact h k (by rw [List.flatMap_cons]; exact List.mem_append_left _ hk)
    have hr : ∀ k ∈ items.flatMap (Item.src t), findIterationMark t k = none ∧ findKana t k = none ∧
        (c.target = .romaji → wideDelimFind k = none) := by
      intro k hk; exact h k (by rw [List.flatMap_cons]; exact List.mem_append_right _ hk)
    rw [List.flatMap_cons, List.flatMap_cons, List.flatten_append]
    cases i with
    | prolong => rw [ih h1 hr]; simp [itemOut, Item.src]
    | mark p m prev =>
      have := (hi p (by simp [Item.src])).1
      rw [h1.2.1] at this; cases this
    | other p =>
      rw [ih h1.2.2.2 hr]
      congr 1
      simp only [itemOut, Item.src, List.flatten_cons, List.flatten_nil, List.append_nil]
      split
      · rename_i hc
        rw [(hi p (by simp [Item.src])).2.2 hc]
      · rfl
    | group g pr next =>
      obtain ⟨hg, hs, hl, hnext, hvi⟩ := h1
      cases g with
      | nil => exact absurd rfl hg
      | cons k g =>
        have := (hi (k.str t) (by simp [Item.src])).2.1
        rw [found ht (hl k List.mem_cons_self).1] at this; cases this

/-! ## From Romaji -/

/-- The same state with a longer result. -/
def shift (P : Str) (st : ToState) : ToState := ⟨st.letters, P ++ st.result⟩

theorem short_shift (c : Converter) (P : Str) (st : ToState) :
    c.processRomajiShort (shift P st) = (c.processRomajiShort st).bind fun s => .ok (shift P s) := by
  unfold processRomajiShort shift
  simp only
  split
  · cases c.get _ <;> simp [Res.bind]
  · rfl

theorem romaji_shift (c : Converter) (P : Str) (st : ToState) :
    c.processRomaji (shift P st) = (c.processRomaji st).bind fun s => .ok (shift P s) := by
  have sh : ∀ l r, (⟨l, P ++ r⟩ : ToState) = shift P ⟨l, r⟩ := fun _ _ => rfl
  obtain ⟨l, r⟩ := st
  match l with
  | [] => exact short_shift c P ⟨[], r⟩
  | [a] => exact short_shift c P ⟨[a], r⟩
  | [a, b] => exact short_shift c P ⟨[a, b], r⟩
  | a :: b :: x :: d :: l => exact short_shift c P ⟨a :: b :: x :: d :: l, r⟩
  | [a, b, x] =>
    unfold processRomaji shift
    simp only
    split
    · cases c.get _ <;> simp [Res.bind]
    · have key : ∀ o : Res Str, (o >>= fun s => c.processRomajiShort { letters := [b, x], result := P ++ r ++ s }) =
          (o >>= fun s => c.processRomajiShort { letters := [b, x], result := r ++ s }).bind
            fun s => .ok ⟨s.letters, P ++ s.result⟩ := by
        intro o
        cases o with
        | ok s =>
          rw [Res.bind_ok, Res.bind_ok, List.append_assoc, sh, short_shift]; rfl
        | throw e => rfl
        | ub => rfl
      by_cases h1 : toLowerChar a = 110
      · simp only [h1, if_true]; exact key _
      · simp only [h1, if_false]
        by_cases h2 : toLowerChar a = toLowerChar b ∨ toLowerChar a = 116 ∧ toLowerChar b = 99
        · simp only [h2, if_true]
          by_cases h3 : a ∈ repeatingConsonants
          · simp only [h3, if_true]; exact key _
          · simp only [h3, if_false]; exact key _
        · simp only [h2, if_false]; exact key _

theorem step_shift (c : Converter) (P : Str) (st : ToState) (p : Str) :
    c.toKanaStep (shift P st) p = (c.toKanaStep st p).bind fun s => .ok (shift P s) := by
  have sh : ∀ l r, (⟨l, P ++ r⟩ : ToState) = shift P ⟨l, r⟩ := fun _ _ => rfl
  unfold toKanaStep
  split
  · split
    · exact romaji_shift c P ⟨st.letters ++ p, st.result⟩
    · simp only [show (shift P st).letters = st.letters from rfl]
      split
      · rfl
      · split
        · cases c.get kanaN with
          | ok s => rw [Res.bind_ok, Res.bind_ok]; simp [shift, Res.bind]
          | throw e => rfl
          | ub => rfl
        · simp [shift, Res.bind]
  · unfold processRomajiMacron
    cases macrons.lookup p with
    | none =>
      simp only
      rw [romaji_shift]
      cases c.processRomaji st with
      | ok s => simp only [Res.bind]; rw [Res.bind_ok, Res.bind_ok]; simp [shift]
      | throw e => rfl
      | ub => rfl
    | some v =>
      obtain ⟨v, d⟩ := v
      simp only
      rw [show ({ (shift P st) with letters := (shift P st).letters ++ [v] } : ToState) =
        shift P ⟨st.letters ++ [v], st.result⟩ from rfl, romaji_shift]
      cases c.processRomaji ⟨st.letters ++ [v], st.result⟩ with
      | ok s =>
        simp only [Res.bind]
        rw [Res.bind_ok, Res.bind_ok]
        simp only [show (shift P s).letters = s.letters from rfl]
        split
        · simp [shift]
        · rw [show (shift P s).result ++ s.letters.dropLast = P ++ (s.result ++ s.letters.dropLast) by simp [shift],
            sh, romaji_shift]
          rfl
      | throw e => rfl
      | ub => rfl

theorem loop_shift (c : Converter) (P : Str) (ps : List Str) : ∀ st : ToState,
    c.toKanaLoop (shift P st) ps = (c.toKanaLoop st ps).bind fun s => .ok (shift P s) := by
  induction ps with
  | nil => intro st; rfl
  | cons p ps ih =>
    intro st
    simp only [toKanaLoop]
    rw [step_shift]
    obtain ⟨st', h⟩ := toKanaStep_ok c st p
    rw [h]; simp only [Res.bind]; rw [Res.bind_ok, Res.bind_ok]; exact ih st'

theorem end_shift (c : Converter) (P : Str) : ∀ (n : Nat) (st : ToState),
    c.toKanaEnd n (shift P st) = (c.toKanaEnd n st).bind fun s => .ok (P ++ s) := by
  intro n
  induction n with
  | zero =>
    intro st
    simp only [toKanaEnd, show (shift P st).letters = st.letters from rfl]
    split <;> rfl
  | succ n ih =>
    rintro ⟨l, r⟩
    cases l with
    | nil => rfl
    | cons x xs =>
      simp only [toKanaEnd, shift]
      by_cases hn : isN (x :: xs) = true
      · simp only [hn, if_true]
        cases c.get kanaN with
        | ok s =>
          rw [Res.bind_ok, Res.bind_ok, List.append_assoc]; exact ih ⟨[], r ++ s⟩
        | throw e => rfl
        | ub => rfl
      · simp only [hn, Bool.false_eq_true, if_false]
        rw [List.append_assoc, show (⟨xs, P ++ (r ++ [x])⟩ : ToState) = shift P ⟨xs, r ++ [x]⟩ from rfl, romaji_shift]
        obtain ⟨st', h, _⟩ := processRomaji_ok c ⟨xs, r ++ [x]⟩
        rw [h]; simp only [Res.bind]; rw [Res.bind_ok, Res.bind_ok]; exact ih st'

theorem run_shift (c : Converter) (P : Str) (ps : List Str) : ∀ st : ToState,
    c.run (shift P st) ps = (c.run st ps).bind fun s => .ok (P ++ s) := by
  induction ps with
  | nil => intro st; exact end_shift c P _ st
  | cons p ps ih =>
    intro st
    by_cases hd : IsDelim p
    · obtain ⟨b, hb, rfl⟩ := hd
      rw [run_delim c _ ps hb, run_delim c _ ps hb, show (shift P st).letters = st.letters from rfl, end_shift]
      cases c.toKanaEnd st.letters.length st with
      | ok w =>
        simp only [Res.bind]
        cases c.delimOut b with
        | ok d =>
          simp only
          cases c.run {} ps with
          | ok r => simp
          | throw e => rfl
          | ub => rfl
        | throw e => rfl
        | ub => rfl
      | throw e => rfl
      | ub => rfl
    · rw [run_cons c _ ps hd, run_cons c _ ps hd, step_shift]
      cases c.toKanaStep st p with
      | ok s => simp only [Res.bind]; exact ih s
      | throw e => rfl
      | ub => rfl

theorem run_result (c : Converter) (R : Str) (L : Str) (ps : List Str) :
    c.run ⟨L, R⟩ ps = (c.run ⟨L, []⟩ ps).bind fun s => .ok (R ++ s) := by
  have := run_shift c R ps ⟨L, []⟩
  rwa [show shift R ⟨L, []⟩ = ⟨L, R⟩ by simp [shift]] at this

/-- Letters pending at the end are written, except `n`. -/
theorem end_ascii (c : Converter) {st : ToState} {y : Str} (h : c.toKanaEnd st.letters.length st = .ok y)
    (hy : ∀ b ∈ y, 128 ≤ b.toNat) (hl : ∀ b ∈ st.letters, b.toNat < 128) :
    (st.letters = [] ∨ isN st.letters = true) := by
  obtain ⟨l, r⟩ := st
  cases l with
  | nil => exact Or.inl rfl
  | cons x xs =>
    by_cases hn : isN (x :: xs) = true
    · exact Or.inr hn
    · exfalso
      simp only [List.length_cons, toKanaEnd, hn, Bool.false_eq_true, if_false] at h
      have e : (⟨xs, r ++ [x]⟩ : ToState) = shift (r ++ [x]) ⟨xs, []⟩ := by simp [shift]
      rw [e, romaji_shift] at h
      obtain ⟨st', h1, _⟩ := processRomaji_ok c ⟨xs, []⟩
      rw [h1] at h
      simp only [Res.bind] at h
      rw [Res.bind_ok, end_shift] at h
      cases h2 : c.toKanaEnd xs.length st' with
      | ok z =>
        rw [h2] at h
        simp only [Res.bind, Res.ok.injEq] at h
        have h3 := hy x (by rw [← h]; simp)
        have h4 := hl x List.mem_cons_self
        omega
      | throw e => rw [h2] at h; cases h
      | ub => rw [h2] at h; cases h

/-- Pending letters are single bytes. -/
theorem short_letters (c : Converter) {st st' : ToState} (h : c.processRomajiShort st = .ok st') :
    ∀ b ∈ st'.letters, b ∈ st.letters := by
  unfold processRomajiShort at h
  split at h
  · rename_i k hk
    rw [get_kanaOut c (findKana_mem hk).1, Res.bind_ok] at h
    cases h; simp
  · cases h; exact fun _ h => h

theorem romaji_letters (c : Converter) {st st' : ToState} (h : c.processRomaji st = .ok st') :
    ∀ b ∈ st'.letters, b ∈ st.letters := by
  unfold processRomaji at h
  split at h
  · rename_i x0 x1 x2 hl
    split at h
    · rename_i k hk
      rw [get_kanaOut c (findKana_mem hk).1, Res.bind_ok] at h
      cases h; simp
    · have key : ∀ o : Res Str, (o >>= fun s => c.processRomajiShort { letters := [x1, x2], result := st.result ++ s }) = .ok st' →
          ∀ b ∈ st'.letters, b ∈ st.letters := by
        intro o ho
        cases o with
        | ok s =>
          rw [Res.bind_ok] at ho
          intro b hb
          have := short_letters c ho b hb
          rw [hl]; simp at this ⊢; exact Or.inr this
        | throw e => cases ho
        | ub => cases ho
      dsimp only at h
      split at h
      · exact key _ h
      · split at h
        · split at h
          · exact key _ h
          · exact key _ h
        · exact key _ h
  · exact short_letters c h

theorem single_ascii {p : Str} (h : isSingleByte p = true) : ∀ b ∈ p, b.toNat < 128 := by
  match p with
  | [] => simp
  | [b] =>
    simp only [isSingleByte, isSingleByteChar, List.isEmpty_nil, Bool.or_true, Bool.true_and, decide_eq_true_eq] at h
    intro x hx; simp at hx; subst hx
    exact UInt8.lt_iff_toNat_lt.mp h
  | a :: b :: r => simp [isSingleByte] at h

theorem step_ascii (c : Converter) {st st' : ToState} {p : Str} (h : c.toKanaStep st p = .ok st')
    (hl : ∀ b ∈ st.letters, b.toNat < 128) : ∀ b ∈ st'.letters, b.toNat < 128 := by
  unfold toKanaStep at h
  split at h
  · rename_i hs
    split at h
    · intro b hb
      have := romaji_letters c h b hb
      simp only [List.mem_append] at this
      exact this.elim (hl b) (single_ascii hs b)
    · split at h
      · cases h; exact single_ascii hs
      · split at h
        · rw [get_kanaOut c kanaN_mem, Res.bind_ok] at h
          cases h; exact hl
        · cases h; exact single_ascii hs
  · split at h
    · rename_i r hr
      unfold processRomajiMacron at hr
      split at hr
      · cases hr
      · rename_i v d hm
        have hv : v.toNat < 128 := by
          have hall : macrons.all (fun q => decide (q.2.1.toNat < 128)) = true := by decide
          exact of_decide_eq_true (List.all_eq_true.mp hall (p, v, d) (lookup_mem hm))
        cases hr
        obtain ⟨s, h1, _⟩ := processRomaji_ok c { st with letters := st.letters ++ [v] }
        rw [h1, Res.bind_ok] at h
        split at h
        · rename_i hn
          cases h
          simp [hn]
        · intro b hb
          have := romaji_letters c h b hb
          simp at this; subst this; exact hv
    · obtain ⟨s, h1, _⟩ := processRomaji_ok c st
      rw [h1, Res.bind_ok] at h
      cases h
      intro b hb
      exact hl b (romaji_letters c h1 b hb)

/-- A character that isn't a letter, after complete Romaji. -/
theorem step_complete (c : Converter) {p : Str} (h1 : isSingleByte p = false) (h2 : macrons.lookup p = none)
    {st : ToState} (hL : st.letters = [] ∨ isN st.letters = true) {y : Str}
    (h : c.toKanaEnd st.letters.length st = .ok y) : c.toKanaStep st p = .ok ⟨[], y ++ p⟩ := by
  obtain ⟨l, r⟩ := st
  unfold toKanaStep processRomajiMacron
  rw [if_neg (by simp [h1]), h2]
  simp only at hL ⊢
  have hN : ∀ x : UInt8, x = 0x6e ∨ x = 0x4e → l = [x] → (do
      let st ← c.processRomaji ⟨l, r⟩
      Res.ok (⟨st.letters, st.result ++ p⟩ : ToState)) = .ok ⟨[], y ++ p⟩ := by
    intro x hx hl
    subst hl
    have hlow : toLower [x] = [0x6e] := by rcases hx with rfl | rfl <;> rfl
    have hn : isN [x] = true := by rcases hx with rfl | rfl <;> rfl
    rw [romaji_short c (by simp)]
    unfold processRomajiShort
    simp only [hlow, romaji_n]
    simp only [List.length_cons, List.length_nil, toKanaEnd, hn, if_true] at h
    rw [get_kanaOut c kanaN_mem, Res.bind_ok] at h ⊢
    simp only [Res.ok.injEq] at h
    rw [← h]; rfl
  rcases hL with rfl | hn
  · have hlow : toLower [] = [] := rfl
    rw [romaji_short c (by simp)]
    unfold processRomajiShort
    simp only [hlow, romaji_nil]
    simp only [List.length_nil, toKanaEnd, if_true, Res.ok.injEq] at h
    rw [← h]; rfl
  · unfold isN at hn
    simp only [Bool.or_eq_true, beq_iff_eq] at hn
    rcases hn with hn | hn
    · exact hN 0x6e (Or.inl rfl) hn
    · exact hN 0x4e (Or.inr rfl) hn

/-- Complete Romaji before a character that isn't a letter. -/
theorem run_complete (c : Converter) {p : Str} (hp : IsPiece p) (h1 : isSingleByte p = false)
    (h2 : macrons.lookup p = none) {b : List Str} {z : Str} (hb : c.run {} b = .ok z) :
    ∀ (a : List Str) (st : ToState) (y : Str), c.run st a = .ok y → (∀ x ∈ y, 128 ≤ x.toNat) →
    (∀ x ∈ st.letters, x.toNat < 128) → c.run st (a ++ p :: b) = .ok (y ++ p ++ z) := by
  intro a
  induction a with
  | nil =>
    intro st y h hy hl
    have hL := end_ascii c h hy hl
    rw [List.nil_append, run_cons c st b (piece_other hp h1), step_complete c h1 h2 hL h]
    simp only [Res.bind]
    rw [run_result, show (⟨[], []⟩ : ToState) = {} from rfl, hb]
    rfl
  | cons q a ih =>
    intro st y h hy hl
    by_cases hd : IsDelim q
    · obtain ⟨d, hd, rfl⟩ := hd
      rw [List.cons_append, run_delim c st _ hd]
      rw [run_delim c st _ hd] at h
      cases hw : c.toKanaEnd st.letters.length st with
      | ok w =>
        rw [hw] at h
        simp only [Res.bind] at h ⊢
        cases ho : c.delimOut d with
        | ok o =>
          rw [ho] at h
          simp only at h ⊢
          cases hr : c.run {} a with
          | ok r =>
            rw [hr] at h
            simp only [Res.ok.injEq] at h
            subst h
            rw [ih {} r hr (fun x hx => hy x (by simp [hx])) (by simp)]
            simp
          | throw e => rw [hr] at h; cases h
          | ub => rw [hr] at h; cases h
        | throw e => rw [ho] at h; cases h
        | ub => rw [ho] at h; cases h
      | throw e => rw [hw] at h; cases h
      | ub => rw [hw] at h; cases h
    · rw [List.cons_append, run_cons c st _ hd]
      rw [run_cons c st _ hd] at h
      obtain ⟨st', hs⟩ := toKanaStep_ok c st q
      rw [hs] at h ⊢
      simp only [Res.bind] at h ⊢
      exact ih st' y h hy (step_ascii c hs hl)

/-- Delimiters separate. -/
theorem run_split (c : Converter) {d : UInt8} (hd : d ∈ narrowDelimList) {o : Str} (ho : c.delimOut d = .ok o)
    {b : List Str} {z : Str} (hb : c.run {} b = .ok z) :
    ∀ (a : List Str) (st : ToState) (y : Str), c.run st a = .ok y → c.run st (a ++ [d] :: b) = .ok (y ++ o ++ z) := by
  intro a
  induction a with
  | nil =>
    intro st y h
    rw [List.nil_append, run_delim c st _ hd, ho, hb]
    have : c.toKanaEnd st.letters.length st = .ok y := h
    rw [this]; rfl
  | cons q a ih =>
    intro st y h
    by_cases hq : IsDelim q
    · obtain ⟨e, he, rfl⟩ := hq
      rw [List.cons_append, run_delim c st _ he]
      rw [run_delim c st _ he] at h
      cases hw : c.toKanaEnd st.letters.length st with
      | ok w =>
        rw [hw] at h
        simp only [Res.bind] at h ⊢
        cases ho : c.delimOut e with
        | ok o =>
          rw [ho] at h
          simp only at h ⊢
          cases hr : c.run {} a with
          | ok r =>
            rw [hr] at h
            simp only [Res.ok.injEq] at h
            subst h
            rw [ih {} r hr]
            simp
          | throw e => rw [hr] at h; cases h
          | ub => rw [hr] at h; cases h
        | throw e => rw [ho] at h; cases h
        | ub => rw [ho] at h; cases h
      | throw e => rw [hw] at h; cases h
      | ub => rw [hw] at h; cases h
    · rw [List.cons_append, run_cons c st _ hq]
      rw [run_cons c st _ hq] at h
      obtain ⟨st', hs⟩ := toKanaStep_ok c st q
      rw [hs] at h ⊢
      simp only [Res.bind] at h ⊢
      exact ih st' y h

end Converter
end KT
