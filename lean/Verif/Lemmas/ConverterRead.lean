import Verif.Lemmas.ConverterGroup
/-!
# How the converter reads Romaji
-/
namespace KT
open Spec
namespace Converter

theorem byte_cases (P : UInt8 → Prop) (h : ∀ n : Nat, n < 256 → P (UInt8.ofNat n)) (b : UInt8) : P b := by
  have := h b.toNat (UInt8.toNat_lt b)
  simpa using this

theorem toLowerChar_letter {b : UInt8} (h : letterOk b = true) : toLowerChar b = b := by
  have : ∀ n : Nat, n < 256 → letterOk (UInt8.ofNat n) = true → toLowerChar (UInt8.ofNat n) = UInt8.ofNat n := by
    decide +kernel
  exact byte_cases (fun b => letterOk b = true → toLowerChar b = b) this b h

theorem toLower_letters {s : Str} (h : ∀ b ∈ s, letterOk b = true) : toLower s = s := by
  induction s with
  | nil => rfl
  | cons b s ih =>
    have h1 := toLowerChar_letter (h b List.mem_cons_self)
    have h2 := ih fun x hx => h x (List.mem_cons_of_mem _ hx)
    simp only [toLower, List.map_cons] at h2 ⊢
    rw [h1, h2]

theorem romaji_nil : findKana .romaji [] = none := by decide +kernel
theorem romaji_n : findKana .romaji [0x6e] = some kanaN := by decide +kernel

theorem short_none (c : Converter) {l R : Str} (hl : ∀ b ∈ l, letterOk b = true)
    (h : findKana .romaji l = none) : c.processRomajiShort ⟨l, R⟩ = .ok ⟨l, R⟩ := by
  unfold processRomajiShort
  simp only [toLower_letters hl, h]

theorem short_some (c : Converter) {l R : Str} {k : Kana} (hl : ∀ b ∈ l, letterOk b = true)
    (h : findKana .romaji l = some k) : c.processRomajiShort ⟨l, R⟩ = .ok ⟨[], R ++ kanaOut c k⟩ := by
  unfold processRomajiShort
  simp only [toLower_letters hl, h]
  rw [get_kanaOut c (findKana_mem h).1, Res.bind_ok]

theorem romaji_short (c : Converter) {l R : Str} (h : l.length ≠ 3) :
    c.processRomaji ⟨l, R⟩ = c.processRomajiShort ⟨l, R⟩ := by
  unfold processRomaji
  split
  · rename_i h1; simp only at h1; rw [h1] at h; simp at h
  · rfl

theorem three_some (c : Converter) {x y z : UInt8} {R : Str} {k : Kana}
    (hl : ∀ b ∈ [x, y, z], letterOk b = true) (h : findKana .romaji [x, y, z] = some k) :
    c.processRomaji ⟨[x, y, z], R⟩ = .ok ⟨[], R ++ kanaOut c k⟩ := by
  unfold processRomaji
  simp only [toLower_letters hl, h]
  rw [get_kanaOut c (findKana_mem h).1, Res.bind_ok]

/-- What is output for the first of three letters. -/
def firstOut (c : Converter) (x y : UInt8) : Str :=
  if x = 0x6e then kanaOut c kanaN
  else if (x = y ∨ x = 0x74 ∧ y = 0x63) ∧ x ∈ repeatingConsonants then kanaOut c smallTsu
  else [x]

theorem three_none (c : Converter) {x y z : UInt8} {R : Str}
    (hl : ∀ b ∈ [x, y, z], letterOk b = true) (h : findKana .romaji [x, y, z] = none) :
    c.processRomaji ⟨[x, y, z], R⟩ = c.processRomajiShort ⟨[y, z], R ++ firstOut c x y⟩ := by
  unfold processRomaji firstOut
  simp only [toLower_letters hl, h, toLowerChar_letter (hl x (by simp)), toLowerChar_letter (hl y (by simp))]
  by_cases h1 : x = 0x6e
  · simp only [h1, if_true, get_kanaOut c kanaN_mem, Res.bind_ok]
  · simp only [h1, if_false]
    by_cases h2 : x = y ∨ x = 0x74 ∧ y = 0x63
    · by_cases h3 : x ∈ repeatingConsonants
      · simp only [h2, h3, if_true, get_kanaOut c smallTsu_mem, Res.bind_ok, and_self]
      · simp only [h2, h3, if_true, if_false, Res.bind_ok, and_false]
    · simp only [h2, if_false, Res.bind_ok, false_and]

theorem single {b : UInt8} (h : letterOk b = true) : isSingleByte [b] = true := by
  have : ∀ n : Nat, n < 256 → letterOk (UInt8.ofNat n) = true → isSingleByte [UInt8.ofNat n] = true := by
    decide +kernel
  exact byte_cases (fun b => letterOk b = true → isSingleByte [b] = true) this b h

theorem step_letter (c : Converter) {b : UInt8} (h : b ≠ 0x6e) (hl : letterOk b = true) (l R : Str) :
    c.toKanaStep ⟨l, R⟩ [b] = c.processRomaji ⟨l ++ [b], R⟩ := by
  unfold toKanaStep
  have hn : isN [b] = false := by
    have : ∀ n : Nat, n < 256 → letterOk (UInt8.ofNat n) = true → UInt8.ofNat n ≠ 0x6e →
        isN [UInt8.ofNat n] = false := by decide +kernel
    exact byte_cases (fun b => letterOk b = true → b ≠ 0x6e → isN [b] = false) this b hl h
  rw [if_pos (single hl), hn]
  rfl

theorem step_n_empty (c : Converter) (R : Str) : c.toKanaStep ⟨[], R⟩ [0x6e] = .ok ⟨[0x6e], R⟩ := by
  unfold toKanaStep
  rw [if_pos (single (by decide))]
  rfl
theorem step_n_n (c : Converter) (R : Str) :
    c.toKanaStep ⟨[0x6e], R⟩ [0x6e] = .ok ⟨[0x6e], R ++ kanaOut c kanaN⟩ := by
  unfold toKanaStep
  rw [if_pos (single (by decide)), get_kanaOut c kanaN_mem]
  rfl

theorem loop_append (c : Converter) (st : ToState) (xs ys : List Str) :
    c.toKanaLoop st (xs ++ ys) = (c.toKanaLoop st xs).bind fun st => c.toKanaLoop st ys := by
  induction xs generalizing st with
  | nil => rfl
  | cons x xs ih =>
    simp only [List.cons_append, toKanaLoop]
    cases h : c.toKanaStep st x with
    | ok st' => simp only [Res.bind_ok, ih]
    | throw e => rfl
    | ub => rfl

/-- The letters still to be read: none, or an `n`. -/
def Pending (L : Str) : Prop := L = [] ∨ L = [0x6e]

/-- The ん that the pending letters stand for. -/
def pend (c : Converter) (L : Str) : Str := if L = [] then [] else kanaOut c kanaN

/-- First letters that would be combined with an `n` before them. -/
def Joins (r : Str) : Prop := ∃ b, r.head? = some b ∧ (isVowel b = true ∨ b = 0x79)

theorem vowel_ne {b : UInt8} (h : isVowel b = true) : b ≠ 0x6e := by rintro rfl; exact absurd h (by decide)
theorem vowel_letter {b : UInt8} (h : isVowel b = true) : letterOk b = true := by
  simp only [isVowel, List.contains_eq_mem, decide_eq_true_eq, List.mem_cons, List.not_mem_nil, or_false] at h
  rcases h with rfl | rfl | rfl | rfl | rfl <;> decide

theorem loop1 (c : Converter) (st : ToState) (x : Str) : c.toKanaLoop st [x] = c.toKanaStep st x := by
  simp only [toKanaLoop]; cases c.toKanaStep st x <;> rfl

theorem loop_ok (c : Converter) {st st' : ToState} {x : Str} (h : c.toKanaStep st x = .ok st')
    (xs : List Str) : c.toKanaLoop st (x :: xs) = c.toKanaLoop st' xs := by
  simp only [toKanaLoop, h, Res.bind_ok]

/-- The shape of the Romaji of an entry, in words. -/
theorem word_cases {k : Kana} (hk : k ∈ allKana) (hN : k ≠ kanaN) :
    (∃ a, k.romaji = [a] ∧ isVowel a = true ∧ k.afterN = true) ∨
    (∃ a b, k.romaji = [a, b] ∧ letterOk a = true ∧ isVowel a = false ∧ isVowel b = true) ∨
    (∃ a b d, k.romaji = [a, b, d] ∧ letterOk a = true ∧ isVowel a = false ∧ letterOk b = true ∧ b ≠ 0x6e ∧
      isVowel d = true) := by
  have h := shape_ok k hk
  unfold shapeOk at h
  split at h
  · rename_i a ha
    left
    simp only [Bool.and_eq_true, Bool.or_eq_true, beq_iff_eq, Bool.not_eq_true'] at h
    have hv : isVowel a = true := by
      rcases h.1.2 with h | h
      · exact h
      · exact absurd h.1 hN
    refine ⟨a, ha, hv, ?_⟩
    rcases h.2 with h | h
    · rw [hv] at h; cases h
    · exact h
  · rename_i a b ha
    right; left
    simp only [Bool.and_eq_true, Bool.not_eq_true'] at h
    exact ⟨a, b, ha, h.1.1.1.1, h.1.2, h.1.1.2⟩
  · rename_i a b d ha
    right; right
    simp only [Bool.and_eq_true, Bool.not_eq_true', bne_iff_ne] at h
    exact ⟨a, b, d, ha, h.1.1.1.1.1, h.2, h.1.1.1.1.2, h.1.1.2, h.1.2⟩
  · cases h

/-- A spelling of an entry that is read letter by letter. -/
structure WordOf (w : Str) (k : Kana) : Prop where
  found : findKana .romaji w = some k
  bad : ∀ s ∈ badWords w, findKana .romaji s = none
  shape : (∃ a, w = [a] ∧ isVowel a = true) ∨
    (∃ a b, w = [a, b] ∧ letterOk a = true ∧ isVowel a = false ∧ isVowel b = true) ∨
    (∃ a b d, w = [a, b, d] ∧ letterOk a = true ∧ isVowel a = false ∧ letterOk b = true ∧ b ≠ 0x6e ∧ isVowel d = true)

theorem word_romaji {k : Kana} (hk : k ∈ allKana) (hN : k ≠ kanaN) : WordOf k.romaji k := by
  refine ⟨findKana_romaji hk, bad_words k hk, ?_⟩
  rcases word_cases hk hN with ⟨a, hr, hv, _⟩ | h | h
  · exact Or.inl ⟨a, hr, hv⟩
  · exact Or.inr (Or.inl h)
  · exact Or.inr (Or.inr h)

/-- Reading a spelling of an entry. -/
theorem feed_word (c : Converter) {w : Str} {k : Kana} (hw : WordOf w k) {L : Str} (hL : Pending L)
    (hj : L ≠ [] → ¬ Joins w) (R : Str) :
    c.toKanaLoop ⟨L, R⟩ (w.map ([·])) = .ok ⟨[], R ++ pend c L ++ kanaOut c k⟩ := by
  obtain ⟨hf, hbad, hshape⟩ := hw
  rcases hshape with ⟨a, hr, hv⟩ | ⟨a, b, hr, ha, hva, hvb⟩ | ⟨a, b, d, hr, ha, hva, hb, hbn, hvd⟩
  · rw [hr] at hf hj ⊢
    rcases hL with rfl | rfl
    · simp only [List.map_cons, List.map_nil]
      rw [loop1, step_letter c (vowel_ne hv) (vowel_letter hv), romaji_short c (by simp),
        List.nil_append, short_some c (by simpa using vowel_letter hv) hf]
      simp [pend]
    · exact absurd ⟨a, rfl, Or.inl hv⟩ (hj (by simp))
  · rw [hr] at hf hj hbad ⊢
    have hlb := vowel_letter hvb
    have hnb := vowel_ne hvb
    have hab : ∀ x ∈ [a, b], letterOk x = true := by simp [ha, hlb]
    simp only [List.map_cons, List.map_nil]
    by_cases han : a = 0x6e
    · subst han
      have hstep : c.toKanaStep ⟨L, R⟩ [0x6e] = .ok ⟨[0x6e], R ++ pend c L⟩ := by
        rcases hL with rfl | rfl
        · rw [step_n_empty]; simp [pend]
        · rw [step_n_n]; simp [pend]
      rw [loop_ok c hstep, loop1, step_letter c hnb hlb, romaji_short c (by simp)]
      exact short_some c hab hf
    · have h1 : findKana .romaji [a] = none := hbad _ (by simp [badWords, han])
      rcases hL with rfl | rfl
      · have hstep : c.toKanaStep ⟨[], R⟩ [a] = .ok ⟨[a], R⟩ := by
          rw [step_letter c han ha, romaji_short c (by simp)]
          exact short_none c (by simpa using ha) h1
        rw [loop_ok c hstep, loop1, step_letter c hnb hlb, romaji_short c (by simp)]
        rw [show [a] ++ [b] = [a, b] from rfl, short_some c hab hf]
        simp [pend]
      · have hay : a ≠ 0x79 := fun h => hj (by simp) ⟨a, rfl, Or.inr h⟩
        have h2 : findKana .romaji [0x6e, a] = none := hbad _ (by simp [badWords, badWords.common, han, hay])
        have h3 : findKana .romaji [0x6e, a, b] = none := hbad _ (by simp [badWords, badWords.common, han, hay])
        have hstep : c.toKanaStep ⟨[0x6e], R⟩ [a] = .ok ⟨[0x6e, a], R⟩ := by
          rw [step_letter c han ha, romaji_short c (by simp)]
          exact short_none c (by simp [ha]; decide) h2
        rw [loop_ok c hstep, loop1, step_letter c hnb hlb]
        rw [show [0x6e, a] ++ [b] = [0x6e, a, b] from rfl, three_none c (by simp [ha, hlb]; decide) h3,
          short_some c hab hf]
        simp [pend, firstOut]
  · rw [hr] at hf hj hbad ⊢
    have hld := vowel_letter hvd
    have hnd := vowel_ne hvd
    have hab : ∀ x ∈ [a, b], letterOk x = true := by simp [ha, hb]
    have habd : ∀ x ∈ [a, b, d], letterOk x = true := by simp [ha, hb, hld]
    have h0 : findKana .romaji [a, b] = none := hbad _ (by simp [badWords])
    simp only [List.map_cons, List.map_nil]
    by_cases han : a = 0x6e
    · subst han
      have hstep : c.toKanaStep ⟨L, R⟩ [0x6e] = .ok ⟨[0x6e], R ++ pend c L⟩ := by
        rcases hL with rfl | rfl
        · rw [step_n_empty]; simp [pend]
        · rw [step_n_n]; simp [pend]
      have hstep2 : c.toKanaStep ⟨[0x6e], R ++ pend c L⟩ [b] = .ok ⟨[0x6e, b], R ++ pend c L⟩ := by
        rw [step_letter c hbn hb, romaji_short c (by simp)]
        exact short_none c hab h0
      rw [loop_ok c hstep, loop_ok c hstep2, loop1, step_letter c hnd hld]
      exact three_some c habd hf
    · have h1 : findKana .romaji [a] = none := hbad _ (by simp [badWords, han])
      rcases hL with rfl | rfl
      · have hstep : c.toKanaStep ⟨[], R⟩ [a] = .ok ⟨[a], R⟩ := by
          rw [step_letter c han ha, romaji_short c (by simp)]
          exact short_none c (by simpa using ha) h1
        have hstep2 : c.toKanaStep ⟨[a], R⟩ [b] = .ok ⟨[a, b], R⟩ := by
          rw [step_letter c hbn hb, romaji_short c (by simp)]
          exact short_none c hab h0
        rw [loop_ok c hstep, loop_ok c hstep2, loop1, step_letter c hnd hld]
        rw [show [a, b] ++ [d] = [a, b, d] from rfl, three_some c habd hf]
        simp [pend]
      · have hay : a ≠ 0x79 := fun h => hj (by simp) ⟨a, rfl, Or.inr h⟩
        have h2 : findKana .romaji [0x6e, a] = none := hbad _ (by simp [badWords, badWords.common, han, hay])
        have h3 : findKana .romaji [0x6e, a, b] = none := hbad _ (by simp [badWords, badWords.common, han, hay])
        have hstep : c.toKanaStep ⟨[0x6e], R⟩ [a] = .ok ⟨[0x6e, a], R⟩ := by
          rw [step_letter c han ha, romaji_short c (by simp)]
          exact short_none c (by simp [ha]; decide) h2
        have hstep2 : c.toKanaStep ⟨[0x6e, a], R⟩ [b] = .ok ⟨[a, b], R ++ kanaOut c kanaN⟩ := by
          rw [step_letter c hbn hb, show [0x6e, a] ++ [b] = [0x6e, a, b] from rfl,
            three_none c (by simp [ha, hb]; decide) h3, short_none c hab h0]
          simp [firstOut]
        rw [loop_ok c hstep, loop_ok c hstep2, loop1, step_letter c hnd hld]
        rw [show [a, b] ++ [d] = [a, b, d] from rfl, three_some c habd hf]
        simp [pend]

/-- Reading the Romaji of an entry. -/
theorem feed (c : Converter) {k : Kana} (hk : k ∈ allKana) (hN : k ≠ kanaN) {L : Str} (hL : Pending L)
    (hj : L ≠ [] → ¬ Joins k.romaji) (R : Str) :
    c.toKanaLoop ⟨L, R⟩ (k.romaji.map ([·])) = .ok ⟨[], R ++ pend c L ++ kanaOut c k⟩ :=
  feed_word c (word_romaji hk hN) hL hj R

theorem sokuon_letter {a : UInt8} (h : a ∈ repList) : letterOk a = true ∧ a ≠ 0x6e ∧
    letterOk (sokuonLetter a) = true ∧ sokuonLetter a ≠ 0x6e ∧ sokuonLetter a ∈ repList ∧
    (sokuonLetter a = a ∨ sokuonLetter a = 0x74 ∧ a = 0x63) := by
  revert a; decide

/-- Strings that must not be Romaji keys for a word to be read after the letter `y`. -/
def doubledWords (y : UInt8) : Str → List Str
  | a :: b :: _ => [[y], [y, a], [y, a, b], [0x6e, y], [0x6e, y, a]]
  | _ => []

/-- Reading a doubled consonant. -/
theorem feed_double_word (c : Converter) {w : Str} {k : Kana} (hw : WordOf w k) {a' y : UInt8} (ha' : w.head? = some a')
    (hrep : a' ∈ repList) (hs6 : y = a' ∨ y = 0x74 ∧ a' = 0x63) (hnone : ∀ s ∈ doubledWords y w, findKana .romaji s = none)
    {L : Str} (hL : Pending L) (R : Str) :
    c.toKanaLoop ⟨L, R⟩ ((y :: w).map ([·])) = .ok ⟨[], R ++ pend c L ++ kanaOut c smallTsu ++ kanaOut c k⟩ := by
  obtain ⟨hf, hbad, hshape⟩ := hw
  obtain ⟨hs1, hs2, -⟩ := sokuon_letter hrep
  obtain ⟨hs3, hs4, hs5⟩ : letterOk y = true ∧ y ≠ 0x6e ∧ y ∈ repList := by
    rcases hs6 with rfl | ⟨rfl, _⟩
    · exact ⟨hs1, hs2, hrep⟩
    · decide
  rcases hshape with ⟨a, hr, hv⟩ | ⟨a, b, hr, ha, hva, hvb⟩ | ⟨a, b, d, hr, ha, hva, hb, hbn, hvd⟩
  · rw [hr] at ha'
    simp at ha'; subst ha'
    exfalso
    have : ∀ x ∈ repList, isVowel x = false := by decide
    rw [this a hrep] at hv; cases hv
  · rw [hr] at hf hbad hnone ha' ⊢
    simp at ha'; subst ha'
    have hlb := vowel_letter hvb
    have hnb := vowel_ne hvb
    have hab : ∀ x ∈ [a, b], letterOk x = true := by simp [ha, hlb]
    simp only [List.map_cons, List.map_nil]
    have h1 : findKana .romaji [y] = none := hnone _ (by simp [doubledWords])
    have h2 : findKana .romaji [y, a] = none := hnone _ (by simp [doubledWords])
    have h3 : findKana .romaji [y, a, b] = none := hnone _ (by simp [doubledWords])
    have h4 : findKana .romaji [0x6e, y] = none := hnone _ (by simp [doubledWords])
    have h5 : findKana .romaji [0x6e, y, a] = none := hnone _ (by simp [doubledWords])
    have hmid : c.toKanaLoop ⟨L, R⟩ [[y], [a]] = .ok ⟨[y, a], R ++ pend c L⟩ := by
      rcases hL with rfl | rfl
      · have hstep : c.toKanaStep ⟨[], R⟩ [y] = .ok ⟨[y], R⟩ := by
          rw [step_letter c hs4 hs3, romaji_short c (by simp)]
          exact short_none c (by simpa using hs3) h1
        rw [loop_ok c hstep, loop1, step_letter c hs2 hs1, romaji_short c (by simp),
          show [y] ++ [a] = [y, a] from rfl, short_none c (by simp [hs1, hs3]) h2]
        simp [pend]
      · have hstep : c.toKanaStep ⟨[0x6e], R⟩ [y] = .ok ⟨[0x6e, y], R⟩ := by
          rw [step_letter c hs4 hs3, romaji_short c (by simp)]
          exact short_none c (by simp [hs3]; decide) h4
        rw [loop_ok c hstep, loop1, step_letter c hs2 hs1, show [0x6e, y] ++ [a] = [0x6e, y, a] from rfl,
          three_none c (by simp [hs1, hs3]; decide) h5, short_none c (by simp [hs1, hs3]) h2]
        simp [pend, firstOut]
    rw [show [[y], [a], [b]] = [[y], [a]] ++ [[b]] from rfl, loop_append, hmid]
    simp only [Res.bind]
    rw [loop1, step_letter c hnb hlb, show [y, a] ++ [b] = [y, a, b] from rfl,
      three_none c (by simp [hs1, hs3, hlb]) h3, short_some c hab hf]
    simp [firstOut, hs4, hs6, rep_iff, hs5]
  · rw [hr] at hf hbad hnone ha' ⊢
    simp at ha'; subst ha'
    have hld := vowel_letter hvd
    have hnd := vowel_ne hvd
    have hab : ∀ x ∈ [a, b], letterOk x = true := by simp [ha, hb]
    have habd : ∀ x ∈ [a, b, d], letterOk x = true := by simp [ha, hb, hld]
    have h0 : findKana .romaji [a, b] = none := hbad _ (by simp [badWords])
    simp only [List.map_cons, List.map_nil]
    have h1 : findKana .romaji [y] = none := hnone _ (by simp [doubledWords])
    have h2 : findKana .romaji [y, a] = none := hnone _ (by simp [doubledWords])
    have h3 : findKana .romaji [y, a, b] = none := hnone _ (by simp [doubledWords])
    have h4 : findKana .romaji [0x6e, y] = none := hnone _ (by simp [doubledWords])
    have h5 : findKana .romaji [0x6e, y, a] = none := hnone _ (by simp [doubledWords])
    have hmid : c.toKanaLoop ⟨L, R⟩ [[y], [a]] = .ok ⟨[y, a], R ++ pend c L⟩ := by
      rcases hL with rfl | rfl
      · have hstep : c.toKanaStep ⟨[], R⟩ [y] = .ok ⟨[y], R⟩ := by
          rw [step_letter c hs4 hs3, romaji_short c (by simp)]
          exact short_none c (by simpa using hs3) h1
        rw [loop_ok c hstep, loop1, step_letter c hs2 hs1, romaji_short c (by simp),
          show [y] ++ [a] = [y, a] from rfl, short_none c (by simp [hs1, hs3]) h2]
        simp [pend]
      · have hstep : c.toKanaStep ⟨[0x6e], R⟩ [y] = .ok ⟨[0x6e, y], R⟩ := by
          rw [step_letter c hs4 hs3, romaji_short c (by simp)]
          exact short_none c (by simp [hs3]; decide) h4
        rw [loop_ok c hstep, loop1, step_letter c hs2 hs1, show [0x6e, y] ++ [a] = [0x6e, y, a] from rfl,
          three_none c (by simp [hs1, hs3]; decide) h5, short_none c (by simp [hs1, hs3]) h2]
        simp [pend, firstOut]
    have hstep3 : c.toKanaStep ⟨[y, a], R ++ pend c L⟩ [b] = .ok ⟨[a, b], R ++ pend c L ++ kanaOut c smallTsu⟩ := by
      rw [step_letter c hbn hb, show [y, a] ++ [b] = [y, a, b] from rfl,
        three_none c (by simp [hs1, hs3, hb]) h3, short_none c hab h0]
      simp [firstOut, hs4, hs6, rep_iff, hs5]
    rw [show [[y], [a], [b], [d]] = [[y], [a]] ++ [[b], [d]] from rfl, loop_append, hmid]
    simp only [Res.bind]
    rw [loop_ok c hstep3, loop1, step_letter c hnd hld, show [a, b] ++ [d] = [a, b, d] from rfl, three_some c habd hf]

theorem feed_sokuon_word (c : Converter) {w : Str} {k : Kana} (hw : WordOf w k)
    (hd : ∃ b ∈ w.head?, b ∈ repeatingConsonants) {L : Str} (hL : Pending L) (R : Str) :
    ∃ a r, w = a :: r ∧
    c.toKanaLoop ⟨L, R⟩ ((sokuonLetter a :: w).map ([·])) =
      .ok ⟨[], R ++ pend c L ++ kanaOut c smallTsu ++ kanaOut c k⟩ := by
  obtain ⟨a, ha, hrep⟩ := hd
  rw [rep_iff] at hrep
  obtain ⟨r, rfl⟩ : ∃ r, w = a :: r := by
    cases w with
    | nil => cases ha
    | cons b r => simp at ha; subst ha; exact ⟨r, rfl⟩
  refine ⟨a, r, rfl, feed_double_word c hw rfl hrep (sokuon_letter hrep).2.2.2.2.2 ?_ hL R⟩
  intro s hs
  apply hw.bad
  rcases hw.shape with ⟨x, h1, _⟩ | ⟨x, b, h1, _⟩ | ⟨x, b, d, h1, _⟩ <;>
    (simp only [List.cons.injEq] at h1; obtain ⟨rfl, rfl⟩ := h1; simp_all [doubledWords, badWords, badWords.common])

theorem feed_sokuon (c : Converter) {k : Kana} (hk : k ∈ allKana) (hN : k ≠ kanaN) (hd : Doubles k)
    {L : Str} (hL : Pending L) (R : Str) :
    ∃ a r, k.romaji = a :: r ∧
    c.toKanaLoop ⟨L, R⟩ ((sokuonLetter a :: k.romaji).map ([·])) =
      .ok ⟨[], R ++ pend c L ++ kanaOut c smallTsu ++ kanaOut c k⟩ :=
  feed_sokuon_word c (word_romaji hk hN) hd hL R

/-- A vowel with a macron is read as the vowel and a prolong mark. -/
theorem step_macron (c : Converter) (hf : c.flags.noProlongMark = false) {v : UInt8} {m : Str}
    (hm : macronLetter v = some m) {st : ToState} {X : Str} (h : c.toKanaStep st [v] = .ok ⟨[], X⟩) :
    c.toKanaStep st m = .ok ⟨[], X ++ prolongMark⟩ := by
  have hv : isVowel v = true := by
    unfold macronLetter at hm
    split at hm
    · rename_i h; rw [h]; decide
    split at hm
    · rename_i h; rw [h]; decide
    split at hm
    · rename_i h; rw [h]; decide
    split at hm
    · rename_i h; rw [h]; decide
    split at hm
    · rename_i h; rw [h]; decide
    · cases hm
  have hms : isSingleByte m = false ∧ ∃ d, macrons.lookup m = some (v, d) := by
    simp only [isVowel, List.contains_eq_mem, decide_eq_true_eq, List.mem_cons, List.not_mem_nil, or_false] at hv
    rcases hv with rfl | rfl | rfl | rfl | rfl <;>
      (simp [macronLetter] at hm; subst hm; refine ⟨by decide, ?_⟩; exact ⟨_, rfl⟩)
  obtain ⟨h1, d, h2⟩ := hms
  obtain ⟨l, R⟩ := st
  rw [step_letter c (vowel_ne hv) (vowel_letter hv)] at h
  unfold toKanaStep
  rw [if_neg (by simp [h1])]
  unfold processRomajiMacron
  rw [h2]
  simp only [h, Res.bind_ok, if_true, hf]
  simp

/-- Other multi-byte characters are kept. -/
theorem step_other (c : Converter) {p : Str} (h1 : isSingleByte p = false) (h2 : macrons.lookup p = none)
    {L : Str} (hL : Pending L) (R : Str) : c.toKanaStep ⟨L, R⟩ p = .ok ⟨[], R ++ pend c L ++ p⟩ := by
  unfold toKanaStep
  rw [if_neg (by simp [h1])]
  unfold processRomajiMacron
  rw [h2]
  simp only
  rcases hL with rfl | rfl
  · rw [romaji_short c (by simp), short_none c (by simp) romaji_nil, Res.bind_ok]; simp [pend]
  · rw [romaji_short c (by simp), short_some c (by simp; decide) romaji_n, Res.bind_ok]; simp [pend]

theorem end_pending (c : Converter) {L : Str} (hL : Pending L) (R : Str) :
    c.toKanaEnd L.length ⟨L, R⟩ = .ok (R ++ pend c L) := by
  rcases hL with rfl | rfl
  · simp [toKanaEnd, pend]
  · simp only [List.length_cons, List.length_nil, toKanaEnd, show isN [0x6e] = true from rfl, if_true,
      get_kanaOut c kanaN_mem, Res.bind_ok]
    simp [pend]

/-! ## Splitting at delimiters -/

/-- Pieces that end a word. -/
def IsDelim (p : Str) : Prop := ∃ b ∈ narrowDelimList, p = [b]

instance (p : Str) : Decidable (IsDelim p) := by unfold IsDelim; infer_instance

/-- Output for a delimiter. -/
def delimOut (c : Converter) (b : UInt8) : Res Str :=
  if b ≠ apostrophe ∧ b ≠ dash ∧ (c.flags.removeSpaces = false ∨ b ≠ 0x20) then narrowDelimAt b else .ok []

/-- Reading a list of pieces. -/
def run (c : Converter) : ToState → List Str → Res Str
  | st, [] => c.toKanaEnd st.letters.length st
  | st, p :: ps =>
    match p with
    | [b] =>
      if b ∈ narrowDelimList then
        (c.toKanaEnd st.letters.length st).bind fun w => (c.delimOut b).bind fun d =>
          (run c {} ps).bind fun r => .ok (w ++ d ++ r)
      else (c.toKanaStep st p).bind fun st => run c st ps
    | p => (c.toKanaStep st p).bind fun st => run c st ps

theorem piece_bytes {p : Str} (h : IsPiece p) (hd : ¬ IsDelim p) : ∀ b ∈ p, b ∉ narrowDelimList := by
  have hge : ∀ {c : Char}, 128 ≤ c.toNat → ∀ b ∈ String.utf8EncodeChar c, 128 ≤ b.toNat := by
    intro c hc b hb
    obtain ⟨x, t, he, hx, ht⟩ := encodeChar_first hc
    rw [he] at hb
    rcases List.mem_cons.mp hb with rfl | hb
    · omega
    · exact (ht b hb).1
  intro b hb hn
  rcases h with ⟨x, _, _, rfl⟩ | ⟨c, hc, _, _, rfl | ⟨v, hv, rfl⟩⟩
  · simp at hb; subst hb; exact hd ⟨b, hn, rfl⟩
  · have := hge hc b hb; have := delim_not_letter b hn; omega
  · have h1 := delim_not_letter b hn
    rcases List.mem_append.mp hb with hb | hb
    · have := hge hc b hb; omega
    · have := hge (selector_ge hv) b hb; omega

theorem romajiLoop_skip (c : Converter) (p r w res : Str) (h : ∀ b ∈ p, b ∉ narrowDelimList) :
    c.convertRomajiLoop (p ++ r) w res = c.convertRomajiLoop r (w ++ p) res := by
  induction p generalizing w with
  | nil => simp
  | cons b p ih =>
    simp only [List.cons_append, convertRomajiLoop]
    rw [if_neg (h b List.mem_cons_self), ih _ fun x hx => h x (List.mem_cons_of_mem _ hx)]
    simp

theorem toKana_pieces (c : Converter) {ps : List Str} (h : ∀ p ∈ ps, IsPiece p) :
    c.toKana ps.flatten = c.toKanaChars ps := by
  obtain ⟨st, h1⟩ := utf8Chars_pieces h
  unfold toKana
  rw [h1]

theorem run_cons (c : Converter) (st : ToState) {p : Str} (ps : List Str) (h : ¬ IsDelim p) :
    c.run st (p :: ps) = (c.toKanaStep st p).bind fun st => c.run st ps := by
  match p with
  | [] => rfl
  | [b] =>
    simp only [run]
    rw [if_neg (fun hb => h ⟨b, hb, rfl⟩)]
  | _ :: _ :: _ => rfl

theorem run_delim (c : Converter) (st : ToState) {b : UInt8} (ps : List Str) (h : b ∈ narrowDelimList) :
    c.run st ([b] :: ps) = (c.toKanaEnd st.letters.length st).bind fun w => (c.delimOut b).bind fun d =>
          (c.run {} ps).bind fun r => .ok (w ++ d ++ r) := by
  simp only [run]; rw [if_pos h]

/-- Splitting the bytes at delimiters and reading each word is the same as reading the pieces. -/
theorem romajiLoop_run (c : Converter) : ∀ (ps w : List Str) (res : Str), (∀ p ∈ ps, IsPiece p) →
    (∀ p ∈ w, IsPiece p) → c.convertRomajiLoop ps.flatten w.flatten res =
      (c.toKanaLoop {} w).bind fun st => (c.run st ps).bind fun r => .ok (res ++ r) := by
  intro ps
  induction ps with
  | nil =>
    intro w res _ hw
    simp only [List.flatten_nil, convertRomajiLoop, run]
    rw [toKana_pieces c hw]
    unfold toKanaChars
    cases h : c.toKanaLoop {} w with
    | ok st => rfl
    | throw e => rfl
    | ub => rfl
  | cons p ps ih =>
    intro w res hp hw
    have hp1 := hp p List.mem_cons_self
    have hp2 := fun q hq => hp q (List.mem_cons_of_mem p hq)
    by_cases hd : IsDelim p
    · obtain ⟨b, hb, rfl⟩ := hd
      simp only [List.flatten_cons, List.cons_append, List.nil_append, convertRomajiLoop]
      rw [if_pos hb, toKana_pieces c hw]
      unfold toKanaChars
      cases h : c.toKanaLoop {} w with
      | throw e => rfl
      | ub => rfl
      | ok st =>
        simp only [Res.bind_ok, Res.bind]
        rw [run_delim c st ps hb]
        cases h1 : c.toKanaEnd st.letters.length st with
        | throw e => rfl
        | ub => rfl
        | ok x =>
          simp only [Res.bind_ok, Res.bind]
          have hdo : (if b ≠ apostrophe ∧ b ≠ dash ∧ (c.flags.removeSpaces = false ∨ b ≠ 0x20)
            then narrowDelimAt b else .ok []) = c.delimOut b := rfl
          have key : ∀ d, c.convertRomajiLoop ps.flatten [] (res ++ x ++ d) =
              ((c.run {} ps).bind fun r => .ok (x ++ d ++ r)).bind fun r => .ok (res ++ r) := by
            intro d
            have := ih [] (res ++ x ++ d) hp2 (by simp)
            simp only [List.flatten_nil, toKanaLoop, Res.bind] at this
            rw [this]
            cases c.run {} ps with
            | ok r => simp [Res.bind]
            | throw e => rfl
            | ub => rfl
          unfold delimOut at *
          split
          · cases h2 : narrowDelimAt b with
            | throw e => rfl
            | ub => rfl
            | ok d => simp only [Res.bind_ok]; rw [key d]; rfl
          · rw [key []]; rfl
    · rw [List.flatten_cons, romajiLoop_skip c _ _ _ _ (piece_bytes hp1 hd),
        show w.flatten ++ p = (w ++ [p]).flatten by simp, ih (w ++ [p]) res hp2 (by
          intro q hq; rcases List.mem_append.mp hq with h | h
          · exact hw q h
          · simp at h; subst h; exact hp1), loop_append]
      cases h : c.toKanaLoop {} w with
      | throw e => rfl
      | ub => rfl
      | ok st =>
        simp only [Res.bind]
        rw [run_cons c st ps hd, loop1]
        cases c.toKanaStep st p <;> rfl

theorem convert_run (c : Converter) {ps : List Str} (h : ∀ p ∈ ps, IsPiece p) (ht : c.target ≠ .romaji) :
    c.convertFrom .romaji ps.flatten = c.run {} ps := by
  unfold convertFrom
  rw [if_neg (fun h => ht h.symm)]
  simp only
  have := romajiLoop_run c ps [] [] h (by simp)
  simp only [List.flatten_nil, toKanaLoop, Res.bind] at this
  rw [this]
  cases c.run {} ps <;> simp

theorem run_append (c : Converter) (st : ToState) {xs : List Str} (ys : List Str)
    (h : ∀ p ∈ xs, ¬ IsDelim p) : c.run st (xs ++ ys) = (c.toKanaLoop st xs).bind fun st => c.run st ys := by
  induction xs generalizing st with
  | nil => rfl
  | cons x xs ih =>
    rw [List.cons_append, run_cons c st _ (h x List.mem_cons_self)]
    simp only [toKanaLoop]
    cases c.toKanaStep st x with
    | ok st' =>
      simp only [Res.bind, Res.bind_ok]
      exact ih _ fun p hp => h p (List.mem_cons_of_mem _ hp)
    | throw e => rfl
    | ub => rfl

end Converter
end KT
