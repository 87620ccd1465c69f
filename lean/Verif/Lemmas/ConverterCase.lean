import Verif.Lemmas.ConverterSplit
/-!
# Upper-case Romaji
-/
namespace KT
open Spec
namespace Converter

/-- An upper-case letter that starts a doubled consonant (or `tc`). -/
def Capital (a b : UInt8) : Prop :=
  isUpper a = true ∧ toLowerChar a ∈ repeatingConsonants ∧
    (toLowerChar a = toLowerChar b ∨ toLowerChar a = 0x74 ∧ toLowerChar b = 0x63)

/-- No upper-case letter starts a doubled consonant. -/
def NoCapital (s : Str) : Prop := ∀ u a b v, s = u ++ a :: b :: v → ¬ Capital a b

theorem noCapital_suffix {s r : Str} (h : NoCapital s) (hr : r <:+ s) : NoCapital r := by
  obtain ⟨t, rfl⟩ := hr
  intro u a b v he
  exact h (t ++ u) a b v (by rw [he]; simp)

def low (st : ToState) : ToState := ⟨toLower st.letters, toLower st.result⟩

theorem toLowerChar_idem (b : UInt8) : toLowerChar (toLowerChar b) = toLowerChar b := by
  have : ∀ n : Nat, n < 256 → toLowerChar (toLowerChar (UInt8.ofNat n)) = toLowerChar (UInt8.ofNat n) := by
    decide +kernel
  exact byte_cases (fun b => toLowerChar (toLowerChar b) = toLowerChar b) this b

theorem toLower_idem (s : Str) : toLower (toLower s) = toLower s := by
  simp [toLower, toLowerChar_idem]

theorem toLower_append (a b : Str) : toLower (a ++ b) = toLower a ++ toLower b := by simp [toLower]

theorem toLower_high {s : Str} (h : ∀ b ∈ s, 128 ≤ b.toNat) : toLower s = s := by
  have : ∀ n : Nat, n < 256 → 128 ≤ (UInt8.ofNat n).toNat → toLowerChar (UInt8.ofNat n) = UInt8.ofNat n := by
    decide +kernel
  induction s with
  | nil => rfl
  | cons b s ih =>
    have h1 := byte_cases (fun b => 128 ≤ b.toNat → toLowerChar b = b) this b (h b List.mem_cons_self)
    have h2 := ih fun b hb => h b (List.mem_cons_of_mem _ hb)
    unfold toLower at h2 ⊢
    rw [List.map_cons, h1, h2]

theorem kana_high {c : Converter} (hc : c.target ≠ .romaji) {k : Kana} (hk : k ∈ allKana) :
    ∀ b ∈ kanaOut c k, 128 ≤ b.toNat := by
  rw [kanaOut_str hc rfl]
  have h : ∀ t : CharType, t ≠ .romaji →
      allKana.all (fun k => (k.str t).all fun b => decide (128 ≤ b.toNat)) = true := by
    intro t ht
    cases t
    · decide +kernel
    · decide +kernel
    · exact absurd rfl ht
  intro b hb
  exact of_decide_eq_true (List.all_eq_true.mp (List.all_eq_true.mp (h c.target hc) k hk) b hb)

theorem kana_low {c : Converter} (hc : c.target ≠ .romaji) {k : Kana} (hk : k ∈ allKana) :
    toLower (kanaOut c k) = kanaOut c k := toLower_high (kana_high hc hk)

theorem short_low (c : Converter) (hc : c.target ≠ .romaji) (st : ToState) :
    ∃ st', c.processRomajiShort st = .ok st' ∧ c.processRomajiShort (low st) = .ok (low st') ∧
      st'.letters <:+ st.letters := by
  unfold processRomajiShort low
  simp only [toLower_idem]
  split
  · rename_i k hk
    have hm := (findKana_mem hk).1
    rw [get_kanaOut c hm, Res.bind_ok, Res.bind_ok]
    refine ⟨_, rfl, ?_, List.nil_suffix⟩
    simp only [toLower_append, kana_low hc hm]
    rfl
  · exact ⟨st, rfl, rfl, List.suffix_refl _⟩

theorem romaji_low (c : Converter) (hc : c.target ≠ .romaji) (st : ToState) (hn : NoCapital st.letters) :
    ∃ st', c.processRomaji st = .ok st' ∧ c.processRomaji (low st) = .ok (low st') ∧
      st'.letters <:+ st.letters := by
  obtain ⟨l, r⟩ := st
  match l, hn with
  | [], _ => exact short_low c hc ⟨[], r⟩
  | [a], _ => exact short_low c hc ⟨[a], r⟩
  | [a, b], _ => exact short_low c hc ⟨[a, b], r⟩
  | a :: b :: x :: d :: l, _ => exact short_low c hc ⟨a :: b :: x :: d :: l, r⟩
  | [a, b, x], hn =>
    have hl3 : (low ⟨[a, b, x], r⟩).letters = [toLowerChar a, toLowerChar b, toLowerChar x] := rfl
    unfold processRomaji
    simp only [hl3]
    rw [show toLower [toLowerChar a, toLowerChar b, toLowerChar x] = toLower [a, b, x] by
      simp [toLower, toLowerChar_idem]]
    split
    · rename_i k hk
      have hm := (findKana_mem hk).1
      rw [get_kanaOut c hm, Res.bind_ok, Res.bind_ok]
      refine ⟨_, rfl, ?_, List.nil_suffix⟩
      simp only [low, toLower_append, kana_low hc hm]
      rfl
    · simp only [toLowerChar_idem]
      have key : ∀ o o' : Str, toLower o = o' → ∃ st',
          c.processRomajiShort ⟨[b, x], r ++ o⟩ = .ok st' ∧
          c.processRomajiShort ⟨[toLowerChar b, toLowerChar x], (low ⟨[a, b, x], r⟩).result ++ o'⟩ = .ok (low st') ∧
          st'.letters <:+ [a, b, x] := by
        intro o o' ho
        obtain ⟨st', h1, h2, h3⟩ := short_low c hc ⟨[b, x], r ++ o⟩
        refine ⟨st', h1, ?_, h3.trans ⟨[a], rfl⟩⟩
        rw [← h2, ← ho]
        simp [low, toLower]
      have keyA := key [a] [toLowerChar a] rfl
      by_cases h1 : toLowerChar a = 110
      · simp only [h1, if_true]
        rw [get_kanaOut c kanaN_mem, Res.bind_ok, Res.bind_ok]
        exact key _ _ (kana_low hc kanaN_mem)
      · simp only [h1, if_false]
        by_cases h2 : toLowerChar a = toLowerChar b ∨ toLowerChar a = 116 ∧ toLowerChar b = 99
        · simp only [h2, if_true]
          have hu : ∀ n : Nat, n < 256 → (isUpper (UInt8.ofNat n) = false → toLowerChar (UInt8.ofNat n) = UInt8.ofNat n) ∧
              (isUpper (UInt8.ofNat n) = true → UInt8.ofNat n ∉ repList) := by decide +kernel
          obtain ⟨u1, u2⟩ := byte_cases (fun b => (isUpper b = false → toLowerChar b = b) ∧ (isUpper b = true → b ∉ repList)) hu a
          by_cases h3 : toLowerChar a ∈ repeatingConsonants
          · have hna : isUpper a = false := by
              cases hu : isUpper a with
              | false => rfl
              | true => exact absurd ⟨hu, h3, h2⟩ (hn [] a b [x] rfl)
            have he := u1 hna
            have h3' : a ∈ repeatingConsonants := by rw [he] at h3; exact h3
            simp only [h3, h3', if_true]
            rw [get_kanaOut c smallTsu_mem, Res.bind_ok, Res.bind_ok]
            exact key _ _ (kana_low hc smallTsu_mem)
          · have h3' : a ∉ repeatingConsonants := by
              cases hu : isUpper a with
              | false => rw [u1 hu] at h3; exact h3
              | true => exact fun h => u2 hu ((rep_iff _).mp h)
            simp only [h3, h3', if_false]
            rw [Res.bind_ok, Res.bind_ok]
            exact keyA
        · simp only [h2, if_false]
          rw [Res.bind_ok, Res.bind_ok]
          exact keyA

theorem step_low (c : Converter) (hc : c.target ≠ .romaji) (st : ToState) {b : UInt8} (hb : b.toNat < 128)
    {rest : Str} (hn : NoCapital (st.letters ++ b :: rest)) :
    ∃ st', c.toKanaStep st [b] = .ok st' ∧ c.toKanaStep (low st) [toLowerChar b] = .ok (low st') ∧
      NoCapital (st'.letters ++ rest) := by
  have hlb : ∀ n : Nat, n < 256 → (UInt8.ofNat n).toNat < 128 → isSingleByte [UInt8.ofNat n] = true ∧
      isSingleByte [toLowerChar (UInt8.ofNat n)] = true ∧ isN [toLowerChar (UInt8.ofNat n)] = isN [UInt8.ofNat n] := by
    decide +kernel
  obtain ⟨s1, s2, s3⟩ := byte_cases (fun b => b.toNat < 128 → isSingleByte [b] = true ∧
      isSingleByte [toLowerChar b] = true ∧ isN [toLowerChar b] = isN [b]) hlb b hb
  unfold toKanaStep
  simp only [s1, s2, s3, if_true]
  by_cases hN : isN [b] = true
  · simp only [hN, Bool.not_true, Bool.false_eq_true, if_false]
    have hb6 : toLowerChar b ∉ repeatingConsonants := by
      have : ∀ n : Nat, n < 256 → isN [UInt8.ofNat n] = true → toLowerChar (UInt8.ofNat n) ∉ repList := by decide +kernel
      exact fun h => byte_cases (fun b => isN [b] = true → toLowerChar b ∉ repList) this b hN ((rep_iff _).mp h)
    by_cases hl : st.letters = []
    · have hl' : (low st).letters = [] := by simp [low, hl, toLower]
      simp only [hl, hl', if_true]
      refine ⟨_, rfl, rfl, ?_⟩
      rw [hl] at hn
      simpa using hn
    · have hl' : (low st).letters ≠ [] := by simp [low, toLower, hl]
      have hisN : isN (low st).letters = isN st.letters := by
        have key : ∀ n : Nat, n < 256 → isN [toLowerChar (UInt8.ofNat n)] = isN [UInt8.ofNat n] := by decide +kernel
        have : (low st).letters = toLower st.letters := rfl
        rw [this]
        match st.letters with
        | [] => rfl
        | [x] => exact byte_cases (fun b => isN [toLowerChar b] = isN [b]) key x
        | a :: b :: r => simp [isN, toLower]
      simp only [hl, hl', hisN, if_false]
      by_cases hm : isN st.letters = true
      · simp only [hm, if_true]
        rw [get_kanaOut c kanaN_mem, Res.bind_ok, Res.bind_ok]
        refine ⟨_, rfl, ?_, ?_⟩
        · simp only [low, toLower_append, kana_low hc kanaN_mem]
        · obtain ⟨x, hx, hx6⟩ : ∃ x, st.letters = [x] ∧ toLowerChar x ∉ repeatingConsonants := by
            unfold isN at hm
            simp only [Bool.or_eq_true, beq_iff_eq] at hm
            rcases hm with hm | hm
            · exact ⟨_, hm, fun h => absurd ((rep_iff _).mp h) (by decide)⟩
            · exact ⟨_, hm, fun h => absurd ((rep_iff _).mp h) (by decide)⟩
          rw [hx] at hn ⊢
          intro u a d v he
          cases u with
          | nil =>
            simp only [List.cons_append, List.nil_append, List.cons.injEq] at he
            rw [← he.1]
            exact fun h => hx6 h.2.1
          | cons y u =>
            simp only [List.cons_append, List.nil_append, List.cons.injEq] at he
            exact hn (x :: b :: u) a d v (by simp [he.2])
      · simp only [hm]
        refine ⟨_, rfl, ?_, ?_⟩
        · simp [low, toLower]
        · exact noCapital_suffix hn ⟨st.letters, by simp⟩
  · simp only [hN, Bool.not_false, if_true]
    have hn' : NoCapital (st.letters ++ [b]) := by
      intro u x y v he
      exact hn u x y (v ++ rest) (by rw [show st.letters ++ b :: rest = st.letters ++ [b] ++ rest by simp, he]; simp)
    obtain ⟨st', h1, h2, t, h3⟩ := romaji_low c hc ⟨st.letters ++ [b], st.result⟩ hn'
    refine ⟨st', h1, ?_, ?_⟩
    · rw [← h2]; simp [low, toLower]
    · refine noCapital_suffix hn ⟨t, ?_⟩
      rw [← List.append_assoc, h3]; simp

theorem loop_low (c : Converter) (hc : c.target ≠ .romaji) : ∀ (s : Str) (st : ToState),
    (∀ b ∈ s, b.toNat < 128) → NoCapital (st.letters ++ s) →
    ∃ st', c.toKanaLoop st (s.map ([·])) = .ok st' ∧
      c.toKanaLoop (low st) ((toLower s).map ([·])) = .ok (low st') ∧ NoCapital st'.letters := by
  intro s
  induction s with
  | nil => intro st _ hn; exact ⟨st, rfl, rfl, by simpa using hn⟩
  | cons b s ih =>
    intro st hb hn
    obtain ⟨st1, h1, h2, h3⟩ := step_low c hc st (hb b List.mem_cons_self) hn
    obtain ⟨st', h4, h5, h6⟩ := ih st1 (fun x hx => hb x (List.mem_cons_of_mem _ hx)) h3
    refine ⟨st', ?_, ?_, h6⟩
    · rw [List.map_cons, loop_ok c h1, h4]
    · rw [show toLower (b :: s) = toLowerChar b :: toLower s from rfl, List.map_cons, loop_ok c h2, h5]

theorem end_low (c : Converter) (hc : c.target ≠ .romaji) : ∀ (n : Nat) (st : ToState), NoCapital st.letters →
    st.letters.length ≤ n →
    ∃ y, c.toKanaEnd n st = .ok y ∧ c.toKanaEnd n (low st) = .ok (toLower y) := by
  intro n
  induction n with
  | zero =>
    intro st _ h
    have : st.letters = [] := List.length_eq_zero_iff.mp (by omega)
    exact ⟨st.result, by simp [toKanaEnd, this], by simp [toKanaEnd, low, this, toLower]⟩
  | succ n ih =>
    rintro ⟨l, r⟩ hn hlen
    cases l with
    | nil => exact ⟨r, rfl, rfl⟩
    | cons x xs =>
      have hisN : isN (toLowerChar x :: toLower xs) = isN (x :: xs) := by
        have key : ∀ n : Nat, n < 256 → isN [toLowerChar (UInt8.ofNat n)] = isN [UInt8.ofNat n] := by decide +kernel
        match xs with
        | [] => exact byte_cases (fun b => isN [toLowerChar b] = isN [b]) key x
        | b :: r => simp [isN, toLower]
      have hll : (low ⟨x :: xs, r⟩).letters = toLowerChar x :: toLower xs := rfl
      simp only [toKanaEnd, hll, hisN]
      by_cases hN : isN (x :: xs) = true
      · simp only [hN, if_true]
        rw [get_kanaOut c kanaN_mem, Res.bind_ok, Res.bind_ok]
        obtain ⟨y, h1, h2⟩ := ih ⟨[], r ++ kanaOut c kanaN⟩ (by intro u a b v h; simp at h) (by simp)
        refine ⟨y, h1, ?_⟩
        rw [← h2]
        simp [low, toLower_append, kana_low hc kanaN_mem]
        rfl
      · simp only [hN, Bool.false_eq_true, if_false]
        have hsuf : NoCapital xs := noCapital_suffix hn ⟨[x], rfl⟩
        obtain ⟨st', h1, h2, h3⟩ := romaji_low c hc ⟨xs, r ++ [x]⟩ hsuf
        obtain ⟨y, h4, h5⟩ := ih st' (noCapital_suffix hsuf h3) (by
          have := h3.length_le; simp only [List.length_cons] at hlen this; omega)
        refine ⟨y, by rw [h1, Res.bind_ok, h4], ?_⟩
        have e : (⟨toLower xs, (low ⟨x :: xs, r⟩).result ++ [toLowerChar x]⟩ : ToState) = low ⟨xs, r ++ [x]⟩ := by
          simp [low, toLower]
        rw [e, h2, Res.bind_ok, h5]

/-- Reading Romaji in lower case. -/
theorem toKana_low (c : Converter) (hc : c.target ≠ .romaji) (s : Str) (hs : ∀ b ∈ s, b.toNat < 128)
    (hn : NoCapital s) : ∃ y, c.toKanaChars (s.map ([·])) = .ok y ∧
      c.toKanaChars ((toLower s).map ([·])) = .ok (toLower y) := by
  obtain ⟨st, h1, h2, h3⟩ := loop_low c hc s {} hs hn
  obtain ⟨y, h4, h5⟩ := end_low c hc st.letters.length st h3 (Nat.le_refl _)
  refine ⟨y, ?_, ?_⟩
  · unfold toKanaChars; rw [h1, Res.bind_ok, h4]
  · unfold toKanaChars
    rw [show ({} : ToState) = low {} from rfl, h2, Res.bind_ok,
      show (low st).letters.length = st.letters.length by simp [low, toLower], h5]

end Converter
end KT
