import Verif.Lemmas.Utf8Loop
/-!
# Helper lemmas: validation of the first character
-/
namespace KT
open Spec

theorem and20 : ∀ n < 256, 192 ≤ n → (n &&& 0x20 ≠ 0 ↔ 224 ≤ n) := by decide +kernel
theorem and10 : ∀ n < 256, 224 ≤ n → (n &&& 0x10 ≠ 0 ↔ 240 ≤ n) := by decide +kernel
theorem and08 : ∀ n < 256, 240 ≤ n → (n &&& 0x08 ≠ 0 ↔ 248 ≤ n) := by decide +kernel
theorem and80 : ∀ n < 256, (n &&& 0x80 = 0 ↔ n < 128) := by decide +kernel
theorem andC0 : ∀ n < 256, (n &&& 0xc0 = 0x80 ↔ 128 ≤ n ∧ n < 192) := by decide +kernel

theorem enc_ge {c : Nat} (h : 2 ≤ (enc c).length) : 128 ≤ c := by
  unfold enc at h
  split at h
  · simp at h
  · omega

theorem validateMB_cases (b1 : UInt8) (s : Str) (so : Bool) (hb : 192 ≤ b1.toNat) :
    (∃ e r, e ≠ Utf8Result.valid ∧ validateMB (b1 :: s ++ [0]) so = some (.notValid, e) ∧
      convertOneUtf8 (b1 :: s ++ [0]) = some (errorReplacement, r)) ∨
    (∃ c r, IsScalar c ∧ 128 ≤ c ∧ b1 :: s = enc c ++ r ∧
      validateMB (b1 :: s ++ [0]) so = validateEnd so (r ++ [0])) := by
  have hlt := b1.toNat_lt
  have z0 : countlOne 0 = 0 := by decide
  have z1 : ¬ countlOne 0 = 1 := by decide
  have h0 : ¬ countlOne b1 = 0 := by rw [countlOne_zero_iff]; omega
  have h1 : ¬ countlOne b1 = 1 := by rw [countlOne_one_iff]; omega
  have hgt : countlOne b1 > 4 ↔ 248 ≤ b1.toNat := countlOne_gt_four_iff b1
  have a20 := and20 _ hlt hb
  match s with
  | [] =>
    left
    refine ⟨.missingBytes, if countlOne b1 > 4 then [0] else [0], by decide, ?_, ?_⟩
    · simp [validateMB, z0]
    · simp [convertOneUtf8, h0, h1, z0]
  | b2 :: s =>
    by_cases c2 : countlOne b2 = 1
    rotate_left
    · left
      refine ⟨.missingBytes, b2 :: s ++ [0], by decide, ?_, ?_⟩
      · simp [validateMB, c2]
      · simp [convertOneUtf8, h0, h1, c2]
    by_cases t2 : 224 ≤ b1.toNat
    rotate_left
    · -- two bytes
      have h2 : countlOne b1 = 2 := by rw [countlOne_two_iff]; omega
      have n20 : ¬ (b1.toNat &&& 0x20 ≠ 0) := by rw [a20]; exact t2
      by_cases ov : (b1.toNat ^^^ 0xc0) < 2
      · left
        refine ⟨.overlong, s ++ [0], by decide, ?_, ?_⟩
        · simp [validateMB, c2, n20, ov]
        · have : ¬ (b1.toNat ^^^ 0xc0) > 1 := by omega
          simp [convertOneUtf8, h2, c2, this]
      · right
        have hx : (b1.toNat ^^^ 0xc0) > 1 := by omega
        obtain ⟨hs, he⟩ := enc_two h2 c2 hx
        refine ⟨_, s, hs, enc_ge (by rw [← he]; simp), by rw [← he]; rfl, ?_⟩
        simp [validateMB, c2, n20, ov]
    · have y20 : b1.toNat &&& 0x20 ≠ 0 := a20.mpr t2
      have a10 := and10 _ hlt t2
      have h2 : ¬ countlOne b1 = 2 := by rw [countlOne_two_iff]; omega
      have g2 : countlOne b1 > 2 := by omega
      match s with
      | [] =>
        left
        refine ⟨.missingBytes, if countlOne b1 > 4 then b2 :: [0] else [0], by decide, ?_, ?_⟩
        · simp [validateMB, c2, y20, z1]
        · by_cases g : countlOne b1 > 4
          · simp [convertOneUtf8, h0, g]
          · simp [convertOneUtf8, h0, h1, g, c2, g2, z0]
      | b3 :: s =>
        by_cases c3 : countlOne b3 = 1
        rotate_left
        · left
          refine ⟨.missingBytes, if countlOne b1 > 4 then b2 :: b3 :: s ++ [0]
            else b3 :: s ++ [0], by decide, ?_, ?_⟩
          · simp [validateMB, c2, y20, c3]
          · by_cases g : countlOne b1 > 4
            · simp [convertOneUtf8, h0, g]
            · simp [convertOneUtf8, h0, h1, g, c2, g2, c3]
        by_cases t3 : 240 ≤ b1.toNat
        rotate_left
        · -- three bytes
          have h3 : countlOne b1 = 3 := by rw [countlOne_three_iff]; omega
          have n10 : ¬ (b1.toNat &&& 0x10 ≠ 0) := by rw [a10]; exact t3
          by_cases ov : threeByteUtf8 b1.toNat (b2.toNat ^^^ 0x80) b3.toNat ≤ max2Uni
          · left
            refine ⟨.overlong, s ++ [0], by decide, ?_, ?_⟩
            · simp [validateMB, c2, c3, y20, n10, ov]
            · have : ¬ threeByteUtf8 b1.toNat (b2.toNat ^^^ 0x80) b3.toNat > max2Uni := by omega
              simp [convertOneUtf8, h3, c2, c3, this]
          · by_cases su : threeByteUtf8 b1.toNat (b2.toNat ^^^ 0x80) b3.toNat ≥ minSurrogate ∧
                threeByteUtf8 b1.toNat (b2.toNat ^^^ 0x80) b3.toNat ≤ maxSurrogate
            · left
              refine ⟨.invalidCodePoint, s ++ [0], by decide, ?_, ?_⟩
              · simp [validateMB, c2, c3, y20, n10, ov, su]
              · have : ¬ (threeByteUtf8 b1.toNat (b2.toNat ^^^ 0x80) b3.toNat > max2Uni ∧
                  (threeByteUtf8 b1.toNat (b2.toNat ^^^ 0x80) b3.toNat < minSurrogate ∨
                   threeByteUtf8 b1.toNat (b2.toNat ^^^ 0x80) b3.toNat > maxSurrogate)) := by omega
                simp [convertOneUtf8, h3, c2, c3, this]
            · right
              obtain ⟨hs, he⟩ := enc_three h3 c2 c3 (by omega)
              refine ⟨_, s, hs, enc_ge (by rw [← he]; simp), by rw [← he]; rfl, ?_⟩
              simp [validateMB, c2, c3, y20, n10, ov, su]
        · have y10 : b1.toNat &&& 0x10 ≠ 0 := a10.mpr t3
          have a08 := and08 _ hlt t3
          by_cases t4 : 248 ≤ b1.toNat
          · have y08 := a08.mpr t4
            left
            refine ⟨.charTooLong, b2 :: b3 :: s ++ [0], by decide, ?_, ?_⟩
            · simp [validateMB, c2, c3, y20, y10, y08]
            · have := hgt.mpr t4
              simp [convertOneUtf8, h0, this]
          · have n08 : ¬ (b1.toNat &&& 0x08 ≠ 0) := by rw [a08]; exact t4
            have h4 : countlOne b1 = 4 := by rw [countlOne_four_iff]; omega
            match s with
            | [] =>
              left
              refine ⟨.missingBytes, [0], by decide, ?_, ?_⟩
              · simp [validateMB, c2, c3, y20, y10, n08,
                  z1]
              · simp [convertOneUtf8, h4, c2, c3, z0]
            | b4 :: s =>
              by_cases c4 : countlOne b4 = 1
              rotate_left
              · left
                refine ⟨.missingBytes, b4 :: s ++ [0], by decide, ?_, ?_⟩
                · simp [validateMB, c2, c3, y20, y10, n08, c4]
                · simp [convertOneUtf8, h4, c2, c3, c4]
              by_cases ov : fourByteUtf8 b1.toNat (b2.toNat ^^^ 0x80) (b3.toNat ^^^ 0x80)
                  b4.toNat ≤ max3Uni
              · left
                refine ⟨.overlong, s ++ [0], by decide, ?_, ?_⟩
                · simp [validateMB, c2, c3, y20, y10, n08, c4, ov]
                · have : ¬ (fourByteUtf8 b1.toNat (b2.toNat ^^^ 0x80) (b3.toNat ^^^ 0x80)
                    b4.toNat > max3Uni ∧ fourByteUtf8 b1.toNat (b2.toNat ^^^ 0x80)
                    (b3.toNat ^^^ 0x80) b4.toNat ≤ maxUnicode) := by omega
                  simp [convertOneUtf8, h4, c2, c3, c4, this]
              by_cases big : fourByteUtf8 b1.toNat (b2.toNat ^^^ 0x80) (b3.toNat ^^^ 0x80)
                  b4.toNat > maxUnicode
              · left
                refine ⟨.invalidCodePoint, s ++ [0], by decide, ?_, ?_⟩
                · simp [validateMB, c2, c3, y20, y10, n08, c4, ov, big]
                · have : ¬ (fourByteUtf8 b1.toNat (b2.toNat ^^^ 0x80) (b3.toNat ^^^ 0x80)
                    b4.toNat > max3Uni ∧ fourByteUtf8 b1.toNat (b2.toNat ^^^ 0x80)
                    (b3.toNat ^^^ 0x80) b4.toNat ≤ maxUnicode) := by omega
                  simp [convertOneUtf8, h4, c2, c3, c4, this]
              right
              obtain ⟨hs, he⟩ := enc_four h4 c2 c3 c4 (by omega)
              refine ⟨_, s, hs, enc_ge (by rw [← he]; simp), by rw [← he]; rfl, ?_⟩
              simp [validateMB, c2, c3, y20, y10, n08, c4, ov, big]

theorem validateMB_fffd (r : List UInt8) (so : Bool) :
    validateMB (0xef :: 0xbf :: 0xbd :: r) so = validateEnd so r := by rfl

theorem enc_fffd : enc errorReplacement = [0xef, 0xbf, 0xbd] := by decide

/-- If the string starts with an encoded character then the second alternative applies. -/
theorem validateMB_enc {c : Nat} (hc : IsScalar c) (h : 128 ≤ c) (r : Str) (so : Bool) :
    validateMB (enc c ++ r ++ [0]) so = validateEnd so (r ++ [0]) := by
  have hlen : ∃ b1 s, enc c = b1 :: s ∧ 192 ≤ b1.toNat := by
    simp only [IsScalar] at hc
    unfold enc
    rw [if_neg (by omega)]
    split
    · exact ⟨_, _, rfl, by rw [toNat_ofNat_lt (by omega)]; omega⟩
    · split
      · exact ⟨_, _, rfl, by rw [toNat_ofNat_lt (by omega)]; omega⟩
      · exact ⟨_, _, rfl, by rw [toNat_ofNat_lt (by omega)]; omega⟩
  obtain ⟨b1, s, he, hb⟩ := hlen
  have hd : convertOneUtf8 (enc c ++ r ++ [0]) = some (c, r ++ [0]) := by
    rw [List.append_assoc, convertOne_enc hc]
  rcases validateMB_cases b1 (s ++ r) so hb with ⟨e, q, _, h1, h2⟩ | ⟨c', q, hs', h1, h2, h3⟩
  · have e1 : b1 :: (s ++ r) ++ [0] = enc c ++ r ++ [0] := by rw [he]; simp
    rw [e1] at h2
    rw [hd] at h2
    simp only [Option.some.injEq, Prod.mk.injEq] at h2
    rw [h2.1, enc_fffd]
    exact validateMB_fffd _ _
  · have e1 : b1 :: (s ++ r) ++ [0] = enc c ++ r ++ [0] := by rw [he]; simp
    have e2 : b1 :: (s ++ r) ++ [0] = enc c' ++ q ++ [0] := by rw [h2]
    rw [e1] at h3
    rw [h3]
    rw [e1] at e2
    have hd' : convertOneUtf8 (enc c' ++ q ++ [0]) = some (c', q ++ [0]) := by
      rw [List.append_assoc, convertOne_enc hs']
    rw [← e2, hd] at hd'
    simp only [Option.some.injEq, Prod.mk.injEq] at hd'
    rw [hd'.2]

theorem toUtf8_scalars {cs : List Nat} (h : ∀ c ∈ cs, IsScalar c) :
    toUtf8 cs = .ok (cs.flatMap enc) := by
  induction cs with
  | nil => rfl
  | cons c cs ih =>
    rw [toUtf8, convertToUtf8_scalar (h c (by simp)), ih fun x hx => h x (by simp [hx])]
    simp

theorem enc_no_zero {c : Nat} (hc : c ≠ 0) : (0 : UInt8) ∉ enc c := by
  have key : ∀ n, n < 256 → n ≠ 0 → (0 : UInt8) ≠ UInt8.ofNat n := by
    intro n h1 h2 h
    have := congrArg UInt8.toNat h
    rw [toNat_ofNat_lt h1] at this
    exact h2 this.symm
  unfold enc
  repeat' split
  all_goals
    intro hm
    simp only [List.mem_cons, List.not_mem_nil, or_false] at hm
  · exact key _ (by omega) (by omega) hm
  · rcases hm with h | h
    · exact key _ (by omega) (by omega) h
    · exact key _ (by omega) (by omega) h
  · rcases hm with h | h | h
    · exact key _ (by omega) (by omega) h
    · exact key _ (by omega) (by omega) h
    · exact key _ (by omega) (by omega) h
  · rcases hm with h | h | h | h
    · exact key _ (by omega) (by omega) h
    · exact key _ (by omega) (by omega) h
    · exact key _ (by omega) (by omega) h
    · exact key _ (by omega) (by omega) h

theorem flatMap_enc_no_zero {cs : List Nat} (h : ∀ c ∈ cs, c ≠ 0) :
    (0 : UInt8) ∉ cs.flatMap enc := by
  intro hm
  obtain ⟨c, hc, hz⟩ := List.mem_flatMap.mp hm
  exact enc_no_zero (h c hc) hz

/-- Bytes of a multi-byte character. -/
theorem startsWith_enc {s : Str} {c : Char} :
    StartsWith s c ↔ ∃ r, s = enc c.toNat ++ r := by
  unfold StartsWith
  rw [utf8EncodeChar_eq_enc]
  constructor
  · rintro ⟨r, rfl⟩; exact ⟨r, rfl⟩
  · rintro ⟨r, rfl⟩; exact ⟨r, rfl⟩

theorem cStr_enc_append {c : Nat} (hc : c ≠ 0) (r : Str) : cStr (enc c ++ r) = enc c ++ cStr r := by
  have h := enc_no_zero hc
  unfold cStr
  rw [List.takeWhile_append_of_pos]
  intro a ha
  have : a ≠ 0 := by intro h0; subst h0; exact h ha
  simpa using this

theorem validateEnd_valid (so : Bool) (r : Str) :
    (∃ e, validateEnd so (r ++ [0]) = some (.valid, e)) ↔ (so = true → cStr r = []) := by
  cases so with
  | false => simp [validateEnd]
  | true =>
    cases r with
    | nil => simp [validateEnd, cStr]
    | cons x r =>
      by_cases hx : x = 0
      · subst hx; simp [validateEnd, cStr]
      · simp [validateEnd, cStr, hx]

end KT
