import Verif.Model.Utf8
import Verif.Spec.Utf8
/-!
# Helper lemmas about UTF-8 encoding and decoding
-/
namespace KT
open Spec

/-- Lift a decidable fact about all numbers below 256 to all bytes. -/
theorem forall_byte {P : Nat → Prop} (h : ∀ n < 256, P n) (b : UInt8) : P b.toNat :=
  h _ b.toNat_lt

theorem byte_ofNat_toNat (b : UInt8) : UInt8.ofNat b.toNat = b := by simp

theorem countlOne_eq (b : UInt8) : countlOne b =
    if b.toNat < 128 then 0 else if b.toNat < 192 then 1 else if b.toNat < 224 then 2
    else if b.toNat < 240 then 3 else if b.toNat < 248 then 4 else if b.toNat < 252 then 5
    else if b.toNat < 254 then 6 else if b.toNat < 255 then 7 else 8 := by
  have h : ∀ n < 256, countlOne (UInt8.ofNat n) =
      if n < 128 then 0 else if n < 192 then 1 else if n < 224 then 2
      else if n < 240 then 3 else if n < 248 then 4 else if n < 252 then 5
      else if n < 254 then 6 else if n < 255 then 7 else 8 := by decide +kernel
  have := h b.toNat b.toNat_lt
  rwa [byte_ofNat_toNat] at this

theorem countlOne_zero_iff (b : UInt8) : countlOne b = 0 ↔ b.toNat < 128 := by
  rw [countlOne_eq]; repeat' split
  all_goals omega

theorem countlOne_one_iff (b : UInt8) : countlOne b = 1 ↔ 128 ≤ b.toNat ∧ b.toNat < 192 := by
  rw [countlOne_eq]; repeat' split
  all_goals omega

theorem countlOne_two_iff (b : UInt8) : countlOne b = 2 ↔ 192 ≤ b.toNat ∧ b.toNat < 224 := by
  rw [countlOne_eq]; repeat' split
  all_goals omega

theorem countlOne_three_iff (b : UInt8) : countlOne b = 3 ↔ 224 ≤ b.toNat ∧ b.toNat < 240 := by
  rw [countlOne_eq]; repeat' split
  all_goals omega

theorem countlOne_four_iff (b : UInt8) : countlOne b = 4 ↔ 240 ≤ b.toNat ∧ b.toNat < 248 := by
  rw [countlOne_eq]; repeat' split
  all_goals omega

theorem countlOne_gt_four_iff (b : UInt8) : countlOne b > 4 ↔ 248 ≤ b.toNat := by
  rw [countlOne_eq]; have := b.toNat_lt; repeat' split
  all_goals omega

theorem isContinuation_iff (b : UInt8) : IsContinuation b ↔ countlOne b = 1 := by
  rw [countlOne_one_iff, IsContinuation]

theorem xor80 : ∀ n < 256, 128 ≤ n → n < 192 → n ^^^ 0x80 = n - 128 := by decide +kernel
theorem xorC0 : ∀ n < 256, 192 ≤ n → n < 224 → n ^^^ 0xc0 = n - 192 := by decide +kernel
theorem xorE0 : ∀ n < 256, 224 ≤ n → n < 240 → n ^^^ 0xe0 = n - 224 := by decide +kernel
theorem xorF0 : ∀ n < 256, 240 ≤ n → n < 248 → n ^^^ 0xf0 = n - 240 := by decide +kernel

/-! ## The encoder -/

theorem and_mod (k c : Nat) : (2 ^ k - 1) &&& c = c % 2 ^ k := by
  rw [Nat.and_comm, Nat.and_two_pow_sub_one_eq_mod]

theorem mask5 (c : Nat) : (0b11111 <<< 6 &&& c) >>> 6 = c / 64 % 32 := by
  rw [Nat.shiftRight_and_distrib]
  have : (0b11111 <<< 6) >>> 6 = 2 ^ 5 - 1 := by decide
  rw [this, and_mod, Nat.shiftRight_eq_div_pow]

theorem mask6 (c : Nat) : (0b111111 <<< 6 &&& c) >>> 6 = c / 64 % 64 := by
  rw [Nat.shiftRight_and_distrib]
  have : (0b111111 <<< 6) >>> 6 = 2 ^ 6 - 1 := by decide
  rw [this, and_mod, Nat.shiftRight_eq_div_pow]

theorem mask12 (c : Nat) : (0b111111 <<< 12 &&& c) >>> 12 = c / 4096 % 64 := by
  rw [Nat.shiftRight_and_distrib]
  have : (0b111111 <<< 12) >>> 12 = 2 ^ 6 - 1 := by decide
  rw [this, and_mod, Nat.shiftRight_eq_div_pow]

theorem mask4 (c : Nat) : (0b1111 <<< 12 &&& c) >>> 12 = c / 4096 % 16 := by
  rw [Nat.shiftRight_and_distrib]
  have : (0b1111 <<< 12) >>> 12 = 2 ^ 4 - 1 := by decide
  rw [this, and_mod, Nat.shiftRight_eq_div_pow]

theorem mask3 (c : Nat) : (0b111 <<< 18 &&& c) >>> 18 = c / 262144 % 8 := by
  rw [Nat.shiftRight_and_distrib]
  have : (0b111 <<< 18) >>> 18 = 2 ^ 3 - 1 := by decide
  rw [this, and_mod, Nat.shiftRight_eq_div_pow]

theorem mask0 (c : Nat) : 0b111111 &&& c = c % 64 := and_mod 6 c

theorem toChar_ok {x : Nat} (h : x ≤ 255) : toChar x = .ok (UInt8.ofNat x) := by
  simp [toChar]; omega

/-- Bytes of the standard encoding of a code point below `0x110000` (surrogates included), by
arithmetic. -/
def enc (c : Nat) : Str :=
  if c ≤ 127 then [UInt8.ofNat c]
  else if c ≤ 2047 then [UInt8.ofNat (c / 64 % 32 + 192), UInt8.ofNat (c % 64 + 128)]
  else if c ≤ 65535 then
    [UInt8.ofNat (c / 4096 % 16 + 224), UInt8.ofNat (c / 64 % 64 + 128), UInt8.ofNat (c % 64 + 128)]
  else
    [UInt8.ofNat (c / 262144 % 8 + 240), UInt8.ofNat (c / 4096 % 64 + 128),
      UInt8.ofNat (c / 64 % 64 + 128), UInt8.ofNat (c % 64 + 128)]

theorem utf8EncodeChar_eq_enc (c : Char) : String.utf8EncodeChar c = enc c.toNat := rfl

theorem enc_ne_nil (c : Nat) : enc c ≠ [] := by
  unfold enc; repeat' split
  all_goals simp

theorem char_isScalar (c : Char) : IsScalar c.toNat := by
  have := c.valid
  simp only [UInt32.isValidChar, Nat.isValidChar] at this
  simp only [IsScalar, Char.toNat]
  omega

/-- The character with a given scalar value. -/
def charOf (n : Nat) (h : IsScalar n) : Char :=
  Char.ofNatAux n (by simp only [Nat.isValidChar]; simp only [IsScalar] at h; omega)

theorem charOf_toNat (n : Nat) (h : IsScalar n) : (charOf n h).toNat = n := by
  simp [charOf, Char.toNat, Char.ofNatAux, UInt32.toNat]

theorem encodeChar_charOf (n : Nat) (h : IsScalar n) :
    String.utf8EncodeChar (charOf n h) = enc n := by
  rw [utf8EncodeChar_eq_enc, charOf_toNat]

theorem convertToUtf8_scalar {c : Nat} (h : IsScalar c) : convertToUtf8 c = .ok (enc c) := by
  unfold convertToUtf8 enc
  simp only [maxAscii, max2Uni, max3Uni, maxUnicode, minSurrogate, maxSurrogate]
  simp only [IsScalar] at h
  rw [mask5, mask6, mask12, mask4, mask3, mask0]
  by_cases h1 : c ≤ 0x7f
  · simp only [h1, if_true]; rw [toChar_ok (by omega)]; rfl
  · by_cases h2 : c ≤ 0x7ff
    · simp only [h1, h2, if_true, if_false]
      rw [toChar_ok (by omega), toChar_ok (by omega)]; rfl
    · by_cases h3 : c ≤ 0xffff
      · have h4 : c < 0xd800 ∨ c > 0xdfff := by omega
        simp only [h1, h2, h3, h4, if_true, if_false]
        rw [toChar_ok (by omega), toChar_ok (by omega), toChar_ok (by omega)]; rfl
      · have h4 : c ≤ 0x10ffff := by omega
        simp only [h1, h2, h3, h4, if_true, if_false]
        rw [toChar_ok (by omega), toChar_ok (by omega), toChar_ok (by omega),
          toChar_ok (by omega)]; rfl

theorem convertToUtf8_nonscalar {c : Nat} (h : ¬ IsScalar c) :
    convertToUtf8 c = .ok (enc 0xfffd) := by
  unfold convertToUtf8
  simp only [maxAscii, max2Uni, max3Uni, maxUnicode, minSurrogate, maxSurrogate]
  simp only [IsScalar] at h
  have h1 : ¬ c ≤ 0x7f := by omega
  have h2 : ¬ c ≤ 0x7ff := by omega
  simp only [h1, h2, if_false]
  by_cases h3 : c ≤ 0xffff
  · have h4 : ¬ (c < 0xd800 ∨ c > 0xdfff) := by omega
    simp only [h3, h4, if_true, if_false]; rfl
  · have h4 : ¬ c ≤ 0x10ffff := by omega
    simp only [h3, h4, if_false]; rfl

/-! ## The decoder -/

theorem toNat_ofNat_lt {n : Nat} (h : n < 256) : (UInt8.ofNat n).toNat = n := by
  simp [Nat.mod_eq_of_lt h]

/-- The decoder inverts the encoder on one character. -/
theorem convertOne_enc {c : Nat} (h : IsScalar c) (r : List UInt8) :
    convertOneUtf8 (enc c ++ r) = some (c, r) := by
  simp only [IsScalar] at h
  unfold enc
  by_cases h1 : c ≤ 127
  · simp only [h1, if_true, List.cons_append, List.nil_append, convertOneUtf8]
    have e : (UInt8.ofNat c).toNat = c := toNat_ofNat_lt (by omega)
    have : countlOne (UInt8.ofNat c) = 0 := by rw [countlOne_zero_iff, e]; omega
    simp only [this, if_true, e]
  · by_cases h2 : c ≤ 2047
    · simp only [h1, h2, if_true, if_false, List.cons_append, List.nil_append, convertOneUtf8]
      have e1 : (UInt8.ofNat (c / 64 % 32 + 192)).toNat = c / 64 + 192 := by
        rw [toNat_ofNat_lt (by omega)]; omega
      have e2 : (UInt8.ofNat (c % 64 + 128)).toNat = c % 64 + 128 := toNat_ofNat_lt (by omega)
      have k1 : countlOne (UInt8.ofNat (c / 64 % 32 + 192)) = 2 := by
        rw [countlOne_two_iff, e1]; omega
      have k2 : countlOne (UInt8.ofNat (c % 64 + 128)) = 1 := by
        rw [countlOne_one_iff, e2]; omega
      simp only [k1, k2, e1, e2]
      rw [xorC0 _ (by omega) (by omega) (by omega), xor80 _ (by omega) (by omega) (by omega)]
      have : (c / 64 + 192 - 192) <<< 6 + (c % 64 + 128 - 128) = c := by
        simp only [Nat.shiftLeft_eq]; omega
      rw [this]
      have h4 : c / 64 + 192 - 192 > 1 := by omega
      rw [if_pos h4]
      simp
    · by_cases h3 : c ≤ 65535
      · simp only [h1, h2, h3, if_true, if_false, List.cons_append, List.nil_append,
          convertOneUtf8]
        have e1 : (UInt8.ofNat (c / 4096 % 16 + 224)).toNat = c / 4096 + 224 := by
          rw [toNat_ofNat_lt (by omega)]; omega
        have e2 : (UInt8.ofNat (c / 64 % 64 + 128)).toNat = c / 64 % 64 + 128 :=
          toNat_ofNat_lt (by omega)
        have e3 : (UInt8.ofNat (c % 64 + 128)).toNat = c % 64 + 128 := toNat_ofNat_lt (by omega)
        have k1 : countlOne (UInt8.ofNat (c / 4096 % 16 + 224)) = 3 := by
          rw [countlOne_three_iff, e1]; omega
        have k2 : countlOne (UInt8.ofNat (c / 64 % 64 + 128)) = 1 := by
          rw [countlOne_one_iff, e2]; omega
        have k3 : countlOne (UInt8.ofNat (c % 64 + 128)) = 1 := by
          rw [countlOne_one_iff, e3]; omega
        simp only [k1, k2, k3, e1, e2, e3, threeByteUtf8, max2Uni, minSurrogate, maxSurrogate,
          errorReplacement]
        rw [xorE0 _ (by omega) (by omega) (by omega), xor80 _ (by omega) (by omega) (by omega),
          xor80 _ (by omega) (by omega) (by omega)]
        have : (c / 4096 + 224 - 224) <<< 12 +
            ((c / 64 % 64 + 128 - 128) <<< 6 + (c % 64 + 128 - 128)) = c := by
          simp only [Nat.shiftLeft_eq]; omega
        rw [this]
        have h4 : c > 0x7ff ∧ (c < 0xd800 ∨ c > 0xdfff) := by omega
        simp [h4]
      · simp only [h1, h2, h3, if_false, List.cons_append, List.nil_append, convertOneUtf8]
        have e1 : (UInt8.ofNat (c / 262144 % 8 + 240)).toNat = c / 262144 + 240 := by
          rw [toNat_ofNat_lt (by omega)]; omega
        have e2 : (UInt8.ofNat (c / 4096 % 64 + 128)).toNat = c / 4096 % 64 + 128 :=
          toNat_ofNat_lt (by omega)
        have e3 : (UInt8.ofNat (c / 64 % 64 + 128)).toNat = c / 64 % 64 + 128 :=
          toNat_ofNat_lt (by omega)
        have e4 : (UInt8.ofNat (c % 64 + 128)).toNat = c % 64 + 128 := toNat_ofNat_lt (by omega)
        have k1 : countlOne (UInt8.ofNat (c / 262144 % 8 + 240)) = 4 := by
          rw [countlOne_four_iff, e1]; omega
        have k2 : countlOne (UInt8.ofNat (c / 4096 % 64 + 128)) = 1 := by
          rw [countlOne_one_iff, e2]; omega
        have k3 : countlOne (UInt8.ofNat (c / 64 % 64 + 128)) = 1 := by
          rw [countlOne_one_iff, e3]; omega
        have k4 : countlOne (UInt8.ofNat (c % 64 + 128)) = 1 := by
          rw [countlOne_one_iff, e4]; omega
        simp only [k1, k2, k3, k4, e1, e2, e3, e4, fourByteUtf8, max3Uni, maxUnicode,
          errorReplacement]
        rw [xorF0 _ (by omega) (by omega) (by omega), xor80 _ (by omega) (by omega) (by omega),
          xor80 _ (by omega) (by omega) (by omega), xor80 _ (by omega) (by omega) (by omega)]
        have : (c / 262144 + 240 - 240) <<< 18 + ((c / 4096 % 64 + 128 - 128) <<< 12 +
            ((c / 64 % 64 + 128 - 128) <<< 6 + (c % 64 + 128 - 128))) = c := by
          simp only [Nat.shiftLeft_eq]; omega
        rw [this]
        have h4 : c > 0xffff ∧ c ≤ 0x10ffff := by omega
        simp [h4]

theorem ofNat_of_toNat {b : UInt8} {n : Nat} (h : b.toNat = n) : UInt8.ofNat n = b := by
  rw [← h, byte_ofNat_toNat]

theorem scalar_fffd : IsScalar 0xfffd := by simp [IsScalar]

/-- Two byte characters are what the encoder produces. -/
theorem enc_two {b1 b2 : UInt8} (h1 : countlOne b1 = 2) (h2 : countlOne b2 = 1)
    (h : (b1.toNat ^^^ 0xc0) > 1) :
    IsScalar (((b1.toNat ^^^ 0xc0) <<< 6) + (b2.toNat ^^^ 0x80)) ∧
    [b1, b2] = enc (((b1.toNat ^^^ 0xc0) <<< 6) + (b2.toNat ^^^ 0x80)) := by
  rw [countlOne_two_iff] at h1; rw [countlOne_one_iff] at h2
  rw [xorC0 _ b1.toNat_lt h1.1 h1.2] at h ⊢
  rw [xor80 _ b2.toNat_lt h2.1 h2.2]
  simp only [Nat.shiftLeft_eq]
  generalize hn1 : b1.toNat = n1 at *
  generalize hn2 : b2.toNat = n2 at *
  have c1 : ¬ ((n1 - 192) * 2 ^ 6 + (n2 - 128) ≤ 127) := by omega
  have c2 : (n1 - 192) * 2 ^ 6 + (n2 - 128) ≤ 2047 := by omega
  constructor
  · simp only [IsScalar]; omega
  · simp only [enc, c1, c2, if_true, if_false]
    have e1 : ((n1 - 192) * 2 ^ 6 + (n2 - 128)) / 64 % 32 + 192 = n1 := by omega
    have e2 : ((n1 - 192) * 2 ^ 6 + (n2 - 128)) % 64 + 128 = n2 := by omega
    rw [e1, e2, ofNat_of_toNat hn1, ofNat_of_toNat hn2]

/-- Three byte characters are what the encoder produces. -/
theorem enc_three {b1 b2 b3 : UInt8} (h1 : countlOne b1 = 3) (h2 : countlOne b2 = 1)
    (h3 : countlOne b3 = 1)
    (h : threeByteUtf8 b1.toNat (b2.toNat ^^^ 0x80) b3.toNat > max2Uni ∧
      (threeByteUtf8 b1.toNat (b2.toNat ^^^ 0x80) b3.toNat < minSurrogate ∨
       threeByteUtf8 b1.toNat (b2.toNat ^^^ 0x80) b3.toNat > maxSurrogate)) :
    IsScalar (threeByteUtf8 b1.toNat (b2.toNat ^^^ 0x80) b3.toNat) ∧
    [b1, b2, b3] = enc (threeByteUtf8 b1.toNat (b2.toNat ^^^ 0x80) b3.toNat) := by
  rw [countlOne_three_iff] at h1; rw [countlOne_one_iff] at h2 h3
  simp only [threeByteUtf8, max2Uni, minSurrogate, maxSurrogate] at *
  rw [xorE0 _ b1.toNat_lt h1.1 h1.2, xor80 _ b2.toNat_lt h2.1 h2.2,
    xor80 _ b3.toNat_lt h3.1 h3.2] at h ⊢
  simp only [Nat.shiftLeft_eq] at h ⊢
  generalize hn1 : b1.toNat = n1 at *
  generalize hn2 : b2.toNat = n2 at *
  generalize hn3 : b3.toNat = n3 at *
  obtain ⟨t, ht⟩ : ∃ t, (n1 - 224) * 2 ^ 12 + ((n2 - 128) * 2 ^ 6 + (n3 - 128)) = t := ⟨_, rfl⟩
  rw [ht] at h ⊢
  have c1 : ¬ (t ≤ 127) := by omega
  have c2 : ¬ (t ≤ 2047) := by omega
  have c3 : t ≤ 65535 := by omega
  constructor
  · simp only [IsScalar]; omega
  · simp only [enc, c1, c2, c3, if_true, if_false]
    have e1 : t / 4096 % 16 + 224 = n1 := by omega
    have e2 : t / 64 % 64 + 128 = n2 := by omega
    have e3 : t % 64 + 128 = n3 := by omega
    rw [e1, e2, e3, ofNat_of_toNat hn1, ofNat_of_toNat hn2, ofNat_of_toNat hn3]

/-- Four byte characters are what the encoder produces. -/
theorem enc_four {b1 b2 b3 b4 : UInt8} (h1 : countlOne b1 = 4) (h2 : countlOne b2 = 1)
    (h3 : countlOne b3 = 1) (h4 : countlOne b4 = 1)
    (h : fourByteUtf8 b1.toNat (b2.toNat ^^^ 0x80) (b3.toNat ^^^ 0x80) b4.toNat > max3Uni ∧
      fourByteUtf8 b1.toNat (b2.toNat ^^^ 0x80) (b3.toNat ^^^ 0x80) b4.toNat ≤ maxUnicode) :
    IsScalar (fourByteUtf8 b1.toNat (b2.toNat ^^^ 0x80) (b3.toNat ^^^ 0x80) b4.toNat) ∧
    [b1, b2, b3, b4] =
      enc (fourByteUtf8 b1.toNat (b2.toNat ^^^ 0x80) (b3.toNat ^^^ 0x80) b4.toNat) := by
  rw [countlOne_four_iff] at h1; rw [countlOne_one_iff] at h2 h3 h4
  simp only [fourByteUtf8, max3Uni, maxUnicode] at *
  rw [xorF0 _ b1.toNat_lt h1.1 h1.2, xor80 _ b2.toNat_lt h2.1 h2.2,
    xor80 _ b3.toNat_lt h3.1 h3.2, xor80 _ b4.toNat_lt h4.1 h4.2] at h ⊢
  simp only [Nat.shiftLeft_eq] at h ⊢
  generalize hn1 : b1.toNat = n1 at *
  generalize hn2 : b2.toNat = n2 at *
  generalize hn3 : b3.toNat = n3 at *
  generalize hn4 : b4.toNat = n4 at *
  obtain ⟨t, ht⟩ : ∃ t, (n1 - 240) * 2 ^ 18 +
      ((n2 - 128) * 2 ^ 12 + ((n3 - 128) * 2 ^ 6 + (n4 - 128))) = t := ⟨_, rfl⟩
  rw [ht] at h ⊢
  have c1 : ¬ (t ≤ 127) := by omega
  have c2 : ¬ (t ≤ 2047) := by omega
  have c3 : ¬ (t ≤ 65535) := by omega
  constructor
  · simp only [IsScalar]; omega
  · simp only [enc, c1, c2, c3, if_false]
    have e1 : t / 262144 % 8 + 240 = n1 := by omega
    have e2 : t / 4096 % 64 + 128 = n2 := by omega
    have e3 : t / 64 % 64 + 128 = n3 := by omega
    have e4 : t % 64 + 128 = n4 := by omega
    rw [e1, e2, e3, e4, ofNat_of_toNat hn1, ofNat_of_toNat hn2, ofNat_of_toNat hn3,
      ofNat_of_toNat hn4]

/-- One step of the decoder, described locally: what is decoded from `a` depends on neither the
following non-continuation byte nor what comes after it; the step consumes a non-empty prefix `p`
of `a` and yields the scalar value encoded by `p`, or U+FFFD. -/
theorem convertOne_local (a : Str) (ha : a ≠ []) : ∃ (c : Nat) (p t : Str), a = p ++ t ∧ p ≠ [] ∧
    IsScalar c ∧ (p = enc c ∨ (c = errorReplacement ∧ ∀ n, IsScalar n → ¬ enc n <+: a)) ∧
    ∀ b y, countlOne b ≠ 1 → convertOneUtf8 (a ++ b :: y) = some (c, t ++ b :: y) := by
  -- an error result means no character starts here
  have key : ∀ (p t : Str), a = p ++ t → p ≠ [] →
      (∀ b y, countlOne b ≠ 1 →
        convertOneUtf8 (a ++ b :: y) = some (errorReplacement, t ++ b :: y)) →
      ∃ (c : Nat) (p t : Str), a = p ++ t ∧ p ≠ [] ∧
    IsScalar c ∧ (p = enc c ∨ (c = errorReplacement ∧ ∀ n, IsScalar n → ¬ enc n <+: a)) ∧
    ∀ b y, countlOne b ≠ 1 → convertOneUtf8 (a ++ b :: y) = some (c, t ++ b :: y) := by
    intro p t hpt hp h
    by_cases hex : ∃ n, IsScalar n ∧ enc n <+: a
    · obtain ⟨n, hn, q, hq⟩ := hex
      have h0 : countlOne 0 ≠ 1 := by decide
      have e := h 0 [] h0
      rw [← hq, List.append_assoc, convertOne_enc hn] at e
      simp only [Option.some.injEq, Prod.mk.injEq] at e
      refine ⟨n, enc n, q, hq.symm, enc_ne_nil n, hn, Or.inl rfl, ?_⟩
      intro b y _
      rw [← hq, List.append_assoc, convertOne_enc hn]
    · exact ⟨errorReplacement, p, t, hpt, hp, scalar_fffd,
        Or.inr ⟨rfl, fun n hn hpre => hex ⟨n, hn, hpre⟩⟩, h⟩
  match a, ha with
  | b1 :: r1, _ =>
    by_cases h0 : countlOne b1 = 0
    · refine ⟨b1.toNat, [b1], r1, rfl, by simp, ?_, Or.inl ?_, ?_⟩
      · rw [countlOne_zero_iff] at h0; simp only [IsScalar]; omega
      · rw [countlOne_zero_iff] at h0
        have : b1.toNat ≤ 127 := by omega
        simp [enc, this]
      · intro b y _; simp [convertOneUtf8, h0]
    by_cases h1 : countlOne b1 = 1 ∨ countlOne b1 > 4
    · exact key [b1] r1 rfl (by simp) (by intro b y _; simp [convertOneUtf8, h0, h1])
    match r1 with
    | [] =>
      exact key [b1] [] rfl (by simp) (by intro b y hb; simp [convertOneUtf8, h0, h1, hb])
    | b2 :: r2 =>
      by_cases h2 : countlOne b2 = 1
      case neg =>
        exact key [b1] (b2 :: r2) rfl (by simp)
          (by intro b y _; simp [convertOneUtf8, h0, h1, h2])
      by_cases h3 : countlOne b1 > 2
      case neg =>
        have h3' : countlOne b1 = 2 := by omega
        by_cases hv : (b1.toNat ^^^ 0xc0) > 1
        · obtain ⟨hs, he⟩ := enc_two h3' h2 hv
          refine ⟨_, [b1, b2], r2, rfl, by simp, hs, Or.inl he, ?_⟩
          intro b y _; simp [convertOneUtf8, h2, h3', hv]
        · exact key [b1, b2] r2 rfl (by simp)
            (by intro b y _; simp [convertOneUtf8, h2, h3', hv])
      match r2 with
      | [] =>
        exact key [b1, b2] [] rfl (by simp)
          (by intro b y hb; simp [convertOneUtf8, h0, h1, h2, h3, hb])
      | b3 :: r3 =>
        by_cases h4 : countlOne b3 = 1
        case neg =>
          exact key [b1, b2] (b3 :: r3) rfl (by simp)
            (by intro b y _; simp [convertOneUtf8, h0, h1, h2, h3, h4])
        by_cases h5 : countlOne b1 = 4
        case neg =>
          have h5' : countlOne b1 = 3 := by omega
          by_cases hv : threeByteUtf8 b1.toNat (b2.toNat ^^^ 0x80) b3.toNat > max2Uni ∧
            (threeByteUtf8 b1.toNat (b2.toNat ^^^ 0x80) b3.toNat < minSurrogate ∨
             threeByteUtf8 b1.toNat (b2.toNat ^^^ 0x80) b3.toNat > maxSurrogate)
          · obtain ⟨hs, he⟩ := enc_three h5' h2 h4 hv
            refine ⟨_, [b1, b2, b3], r3, rfl, by simp, hs, Or.inl he, ?_⟩
            intro b y _
            simp only [convertOneUtf8, List.cons_append, h2, h4, h5', if_pos hv]; simp
          · exact key [b1, b2, b3] r3 rfl (by simp)
              (by intro b y _
                  simp only [convertOneUtf8, List.cons_append, h2, h4, h5', if_neg hv]; simp)
        match r3 with
        | [] =>
          exact key [b1, b2, b3] [] rfl (by simp)
            (by intro b y hb; simp [convertOneUtf8, h2, h4, h5, hb])
        | b4 :: r4 =>
          by_cases h6 : countlOne b4 = 1
          case neg =>
            exact key [b1, b2, b3] (b4 :: r4) rfl (by simp)
              (by intro b y _; simp [convertOneUtf8, h2, h4, h5, h6])
          by_cases hv :
              fourByteUtf8 b1.toNat (b2.toNat ^^^ 0x80) (b3.toNat ^^^ 0x80) b4.toNat > max3Uni ∧
              fourByteUtf8 b1.toNat (b2.toNat ^^^ 0x80) (b3.toNat ^^^ 0x80) b4.toNat ≤ maxUnicode
          · obtain ⟨hs, he⟩ := enc_four h5 h2 h4 h6 hv
            refine ⟨_, [b1, b2, b3, b4], r4, rfl, by simp, hs, Or.inl he, ?_⟩
            intro b y _
            simp only [convertOneUtf8, List.cons_append, h2, h4, h5, h6, if_pos hv]; simp
          · exact key [b1, b2, b3, b4] r4 rfl (by simp)
              (by intro b y _
                  simp only [convertOneUtf8, List.cons_append, h2, h4, h5, h6, if_neg hv]; simp)

end KT
