import Verif.Model.CharConv
import Verif.Spec.Ascii
import Verif.Lemmas.AsciiMap
import Verif.Lemmas.Decimal
import Verif.Props.Str
/-!
# Case conversion, conversion to `char` and tests for single bytes (C143, C144, C145)
-/
namespace KT
open Spec

theorem byte_forall {P : UInt8 → Prop} (h : ∀ n : Nat, n < 256 → P (UInt8.ofNat n)) (b : UInt8) : P b := by
  have := h b.toNat b.toNat_lt
  rwa [byte_ofNat_toNat] at this

theorem lower_asciiMap : AsciiMap toLowerChar where
  high := byte_forall (P := fun b => 128 ≤ b.toNat → toLowerChar b = b) (by decide +kernel)
  low := byte_forall (P := fun b => b.toNat < 128 → (toLowerChar b).toNat < 128) (by decide +kernel)
  zero := byte_forall (P := fun b => toLowerChar b = 0 ↔ b = 0) (by decide +kernel)

theorem upper_asciiMap : AsciiMap toUpperChar where
  high := byte_forall (P := fun b => 128 ≤ b.toNat → toUpperChar b = b) (by decide +kernel)
  low := byte_forall (P := fun b => b.toNat < 128 → (toUpperChar b).toNat < 128) (by decide +kernel)
  zero := byte_forall (P := fun b => toUpperChar b = 0 ↔ b = 0) (by decide +kernel)

theorem lower_codeMap : codeMap toLowerChar = lowerCode := by
  funext c
  unfold codeMap
  by_cases h : c < 128
  · rw [if_pos h]
    exact (show ∀ c < 128, (toLowerChar (UInt8.ofNat c)).toNat = lowerCode c by decide +kernel) c h
  · rw [if_neg h]
    simp only [lowerCode, show 'Z'.toNat = 90 from rfl]
    rw [if_neg (by omega)]

theorem upper_codeMap : codeMap toUpperChar = upperCode := by
  funext c
  unfold codeMap
  by_cases h : c < 128
  · rw [if_pos h]
    exact (show ∀ c < 128, (toUpperChar (UInt8.ofNat c)).toNat = upperCode c by decide +kernel) c h
  · rw [if_neg h]
    simp only [upperCode, show 'z'.toNat = 122 from rfl]
    rw [if_neg (by omega)]

/-! ## C143: case conversion -/

/-- `toLower` and `toUpper` convert exactly the Ascii letters among the characters of any text, also of
a malformed one. -/
theorem C143_decode (s : Str) :
    decode (toLower s) = (decode s).map lowerCode ∧ decode (toUpper s) = (decode s).map upperCode := by
  constructor
  · rw [← lower_codeMap]; exact decode_map lower_asciiMap s
  · rw [← upper_codeMap]; exact decode_map upper_asciiMap s

/-- Byte by byte: the length stays, letters change by 32, everything else (also NUL) is kept. -/
theorem C143_bytes (s : Str) :
    (toLower s).map UInt8.toNat = (s.map UInt8.toNat).map lowerCode ∧
    (toUpper s).map UInt8.toNat = (s.map UInt8.toNat).map upperCode := by
  have h1 : ∀ b : UInt8, (toLowerChar b).toNat = lowerCode b.toNat :=
    byte_forall (P := fun b => (toLowerChar b).toNat = lowerCode b.toNat) (by decide +kernel)
  have h2 : ∀ b : UInt8, (toUpperChar b).toNat = upperCode b.toNat :=
    byte_forall (P := fun b => (toUpperChar b).toNat = upperCode b.toNat) (by decide +kernel)
  simp [toLower, toUpper, Function.comp_def, h1, h2]

/-- Converting twice is converting to the second case. -/
theorem C143_twice (s : Str) :
    toLower (toLower s) = toLower s ∧ toUpper (toUpper s) = toUpper s ∧
    toLower (toUpper s) = toLower s ∧ toUpper (toLower s) = toUpper s := by
  have h1 : ∀ b, toLowerChar (toLowerChar b) = toLowerChar b :=
    byte_forall (P := fun b => toLowerChar (toLowerChar b) = toLowerChar b) (by decide +kernel)
  have h2 : ∀ b, toUpperChar (toUpperChar b) = toUpperChar b :=
    byte_forall (P := fun b => toUpperChar (toUpperChar b) = toUpperChar b) (by decide +kernel)
  have h3 : ∀ b, toLowerChar (toUpperChar b) = toLowerChar b :=
    byte_forall (P := fun b => toLowerChar (toUpperChar b) = toLowerChar b) (by decide +kernel)
  have h4 : ∀ b, toUpperChar (toLowerChar b) = toUpperChar b :=
    byte_forall (P := fun b => toUpperChar (toLowerChar b) = toUpperChar b) (by decide +kernel)
  simp [toLower, toUpper, Function.comp_def, h1, h2, h3, h4]

/-- `firstLower` and `firstUpper` convert the first byte and keep the rest. -/
theorem C143_first (b : UInt8) (r : Str) :
    firstLower (b :: r) = toLower [b] ++ r ∧ firstUpper (b :: r) = toUpper [b] ++ r ∧
    firstLower [] = [] ∧ firstUpper [] = [] := by
  refine ⟨?_, ?_, rfl, rfl⟩
  · simp only [firstLower, toLower, List.map_cons, List.map_nil, List.singleton_append]
    by_cases h : isUpper b = true
    · rw [if_pos h]
    · rw [if_neg h, toLowerChar, if_neg h]
  · simp only [firstUpper, toUpper, List.map_cons, List.map_nil, List.singleton_append]
    by_cases h : isLower b = true
    · rw [if_pos h]
    · rw [if_neg h, toUpperChar, if_neg h]

/-- The same for characters: only the first one may change, and only if it is an Ascii letter. -/
theorem C143_first_decode (s : Str) :
    decode (firstLower s) = (match decode s with | [] => [] | c :: cs => lowerCode c :: cs) ∧
    decode (firstUpper s) = (match decode s with | [] => [] | c :: cs => upperCode c :: cs) := by
  have step : ∀ {f : UInt8 → UInt8} (_ : AsciiMap f) (b : UInt8) (r : Str), b ≠ 0 →
      decode (f b :: r) = (match decode (b :: r) with | [] => [] | c :: cs => codeMap f c :: cs) := by
    intro f hf b r hb
    have hd := decodes_decode (b :: r)
    have e1 : cStr (b :: r) = b :: cStr r := by simp [cStr, hb]
    have hfb : f b ≠ 0 := fun h => hb ((hf.zero b).mp h)
    have e2 : cStr (f b :: r) = f b :: cStr r := by simp [cStr, hfb]
    by_cases hlt : b.toNat < 128
    · -- an Ascii character: it is decoded alone
      have asc : ∀ x : UInt8, x ≠ 0 → x.toNat < 128 → decode (x :: r) = x.toNat :: decode r := by
        intro x hx hxl
        have ex : cStr (x :: r) = x :: cStr r := by simp [cStr, hx]
        have hd := decodes_decode r
        have : Decodes (cStr (x :: r)) (x.toNat :: decode r) := by
          rw [ex]
          have henc : [x] = enc x.toNat := by
            have : x.toNat ≤ 127 := by omega
            simp [enc, this]
          have := decodes_enc (c := x.toNat) (by simp only [IsScalar]; omega) hd
          rw [← henc] at this; exact this
        exact (decodes_decode (x :: r)).unique this
      rw [asc b hb hlt, asc (f b) hfb (hf.low b hlt)]
      simp only [codeMap, hlt, if_true, byte_ofNat_toNat]
    · rw [hf.high b (by omega)]
      rw [e1] at hd
      generalize hx : b :: cStr r = x at hd
      generalize decode (b :: r) = ds at hd
      cases hd with
      | nil => rfl
      | @cons p t c cs hp hs hor hloc ht =>
        obtain ⟨b', q, e, _, _, h2⟩ := convertOne_consumes (hloc 0 [] countlOne_zero)
        rw [List.append_assoc] at e
        have e := List.append_cancel_right e
        subst e
        simp only [List.cons_append, List.cons.injEq] at hx
        have : codeMap f c = c := codeMap_of_ge (h2 (by rw [← hx.1]; omega))
        simp only [this]
  cases s with
  | nil => exact ⟨rfl, rfl⟩
  | cons b r =>
    obtain ⟨h1, h2, _, _⟩ := C143_first b r
    rw [h1, h2]
    simp only [toLower, toUpper, List.map_cons, List.map_nil, List.singleton_append]
    by_cases hb : b = 0
    · subst hb
      have : ∀ r, decode ((0 : UInt8) :: r) = [] := by
        intro r
        have := decodes_decode ((0 : UInt8) :: r)
        have e : cStr ((0 : UInt8) :: r) = [] := by simp [cStr]
        rw [e] at this
        exact this.unique .nil
      have e1 : toLowerChar 0 = 0 := by decide
      have e2 : toUpperChar 0 = 0 := by decide
      rw [e1, e2, this]
      exact ⟨rfl, rfl⟩
    · rw [step lower_asciiMap b r hb, step upper_asciiMap b r hb, lower_codeMap, upper_codeMap]
      exact ⟨rfl, rfl⟩

-- StringTest.cpp:119-145
example : toLower (u8!"雪sNow") = u8!"雪snow" ∧ toUpper (u8!"雪sNow") = u8!"雪SNOW" := by decide +kernel
example : firstLower (u8!"EfGh") = u8!"efGh" ∧ firstUpper (u8!"aBcD") = u8!"ABcD" ∧
    firstUpper (u8!"雪sNow") = u8!"雪sNow" := by decide +kernel

/-! ## C144: conversion to `char` -/

/-- `std::to_string` of an `int` denotes it: a minus sign for negative numbers and the digits of the
absolute value. -/
def intText (t : Str) (x : Int) : Prop :=
  (0 ≤ x ∧ t = toDec x.toNat) ∨ (x < 0 ∧ t = u8!"-" ++ toDec (-x).toNat)

theorem intToDec_text (x : Int) : intText (intToDec x) x := by
  unfold intToDec intText
  by_cases h : x < 0
  · rw [if_pos h]; right; refine ⟨h, ?_⟩; congr 2; omega
  · rw [if_neg h]; left; refine ⟨by omega, ?_⟩; congr 1; omega

/-- With negative numbers allowed exactly -128 to 255 are converted, and the value is kept modulo 256. -/
theorem C144_int (x : Int) :
    (∀ b, toCharInt x = .ok b ↔ -128 ≤ x ∧ x ≤ 255 ∧ (b.toNat : Int) = x % 256) ∧
    (∀ m, toCharInt x = .error m ↔ (x < -128 ∨ 255 < x) ∧
      ∃ t, intText t x ∧ m = u8!"toChar (int): '" ++ t ++ u8!"' out of range") := by
  have ht := intToDec_text x
  have hu : ∀ t, intText t x → t = intToDec x := by
    intro t h
    rcases h with ⟨h1, h2⟩ | ⟨h1, h2⟩ <;> rcases ht with ⟨h3, h4⟩ | ⟨h3, h4⟩ <;>
      first | (exfalso; omega) | (rw [h2, h4])
  unfold toCharInt
  rw [if_pos rfl]
  by_cases h1 : x < -128
  · rw [if_pos h1]
    constructor
    · intro b; constructor
      · intro h; cases h
      · intro h; omega
    · intro m
      simp only [Except.error.injEq, charRangeText]
      constructor
      · intro h; exact ⟨Or.inl h1, _, ht, by rw [← h]; rfl⟩
      · rintro ⟨_, t, h, e⟩; rw [e, hu t h]; rfl
  · rw [if_neg h1]
    by_cases h2 : x > 255
    · rw [if_pos h2]
      unfold toCharUnsigned
      rw [if_pos (by omega)]
      constructor
      · intro b; constructor
        · intro h; cases h
        · intro h; omega
      · intro m
        simp only [Except.error.injEq, charRangeText]
        constructor
        · intro h; exact ⟨Or.inr h2, _, ht, by rw [← h]; rfl⟩
        · rintro ⟨_, t, h, e⟩; rw [e, hu t h]; rfl
    · rw [if_neg h2]
      constructor
      · intro b
        simp only [Except.ok.injEq]
        constructor
        · intro h; subst h
          refine ⟨by omega, by omega, ?_⟩
          rw [toNat_ofNat_lt (by omega)]; omega
        · rintro ⟨_, _, h⟩
          apply UInt8.toNat_inj.mp
          rw [toNat_ofNat_lt (by omega)]; omega
      · intro m; constructor
        · intro h; cases h
        · intro h; omega

/-- Without negative numbers exactly 0 to 255 are converted, and the value is kept. -/
theorem C144_positive (x : Int) :
    (∀ b, toCharInt x false = .ok b ↔ 0 ≤ x ∧ x ≤ 255 ∧ (b.toNat : Int) = x) ∧
    (x < 0 → ∃ t, intText t x ∧
      toCharInt x false = .error (u8!"toChar (positive int): '" ++ t ++ u8!"' out of range")) ∧
    (255 < x → ∃ t, intText t x ∧
      toCharInt x false = .error (u8!"toChar (int): '" ++ t ++ u8!"' out of range")) := by
  have ht := intToDec_text x
  unfold toCharInt
  simp only [Bool.false_eq_true, if_false]
  refine ⟨?_, ?_, ?_⟩
  · intro b
    by_cases h1 : x < 0
    · rw [if_pos h1]; constructor
      · intro h; cases h
      · intro h; omega
    · rw [if_neg h1]
      unfold toCharUnsigned
      by_cases h2 : x.toNat > 255
      · rw [if_pos h2]; constructor
        · intro h; cases h
        · intro h; omega
      · rw [if_neg h2]
        simp only [Except.ok.injEq]
        constructor
        · intro h; subst h
          refine ⟨by omega, by omega, ?_⟩
          rw [toNat_ofNat_lt (by omega)]; omega
        · rintro ⟨_, _, h⟩
          apply UInt8.toNat_inj.mp
          rw [toNat_ofNat_lt (by omega)]; omega
  · intro h; rw [if_pos h]; exact ⟨_, ht, rfl⟩
  · intro h; rw [if_neg (by omega)]
    unfold toCharUnsigned
    rw [if_pos (by omega)]; exact ⟨_, ht, rfl⟩

/-- The overloads for unsigned numbers convert exactly the numbers up to 255; the error names the type
and the number, a code in hexadecimal with at least four digits. -/
theorem C144_unsigned (x : Nat) :
    (x ≤ 255 → ∃ b : UInt8, b.toNat = x ∧ toCharU32 x = .ok b ∧ toCharU16 x = .ok b ∧
      toCharSize x = .ok b ∧ toCharCode x = .ok b) ∧
    (255 < x →
      toCharU32 x = .error (u8!"toChar (uint32_t): '" ++ toDec x ++ u8!"' out of range") ∧
      toCharU16 x = .error (u8!"toChar (uint16_t): '" ++ toDec x ++ u8!"' out of range") ∧
      toCharSize x = .error (u8!"toChar (size_t): '" ++ toDec x ++ u8!"' out of range") ∧
      toCharCode x = .error (u8!"toChar (Code): '" ++ toHex 4 x .none .lower 4 ++ u8!"' out of range")) := by
  constructor
  · intro h
    refine ⟨UInt8.ofNat x, toNat_ofNat_lt (by omega), ?_, ?_, ?_, ?_⟩ <;>
      simp only [toCharU32, toCharU16, toCharSize, toCharCode, toCharUnsigned] <;>
      rw [if_neg (by omega)]
  · intro h
    refine ⟨?_, ?_, ?_, ?_⟩ <;>
      simp only [toCharU32, toCharU16, toCharSize, toCharCode, toCharUnsigned] <;>
      rw [if_pos h] <;> rfl

/-- A byte is always converted, also there and back, and every `char` is the result of some number. -/
theorem C144_byte (b : UInt8) :
    toCharU8 b = .ok b ∧ toUChar b = b ∧ toCharInt (toUChar b).toNat false = .ok b ∧
    toCharInt b.toInt8.toInt = .ok b := by
  have h : b.toNat ≤ 255 := by have := b.toNat_lt; omega
  refine ⟨?_, rfl, ?_, ?_⟩
  · unfold toCharU8 toCharUnsigned
    rw [if_neg (by omega), byte_ofNat_toNat]
  · exact ((C144_positive _).1 b).mpr ⟨by omega, by simp only [toUChar]; omega, rfl⟩
  · refine ((C144_int _).1 b).mpr ?_
    exact byte_forall (P := fun b => -128 ≤ b.toInt8.toInt ∧ b.toInt8.toInt ≤ 255 ∧
      (b.toNat : Int) = b.toInt8.toInt % 256) (by decide +kernel) b

/-- The model of `toChar` used elsewhere (without the message) is this function. -/
theorem C144_agrees (x : Nat) :
    toChar x = (match toCharCode x with | .ok b => .ok b | .error _ => .throw .range) := by
  unfold toChar toCharCode toCharUnsigned
  by_cases h : x > 255
  · rw [if_pos h, if_pos h]
  · rw [if_neg h, if_neg h]

-- StringTest.cpp:147-213
example : toCharInt (-128) = .ok 0x80 ∧ toCharInt 255 = .ok 0xff ∧
    toCharInt (-129) = .error (u8!"toChar (int): '-129' out of range") ∧
    toCharInt (-1) false = .error (u8!"toChar (positive int): '-1' out of range") ∧
    toCharInt 256 false = .error (u8!"toChar (int): '256' out of range") ∧
    toCharCode 0xa00 = .error (u8!"toChar (Code): '0a00' out of range") := ⟨rfl, rfl, rfl, rfl, rfl, rfl⟩

/-! ## C145: tests for single bytes -/

/-- For text without NUL the overloads for `String` and `CodeString` agree. -/
theorem C145_overloads (s : Str) (h0 : (0 : UInt8) ∉ s) :
    isAllSingleByte s = isAllSingleByteCodes (decode s) ∧
    isAnySingleByte s = isAnySingleByteCodes (decode s) ∧
    isSingleByte s = isSingleByteCodes (decode s) ∧
    isSingleByte s false = isSingleByteCodes (decode s) false := by
  have hd := decodes_decode s
  rw [cStr_of_no_zero h0] at hd
  generalize decode s = cs at hd
  obtain ⟨ha, hall⟩ := decodes_ascii hd
  have hlt : ∀ b : UInt8, isSingleByteChar b = true ↔ b.toNat < 128 := by
    intro b; simp [isSingleByteChar, UInt8.lt_iff_toNat_lt]
  refine ⟨?_, ?_, ?_⟩
  · rw [Bool.eq_iff_iff]
    simp only [isAllSingleByte, isAllSingleByteCodes, List.all_eq_true, hlt, isSingleByteCode,
      decide_eq_true_eq]
    exact hall.symm
  · rw [Bool.eq_iff_iff]
    simp only [isAnySingleByte, isAnySingleByteCodes, List.any_eq_true, hlt, isSingleByteCode,
      decide_eq_true_eq]
    constructor
    · rintro ⟨b, hb, hb'⟩
      have : b.toNat ∈ cs.filter (fun c => decide (c < 128)) := by
        rw [ha]; exact List.mem_map.mpr ⟨b, by simpa using ⟨hb, hb'⟩, rfl⟩
      exact ⟨b.toNat, (List.mem_filter.mp this).1, hb'⟩
    · rintro ⟨c, hc, hc'⟩
      have : c ∈ cs.filter (fun c => decide (c < 128)) := by simpa using ⟨hc, hc'⟩
      rw [ha] at this
      obtain ⟨b, hb, rfl⟩ := List.mem_map.mp this
      exact ⟨b, (List.mem_filter.mp hb).1, hc'⟩
  · cases hd with
    | nil => exact ⟨rfl, rfl⟩
    | @cons p t c cs hp hs hor hloc ht =>
      obtain ⟨b, q, e, hq, h1, h2⟩ := convertOne_consumes (hloc 0 [] countlOne_zero)
      rw [List.append_assoc] at e
      have e := List.append_cancel_right e
      subst e
      simp only [List.cons_append, isSingleByte, isSingleByteCodes, isSingleByteCode]
      by_cases hb : b.toNat < 128
      · obtain ⟨rfl, rfl⟩ := h1 hb
        have e1 : isSingleByteChar b = true := (hlt b).mpr hb
        have e2 : t.isEmpty = cs.isEmpty := by
          rw [Bool.eq_iff_iff, List.isEmpty_iff, List.isEmpty_iff]; exact ht.eq_nil_iff.symm
        simp [e1, hb, e2]
      · have e1 : isSingleByteChar b = false := by
          rw [Bool.eq_false_iff]; exact fun h => hb ((hlt b).mp h)
        have := h2 (by omega)
        have e2 : decide (c < 128) = false := by simp; omega
        simp [e1, e2]

/-- The Ascii characters of a text without NUL are its bytes below 128, in the same order. -/
theorem C145_characters (s : Str) (h0 : (0 : UInt8) ∉ s) :
    (decode s).filter isSingleByteCode = (s.filter isSingleByteChar).map UInt8.toNat := by
  have hd := decodes_decode s
  rw [cStr_of_no_zero h0] at hd
  have := (decodes_ascii hd).1
  have e : isSingleByteChar = fun b => decide (b.toNat < 128) := by
    funext b; rw [Bool.eq_iff_iff]; simp [isSingleByteChar, UInt8.lt_iff_toNat_lt]
  rw [e]; exact this

/-- `isSingleByte` needs a character, and with `sizeOne` exactly one byte; every string of single bytes
has one character per byte. -/
theorem C145_one (s : Str) :
    (isSingleByte s = true ↔ ∃ b : UInt8, s = [b] ∧ b.toNat < 128) ∧
    (isSingleByte s false = true ↔ ∃ (b : UInt8) (r : Str), s = b :: r ∧ b.toNat < 128) ∧
    (isAllSingleByte s = true → (0 : UInt8) ∉ s → decode s = s.map UInt8.toNat) := by
  have hlt : ∀ b : UInt8, isSingleByteChar b = true ↔ b.toNat < 128 := by
    intro b; simp [isSingleByteChar, UInt8.lt_iff_toNat_lt]
  refine ⟨?_, ?_, ?_⟩
  · cases s with
    | nil => simp [isSingleByte]
    | cons b r => cases r <;> simp [isSingleByte, hlt]
  · cases s with
    | nil => simp [isSingleByte]
    | cons b r => simp [isSingleByte, hlt]
  · intro h h0
    have e := C145_characters s h0
    have h' := (C145_overloads s h0).1
    rw [h] at h'
    have e1 : s.filter isSingleByteChar = s := List.filter_eq_self.mpr (by simpa [isAllSingleByte] using h)
    have e2 : (decode s).filter isSingleByteCode = decode s :=
      List.filter_eq_self.mpr (by simpa [isAllSingleByteCodes] using h'.symm)
    rw [← e2, e, e1]

/-- After a NUL the overloads may differ, because decoding ends there. -/
theorem C145_nul : isAllSingleByte [0, 0xe3] = false ∧ isAllSingleByteCodes (decode [0, 0xe3]) = true := by
  decide +kernel

-- StringTest.cpp:91-117
example : isSingleByte (u8!"く") = false ∧ isSingleByte (u8!"xx") = false ∧ isSingleByte (u8!"xx") false = true ∧
    isAnySingleByte (u8!"xxこ") = true ∧ isAnySingleByte (u8!"こ") = false ∧
    isAllSingleByte (u8!"xxこ") = false := by decide +kernel

end KT
