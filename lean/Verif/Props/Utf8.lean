import Verif.Lemmas.Utf8Validate
/-!
# C01 - C08: UTF-8 conversion and validation

Specification: `Verif/Spec/Utf8.lean`.  Model: `Verif/Model/Utf8.lean`.
-/
namespace KT
open Spec

/-! ## C01: decoding is safe and total -/

/-- For every byte string and every limit, decoding ends without reading outside of the string and
its terminating NUL, gives at most one code per byte, and gives only Unicode scalar values. -/
theorem C01_fromUtf8_safe (s : Str) (n : Nat) :
    ∃ cs, fromUtf8 s n = some cs ∧ cs.length ≤ s.length ∧ ∀ c ∈ cs, IsScalar c := by
  refine ⟨decodeN s n, fromUtf8_decodeN s n, ?_, ?_⟩
  · have h := (decodes_decode s).length_le
    have h2 : (cStr s).length ≤ s.length := (List.takeWhile_prefix _).length_le
    by_cases hn : n = 0
    · subst hn; exact Nat.le_trans h h2
    · rw [decodeN_eq_take s n hn, List.length_take]; omega
  · intro c hc
    have h := (decodes_decode s).scalar
    by_cases hn : n = 0
    · subst hn; exact h c hc
    · rw [decodeN_eq_take s n hn] at hc; exact h c (List.mem_of_mem_take hc)

/-- Every step of the decoder on a string that still has bytes left stays inside of the buffer and
moves forward by at least one byte but not beyond the terminating NUL. -/
theorem C01_step_progress (s : Str) (hs : s ≠ []) :
    ∃ c p t, s = p ++ t ∧ p ≠ [] ∧ convertOneUtf8 (s ++ [0]) = some (c, t ++ [0]) := by
  obtain ⟨c, p, t, h1, h2, _, _, h3⟩ := convertOne_local s hs
  exact ⟨c, p, t, h1, h2, h3 0 [] countlOne_zero⟩

/-- `getCode` is safe and gives a scalar value. -/
theorem C01_getCode_safe (s : Str) : ∃ c, getCode s = some c ∧ IsScalar c := by
  cases s with
  | nil => exact ⟨0, rfl, by simp [IsScalar]⟩
  | cons b s =>
    by_cases hb : b = 0
    · subst hb; exact ⟨0, by simp [getCode], by simp [IsScalar]⟩
    · obtain ⟨c, p, t, h1, h2, hs, _, h3⟩ := convertOne_local (b :: s) (by simp)
      have := h3 0 [] countlOne_zero
      exact ⟨c, by simp [getCode, hb] at this ⊢; simp [this], hs⟩

example : fromUtf8 [0xe3, 0x81, 0x41, 0xff, 0xed, 0xa0, 0x80, 0xf0] =
    some [0xfffd, 0x41, 0xfffd, 0xfffd, 0xfffd] := by decide

/-! ## C02: encoding followed by decoding is the identity -/

/-- Every sequence of non-NUL Unicode scalar values survives the trip through UTF-8. -/
theorem C02_roundtrip (cs : List Nat) (h : ∀ c ∈ cs, IsScalar c ∧ c ≠ 0) :
    ∃ s, toUtf8 cs = .ok s ∧ fromUtf8 s = some cs := by
  refine ⟨_, toUtf8_scalars fun c hc => (h c hc).1, ?_⟩
  rw [fromUtf8_decode, decode_of_decodes (flatMap_enc_no_zero fun c hc => (h c hc).2)
    (decodes_flatMap fun c hc => (h c hc).1)]

example : toUtf8 [0x41, 0x3042, 0x1f600, 0xe9] =
      .ok [0x41, 0xe3, 0x81, 0x82, 0xf0, 0x9f, 0x98, 0x80, 0xc3, 0xa9] ∧
    fromUtf8 [0x41, 0xe3, 0x81, 0x82, 0xf0, 0x9f, 0x98, 0x80, 0xc3, 0xa9] =
      some [0x41, 0x3042, 0x1f600, 0xe9] := by decide

/-! ## C03: `toUtf8` is the standard encoding -/

/-- The encoding of a sequence of characters is Lean's own UTF-8 encoding. -/
theorem C03_standard_encoding (cs : List Char) :
    toUtf8 (cs.map Char.toNat) = .ok (utf8Encode cs) := by
  rw [toUtf8_scalars]
  · congr 1
    rw [utf8Encode, List.flatMap_map]
    rfl
  · intro c hc
    obtain ⟨x, _, rfl⟩ := List.mem_map.mp hc
    exact char_isScalar x

/-- Every value that is not a scalar value is replaced by U+FFFD. -/
theorem C03_replacement (c : Nat) (h : ¬ IsScalar c) :
    toUtf8 [c] = .ok (utf8Encode [Char.ofNat 0xfffd]) := by
  rw [toUtf8, convertToUtf8_nonscalar h]
  decide

/-- Encoding never fails, whatever 32 bit values the string contains. -/
theorem C03_total (cs : List Nat) : ∃ s, toUtf8 cs = .ok s := by
  induction cs with
  | nil => exact ⟨[], rfl⟩
  | cons c cs ih =>
    obtain ⟨s, hs⟩ := ih
    rw [toUtf8, hs]
    by_cases h : IsScalar c
    · rw [convertToUtf8_scalar h]; exact ⟨_, rfl⟩
    · rw [convertToUtf8_nonscalar h]; exact ⟨_, rfl⟩

example : ¬ IsScalar 0xd800 ∧ ¬ IsScalar 0x110000 ∧ ¬ IsScalar 0xffffffff := by
  simp [IsScalar]

/-! ## C04: decoding and re-encoding is the identity exactly on well-formed strings -/

theorem C04_reencode_iff_wellFormed (s : Str) (h0 : (0 : UInt8) ∉ s) :
    (∃ cs, fromUtf8 s = some cs ∧ toUtf8 cs = .ok s) ↔ WellFormed s := by
  constructor
  · rintro ⟨cs, h1, h2⟩
    have hs : ∀ c ∈ cs, IsScalar c := by
      obtain ⟨cs', h, _, h'⟩ := C01_fromUtf8_safe s 0
      rw [h1] at h; cases h; exact h'
    rw [toUtf8_scalars hs] at h2
    clear h1
    have h3 : cs.flatMap enc = s := by injection h2
    clear h2
    subst h3
    clear h0
    induction cs with
    | nil => exact ⟨[], rfl⟩
    | cons c cs ih =>
      obtain ⟨ds, hd⟩ := ih fun x hx => hs x (by simp [hx])
      refine ⟨charOf c (hs c (by simp)) :: ds, ?_⟩
      rw [List.flatMap_cons, hd, utf8Encode, utf8Encode, List.flatMap_cons, encodeChar_charOf]
  · rintro ⟨cs, rfl⟩
    have hsc : ∀ c ∈ cs.map Char.toNat, IsScalar c := by
      intro c hc
      obtain ⟨x, _, rfl⟩ := List.mem_map.mp hc
      exact char_isScalar x
    have he : utf8Encode cs = (cs.map Char.toNat).flatMap enc := by
      rw [utf8Encode, List.flatMap_map]; rfl
    refine ⟨cs.map Char.toNat, ?_, C03_standard_encoding cs⟩
    rw [fromUtf8_decode, decode_of_decodes h0]
    rw [he]; exact decodes_flatMap hsc

example : WellFormed u8!"aé漢" := ⟨['a', 'é', '漢'], by decide⟩
example : ¬ WellFormed [0xc0, 0x80] := by
  rw [← C04_reencode_iff_wellFormed _ (by decide)]
  rintro ⟨cs, h1, h2⟩
  have : fromUtf8 [0xc0, 0x80] = some [0xfffd] := by decide
  rw [this] at h1; cases h1; exact absurd h2 (by decide)

/-! ## C05: validation of the first character is exact -/

/-- Validation never reads outside of the string and its terminator. -/
theorem C05_total (s : Str) (so : Bool) : ∃ r, validateMBUtf8 s so = some r := by
  cases s with
  | nil => exact ⟨_, rfl⟩
  | cons b s =>
    simp only [List.cons_append, validateMBUtf8, validateMBUtf8Ptr]
    split
    · exact ⟨_, rfl⟩
    · split
      · exact ⟨_, rfl⟩
      · rename_i h1 h2
        rw [and80 _ b.toNat_lt] at h1
        rw [andC0 _ b.toNat_lt] at h2
        rcases validateMB_cases b s so (by omega) with ⟨e, r, _, h, _⟩ | ⟨c, r, _, _, _, h⟩
        · rw [List.cons_append] at h; exact ⟨_, h⟩
        · rw [List.cons_append] at h; rw [h]
          unfold validateEnd
          split
          · exact ⟨_, rfl⟩
          · cases r with
            | nil => exact ⟨_, rfl⟩
            | cons x r => simp only [List.cons_append]; split <;> exact ⟨_, rfl⟩

/-- `NotMultiByte` is exactly: the string is empty or starts with an Ascii byte. -/
theorem C05_notMultiByte_iff (s : Str) (so : Bool) :
    (∃ e, validateMBUtf8 s so = some (.notMultiByte, e)) ↔
      s = [] ∨ ∃ b r, s = b :: r ∧ b.toNat < 128 := by
  cases s with
  | nil => simp [validateMBUtf8, validateMBUtf8Ptr]
  | cons b s =>
    simp only [List.cons_append, validateMBUtf8, validateMBUtf8Ptr]
    have h1 := and80 _ b.toNat_lt
    have h2 := andC0 _ b.toNat_lt
    by_cases hb : b.toNat < 128
    · rw [if_pos (h1.mpr hb)]; simp [hb]
    · rw [if_neg (by rw [h1]; exact hb)]
      constructor
      · rintro ⟨e, he⟩
        split at he
        · simp at he
        · rename_i h3
          rw [h2] at h3
          rcases validateMB_cases b s so (by omega) with ⟨e', r, _, h, _⟩ | ⟨c, r, _, _, _, h⟩
          · rw [List.cons_append] at h; rw [h] at he; simp at he
          · rw [List.cons_append] at h; rw [h] at he
            unfold validateEnd at he
            split at he
            · simp at he
            · cases r with
              | nil => simp at he
              | cons x r => simp only [List.cons_append] at he; split at he <;> simp at he
      · rintro (h | ⟨b', r, h, h'⟩)
        · simp at h
        · cases h; exact absurd h' hb

/-- `Valid` is exactly: the string starts with a well-formed multi-byte character and, when a single
character is asked for, the string (as seen through `c_str()`) is that character. -/
theorem C05_valid_iff (s : Str) (so : Bool) :
    (∃ e, validateMBUtf8 s so = some (.valid, e)) ↔
      ∃ c : Char, 128 ≤ c.toNat ∧ StartsWith s c ∧
        (so = true → cStr s = String.utf8EncodeChar c) := by
  cases s with
  | nil =>
    constructor
    · rintro ⟨e, h⟩; simp [validateMBUtf8, validateMBUtf8Ptr] at h
    · rintro ⟨c, _, h, _⟩
      rw [startsWith_enc] at h
      obtain ⟨r, hr⟩ := h
      have := enc_ne_nil c.toNat
      simp at hr; exact absurd hr.1 this
  | cons b s =>
    have h1 := and80 _ b.toNat_lt
    have h2 := andC0 _ b.toNat_lt
    constructor
    · rintro ⟨e, he⟩
      simp only [List.cons_append, validateMBUtf8, validateMBUtf8Ptr] at he
      split at he
      · simp at he
      · split at he
        · simp at he
        · rename_i g1 g2
          rw [h1] at g1; rw [h2] at g2
          rcases validateMB_cases b s so (by omega) with ⟨e', r, _, h, _⟩ | ⟨c, r, hc, hge, hs, h⟩
          · rw [List.cons_append] at h; rw [h] at he; simp at he
          · rw [List.cons_append] at h; rw [h] at he
            refine ⟨charOf c hc, by rw [charOf_toNat]; exact hge, ?_, ?_⟩
            · rw [startsWith_enc, charOf_toNat]; exact ⟨r, hs⟩
            · intro hso
              rw [hs, cStr_enc_append (by omega), encodeChar_charOf]
              rw [(validateEnd_valid so r).mp ⟨e, he⟩ hso]; simp
    · rintro ⟨c, hge, hst, hso⟩
      rw [startsWith_enc] at hst
      obtain ⟨r, hr⟩ := hst
      have hsc := char_isScalar c
      have hv := validateMB_enc hsc hge r so
      rw [← hr] at hv
      have hb : 192 ≤ b.toNat := by
        simp only [IsScalar] at hsc
        have hr' := hr
        unfold enc at hr'
        rw [if_neg (by omega)] at hr'
        split at hr'
        · simp only [List.cons_append, List.cons.injEq] at hr'
          rw [hr'.1, toNat_ofNat_lt (by omega)]; omega
        · split at hr'
          · simp only [List.cons_append, List.cons.injEq] at hr'
            rw [hr'.1, toNat_ofNat_lt (by omega)]; omega
          · simp only [List.cons_append, List.cons.injEq] at hr'
            rw [hr'.1, toNat_ofNat_lt (by omega)]; omega
      simp only [List.cons_append, validateMBUtf8, validateMBUtf8Ptr]
      rw [if_neg (by rw [h1]; omega), if_neg (by rw [h2]; omega)]
      rw [List.cons_append] at hv
      rw [hv, validateEnd_valid]
      intro h
      have := hso h
      rw [hr, cStr_enc_append (by omega), utf8EncodeChar_eq_enc] at this
      simpa using this

example : validateMBUtf8 u8!"漢字" = some (.valid, .valid) ∧
    validateMBUtf8 u8!"漢字" true = some (.notValid, .stringTooLong) ∧
    validateMBUtf8 u8!"漢" true = some (.valid, .valid) ∧
    validateMBUtf8 u8!"a" true = some (.notMultiByte, .valid) ∧
    validateMBUtf8 [0xed, 0xa0, 0x80] = some (.notValid, .invalidCodePoint) := by decide

/-! ## C06: `isValidUtf8`

The property (a `true` result means that the whole string is well-formed UTF-8 and, with `sizeOne`,
a single character) does not hold for the code: only the first character is looked at. -/

/-- The full property. -/
def C06_statement : Prop :=
  ∀ (s : Str) (so : Bool), (0 : UInt8) ∉ s → isValidUtf8 s so = some true →
    WellFormed s ∧ (so = true → ∃ c : Char, s = String.utf8EncodeChar c)

/-- The full property fails: `isValidUtf8("a\xff")` is true. -/
theorem C06_violated : ¬ C06_statement := by
  intro h
  have := (h [0x61, 0xff] false (by decide) (by decide)).1
  rw [← C04_reencode_iff_wellFormed _ (by decide)] at this
  obtain ⟨cs, h1, h2⟩ := this
  have e : fromUtf8 [0x61, 0xff] = some [0x61, 0xfffd] := by decide
  rw [e] at h1; cases h1; exact absurd h2 (by decide)

/-- The `sizeOne` half fails too: `isValidUtf8("abc", true)` is true. -/
theorem C06_sizeOne_violated :
    isValidUtf8 u8!"abc" true = some true ∧
      ¬ ∃ c : Char, u8!"abc" = String.utf8EncodeChar c := by
  refine ⟨by decide, ?_⟩
  rintro ⟨c, hc⟩
  have h : fromUtf8 u8!"abc" = some [c.toNat] := by
    rw [fromUtf8_decode, decode_of_decodes (by decide) (cs := [c.toNat])]
    rw [hc, utf8EncodeChar_eq_enc]
    have := decodes_flatMap (cs := [c.toNat]) (by simpa using char_isScalar c)
    simpa using this
  have h' : fromUtf8 u8!"abc" = some [0x61, 0x62, 0x63] := by decide
  rw [h'] at h; simp at h

/-- What does hold: `isValidUtf8` is true exactly when the string is empty, or starts with a
well-formed character (alone in the string if `sizeOne` and the character is not Ascii). Missing
from the full property: everything after the first character. -/
theorem C06_partial (s : Str) (so : Bool) :
    isValidUtf8 s so = some true ↔
      s = [] ∨ ∃ c : Char, StartsWith s c ∧
        (so = true → 128 ≤ c.toNat → cStr s = String.utf8EncodeChar c) := by
  have key : isValidUtf8 s so = some true ↔
      (∃ e, validateMBUtf8 s so = some (.notMultiByte, e)) ∨
      (∃ e, validateMBUtf8 s so = some (.valid, e)) := by
    have aux : ∀ x e, validateMBUtf8 s so = some (x, e) → (e = .valid ↔ x ≠ .notValid) := by
      intro x e h
      cases s with
      | nil => simp [validateMBUtf8, validateMBUtf8Ptr] at h; rw [← h.1, ← h.2]; simp
      | cons b s =>
        simp only [List.cons_append, validateMBUtf8, validateMBUtf8Ptr] at h
        split at h
        · simp at h; rw [← h.1, ← h.2]; simp
        · split at h
          · simp at h; rw [← h.1, ← h.2]; simp
          · rename_i g1 g2
            rw [and80 _ b.toNat_lt] at g1
            rw [andC0 _ b.toNat_lt] at g2
            rcases validateMB_cases b s so (by omega) with
              ⟨e', r, he', hv, _⟩ | ⟨c, r, _, _, _, hv⟩
            · rw [List.cons_append] at hv; rw [hv] at h
              simp at h; rw [← h.1, ← h.2]; simp [he']
            · rw [List.cons_append] at hv; rw [hv] at h
              unfold validateEnd at h
              split at h
              · simp at h; rw [← h.1, ← h.2]; simp
              · cases r with
                | nil => simp at h; rw [← h.1, ← h.2]; simp
                | cons y r =>
                  simp only [List.cons_append] at h
                  split at h <;> (simp at h; rw [← h.1, ← h.2]; simp)
    obtain ⟨⟨x, e⟩, hr⟩ := C05_total s so
    have := aux x e hr
    simp only [isValidUtf8, hr, Option.map_some, Option.some.injEq, beq_iff_eq]
    rw [this]
    cases x <;> simp
  rw [key, C05_notMultiByte_iff, C05_valid_iff]
  constructor
  · rintro ((h | ⟨b, r, h, hb⟩) | ⟨c, h1, h2, h3⟩)
    · exact Or.inl h
    · right
      have hs : IsScalar b.toNat := by simp only [IsScalar]; omega
      refine ⟨charOf b.toNat hs, ?_, ?_⟩
      · rw [startsWith_enc, charOf_toNat]
        refine ⟨r, ?_⟩
        rw [h, enc, if_pos (by omega), byte_ofNat_toNat]; rfl
      · rw [charOf_toNat]; omega
    · exact Or.inr ⟨c, h2, fun hso _ => h3 hso⟩
  · rintro (h | ⟨c, h1, h2⟩)
    · exact Or.inl (Or.inl h)
    · by_cases hc : 128 ≤ c.toNat
      · exact Or.inr ⟨c, hc, h1, fun hso => h2 hso hc⟩
      · left; right
        rw [startsWith_enc] at h1
        obtain ⟨r, hr⟩ := h1
        refine ⟨UInt8.ofNat c.toNat, r, ?_, by rw [toNat_ofNat_lt (by omega)]; omega⟩
        rw [hr, enc, if_pos (by omega)]; rfl

example : isValidUtf8 u8!"漢" true = some true ∧ isValidUtf8 u8!"漢字" true = some false ∧
    isValidUtf8 [0xc1, 0x81] = some false := by decide

/-! ## C07: limited conversion gives a prefix -/

theorem C07_limit (s : Str) (n : Nat) (hn : n ≠ 0) :
    ∃ cs, fromUtf8 s = some cs ∧ fromUtf8 s n = some (cs.take n) :=
  ⟨decode s, fromUtf8_decode s, by rw [fromUtf8_decodeN, decodeN_eq_take s n hn]⟩

/-- `getCode` is the first code, or 0 for a string that is empty (through `c_str()`). -/
theorem C07_getCode (s : Str) :
    ∃ cs, fromUtf8 s = some cs ∧ getCode s = some (cs.head?.getD 0) := by
  refine ⟨decode s, fromUtf8_decode s, ?_⟩
  have h := decodes_decode s
  cases s with
  | nil =>
    have : decode [] = [] := h.eq_nil_iff.mpr rfl
    rw [this]; rfl
  | cons b s =>
    by_cases hb : b = 0
    · subst hb
      have : decode (0 :: s) = [] := h.eq_nil_iff.mpr (by simp [cStr])
      rw [this]; simp [getCode]
    · have hc : cStr (b :: s) = b :: cStr s := by simp [cStr, hb]
      obtain ⟨y, hy⟩ := buf_split (b :: s)
      have hg : getCode (b :: s) = (convertOneUtf8 ((b :: s) ++ [0])).map Prod.fst := by
        simp [getCode, hb]
      rw [hg, hy]
      generalize decode (b :: s) = cs at h
      generalize ha : cStr (b :: s) = a at h hy
      cases h with
      | nil => rw [hc] at ha; simp at ha
      | @cons p t c cs hp hs hor hloc ht => rw [hloc 0 y countlOne_zero]; rfl

example : fromUtf8 u8!"漢字a" = some [0x6f22, 0x5b57, 0x61] ∧
    fromUtf8 u8!"漢字a" 2 = some [0x6f22, 0x5b57] ∧ getCode u8!"漢字a" = some 0x6f22 := by decide

/-! ## C08: decoding is compositional at character boundaries -/

/-- Decoding a concatenation is concatenating the decodings, also when `a` is malformed, provided
`b` does not start with a continuation byte. -/
theorem C08_append (a b : Str) (ha : (0 : UInt8) ∉ a) (hb : (0 : UInt8) ∉ b)
    (hc : ∀ x y, b = x :: y → ¬ IsContinuation x) :
    ∃ cs ds, fromUtf8 a = some cs ∧ fromUtf8 b = some ds ∧ fromUtf8 (a ++ b) = some (cs ++ ds) := by
  refine ⟨decode a, decode b, fromUtf8_decode a, fromUtf8_decode b, ?_⟩
  have h1 := decodes_decode a
  have h2 := decodes_decode b
  rw [cStr_of_no_zero ha] at h1
  rw [cStr_of_no_zero hb] at h2
  have h := decodes_append h1 h2 fun x y hxy => by
    rw [ne_eq, ← isContinuation_iff]; exact hc x y hxy
  rw [fromUtf8_decode, decode_of_decodes (by simp [ha, hb]) h]

/-- Only the part before the first NUL matters. -/
theorem C08_cStr (s : Str) : fromUtf8 s = fromUtf8 (cStr s) := by
  rw [fromUtf8_decode, fromUtf8_decode]
  have h1 := decodes_decode s
  have h2 := decodes_decode (cStr s)
  rw [cStr_of_no_zero (cStr_no_zero s)] at h2
  rw [h1.unique h2]

example : fromUtf8 [0xe3, 0x81] = some [0xfffd] ∧ fromUtf8 u8!"か" = some [0x304b] ∧
    fromUtf8 ([0xe3, 0x81] ++ u8!"か") = some [0xfffd, 0x304b] := by decide

end KT
