import Verif.Lemmas.ColumnFile
/-!
# C09, C10: numbers and code points as text

Specification: `Verif/Spec/Digits.lean`.  Model: `Verif/Model/Str.lean`.
-/
namespace KT
open Spec

/-! ## C09: hex and binary text represent the number exactly -/

/-- Length asked for by the caller: `minSize`, or the full width of the type when it is 0. -/
def wantedSize (minSize full : Nat) : Nat := if minSize = 0 then full else minSize

/-- `toHex` without brackets: reading the text in base 16 gives the number back, the digits have the
requested case, the text is at least as long as requested, and it's longer only if the number needs
all of its digits. -/
theorem C09_toHex (bytes x : Nat) (c : HexCase) (m : Nat) :
    let s := toHex bytes x .none c m
    readNumber 16 s = some x ∧ (c = .upper → NoLowerDigits s) ∧ (c = .lower → NoUpperDigits s) ∧
    wantedSize m (bytes * 2) ≤ s.length ∧
    (wantedSize m (bytes * 2) < s.length → s.length = 1 ∨ 16 ^ (s.length - 1) ≤ x) := by
  intro s
  obtain ⟨ds, h1, h2, h3, h4, h5⟩ := hexLoop_spec c x x (Nat.le_refl _) []
  rw [List.append_nil] at h1
  have hw : (if m ≠ 0 then m else bytes * 2) = wantedSize m (bytes * 2) := by
    unfold wantedSize; split <;> simp_all
  have hs : s = addLeadingZeroes ds (wantedSize m (bytes * 2)) := by
    show addBrackets _ _ = _
    rw [h1, hw]; rfl
  have hr : readFrom 16 0 ds = some x := by simpa using h2 0
  obtain ⟨g1, g2, g3, g4, g5⟩ := addLeadingZeroes_spec 16 (by decide) ds x
    (wantedSize m (bytes * 2)) hr h5
  rw [← hs] at g1 g2 g3 g4 g5
  refine ⟨g1, ?_, ?_, g2, ?_⟩
  · rintro rfl b hb
    rcases g5 b hb with rfl | hb
    · decide
    · obtain ⟨i, hi, rfl⟩ := h3 b hb; exact hexChar_upper i hi
  · rintro rfl b hb
    rcases g5 b hb with rfl | hb
    · decide
    · obtain ⟨i, hi, rfl⟩ := h3 b hb; exact hexChar_lower i hi
  · intro hlt
    rcases g4 hlt with h | h
    · left; rw [h]; rfl
    · right
      cases hsc : s with
      | nil => exact absurd hsc g3
      | cons b r =>
        have := h b r hsc
        rw [hsc, readNumber] at g1
        simpa using base_pow_le 16 (by decide) r b x (by simpa using g1) this

/-- `toBinary` without brackets. -/
theorem C09_toBinary (bytes x m : Nat) :
    let s := toBinary bytes x .none m
    readNumber 2 s = some x ∧ wantedSize m (bytes * 8) ≤ s.length ∧
    (wantedSize m (bytes * 8) < s.length → s.length = 1 ∨ 2 ^ (s.length - 1) ≤ x) := by
  intro s
  obtain ⟨ds, h1, h2, h4, h5⟩ := binaryLoop_spec x x (Nat.le_refl _) []
  rw [List.append_nil] at h1
  have hw : (if m ≠ 0 then m else bytes * 8) = wantedSize m (bytes * 8) := by
    unfold wantedSize; split <;> simp_all
  have hs : s = addLeadingZeroes ds (wantedSize m (bytes * 8)) := by
    show addBrackets _ _ = _
    rw [h1, hw]; rfl
  have hr : readFrom 2 0 ds = some x := by simpa using h2 0
  obtain ⟨g1, g2, g3, g4, g5⟩ := addLeadingZeroes_spec 2 (by decide) ds x
    (wantedSize m (bytes * 8)) hr h5
  rw [← hs] at g1 g2 g3 g4 g5
  refine ⟨g1, g2, ?_⟩
  intro hlt
  rcases g4 hlt with h | h
  · left; rw [h]; rfl
  · right
    cases hsc : s with
    | nil => exact absurd hsc g3
    | cons b r =>
      have := h b r hsc
      rw [hsc, readNumber] at g1
      simpa using base_pow_le 2 (by decide) r b x (by simpa using g1) this

/-- With the default size the text of every value of a type has the same length. -/
theorem C09_default_size (bytes x : Nat) (hb : bytes ≠ 0) (hx : x < 256 ^ bytes) (c : HexCase) :
    (toHex bytes x .none c).length = bytes * 2 ∧ (toBinary bytes x .none).length = bytes * 8 := by
  have h1 := C09_toHex bytes x c 0
  have h2 := C09_toBinary bytes x 0
  simp only [wantedSize, if_true] at h1 h2
  obtain ⟨-, -, -, h3, h4⟩ := h1
  obtain ⟨-, h5, h6⟩ := h2
  constructor
  · apply Nat.le_antisymm _ h3
    apply Nat.le_of_not_lt
    intro hlt
    rcases h4 hlt with h | h
    · omega
    · have e : (256 : Nat) ^ bytes = 16 ^ (bytes * 2) := by
        rw [Nat.mul_comm, Nat.pow_mul]
      have : 16 ^ (bytes * 2) ≤ 16 ^ ((toHex bytes x .none c).length - 1) :=
        Nat.pow_le_pow_right (by decide) (by omega)
      omega
  · apply Nat.le_antisymm _ h5
    apply Nat.le_of_not_lt
    intro hlt
    rcases h6 hlt with h | h
    · omega
    · have e : (256 : Nat) ^ bytes = 2 ^ (bytes * 8) := by
        rw [Nat.mul_comm, Nat.pow_mul]
      have : 2 ^ (bytes * 8) ≤ 2 ^ ((toBinary bytes x .none).length - 1) :=
        Nat.pow_le_pow_right (by decide) (by omega)
      omega

/-- Brackets only surround the text. -/
theorem C09_brackets (bytes x m : Nat) (c : HexCase) (t : BracketType) :
    (toHex bytes x t c m = addBrackets (toHex bytes x .none c m) t) ∧
    (toBinary bytes x t m = addBrackets (toBinary bytes x .none m) t) := ⟨rfl, rfl⟩

example : toHex 1 0x0f .none .lower = u8!"0f" ∧ toHex 4 0xabc .curly .upper 2 = u8!"{ABC}" ∧
    toBinary 1 5 .none = u8!"00000101" ∧ toBinary 1 0 .square 1 = u8!"[0]" := by decide

/-! ## C10: `toUnicode` and `getChar32` agree -/

/-- Exactly the texts `getChar32` is documented to accept: 4 or 5 upper case hex digits. -/
def IsUnicodeText (s : Str) (c : Nat) : Prop :=
  (s.length = 4 ∨ s.length = 5) ∧ NoLowerDigits s ∧ readNumber 16 s = some c

/-- `getChar32` accepts exactly the texts of 4 or 5 upper case hex digits and gives their value;
every other text is rejected with a `DomainError`. -/
theorem C10_getChar32 (s : Str) :
    (∀ c, getChar32 s = .ok c ↔ IsUnicodeText s c) ∧
    ((∀ c, ¬ IsUnicodeText s c) → getChar32 s = .throw .domain) := by
  by_cases hl : s.length < 4 ∨ s.length > 5
  · have h : getChar32 s = .throw .domain := by rw [getChar32, if_pos hl]
    refine ⟨fun c => ⟨fun hc => ?_, fun hc => ?_⟩, fun _ => h⟩
    · rw [h] at hc; simp at hc
    · have := hc.1; omega
  · have hne : s.isEmpty = false := by
      cases s with
      | nil => simp at hl
      | cons => rfl
    cases hv : s.any invalidHex with
    | true =>
      have h : getChar32 s = .throw .domain := by rw [getChar32, if_neg hl, hv]; rfl
      refine ⟨fun c => ⟨fun hc => ?_, fun hc => ?_⟩, fun _ => h⟩
      · rw [h] at hc; simp at hc
      · obtain ⟨_, h2, h3⟩ := hc
        rw [readNumber, hne] at h3
        have := read_stoi16 s 0 c h2 h3
        rw [hv] at this; simp at this
    | false =>
      have h : getChar32 s = .ok (stoi16 s) := by rw [getChar32, if_neg hl, hv]; rfl
      obtain ⟨h1, h2⟩ := stoi16_read s 0 hv
      have hu : IsUnicodeText s (stoi16 s) := by
        refine ⟨by omega, h1, ?_⟩
        rw [readNumber, hne]; exact h2
      refine ⟨fun c => ⟨fun hc => ?_, fun hc => ?_⟩, fun hno => absurd hu (hno _)⟩
      · rw [h] at hc; cases hc; exact hu
      · have e : some (stoi16 s) = some c := by rw [← hu.2.2, hc.2.2]
        rw [h]; cases e; rfl

/-- Writing a code point and reading it back is the identity for every code up to U+FFFFF (which
includes every character the program knows); larger codes need 6 digits and are rejected. -/
theorem C10_roundtrip (c : Nat) :
    getChar32 (toUnicode c) = if c ≤ 0xfffff then .ok c else .throw .domain := by
  obtain ⟨h1, h2, _, h4, h5⟩ := C09_toHex 4 c .upper 4
  have h2 := h2 rfl
  simp only [wantedSize] at h4 h5
  have hb := readFrom_lt 16 (by decide) (toHex 4 c .none .upper 4) 0 c (by
    rw [readNumber] at h1; split at h1
    · simp at h1
    · exact h1)
  rw [Nat.zero_add, Nat.one_mul] at hb
  have hs : toUnicode c = toHex 4 c .none .upper 4 := rfl
  rw [hs]
  generalize hL : (toHex 4 c .none .upper 4).length = L at h4 h5 hb
  simp only [show ¬ ((4 : Nat) = 0) by decide, if_false] at h4 h5
  by_cases hc : c ≤ 0xfffff
  · rw [if_pos hc, (C10_getChar32 _).1]
    refine ⟨?_, h2, h1⟩
    have : L ≤ 5 := by
      apply Nat.le_of_not_lt
      intro hlt
      rcases h5 (by omega) with h | h
      · omega
      · have : 16 ^ 5 ≤ 16 ^ (L - 1) := Nat.pow_le_pow_right (by decide) (by omega)
        omega
    omega
  · rw [if_neg hc]
    apply (C10_getChar32 _).2
    intro c' hc'
    have := hc'.1
    rw [hL] at this
    have : 16 ^ L ≤ 16 ^ 5 := Nat.pow_le_pow_right (by decide) (by omega)
    omega

example : toUnicode 0x20b9f = u8!"20B9F" ∧ getChar32 u8!"20B9F" = .ok 0x20b9f ∧
    toUnicode 0x3a = u8!"003A" ∧ getChar32 u8!"4e00" = .throw .domain := by decide

/-- With brackets the text is the one without, between the two brackets of the type. -/
theorem C09_with_brackets (t : BracketType) : ∃ o c : Str,
    (t, o, c) ∈ [(.curly, u8!"{", u8!"}"), (.round, u8!"(", u8!")"), (.square, u8!"[", u8!"]"), (BracketType.none, [], [])] ∧
    (∀ bytes x hexCase minSize, toHex bytes x t hexCase minSize = o ++ toHex bytes x .none hexCase minSize ++ c) ∧
    (∀ bytes x minSize, toBinary bytes x t minSize = o ++ toBinary bytes x .none minSize ++ c) ∧
    (∀ cs, toUnicodeCodes cs t = o ++ toUnicodeCodes cs ++ c) ∧
    (∀ s, toUnicodeStr s t = o ++ toUnicodeStr s ++ c) := by
  cases t
  · exact ⟨u8!"{", u8!"}", by simp, fun _ _ _ _ => rfl, fun _ _ _ => rfl, fun _ => rfl, fun _ => rfl⟩
  · exact ⟨u8!"(", u8!")", by simp, fun _ _ _ _ => rfl, fun _ _ _ => rfl, fun _ => rfl, fun _ => rfl⟩
  · exact ⟨u8!"[", u8!"]", by simp, fun _ _ _ _ => rfl, fun _ _ _ => rfl, fun _ => rfl, fun _ => rfl⟩
  · refine ⟨[], [], by simp, ?_, ?_, ?_, ?_⟩ <;> intros <;> simp

end KT
