import Verif.Model.DisplaySize
import Verif.Spec.DisplaySize
import Verif.Lemmas.UnicodeBlock
/-!
# C32: display width

Model: `Verif/Model/DisplaySize.lean`.  `decode s` is the result of `fromUtf8 s` (C01-C05).
-/
namespace KT
open Spec

theorem wide_ordered : Ordered wideBlocks := by decide +kernel

theorem wide_iff (c : Nat) : inRange c wideBlocks = true ↔ ∃ b ∈ wideBlocks, b.start ≤ c ∧ c ≤ b.stop := by
  rw [inRange_eq_any c _ wide_ordered]; simp [Block.contains]

theorem wide_table : wideBlocks = wideRuns.map fun p => ⟨p.1, p.1 + p.2 - 1⟩ := by decide +kernel

theorem wideChar_iff (c : Nat) : (∃ b ∈ wideBlocks, b.start ≤ c ∧ c ≤ b.stop) ↔ WideChar c := by
  have pos : ∀ p ∈ wideRuns, 0 < p.2 := by decide +kernel
  unfold WideChar
  rw [wide_table]
  simp only [List.mem_map]
  constructor
  · rintro ⟨b, ⟨p, hp, rfl⟩, h1, h2⟩
    have := pos p hp
    simp only at h1 h2
    exact ⟨p, hp, h1, by omega⟩
  · rintro ⟨p, hp, h1, h2⟩
    exact ⟨_, ⟨p, hp, rfl⟩, h1, by simp only; omega⟩

/-- A code is looked up as wide exactly when Unicode has it as wide. -/
theorem C32_wide (c : Nat) : inRange c wideBlocks = true ↔ WideChar c := by rw [wide_iff, wideChar_iff]

theorem displaySizeCodes_eq (cs : List Nat) (n : Nat) :
    displaySizeCodes cs n = n + (cs.map columns).sum := by
  induction cs generalizing n with
  | nil => rfl
  | cons c cs ih =>
    simp only [displaySizeCodes, ih, List.map_cons, List.sum_cons, columns, ← C32_wide]
    by_cases h0 : c = 0
    · simp [h0]
    · by_cases hn : NonSpacing c
      · have := (nonSpacing_iff c).mpr hn
        simp [hn, this]
      · have : isNonSpacing c = false := by
          rw [← Bool.not_eq_true, nonSpacing_iff]; exact hn
        simp only [h0, hn, this, false_or, ne_eq, not_false_eq_true, and_self, if_true, if_false]
        omega

/-- The width of a string is the sum of the columns of its characters. -/
theorem C32_sum (s : Str) : displaySize s = ((decode s).map columns).sum := by
  rw [displaySize, displaySizeCodes_eq]; omega

theorem columns_le {c : Nat} {p : Str} (hp : p ≠ [])
    (h : p = enc c ∨ c = errorReplacement) : columns c ≤ p.length := by
  have hl := List.length_pos_iff.mpr hp
  unfold columns
  split
  · omega
  · split
    · rename_i _ hw
      obtain ⟨b, hb, h1, h2⟩ := (wideChar_iff c).2 hw
      have hge : ∀ b ∈ wideBlocks, 0x1100 ≤ b.start ∧ ¬ (b.start ≤ errorReplacement ∧ errorReplacement ≤ b.stop) := by
        decide +kernel
      obtain ⟨g1, g2⟩ := hge b hb
      rcases h with rfl | rfl
      · have : 3 ≤ (enc c).length := by
          unfold enc
          rw [if_neg (by omega), if_neg (by omega)]
          split <;> simp
        omega
      · exact absurd ⟨h1, h2⟩ g2
    · omega

theorem sum_columns_le {a : Str} {cs : List Nat} (h : Decodes a cs) : (cs.map columns).sum ≤ a.length := by
  induction h with
  | nil => simp
  | @cons p t c cs hp hs hor hloc ht ih =>
    have := columns_le hp (hor.imp id And.left)
    simp only [List.map_cons, List.sum_cons, List.length_append]; omega

/-- The width is at most the number of bytes, for every string (well-formed or not). -/
theorem C32_bounded (s : Str) : displaySize s ≤ s.length := by
  rw [C32_sum]
  refine Nat.le_trans (sum_columns_le (decodes_decode s)) ?_
  unfold cStr
  exact (List.takeWhile_sublist _).length_le

/-- Widths add up when strings are joined at a character boundary (the second string doesn't start
with a continuation byte; the first may be malformed). -/
theorem C32_additive (a b : Str) (h0 : (0 : UInt8) ∉ a) (h0' : (0 : UInt8) ∉ b)
    (hb : ∀ x y, b = x :: y → ¬ IsContinuation x) :
    displaySize (a ++ b) = displaySize a + displaySize b := by
  have ha := decodes_decode a
  have hb' := decodes_decode b
  rw [cStr_of_no_zero h0] at ha
  rw [cStr_of_no_zero h0'] at hb'
  have := decodes_append ha hb' fun x y he => fun hx => hb x y he ((countlOne_one_iff x).mp hx)
  have e := decode_of_decodes (by simp [h0, h0']) this
  rw [C32_sum, e, List.map_append, List.sum_append, C32_sum, C32_sum]

theorem displaySize_spaces (n : Nat) : displaySize (List.replicate n 0x20) = n := by
  induction n with
  | zero => decide
  | succ n ih =>
    rw [show List.replicate (n + 1) (0x20 : UInt8) = [0x20] ++ List.replicate n 0x20 by
      simp [List.replicate_succ]]
    rw [C32_additive _ _ (by decide) (by simp [List.mem_replicate]), ih]
    · have : displaySize [0x20] = 1 := by decide +kernel
      omega
    · intro x y he
      have : x ∈ List.replicate n (0x20 : UInt8) := by rw [he]; simp
      rw [(List.mem_replicate.mp this).2]; unfold IsContinuation; decide

theorem wideSetw_eq (s : Str) (w : Nat) (hw : w + s.length < 2 ^ 31) :
    wideSetw s w = ((w + s.length - displaySize s : Nat) : Int) := by
  have := C32_bounded s
  have e : (w + s.length + 2 ^ 64 - displaySize s) % 2 ^ 64 = w + s.length - displaySize s := by
    rw [show w + s.length + 2 ^ 64 - displaySize s = (w + s.length - displaySize s) + 2 ^ 64 by omega,
      Nat.add_mod_right, Nat.mod_eq_of_lt (by omega)]
  unfold wideSetw toInt32
  rw [e]
  simp only
  rw [Nat.mod_eq_of_lt (by omega), if_pos (by omega)]

/-- A field written with `wideSetw` takes exactly the requested number of columns when the text fits,
and as many as the text needs otherwise. -/
theorem C32_setw (s : Str) (w : Nat) (h0 : (0 : UInt8) ∉ s) (hw : w + s.length < 2 ^ 31) :
    displaySize (setwLeft (wideSetw s w) s) = max w (displaySize s) ∧
    ((∀ x y, s = x :: y → ¬ IsContinuation x) →
      displaySize (setwRight (wideSetw s w) s) = max w (displaySize s)) := by
  have hb := C32_bounded s
  have hn : ((wideSetw s w : Int) - s.length).toNat = w - displaySize s := by
    rw [wideSetw_eq s w hw]; omega
  constructor
  · rw [setwLeft, hn, C32_additive _ _ h0 (by simp [List.mem_replicate]), displaySize_spaces]
    · omega
    · intro x y he
      have : x ∈ List.replicate (w - displaySize s) (0x20 : UInt8) := by rw [he]; simp
      rw [(List.mem_replicate.mp this).2]; unfold IsContinuation; decide
  · intro hc
    rw [setwRight, hn, C32_additive _ _ (by simp [List.mem_replicate]) h0 hc, displaySize_spaces]
    omega

/-- Kana and common Kanji take two columns, printable Ascii one. -/
theorem C32_kanji_kana_ascii (c : Nat) :
    (0x3041 ≤ c → c ≤ 0x3096 → columns c = 2) ∧ (0x30a1 ≤ c → c ≤ 0x30ff → columns c = 2) ∧
    (CommonKanji c → columns c = 2) ∧ (0x20 ≤ c → c < 0x7f → columns c = 1) := by
  have two : ∀ b ∈ wideBlocks, b.start ≤ c → c ≤ b.stop → ¬ NonSpacing c → columns c = 2 := by
    intro b hb h1 h2 hn
    have : ∀ b ∈ wideBlocks, b.start ≠ 0 := by decide +kernel
    have := this b hb
    unfold columns
    rw [if_neg (by rintro (h | h); omega; exact hn h), if_pos ((wideChar_iff c).1 ⟨b, hb, h1, h2⟩)]
  refine ⟨fun h1 h2 => ?_, fun h1 h2 => ?_, fun h => ?_, fun h1 h2 => ?_⟩
  · exact two ⟨0x3041, 0x3096⟩ (by decide) h1 h2 (by unfold NonSpacing; omega)
  · exact two ⟨0x3099, 0x30ff⟩ (by decide) (by simp only; omega) h2 (by unfold NonSpacing; omega)
  · unfold CommonKanji at h
    rcases h with h | h | h | h
    · exact two ⟨0x3250, 0x4dbf⟩ (by decide) (by simp only; omega) h.2 (by unfold NonSpacing; omega)
    · exact two ⟨0x4e00, 0xa48c⟩ (by decide) h.1 (by simp only; omega) (by unfold NonSpacing; omega)
    · exact two ⟨0xf900, 0xfaff⟩ (by decide) h.1 h.2 (by unfold NonSpacing; omega)
    · exact two ⟨0x20000, 0x2fffd⟩ (by decide) h.1 (by simp only; omega) (by unfold NonSpacing; omega)
  · unfold columns
    rw [if_neg (by unfold NonSpacing; omega), if_neg]
    rw [← wideChar_iff]
    rintro ⟨b, hb, h3, h4⟩
    have : ∀ b ∈ wideBlocks, 0x1100 ≤ b.start := by decide +kernel
    have := this b hb
    omega

example : displaySize (u8!"大a") = 3 ∧ wideSetw (u8!"大") 4 = 5 ∧
    displaySize (setwLeft (wideSetw (u8!"大") 4) (u8!"大")) = 4 := by decide +kernel

end KT
