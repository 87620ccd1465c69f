import Verif.Lemmas.UcdDefinition
import Verif.Lemmas.UcdTexts
/-!
# The links found in definitions
-/
namespace KT
open Spec

theorem linkWords_plain : ∀ w ∈ linkWords, w ≠ [] ∧ ∀ b ∈ w, rxNotEnd b = true := by decide

theorem fill_tail (r tail : Str) (ht : tail = [] ∨ ∃ t, tail = 0x29 :: t) :
    (r ++ tail).dropWhile rxFill = afterFill r ++ tail := by
  have hf : rxFill = isBetween := funext rxFill_eq
  have h0 : tail.dropWhile isBetween = tail := by
    rcases ht with rfl | ⟨t, rfl⟩
    · rfl
    · rw [List.dropWhile_cons, if_neg (by decide)]
  unfold afterFill
  rw [hf]
  induction r with
  | nil => exact h0
  | cons b r ih =>
    rw [List.cons_append, List.dropWhile_cons, List.dropWhile_cons]
    by_cases hb : isBetween b = true
    · rw [if_pos hb, if_pos hb, ih]
    · rw [if_neg hb, if_neg hb]; rfl

theorem take_tail (p : UInt8 → Bool) (hp : p 0x29 = false) (r tail : Str) (ht : tail = [] ∨ ∃ t, tail = 0x29 :: t) :
    (r ++ tail).takeWhile p = r.takeWhile p := by
  induction r with
  | nil =>
    rcases ht with rfl | ⟨t, rfl⟩
    · rfl
    · rw [List.nil_append, List.takeWhile_cons, hp]; rfl
  | cons b r ih => rw [List.cons_append, List.takeWhile_cons, List.takeWhile_cons, ih]

theorem any_tail (p : UInt8 → Bool) (hp : p 0x29 = false) (r tail : Str) (ht : tail = [] ∨ ∃ t, tail = 0x29 :: t) :
    ((r ++ tail).take 1).any p = r.head?.any p := by
  cases r with
  | nil =>
    rcases ht with rfl | ⟨t, rfl⟩
    · rfl
    · simp [hp]
  | cons b r => simp

theorem rx_isSome_star (p : UInt8 → Bool) (s : Str) (ps : List RxPiece) (h : ∀ s, (rxMatch ps s).isSome = true) :
    (rxMatch (.star p :: ps) s).isSome = true := by
  rw [rx_star_all p ps h]; exact h _

/-- The end of the patterns behind the word. -/
theorem rx_utf_one (r tail : Str) (ht : tail = [] ∨ ∃ t, tail = 0x29 :: t) :
    (rxMatch [.star rxFill, .one rxUtf] (r ++ tail)).isSome = (afterFill r).head?.any isOther := by
  have hu : rxUtf = isOther := funext rxUtf_eq
  rw [rx_star_skip, fill_tail r tail ht, rxMatch, any_tail rxUtf (by decide) _ _ ht, hu]
  · cases (afterFill r).head?.any isOther <;> rfl
  · intro b s hb
    rw [rxMatch, if_neg]
    simp only [List.take_succ_cons, List.take_zero, List.any_cons, List.any_nil, Bool.or_false]
    intro hc
    rw [rxFill_eq] at hb
    rw [rxUtf_eq] at hc
    unfold isBetween at hb
    unfold isOther at hc
    simp [UInt8.le_iff_toNat_le, ← UInt8.toNat_inj] at hb hc
    omega

theorem rx_utf_cap (r tail : Str) (ht : tail = [] ∨ ∃ t, tail = 0x29 :: t) :
    rxMatch [.star rxFill, .cap rxUtf] (r ++ tail) = some ((afterFill r).takeWhile isOther) := by
  have hu : rxUtf = isOther := funext rxUtf_eq
  rw [rx_star_all, fill_tail r tail ht, rx_cap_end, take_tail _ (by decide) _ _ ht, hu]
  intro s
  rw [rx_cap_end]; rfl

theorem rx_uni_one (r tail : Str) (ht : tail = [] ∨ ∃ t, tail = 0x29 :: t) :
    (rxMatch [.star rxFill, .one (· == 0x55), .star (· == 0x55), .star rxUni] (r ++ tail)).isSome =
      (afterFill r).head?.any (· == 0x55) := by
  rw [rx_star_skip, fill_tail r tail ht, rxMatch, any_tail _ (by decide) _ _ ht]
  · cases h : (afterFill r).head?.any (· == 0x55) with
    | false => rfl
    | true =>
      simp only [if_true]
      exact rx_isSome_star _ _ _ fun s => rx_isSome_star _ _ _ fun s => rfl
  · intro b s hb
    rw [rxMatch, if_neg]
    simp only [List.take_succ_cons, List.take_zero, List.any_cons, List.any_nil, Bool.or_false, beq_iff_eq]
    rintro rfl
    exact absurd hb (by decide)

theorem rx_uni_cap (r tail : Str) (ht : tail = [] ∨ ∃ t, tail = 0x29 :: t) :
    rxMatch [.star rxFill, .lit (u8!"U+"), .cap rxUni] (r ++ tail) =
      if (u8!"U+").isPrefixOf (afterFill r) then some (((afterFill r).drop 2).takeWhile isCodeDigit) else none := by
  have hu : rxUni = isCodeDigit := funext rxUni_eq
  rw [rx_star_skip, fill_tail r tail ht, rxMatch, prefix_word _ _ _ (by decide) ht]
  · by_cases h : (u8!"U+").isPrefixOf (afterFill r) = true
    · rw [if_pos h, if_pos h, rx_cap_end]
      have hl : (u8!"U+").length ≤ (afterFill r).length := (List.isPrefixOf_iff_prefix.mp h).length_le
      rw [List.drop_append_of_le_length hl, take_tail _ (by decide) _ _ ht, hu]
      rfl
    · rw [if_neg h, if_neg h]
  · intro b s hb
    rw [rxMatch, if_neg]
    intro hc
    have : b = 0x55 := by
      simp [List.isPrefixOf] at hc
      exact hc.1.symm
    subst this
    exact absurd hb (by decide)

theorem utfMatch_parts (w : Str) (hw : w ∈ linkWords) (n : Nat) (d : Str) (hd : 0x22 ∉ d) :
    utfMatch w n d = (definitionParts d)[n]?.bind (namedCharacters w) := by
  obtain ⟨hw0, hw1⟩ := linkWords_plain w hw
  unfold utfMatch rxDef
  simp only [List.append_assoc]
  rcases rxStart_part n d hd with ⟨part, tail, hp, ht, hn, h⟩ | ⟨hp, h⟩
  · rw [h, h, hp]
    simp only [List.cons_append, List.nil_append, Option.bind_some]
    rw [rx_word w hw0 hw1 _ part tail hn ht, rx_word w hw0 hw1 _ part tail hn ht]
    have h1 : ((behind w part).findSome? fun r => rxMatch [.star rxFill, .one rxUtf] (r ++ tail)).isSome =
        (behind w part).any fun s => (afterFill s).head?.any isOther := by
      rw [List.isSome_findSome?]
      congr 1
      funext r
      exact rx_utf_one r tail ht
    have h2 : ((behind w part).findSome? fun r => rxMatch [.star rxFill, .cap rxUtf] (r ++ tail)) =
        (behind w part).head?.map fun s => (afterFill s).takeWhile isOther := by
      cases behind w part with
      | nil => rfl
      | cons r l => rw [List.findSome?_cons, rx_utf_cap r tail ht]; rfl
    rw [h1, h2]
    rfl
  · rw [h, hp]; rfl

theorem uniMatch_parts (w : Str) (hw : w ∈ linkWords) (n : Nat) (d : Str) (hd : 0x22 ∉ d) :
    uniMatch w n d = (definitionParts d)[n]?.bind (namedCode w) := by
  obtain ⟨hw0, hw1⟩ := linkWords_plain w hw
  unfold uniMatch rxDef
  simp only [List.append_assoc]
  rcases rxStart_part n d hd with ⟨part, tail, hp, ht, hn, h⟩ | ⟨hp, h⟩
  · rw [h, h, hp]
    simp only [List.cons_append, List.nil_append, Option.bind_some]
    rw [rx_word w hw0 hw1 _ part tail hn ht, rx_word w hw0 hw1 _ part tail hn ht]
    have h2 : ((behind w part).findSome? fun r => rxMatch [.star rxFill, .lit (u8!"U+"), .cap rxUni] (r ++ tail)) =
        namedCode w part := by
      unfold namedCode
      induction behind w part with
      | nil => rfl
      | cons r l ih =>
        rw [List.findSome?_cons, rx_uni_cap r tail ht, List.find?_cons]
        cases hu : (u8!"U+").isPrefixOf (afterFill r) with
        | true => rfl
        | false => exact ih
    rw [h2]
    by_cases hs : ((behind w part).findSome? fun r =>
        rxMatch [.star rxFill, .one (· == 0x55), .star (· == 0x55), .star rxUni] (r ++ tail)).isSome = true
    · rw [if_pos hs]
    · rw [if_neg hs]
      rw [List.isSome_findSome?, Bool.not_eq_true, List.any_eq_false] at hs
      have : (behind w part).find? (fun s => (u8!"U+").isPrefixOf (afterFill s)) = none := by
        rw [List.find?_eq_none]
        intro r hr hu
        have := hs r hr
        rw [rx_uni_one r tail ht] at this
        apply this
        cases ha : afterFill r with
        | nil => rw [ha] at hu; exact absurd hu (by decide)
        | cons b t =>
          rw [ha] at hu
          simp [List.isPrefixOf] at hu
          simp [hu.1.symm]
      unfold namedCode
      rw [this]; rfl
  · rw [h, hp]; rfl

end KT
