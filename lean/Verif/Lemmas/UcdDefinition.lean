import Verif.Model.UcdDefinition
import Verif.Spec.DefinitionLink
/-!
# Lemmas about the regular expressions of `findDefinitionLinks`
-/
namespace KT
open Spec

/-! ## Pieces -/

theorem rx_range {α : Type} (f : Nat → Option α) (n : Nat) :
    (List.range (n + 1)).reverse.findSome? f = ((List.range n).reverse.findSome? fun i => f (i + 1)).or (f 0) := by
  rw [List.range_succ_eq_map, List.reverse_cons, List.findSome?_append, ← List.map_reverse, List.findSome?_map]
  cases h : f 0 <;> simp [Function.comp_def, h]

theorem rx_star_nil (p : UInt8 → Bool) (ps : List RxPiece) : rxMatch (.star p :: ps) [] = rxMatch ps [] := by
  simp [rxMatch]

theorem rx_star_cons (p : UInt8 → Bool) (ps : List RxPiece) (b : UInt8) (s : Str) : rxMatch (.star p :: ps) (b :: s) =
    if p b then (rxMatch (.star p :: ps) s).or (rxMatch ps (b :: s)) else rxMatch ps (b :: s) := by
  by_cases h : p b = true
  · rw [if_pos h, rxMatch, List.takeWhile_cons, if_pos h, List.length_cons, rx_range]
    simp [rxMatch]
  · rw [if_neg h, rxMatch, List.takeWhile_cons, if_neg h]
    simp

/-- What follows can't start where the piece could go on. -/
theorem rx_star_skip (p : UInt8 → Bool) (ps : List RxPiece) (h : ∀ b s, p b = true → rxMatch ps (b :: s) = none)
    (s : Str) : rxMatch (.star p :: ps) s = rxMatch ps (s.dropWhile p) := by
  induction s with
  | nil => rw [rx_star_nil]; rfl
  | cons b s ih =>
    rw [rx_star_cons, List.dropWhile_cons]
    by_cases hp : p b = true
    · rw [if_pos hp, if_pos hp, h b s hp, ih, Option.or_none]
    · rw [if_neg hp, if_neg hp]

/-- What follows always matches. -/
theorem rx_star_all (p : UInt8 → Bool) (ps : List RxPiece) (h : ∀ s, (rxMatch ps s).isSome = true)
    (s : Str) : rxMatch (.star p :: ps) s = rxMatch ps (s.dropWhile p) := by
  induction s with
  | nil => rw [rx_star_nil]; rfl
  | cons b s ih =>
    rw [rx_star_cons, List.dropWhile_cons]
    by_cases hp : p b = true
    · rw [if_pos hp, if_pos hp, ih]
      have := h (s.dropWhile p)
      cases hx : rxMatch ps (s.dropWhile p) with
      | none => rw [hx] at this; cases this
      | some x => rfl
    · rw [if_neg hp, if_neg hp]

theorem rx_cap_end (p : UInt8 → Bool) (s : Str) : rxMatch [.cap p] s = some (s.takeWhile p) := by
  have h : ∀ n, (List.range (n + 1)).reverse.findSome? (fun n => (some ([] : Str)).map fun r => s.take n ++ r) =
      some (s.take n) := by
    intro n
    rw [List.range_succ, List.reverse_append]
    simp
  rw [rxMatch]
  simp only [rxMatch]
  rw [h]
  congr 1
  have : s.takeWhile p <+: s := List.takeWhile_prefix p
  exact (List.prefix_iff_eq_take.mp this).symm

/-! ## Parts -/

theorem definitionParts_plain (a : Str) (h : 0x29 ∉ a) : definitionParts a = [a] := by
  induction a with
  | nil => rfl
  | cons b a ih =>
    simp only [List.mem_cons, not_or] at h
    rw [definitionParts, if_neg (Ne.symm h.1), ih h.2]

theorem definitionParts_split (a s : Str) (h : 0x29 ∉ a) : definitionParts (a ++ 0x29 :: s) = a :: definitionParts s := by
  induction a with
  | nil => simp [definitionParts]
  | cons b a ih =>
    simp only [List.mem_cons, not_or] at h
    rw [List.cons_append, definitionParts, if_neg (Ne.symm h.1), ih h.2]

/-- The text in front of a bracket. -/
theorem part_split (s : Str) (hq : 0x22 ∉ s) : ∃ a tail, s = a ++ tail ∧ 0x29 ∉ a ∧ a = s.takeWhile rxNotEnd ∧
    tail = s.dropWhile rxNotEnd ∧ (tail = [] ∨ ∃ t, tail = 0x29 :: t) := by
  refine ⟨s.takeWhile rxNotEnd, s.dropWhile rxNotEnd, List.takeWhile_append_dropWhile.symm, ?_, rfl, rfl, ?_⟩
  · intro h
    have := List.all_takeWhile (p := rxNotEnd) (l := s)
    rw [List.all_eq_true] at this
    exact absurd (this _ h) (by decide)
  · cases h : s.dropWhile rxNotEnd with
    | nil => exact .inl rfl
    | cons b t =>
      refine .inr ⟨t, ?_⟩
      have h1 : rxNotEnd b = false := by
        have := List.head?_dropWhile_not rxNotEnd s
        rw [h] at this
        simpa using this
      have hm : b ∈ s := by
        have : b ∈ s.dropWhile rxNotEnd := by rw [h]; exact List.mem_cons_self
        exact (List.dropWhile_suffix rxNotEnd).subset this
      have hb : b ≠ 0x22 := fun h => hq (h ▸ hm)
      have : b = 0x29 := by
        unfold rxNotEnd at h1
        simp only [Bool.and_eq_false_iff, bne_eq_false_iff_eq] at h1
        exact h1.resolve_right hb
      rw [this]

theorem rxStart_front (n : Nat) : rxStart (n + 1) = .star rxNotEnd :: .one (· == 0x29) :: rxStart n := by
  induction n with
  | zero => rfl
  | succ n ih => rw [rxStart, ih]; exact congrArg (fun l => _ :: _ :: l) ih

theorem rx_one_end (ps : List RxPiece) (s : Str) : rxMatch (.star rxNotEnd :: .one (· == 0x29) :: ps) s =
    rxMatch (.one (· == 0x29) :: ps) (s.dropWhile rxNotEnd) := by
  apply rx_star_skip
  intro b s hb
  rw [rxMatch, if_neg]
  simp only [List.take_succ_cons, List.any_cons, List.take_zero, List.any_nil, Bool.or_false, beq_iff_eq]
  rintro rfl
  exact absurd hb (by decide)

theorem rxStart_part (n : Nat) : ∀ s : Str, 0x22 ∉ s →
    (∃ part tail, (definitionParts s)[n]? = some part ∧ (tail = [] ∨ ∃ t, tail = 0x29 :: t) ∧
      (∀ b ∈ part, rxNotEnd b = true) ∧
      ∀ ps, rxMatch (rxStart n ++ ps) s = rxMatch (.star rxNotEnd :: ps) (part ++ tail)) ∨
    ((definitionParts s)[n]? = none ∧ ∀ ps, rxMatch (rxStart n ++ ps) s = none) := by
  induction n with
  | zero =>
    intro s hq
    obtain ⟨a, tail, hs, ha, ha', ht, htail⟩ := part_split s hq
    refine .inl ⟨a, tail, ?_, htail, ?_, fun ps => by rw [← hs]; rfl⟩
    · rw [hs]
      rcases htail with rfl | ⟨t, rfl⟩
      · rw [List.append_nil, definitionParts_plain a ha]; rfl
      · rw [definitionParts_split a t ha]; rfl
    · intro b hb
      have := List.all_takeWhile (p := rxNotEnd) (l := s)
      rw [List.all_eq_true] at this
      exact this b (ha' ▸ hb)
  | succ n ih =>
    intro s hq
    obtain ⟨a, tail, hs, ha, ha', ht, htail⟩ := part_split s hq
    rcases htail with h0 | ⟨t, h1⟩
    · refine .inr ⟨?_, fun ps => ?_⟩
      · rw [hs, h0, List.append_nil, definitionParts_plain a ha]; rfl
      · rw [rxStart_front, List.cons_append, List.cons_append, rx_one_end, ← ht, h0]; rfl
    · have hqt : 0x22 ∉ t := fun h => hq (by rw [hs, h1]; simp [h])
      have hp : (definitionParts s)[n + 1]? = (definitionParts t)[n]? := by
        rw [hs, h1, definitionParts_split a t ha]; rfl
      have hm : ∀ ps, rxMatch (rxStart (n + 1) ++ ps) s = rxMatch (rxStart n ++ ps) t := by
        intro ps
        rw [rxStart_front, List.cons_append, List.cons_append, rx_one_end, ← ht, h1]
        simp [rxMatch]
      rcases ih t hqt with ⟨part, tail', h⟩ | h
      · exact .inl ⟨part, tail', by rw [hp]; exact h.1, h.2.1, h.2.2.1, fun ps => by rw [hm]; exact h.2.2.2 ps⟩
      · exact .inr ⟨by rw [hp]; exact h.1, fun ps => by rw [hm]; exact h.2 ps⟩

/-! ## Words -/

theorem prefix_word (w s tail : Str) (hw : ∀ b ∈ w, rxNotEnd b = true) (ht : tail = [] ∨ ∃ t, tail = 0x29 :: t) :
    w.isPrefixOf (s ++ tail) = w.isPrefixOf s := by
  induction w generalizing s with
  | nil => simp
  | cons c w ih =>
    cases s with
    | nil =>
      rcases ht with rfl | ⟨t, rfl⟩
      · rfl
      · have : c ≠ 0x29 := by rintro rfl; exact absurd (hw _ List.mem_cons_self) (by decide)
        simp [List.isPrefixOf, this]
    | cons b s =>
      simp only [List.cons_append, List.isPrefixOf]
      rw [ih s fun b hb => hw b (List.mem_cons_of_mem _ hb)]

theorem rx_word (w : Str) (hw0 : w ≠ []) (hw : ∀ b ∈ w, rxNotEnd b = true) (ps : List RxPiece) (part tail : Str)
    (hp : ∀ b ∈ part, rxNotEnd b = true) (ht : tail = [] ∨ ∃ t, tail = 0x29 :: t) :
    rxMatch (.star rxNotEnd :: .lit w :: ps) (part ++ tail) =
      (behind w part).findSome? fun r => rxMatch ps (r ++ tail) := by
  induction part with
  | nil =>
    have hlit : rxMatch (.lit w :: ps) tail = none := by
      have := prefix_word w [] tail hw ht
      rw [rxMatch, if_neg]
      rw [List.nil_append] at this
      rw [this]
      cases w with
      | nil => exact absurd rfl hw0
      | cons c w => simp
    rw [List.nil_append]
    rcases ht with rfl | ⟨t, rfl⟩
    · rw [rx_star_nil, hlit]; rfl
    · rw [rx_star_cons, if_neg (by decide), hlit]; rfl
  | cons b s ih =>
    rw [List.cons_append, rx_star_cons, if_pos (hp b List.mem_cons_self),
      ih fun b hb => hp b (List.mem_cons_of_mem _ hb), behind, List.findSome?_append]
    congr 1
    rw [rxMatch, ← List.cons_append, prefix_word w (b :: s) tail hw ht]
    by_cases h : w.isPrefixOf (b :: s) = true
    · rw [if_pos h, if_pos h]
      have hl : w.length ≤ (b :: s).length := (List.isPrefixOf_iff_prefix.mp h).length_le
      rw [List.drop_append_of_le_length hl]
      simp
    · rw [if_neg h, if_neg h]; rfl

theorem rxFill_eq (b : UInt8) : rxFill b = isBetween b := by
  unfold rxFill isBetween
  simp only [List.contains_cons, List.contains_nil, Bool.or_false]
  cases h1 : (0x61 ≤ b && b ≤ 0x7a) <;> cases h2 : (0x30 ≤ b && b ≤ 0x39) <;> cases h3 : (b == 0x2d) <;>
    cases h4 : (b == 0x2c) <;> cases h5 : (b == 0x20) <;> simp_all

theorem rxUtf_eq (b : UInt8) : rxUtf b = isOther b := by
  unfold rxUtf isOther
  rw [Bool.eq_iff_iff]
  simp [UInt8.lt_iff_toNat_lt, UInt8.le_iff_toNat_le]

theorem rxUni_eq (b : UInt8) : rxUni b = isCodeDigit b := by
  unfold rxUni isCodeDigit
  exact Bool.or_comm _ _

end KT
