import Verif.Model.Str
import Verif.Spec.Digits
/-! # Helper lemmas about numbers as text -/
namespace KT
open Spec

theorem hexChar_value (i : Nat) (h : i < 16) (c : HexCase) : digitValue (hexChar i c) = some i := by
  revert i
  cases c <;> decide

theorem hexChar_upper (i : Nat) (h : i < 16) : (hexChar i .upper).toNat < 0x61 := by
  revert i; decide
theorem hexChar_lower (i : Nat) (h : i < 16) :
    ¬ (0x41 ≤ (hexChar i .lower).toNat ∧ (hexChar i .lower).toNat ≤ 0x5a) := by
  revert i; decide
theorem hexChar_ne_zero (i : Nat) (h : i < 16) (h0 : i ≠ 0) (c : HexCase) :
    hexChar i c ≠ 0x30 := by
  revert i; cases c <;> decide

theorem readFrom_append (base acc : Nat) (s t : Str) :
    readFrom base acc (s ++ t) = (readFrom base acc s).bind fun a => readFrom base a t := by
  induction s generalizing acc with
  | nil => rfl
  | cons b s ih =>
    simp only [List.cons_append, readFrom]
    split
    · rfl
    · split
      · exact ih _
      · rfl

theorem readFrom_zeroes (base n : Nat) (hb : 0 < base) (s : Str) :
    readFrom base 0 (List.replicate n 0x30 ++ s) = readFrom base 0 s := by
  induction n with
  | zero => rfl
  | succ n ih =>
    rw [List.replicate_succ, List.cons_append, readFrom]
    have : digitValue 0x30 = some 0 := by decide
    rw [this]
    simp [hb, ih]

/-- The digits of `x`, most significant first (nothing for 0). -/
theorem hexLoop_spec (c : HexCase) (fuel x : Nat) (hf : x ≤ fuel) (acc : Str) :
    ∃ ds : Str, hexLoop c fuel x acc = ds ++ acc ∧
      (∀ a, readFrom 16 a ds = some (a * 16 ^ ds.length + x)) ∧
      (∀ b ∈ ds, ∃ i < 16, b = hexChar i c) ∧ (ds = [] ↔ x = 0) ∧
      (∀ b r, ds = b :: r → b ≠ 0x30) := by
  induction fuel generalizing x acc with
  | zero =>
    have : x = 0 := by omega
    subst this
    exact ⟨[], rfl, by simp [readFrom], by simp, by simp, by simp⟩
  | succ fuel ih =>
    unfold hexLoop
    by_cases hx : x > 0
    · rw [if_pos hx]
      have hle : x >>> 4 ≤ fuel := by rw [Nat.shiftRight_eq_div_pow]; omega
      obtain ⟨ds, h1, h2, h3, h4, h5⟩ := ih (x >>> 4) hle (hexChar (x % 16) c :: acc)
      have hm : x % 16 < 16 := Nat.mod_lt _ (by decide)
      refine ⟨ds ++ [hexChar (x % 16) c], by rw [h1]; simp, ?_, ?_, ?_, ?_⟩
      · intro a
        rw [readFrom_append, h2]
        simp only [Option.bind_some, readFrom, hexChar_value _ hm, hm, if_true,
          List.length_append, List.length_singleton, Option.some.injEq]
        rw [Nat.shiftRight_eq_div_pow]
        have := Nat.div_add_mod x 16
        have e : a * 16 ^ (ds.length + 1) = a * 16 ^ ds.length * 16 := by
          rw [Nat.pow_succ, Nat.mul_assoc]
        rw [e]; omega
      · intro b hb
        rw [List.mem_append, List.mem_singleton] at hb
        rcases hb with hb | rfl
        · exact h3 b hb
        · exact ⟨_, hm, rfl⟩
      · simp; omega
      · intro b r hbr
        cases ds with
        | nil =>
          have h0 : x >>> 4 = 0 := h4.mp rfl
          rw [Nat.shiftRight_eq_div_pow] at h0
          simp at hbr
          rw [← hbr.1]
          exact hexChar_ne_zero _ hm (by omega) c
        | cons d ds =>
          simp only [List.cons_append, List.cons.injEq] at hbr
          rw [← hbr.1]; exact h5 d ds rfl
    · rw [if_neg hx]
      have : x = 0 := by omega
      subst this
      exact ⟨[], rfl, by simp [readFrom], by simp, by simp, by simp⟩

theorem binChar_value (i : Nat) (h : i < 2) : digitValue (UInt8.ofNat (0x30 + i)) = some i := by
  revert i; decide

theorem binaryLoop_spec (fuel x : Nat) (hf : x ≤ fuel) (acc : Str) :
    ∃ ds : Str, binaryLoop fuel x acc = ds ++ acc ∧
      (∀ a, readFrom 2 a ds = some (a * 2 ^ ds.length + x)) ∧
      (ds = [] ↔ x = 0) ∧ (∀ b r, ds = b :: r → b ≠ 0x30) := by
  induction fuel generalizing x acc with
  | zero =>
    have : x = 0 := by omega
    subst this
    exact ⟨[], rfl, by simp [readFrom], by simp, by simp⟩
  | succ fuel ih =>
    unfold binaryLoop
    by_cases hx : x > 0
    · rw [if_pos hx]
      have hle : x >>> 1 ≤ fuel := by rw [Nat.shiftRight_eq_div_pow]; omega
      obtain ⟨ds, h1, h2, h4, h5⟩ := ih (x >>> 1) hle (UInt8.ofNat (0x30 + x % 2) :: acc)
      have hm : x % 2 < 2 := Nat.mod_lt _ (by decide)
      refine ⟨ds ++ [UInt8.ofNat (0x30 + x % 2)], by rw [h1]; simp, ?_, ?_, ?_⟩
      · intro a
        rw [readFrom_append, h2]
        simp only [Option.bind_some, readFrom, binChar_value _ hm, hm, if_true,
          List.length_append, List.length_singleton, Option.some.injEq]
        rw [Nat.shiftRight_eq_div_pow]
        have := Nat.div_add_mod x 2
        have e : a * 2 ^ (ds.length + 1) = a * 2 ^ ds.length * 2 := by
          rw [Nat.pow_succ, Nat.mul_assoc]
        rw [e]; omega
      · simp; omega
      · intro b r hbr
        cases ds with
        | nil =>
          have h0 : x >>> 1 = 0 := h4.mp rfl
          rw [Nat.shiftRight_eq_div_pow] at h0
          have h1 : x % 2 = 1 := by omega
          rw [h1] at hbr
          simp at hbr
          rw [← hbr.1]; decide
        | cons d ds =>
          simp only [List.cons_append, List.cons.injEq] at hbr
          rw [← hbr.1]; exact h5 d ds rfl
    · rw [if_neg hx]
      have : x = 0 := by omega
      subst this
      exact ⟨[], rfl, by simp [readFrom], by simp, by simp⟩

/-- Padding keeps the value and only ever adds what is needed. -/
theorem addLeadingZeroes_spec (base : Nat) (hb : 0 < base) (ds : Str) (x m : Nat)
    (hv : readFrom base 0 ds = some x) (hz : ∀ b r, ds = b :: r → b ≠ 0x30) :
    readNumber base (addLeadingZeroes ds m) = some x ∧ m ≤ (addLeadingZeroes ds m).length ∧
    (addLeadingZeroes ds m ≠ []) ∧
    (m < (addLeadingZeroes ds m).length →
      addLeadingZeroes ds m = [0x30] ∨ ∀ b r, addLeadingZeroes ds m = b :: r → b ≠ 0x30) ∧
    (∀ b ∈ addLeadingZeroes ds m, b = 0x30 ∨ b ∈ ds) := by
  unfold addLeadingZeroes
  by_cases h1 : ds.length < m
  · rw [if_pos h1]
    have hne : List.replicate (m - ds.length) (0x30 : UInt8) ++ ds ≠ [] := by
      intro h
      have := congrArg List.length h
      simp at this; omega
    refine ⟨?_, ?_, hne, ?_, ?_⟩
    · rw [readNumber, if_neg (by simpa using hne), readFrom_zeroes base _ hb, hv]
    · simp; omega
    · intro h; exfalso; simp at h; omega
    · intro b hb
      rw [List.mem_append, List.mem_replicate] at hb
      rcases hb with hb | hb
      · exact Or.inl hb.2
      · exact Or.inr hb
  · rw [if_neg h1]
    cases ds with
    | nil =>
      simp only [List.isEmpty_nil, if_true]
      simp only [readFrom] at hv
      have hx : x = 0 := by simpa using hv.symm
      subst hx
      refine ⟨?_, ?_, by simp, fun _ => by simp, by simp⟩
      · have : digitValue 0x30 = some 0 := by decide
        simp [readNumber, readFrom, this, hb]
      · simp at h1; simp; omega
    | cons d ds =>
      simp only [List.isEmpty_cons, Bool.false_eq_true, if_false]
      refine ⟨by simpa [readNumber] using hv, by omega, by simp, fun _ => Or.inr hz, ?_⟩
      intro b hb; exact Or.inr hb

theorem readFrom_lt (base : Nat) (hb : 0 < base) (ds : Str) (a x : Nat)
    (h : readFrom base a ds = some x) :
    a * base ^ ds.length ≤ x ∧ x < (a + 1) * base ^ ds.length := by
  induction ds generalizing a with
  | nil => simp [readFrom] at h; subst h; simp
  | cons d ds ih =>
    simp only [readFrom] at h
    split at h
    · simp at h
    · rename_i v hv
      split at h
      · rename_i hlt
        obtain ⟨h1, h2⟩ := ih _ h
        have hp : 0 < base ^ ds.length := Nat.pow_pos hb
        constructor
        · refine Nat.le_trans ?_ h1
          rw [List.length_cons, Nat.pow_succ, Nat.mul_comm (base ^ ds.length), ← Nat.mul_assoc]
          exact Nat.mul_le_mul_right _ (by omega)
        · refine Nat.lt_of_lt_of_le h2 ?_
          rw [List.length_cons, Nat.pow_succ, Nat.mul_comm (base ^ ds.length), ← Nat.mul_assoc]
          exact Nat.mul_le_mul_right _ (by rw [Nat.add_mul]; omega)
      · simp at h

/-- A text without a leading zero (or "0") is the shortest one for its value. -/
theorem base_pow_le (base : Nat) (hb : 0 < base) (ds : Str) (d : UInt8) (x : Nat)
    (h : readFrom base 0 (d :: ds) = some x) (hd : d ≠ 0x30) : base ^ ds.length ≤ x := by
  simp only [readFrom] at h
  split at h
  · simp at h
  · rename_i v hv
    split at h
    · have hv0 : v ≠ 0 := by
        intro h0
        subst h0
        unfold digitValue at hv
        apply hd
        apply UInt8.toNat_inj.mp
        split at hv
        · simp at hv; simp; omega
        · split at hv
          · simp at hv
          · split at hv <;> simp at hv
      have := (readFrom_lt base hb ds _ x h).1
      refine Nat.le_trans ?_ this
      rw [Nat.zero_mul, Nat.zero_add]
      exact Nat.le_mul_of_pos_left _ (by omega)
    · simp at h

end KT
