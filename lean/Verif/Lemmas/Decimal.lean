import Verif.Model.Decimal
import Verif.Model.ColumnFile
/-!
# Lemmas about decimal text
-/
namespace KT

theorem decimalValue_append (a : Str) (b : UInt8) :
    decimalValue (a ++ [b]) = decimalValue a * 10 + (b.toNat - 0x30) := by
  simp [decimalValue]

theorem digit_toNat {n : Nat} (h : n < 10) : (UInt8.ofNat (0x30 + n)).toNat = 0x30 + n := by
  rw [UInt8.toNat_ofNat']; omega

theorem digit_isDigit {n : Nat} (h : n < 10) : isDigitChar (UInt8.ofNat (0x30 + n)) = true := by
  unfold isDigitChar
  rw [Bool.and_eq_true, decide_eq_true_iff, decide_eq_true_iff, UInt8.le_iff_toNat_le, UInt8.le_iff_toNat_le,
    digit_toNat h]
  exact ⟨by show 0x30 ≤ _; omega, by show _ ≤ 0x39; omega⟩

theorem decDigits_spec : ∀ (fuel n : Nat), n < fuel →
    decimalValue (decDigits fuel n) = n ∧ (decDigits fuel n).all isDigitChar = true ∧ decDigits fuel n ≠ [] ∧
    (n ≠ 0 → (decDigits fuel n).head? ≠ some 0x30) := by
  intro fuel
  induction fuel with
  | zero => intro n h; omega
  | succ fuel ih =>
    intro n h
    unfold decDigits
    split
    · rename_i hn
      have := digit_toNat hn
      refine ⟨?_, ?_, by simp, ?_⟩
      · simp only [decimalValue, List.foldl_cons, List.foldl_nil]; omega
      · simp only [List.all_cons, List.all_nil, Bool.and_true]; exact digit_isDigit hn
      · intro h0 hc
        simp only [List.head?_cons, Option.some.injEq] at hc
        rw [hc] at this
        have h30 : (0x30 : UInt8).toNat = 0x30 := rfl
        omega
    · rename_i hn
      have hm : n % 10 < 10 := Nat.mod_lt _ (by omega)
      have ht := digit_toNat hm
      obtain ⟨h1, h2, h3, h4⟩ := ih (n / 10) (by omega)
      refine ⟨?_, ?_, by simp, ?_⟩
      · rw [decimalValue_append, h1]; omega
      · rw [List.all_append, h2]
        simp only [List.all_cons, List.all_nil, Bool.and_true, Bool.true_and]; exact digit_isDigit hm
      · intro _
        have h5 := h4 (by omega)
        cases hd : decDigits fuel (n / 10) with
        | nil => exact absurd hd h3
        | cons b r => rw [hd] at h5; simpa using h5

theorem toDec_value (n : Nat) : decimalValue (toDec n) = n := (decDigits_spec (n + 1) n (by omega)).1
theorem toDec_digits (n : Nat) : (toDec n).all isDigitChar = true := (decDigits_spec (n + 1) n (by omega)).2.1
theorem toDec_ne_nil (n : Nat) : toDec n ≠ [] := (decDigits_spec (n + 1) n (by omega)).2.2.1
theorem toDec_head (n : Nat) (h : n ≠ 0) : (toDec n).head? ≠ some 0x30 :=
  (decDigits_spec (n + 1) n (by omega)).2.2.2 h

theorem toDec_injective {m n : Nat} (h : toDec m = toDec n) : m = n := by
  rw [← toDec_value m, ← toDec_value n, h]

theorem foldl_ge (ds : Str) (r : Nat) : r ≤ ds.foldl (fun a b => a * 10 + (b.toNat - 0x30)) r := by
  induction ds generalizing r with
  | nil => exact Nat.le_refl _
  | cons b ds ih => exact Nat.le_trans (by show r ≤ r * 10 + _; omega) (ih _)

end KT
