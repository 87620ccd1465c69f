import Verif.Props.Enum
import Verif.Props.DisplaySize

/-! # Elements reached from an iterator (C16) and widths as `int` (C32) -/

namespace KT

/-- `it[i]` is the element `i` places from the iterator, after any history, and throws if there is
none.  As for `C16_exact_partial`, places of 256 and above are missing. -/
theorem C16_at_partial (n : Nat) (hn : n ≤ 255) (ops : List IterOp) (idx : Nat)
    (h : runIter n 0 ops = .ok idx) (i : Int) (hb : (idx : Int) + i < 256) :
    (∀ j : Nat, (idx : Int) + i = j → j < n → iterAt n idx i = .ok j) ∧
    (¬ (0 ≤ (idx : Int) + i ∧ (idx : Int) + i < n) → iterAt n idx i = .throw .range) := by
  have hle := C16_invariant n hn ops idx h
  have hx := C16_exact_partial n hn ops idx h (.add i) hb (by intro _ h; cases h)
  simp only [IterOp.exact, IterOp.apply] at hx
  unfold iterAt
  constructor
  · intro j hj hjn
    rw [hx.1 j hj (by omega), Res.bind_ok, iterDeref, if_neg (by omega)]
  · intro hno
    by_cases he : (idx : Int) + i = n
    · rw [hx.1 n he (Nat.le_refl _), Res.bind_ok, iterDeref, if_pos (Nat.le_refl _)]
    · rw [hx.2 (by omega)]; rfl

example : iterAt 5 2 (-2) = .ok 0 ∧ iterAt 5 2 2 = .ok 4 ∧ iterAt 5 2 3 = .throw .range ∧
    iterAt 5 2 4 = .throw .range ∧ iterAt 5 2 (-3) = .throw .range := by decide

/-- The width given to `setw` is the number of `int` that equals the number of columns wanted and the
bytes not taking a column, modulo 2^32. -/
theorem C32_int (s : Str) (w : Nat) : -2 ^ 31 ≤ wideSetw s w ∧ wideSetw s w < 2 ^ 31 ∧
    ∃ k : Int, wideSetw s w = (w : Int) + s.length - displaySize s + k * 2 ^ 32 := by
  have hd := C32_bounded s
  unfold wideSetw toInt32
  generalize hm : (w + s.length + 2 ^ 64 - displaySize s) % 2 ^ 64 = m
  have hm' : (w + s.length - displaySize s) % 2 ^ 64 = m := by omega
  refine ⟨?_, ?_, ?_⟩
  · simp only; split <;> omega
  · simp only; split <;> omega
  · generalize ht : w + s.length - displaySize s = t at *
    have e : (w : Int) + s.length - displaySize s = t := by omega
    rw [e]
    simp only
    have h2 : m % 2 ^ 32 = t % 2 ^ 32 := by omega
    rw [h2]
    split
    · exact ⟨-(t / 2 ^ 32 : Nat), by omega⟩
    · exact ⟨-(t / 2 ^ 32 : Nat) - 1, by omega⟩

end KT
