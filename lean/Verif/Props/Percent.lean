import Verif.Model.Percent
import Verif.Lemmas.Decimal
/-!
# C174: percentages are rounded correctly

Model: `Verif/Model/Percent.lean`.
-/
namespace KT

/-! ## Rounding -/

theorem rneDiv_near (a b : Nat) (hb : 0 < b) : 2 * a ≤ (2 * rneDiv a b + 1) * b ∧ (2 * rneDiv a b) * b ≤ 2 * a + b := by
  have hd := Nat.div_add_mod a b
  have hm := Nat.mod_lt a hb
  have e : ∀ q, (2 * q + 1) * b = 2 * (b * q) + b := fun q => by rw [Nat.add_mul, Nat.mul_assoc, Nat.mul_comm q]; omega
  have e' : ∀ q, (2 * q) * b = 2 * (b * q) := fun q => by rw [Nat.mul_assoc, Nat.mul_comm q]
  have s : b * (a / b + 1) = b * (a / b) + b := Nat.mul_succ _ _
  unfold rneDiv
  simp only
  split
  · rw [e, e']; omega
  · split
    · rw [e, e', s]; omega
    · split
      · rw [e, e']; omega
      · rw [e, e', s]; omega

theorem rneDiv_mul (v b : Nat) (hb : 0 < b) : rneDiv (v * b) b = v := by
  unfold rneDiv
  simp [Nat.mul_div_cancel _ hb, Nat.mul_mod_left, hb]

theorem scaleDown_zero (f num den : Nat) (h : num < 2 ^ 53 * den) : scaleDown f num den = 0 := by
  cases f with
  | zero => rfl
  | succ f => unfold scaleDown; rw [if_neg (by omega)]

theorem scaleUp_spec : ∀ (f num den : Nat), 2 ^ 52 * den ≤ num * 2 ^ f →
    2 ^ 52 * den ≤ num * 2 ^ scaleUp f num den
  | 0, num, den, h => h
  | f + 1, num, den, h => by
    unfold scaleUp
    split
    · have := scaleUp_spec f (2 * num) den (by rw [Nat.mul_comm 2, Nat.mul_assoc, ← Nat.pow_succ']; exact h)
      have e : num * 2 ^ (scaleUp f (2 * num) den + 1) = 2 * num * 2 ^ scaleUp f (2 * num) den := by
        rw [Nat.pow_succ, Nat.mul_comm _ 2, ← Nat.mul_assoc, Nat.mul_comm num]
      rw [e]
      exact this
    · simpa using Nat.le_of_not_lt (by assumption)

/-- A number that has at most 53 bits isn't changed. -/
theorem dblRound_exact (v den : Nat) (hd : 0 < den) (hv : v < 2 ^ 53) :
    0 < (dblRound (v * den) den).2 ∧ (dblRound (v * den) den).1 = v * (dblRound (v * den) den).2 := by
  unfold dblRound
  split
  · rename_i h
    have : v = 0 := by
      rcases Nat.mul_eq_zero.mp h with h | h
      · exact h
      · omega
    simp [this]
  · rw [scaleDown_zero _ _ _ (Nat.mul_lt_mul_of_pos_right hv hd)]
    refine ⟨Nat.two_pow_pos _, ?_⟩
    simp only [Nat.pow_zero, Nat.mul_one]
    rw [Nat.mul_right_comm, rneDiv_mul _ _ hd]

/-- The error of a rounded quotient. -/
theorem dblRound_error (num den : Nat) (h0 : 0 < num) (hd : 0 < den) (h : num < 2 ^ 53 * den)
    (hf : 2 ^ 52 * den ≤ num * 2 ^ 256) :
    0 < (dblRound num den).2 ∧ 2 ^ 52 * den ≤ num * (dblRound num den).2 ∧
    2 * (num * (dblRound num den).2) ≤ (2 * (dblRound num den).1 + 1) * den ∧
    (2 * (dblRound num den).1) * den ≤ 2 * (num * (dblRound num den).2) + den := by
  unfold dblRound
  rw [if_neg (by omega), scaleDown_zero _ _ _ h]
  simp only [Nat.pow_zero, Nat.mul_one]
  exact ⟨Nat.two_pow_pos _, scaleUp_spec _ _ _ hf, rneDiv_near _ _ hd⟩

/-- The `double` nearest to the exact percentage. -/
theorem asPercent_error (a t : Nat) (h0 : 0 < a) (ha : a ≤ t) (ht : t ≤ 2 ^ 38) :
    0 < (asPercent a t).2 ∧ 2 ^ 52 * t ≤ 100 * a * (asPercent a t).2 ∧
    2 * (100 * a * (asPercent a t).2) ≤ (2 * (asPercent a t).1 + 1) * t ∧
    (2 * (asPercent a t).1) * t ≤ 2 * (100 * a * (asPercent a t).2) + t := by
  obtain ⟨a1, a2⟩ := dblRound_exact a 1 (by decide) (by omega)
  obtain ⟨t1, t2⟩ := dblRound_exact t 1 (by decide) (by omega)
  rw [Nat.mul_one] at a1 a2 t1 t2
  obtain ⟨p1, p2⟩ := dblRound_exact (100 * a) (dblRound a 1).2 a1 (by omega)
  have e1 : (dblRound a 1).1 * 100 = 100 * a * (dblRound a 1).2 := by rw [a2, Nat.mul_comm _ 100, Nat.mul_assoc]
  unfold asPercent
  simp only
  rw [e1]
  revert p1 p2
  generalize dblRound (100 * a * (dblRound a 1).2) (dblRound a 1).2 = p
  intro p1 p2
  revert t1 t2
  generalize dblRound t 1 = q
  intro t1 t2
  have en : p.1 * q.2 = 100 * a * (p.2 * q.2) := by rw [p2, Nat.mul_assoc]
  have ed : p.2 * q.1 = t * (p.2 * q.2) := by rw [t2, Nat.mul_left_comm]
  rw [en, ed]
  have hc : 0 < p.2 * q.2 := Nat.mul_pos p1 t1
  generalize p.2 * q.2 = c at hc
  have hlt : 100 * a * c < 2 ^ 53 * (t * c) := by
    rw [← Nat.mul_assoc]
    exact Nat.mul_lt_mul_of_pos_right (by omega) hc
  have hge : 2 ^ 52 * (t * c) ≤ 100 * a * c * 2 ^ 256 := by
    have : 2 ^ 52 * t ≤ 100 * a * 2 ^ 256 := by omega
    calc 2 ^ 52 * (t * c) = 2 ^ 52 * t * c := by rw [Nat.mul_assoc]
      _ ≤ 100 * a * 2 ^ 256 * c := Nat.mul_le_mul_right _ this
      _ = 100 * a * c * 2 ^ 256 := Nat.mul_right_comm _ _ _
  obtain ⟨r1, r2, r3, r4⟩ := dblRound_error (100 * a * c) (t * c) (Nat.mul_pos (by omega) hc) (Nat.mul_pos (by omega) hc)
    hlt hge
  generalize dblRound (100 * a * c) (t * c) = r at r1 r2 r3 r4
  refine ⟨r1, Nat.le_of_mul_le_mul_right (c := c) ?_ hc, Nat.le_of_mul_le_mul_right (c := c) ?_ hc,
    Nat.le_of_mul_le_mul_right (c := c) ?_ hc⟩
  · calc 2 ^ 52 * t * c = 2 ^ 52 * (t * c) := Nat.mul_assoc _ _ _
      _ ≤ 100 * a * c * r.2 := r2
      _ = 100 * a * r.2 * c := Nat.mul_right_comm _ _ _
  · calc 2 * (100 * a * r.2) * c = 2 * (100 * a * c * r.2) := by rw [Nat.mul_assoc, Nat.mul_right_comm (100 * a)]
      _ ≤ (2 * r.1 + 1) * (t * c) := r3
      _ = (2 * r.1 + 1) * t * c := (Nat.mul_assoc _ _ _).symm
  · calc 2 * r.1 * t * c = 2 * r.1 * (t * c) := Nat.mul_assoc _ _ _
      _ ≤ 2 * (100 * a * c * r.2) + t * c := r4
      _ = (2 * (100 * a * r.2) + t) * c := by rw [Nat.add_mul, Nat.mul_assoc 2 _ c, Nat.mul_right_comm (100 * a)]

/-! ## C174 -/

/-- The number of units of the last place that is shown. -/
def shownUnits (precision a t : Nat) : Nat := rneDiv ((asPercent a t).1 * 10 ^ precision) (asPercent a t).2

/-- The number shown is a nearest one to the exact percentage: it differs by at most half a unit of the last place. -/
theorem C174_nearest (precision a t : Nat) (hp : precision ≤ 2) (h0 : 0 < t) (ha : a ≤ t) (ht : t ≤ 2 ^ 38) :
    2 * (100 * a * 10 ^ precision) ≤ (2 * shownUnits precision a t + 1) * t ∧
    2 * shownUnits precision a t * t ≤ 2 * (100 * a * 10 ^ precision) + t := by
  unfold shownUnits
  by_cases hz : a = 0
  · subst hz
    have e : asPercent 0 t = (0, 1) := by simp [asPercent, dblRound]
    rw [e]
    simp [rneDiv]
  obtain ⟨h1, h2, h3, h4⟩ := asPercent_error a t (by omega) ha ht
  generalize asPercent a t = d at h1 h2 h3 h4
  obtain ⟨g1, g2⟩ := rneDiv_near (d.1 * 10 ^ precision) d.2 h1
  generalize rneDiv (d.1 * 10 ^ precision) d.2 = n at g1 g2
  have hD : 10 ^ precision ≤ 100 := by
    have : precision = 0 ∨ precision = 1 ∨ precision = 2 := by omega
    rcases this with h | h | h <;> subst h <;> decide
  generalize 10 ^ precision = D at hD g1 g2
  -- the denominator is large
  have big : D * t < d.2 := by
    have b1 : 2 ^ 52 * t ≤ t * (100 * d.2) := by
      calc 2 ^ 52 * t ≤ 100 * a * d.2 := h2
        _ ≤ 100 * t * d.2 := Nat.mul_le_mul_right _ (by omega)
        _ = t * (100 * d.2) := by rw [Nat.mul_comm 100, Nat.mul_assoc]
    have b2 : 2 ^ 52 ≤ 100 * d.2 := by
      rw [Nat.mul_comm] at b1
      exact Nat.le_of_mul_le_mul_left b1 h0
    have b3 : D * t ≤ 100 * t := Nat.mul_le_mul_right _ hD
    omega
  obtain ⟨x, y⟩ := d
  simp only at h1 h2 h3 h4 g1 g2 big
  constructor
  · apply Nat.le_of_not_lt
    intro hc
    have c1 : ((2 * n + 1) * t + 1) * y ≤ 2 * (100 * a * D) * y := Nat.mul_le_mul_right _ hc
    have c2 : 2 * (x * D) * t ≤ (2 * n + 1) * y * t := Nat.mul_le_mul_right _ g1
    have c3 : 2 * (100 * a * y) * D ≤ (2 * x + 1) * t * D := Nat.mul_le_mul_right _ h3
    have e1 : ((2 * n + 1) * t + 1) * y = (2 * n + 1) * y * t + y := by rw [Nat.add_mul, Nat.mul_right_comm, Nat.one_mul]
    have e2 : 2 * (100 * a * D) * y = 2 * (100 * a * y) * D := by
      rw [Nat.mul_assoc, Nat.mul_right_comm, ← Nat.mul_assoc]
    have e3 : (2 * x + 1) * t * D = 2 * (x * D) * t + D * t := by
      rw [Nat.mul_right_comm, Nat.add_mul, Nat.mul_assoc, Nat.one_mul, Nat.add_mul]
    omega
  · apply Nat.le_of_not_lt
    intro hc
    have c1 : (2 * (100 * a * D) + t + 1) * y ≤ 2 * n * t * y := Nat.mul_le_mul_right _ hc
    have c2 : 2 * n * y * t ≤ (2 * (x * D) + y) * t := Nat.mul_le_mul_right _ g2
    have c3 : 2 * x * t * D ≤ (2 * (100 * a * y) + t) * D := Nat.mul_le_mul_right _ h4
    have e1 : (2 * (100 * a * D) + t + 1) * y = 2 * (100 * a * y) * D + t * y + y := by
      rw [Nat.add_mul, Nat.add_mul, Nat.one_mul, Nat.mul_assoc, Nat.mul_right_comm, ← Nat.mul_assoc]
    have e2 : 2 * n * t * y = 2 * n * y * t := Nat.mul_right_comm _ _ _
    have e3 : 2 * x * t * D = 2 * (x * D) * t := by rw [Nat.mul_right_comm, Nat.mul_assoc 2]
    have e4 : (2 * (x * D) + y) * t = 2 * (x * D) * t + t * y := by rw [Nat.add_mul, Nat.mul_comm y]
    have e5 : (2 * (100 * a * y) + t) * D = 2 * (100 * a * y) * D + D * t := by rw [Nat.add_mul, Nat.mul_comm t]
    omega

/-- The text shown: digits, a point and as many digits as asked for, together the number above. -/
theorem C174_text (precision a t : Nat) (hp : precision = 1 ∨ precision = 2) :
    ∃ w f, percentText precision a t = w ++ u8!"." ++ f ∧ w = toDec (shownUnits precision a t / 10 ^ precision) ∧
      f.length = precision ∧ f.all isDigitChar ∧
      decimalValue w * 10 ^ precision + decimalValue f = shownUnits precision a t := by
  have pad1 : ∀ n < 10, (List.replicate (1 - (toDec n).length) (0x30 : UInt8) ++ toDec n).length = 1 ∧
      (List.replicate (1 - (toDec n).length) (0x30 : UInt8) ++ toDec n).all isDigitChar ∧
      decimalValue (List.replicate (1 - (toDec n).length) (0x30 : UInt8) ++ toDec n) = n := by decide +kernel
  have pad2 : ∀ n < 100, (List.replicate (2 - (toDec n).length) (0x30 : UInt8) ++ toDec n).length = 2 ∧
      (List.replicate (2 - (toDec n).length) (0x30 : UInt8) ++ toDec n).all isDigitChar ∧
      decimalValue (List.replicate (2 - (toDec n).length) (0x30 : UInt8) ++ toDec n) = n := by decide +kernel
  unfold percentText fixedText
  show ∃ w f, toDec (shownUnits precision a t / 10 ^ precision) ++ _ = _ ∧ _
  generalize hn : shownUnits precision a t = n
  unfold shownUnits at hn
  simp only [hn]
  have pad : ∃ f, f = List.replicate (precision - (toDec (n % 10 ^ precision)).length) (0x30 : UInt8) ++
      toDec (n % 10 ^ precision) ∧ f.length = precision ∧ f.all isDigitChar ∧ decimalValue f = n % 10 ^ precision := by
    rcases hp with rfl | rfl
    · obtain ⟨h1, h2, h3⟩ := pad1 (n % 10 ^ 1) (Nat.mod_lt _ (by decide))
      exact ⟨_, rfl, h1, h2, h3⟩
    · obtain ⟨h1, h2, h3⟩ := pad2 (n % 10 ^ 2) (Nat.mod_lt _ (by decide))
      exact ⟨_, rfl, h1, h2, h3⟩
  obtain ⟨f, hf, h1, h2, h3⟩ := pad
  refine ⟨_, f, ?_, rfl, h1, h2, ?_⟩
  · rw [if_neg (by omega), List.append_assoc, List.append_assoc, ← hf]
  · rw [toDec_value, h3, Nat.mul_comm]
    exact Nat.div_add_mod _ _

/-- A larger amount never has a smaller percentage, no percentage is more than 100, and everything is 100. -/
theorem C174_order (precision t : Nat) (hp : precision ≤ 2) (h0 : 0 < t) (ht : t ≤ 2 ^ 38) :
    (∀ a b, a ≤ b → b ≤ t → shownUnits precision a t ≤ shownUnits precision b t) ∧
    shownUnits precision 0 t = 0 ∧ shownUnits precision t t = 100 * 10 ^ precision := by
  have mono : ∀ a b, a ≤ b → b ≤ t → shownUnits precision a t ≤ shownUnits precision b t := by
    intro a b hab hb
    by_cases he : a = b
    · rw [he]; exact Nat.le_refl _
    obtain ⟨_, h1⟩ := C174_nearest precision a t hp h0 (by omega) ht
    obtain ⟨h2, _⟩ := C174_nearest precision b t hp h0 hb ht
    generalize shownUnits precision a t = m at h1 ⊢
    generalize shownUnits precision b t = n at h2 ⊢
    have hD : 0 < 10 ^ precision := Nat.pow_pos (by decide)
    generalize 10 ^ precision = D at h1 h2 hD
    apply Nat.le_of_not_lt
    intro hc
    have c1 : 2 * (n + 1) * t ≤ 2 * m * t := Nat.mul_le_mul_right _ (by omega)
    have c2 : 100 * a * D < 100 * b * D := Nat.mul_lt_mul_of_pos_right (by omega) hD
    have e1 : 2 * (n + 1) * t = (2 * n + 1) * t + t := by
      rw [show 2 * (n + 1) = (2 * n + 1) + 1 from by omega, Nat.add_mul (2 * n + 1), Nat.one_mul]
    omega
  refine ⟨mono, ?_, ?_⟩
  · unfold shownUnits
    simp [asPercent, dblRound, rneDiv]
  · obtain ⟨h1, h2⟩ := C174_nearest precision t t hp h0 (Nat.le_refl _) ht
    generalize shownUnits precision t t = n at h1 h2 ⊢
    generalize 10 ^ precision = D at h1 h2 ⊢
    have e : 2 * (100 * t * D) = 2 * (100 * D) * t := by rw [Nat.mul_right_comm 100, Nat.mul_assoc 2]
    rw [e] at h1 h2
    have e2 : 2 * (100 * D) * t + t = (2 * (100 * D) + 1) * t := by rw [Nat.add_mul, Nat.one_mul]
    rw [e2] at h2
    have g1 := Nat.le_of_mul_le_mul_right h1 h0
    have g2 := Nat.le_of_mul_le_mul_right h2 h0
    omega

example : percentText 2 1 3 = u8!"33.33" ∧ percentText 2 2 3 = u8!"66.67" ∧ percentText 1 1 16 = u8!"6.2" ∧
    percentText 1 3 16 = u8!"18.8" ∧ percentText 2 7 7 = u8!"100.00" ∧ percentText 2 1 30000 = u8!"0.00" ∧
    percentText 1 1 2000 = u8!"0.1" := by decide +kernel

end KT
