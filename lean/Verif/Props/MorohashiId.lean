import Verif.Model.MorohashiId
import Verif.Lemmas.Decimal
/-!
# C37, C38, C39: Morohashi Ids and stroke counts

Model: `Verif/Model/MorohashiId.lean`.  The specification is `IsMorohashi` below.
-/
namespace KT

/-! ## Specification -/

/-- Decimal digits with value `n` of at most 16 bits. -/
def IsNumber (ds : Str) (n : Nat) : Prop :=
  ds ≠ [] ∧ ds.all isDigitChar = true ∧ decimalValue ds = n ∧ n ≤ 65535

/-- The text denotes the id: a number, or a number that isn't zero with a mark; no text is the empty
id. -/
def IsMorohashi (s : Str) (x : MorohashiId) : Prop :=
  (s = [] ∧ x = {}) ∨ ∃ ds, IsNumber ds x.id ∧
    match x.idType with
    | .plain => s = ds
    | .prime => x.id ≠ 0 ∧ (s = ds ++ u8!"P" ∨ s = ds ++ u8!"'")
    | .doublePrime => x.id ≠ 0 ∧ (s = ds ++ u8!"PP" ∨ s = ds ++ u8!"''")
    | .supplemental => x.id ≠ 0 ∧ s = u8!"H" ++ ds

/-! ## Parsing -/

theorem isDigitChar_iff (c : UInt8) : isDigitChar c = true ↔ ¬ (c < 0x30 ∨ c > 0x39) := by
  unfold isDigitChar
  rw [Bool.and_eq_true, decide_eq_true_iff, decide_eq_true_iff]
  simp only [UInt8.le_iff_toNat_le, UInt8.lt_iff_toNat_lt, gt_iff_lt]
  omega

theorem validateLoop_eq : ∀ (ds : Str) (leading : Bool) (r : Nat), r ≤ 65535 → (leading = true → r = 0) →
    validateLoop ds leading r =
      if ds.all isDigitChar = true ∧ ds.foldl (fun a b => a * 10 + (b.toNat - 0x30)) r ≤ 65535 then
        .ok (ds.foldl (fun a b => a * 10 + (b.toNat - 0x30)) r)
      else .throw .domain := by
  intro ds
  induction ds with
  | nil => intro l r hr _; simp [validateLoop, hr]
  | cons c ds ih =>
    intro l r hr hl
    unfold validateLoop
    split
    · rename_i h
      obtain ⟨h1, rfl⟩ := h
      have hr0 := hl h1
      subst hr0
      rw [ih true 0 (by omega) (fun _ => rfl)]
      rfl
    · by_cases hd : c < 0x30 ∨ c > 0x39
      · rw [if_pos hd]
        have : isDigitChar c = false := by
          cases h : isDigitChar c with
          | false => rfl
          | true => exact absurd hd ((isDigitChar_iff c).mp h)
        simp [this]
      · rw [if_neg hd]
        have hdc : isDigitChar c = true := (isDigitChar_iff c).mpr hd
        have hx : c.toNat - 0x30 ≤ 9 := by
          simp only [UInt8.lt_iff_toNat_lt, gt_iff_lt, not_or, Nat.not_lt] at hd
          have : (0x39 : UInt8).toNat = 0x39 := rfl
          omega
        have hge := foldl_ge ds (r * 10 + (c.toNat - 0x30))
        simp only [List.all_cons, hdc, Bool.true_and, List.foldl_cons]
        by_cases h1 : r > 65535 / 10
        · rw [if_pos h1, if_neg (by omega)]
        · rw [if_neg h1]
          rw [show r * 10 % 65536 = r * 10 by omega]
          by_cases h2 : r * 10 > 65535 - (c.toNat - 0x30)
          · rw [if_pos h2, if_neg (by omega)]
          · rw [if_neg h2]
            rw [show (r * 10 + (c.toNat - 0x30)) % 65536 = r * 10 + (c.toNat - 0x30) by omega]
            exact ih false _ (by omega) (by simp)

theorem validateLoop_number (ds : Str) : validateLoop ds true 0 =
    if ds.all isDigitChar = true ∧ decimalValue ds ≤ 65535 then .ok (decimalValue ds) else .throw .domain :=
  validateLoop_eq ds true 0 (by omega) (fun _ => rfl)

/-- With prefix `p` and suffix `q` around `ds`. -/
theorem validate_eq (p ds q : Str) : morohashiValidate (p ++ ds ++ q) p.length q.length =
    if p = [] ∧ q = [] ∧ ds = [] then .ok 0
    else if ds ≠ [] ∧ ds.all isDigitChar = true ∧ decimalValue ds ≤ 65535 ∧
        ((p = [] ∧ q = []) ∨ decimalValue ds ≠ 0) then .ok (decimalValue ds)
    else .throw .domain := by
  unfold morohashiValidate
  have e : ((p ++ ds ++ q).take ((p ++ ds ++ q).length - q.length)).drop p.length = ds := by
    rw [show (p ++ ds ++ q).length - q.length = (p ++ ds).length by simp only [List.length_append]; omega,
      List.take_left, List.drop_left]
  rw [e, validateLoop_number]
  simp only [List.append_eq_nil_iff, List.length_append, List.length_eq_zero_iff]
  by_cases h0 : p = [] ∧ q = [] ∧ ds = []
  · obtain ⟨rfl, rfl, rfl⟩ := h0; rfl
  · rw [if_neg (by rintro ⟨⟨⟨h1, h2⟩, h3⟩, _⟩; exact h0 ⟨h1, h3, h2⟩), if_neg h0]
    by_cases hd : ds = []
    · subst hd
      rw [if_pos (by simp only [List.length_nil]; omega), if_neg (by simp)]
    · have hl : ds.length ≠ 0 := by simpa using hd
      rw [if_neg (by omega)]
      by_cases h1 : ds.all isDigitChar = true ∧ decimalValue ds ≤ 65535
      · rw [if_pos h1, Res.bind_ok]
        by_cases hn : decimalValue ds = 0
        · by_cases hpq : p = [] ∧ q = []
          · rw [if_neg (by rintro ⟨h | h, _⟩ <;> simp [hpq] at h),
              if_pos ⟨hd, h1.1, h1.2, .inl hpq⟩]
          · rw [if_pos ⟨by rcases Classical.em (p = []) with h | h
                           · exact .inr fun h' => hpq ⟨h, List.length_eq_zero_iff.mp h'⟩
                           · exact .inl fun h' => h (List.length_eq_zero_iff.mp h'), hn⟩,
              if_neg (by rintro ⟨_, _, _, h | h⟩; exact hpq h; exact h hn)]
        · rw [if_neg (fun h => hn h.2), if_pos ⟨hd, h1.1, h1.2, .inr hn⟩]
      · rw [if_neg h1, Res.bind_throw, if_neg (fun h => h1 ⟨h.2.1, h.2.2.1⟩)]

theorem endsWith_iff (s q : Str) : endsWith s q = true ↔ ∃ p, s = p ++ q := by
  unfold endsWith
  rw [List.isSuffixOf_iff_suffix]
  exact ⟨fun ⟨p, h⟩ => ⟨p, h.symm⟩, fun ⟨p, h⟩ => ⟨p, h.symm⟩⟩

theorem digits_last {ds : Str} (h : ds.all isDigitChar = true) (c : UInt8) (hc : isDigitChar c = false) (p q : Str) :
    ds ≠ p ++ c :: q := by
  rintro rfl
  simp [hc] at h

/-- `parse` by kind of mark. -/
theorem parse_cases (s : Str) :
    (∃ ds q, (q = u8!"PP" ∨ q = u8!"''") ∧ s = ds ++ q ∧
      MorohashiId.parse s = if ds ≠ [] ∧ ds.all isDigitChar = true ∧ decimalValue ds ≤ 65535 ∧ decimalValue ds ≠ 0
        then .ok ⟨decimalValue ds, .doublePrime⟩ else .throw .domain) ∨
    (∃ ds q, (q = u8!"P" ∨ q = u8!"'") ∧ s = ds ++ q ∧ isDoublePrime s = false ∧
      MorohashiId.parse s = if ds ≠ [] ∧ ds.all isDigitChar = true ∧ decimalValue ds ≤ 65535 ∧ decimalValue ds ≠ 0
        then .ok ⟨decimalValue ds, .prime⟩ else .throw .domain) ∨
    (∃ ds, s = u8!"H" ++ ds ∧ isDoublePrime s = false ∧ isPrime s = false ∧
      MorohashiId.parse s = if ds ≠ [] ∧ ds.all isDigitChar = true ∧ decimalValue ds ≤ 65535 ∧ decimalValue ds ≠ 0
        then .ok ⟨decimalValue ds, .supplemental⟩ else .throw .domain) ∨
    (isDoublePrime s = false ∧ isPrime s = false ∧ isSupplemental s = false ∧
      MorohashiId.parse s = if s = [] then .ok {} else
        if s.all isDigitChar = true ∧ decimalValue s ≤ 65535 then .ok ⟨decimalValue s, .plain⟩
        else .throw .domain) := by
  have fin : ∀ (P : Prop) [Decidable P] (n : Nat) (k : IdType),
      ((if P then Res.ok n else .throw .domain) >>= fun id => Res.ok (⟨id, k⟩ : MorohashiId)) =
        if P then .ok ⟨n, k⟩ else .throw .domain := by
    intro P _ n k; split <;> rfl
  unfold MorohashiId.parse MorohashiId.getId MorohashiId.getIdType
  cases h2 : isDoublePrime s with
  | true =>
    left
    have h2' := h2
    unfold isDoublePrime at h2'
    rw [Bool.or_eq_true, endsWith_iff, endsWith_iff] at h2'
    have : ∃ ds q, (q = u8!"PP" ∨ q = u8!"''") ∧ s = ds ++ q ∧ q.length = 2 := by
      rcases h2' with ⟨ds, h⟩ | ⟨ds, h⟩
      · exact ⟨ds, _, .inl rfl, h, rfl⟩
      · exact ⟨ds, _, .inr rfl, h, rfl⟩
    obtain ⟨ds, q, hq, e, hl⟩ := this
    refine ⟨ds, q, hq, e, ?_⟩
    have hqn : q ≠ [] := by rintro rfl; cases hl
    have := validate_eq [] ds q
    rw [List.nil_append, ← e, hl] at this
    simp only [if_true, List.length_nil] at this ⊢
    rw [this, if_neg (fun h => hqn h.2.1)]
    simp only [hqn, and_false, false_or]
    exact fin _ _ _
  | false =>
    right
    simp only [Bool.false_eq_true, if_false]
    cases h1 : isPrime s with
    | true =>
      left
      have h1' := h1
      unfold isPrime at h1'
      rw [Bool.or_eq_true, endsWith_iff, endsWith_iff] at h1'
      have : ∃ ds q, (q = u8!"P" ∨ q = u8!"'") ∧ s = ds ++ q ∧ q.length = 1 := by
        rcases h1' with ⟨ds, h⟩ | ⟨ds, h⟩
        · exact ⟨ds, _, .inl rfl, h, rfl⟩
        · exact ⟨ds, _, .inr rfl, h, rfl⟩
      obtain ⟨ds, q, hq, e, hl⟩ := this
      refine ⟨ds, q, hq, e, trivial, ?_⟩
      have hqn : q ≠ [] := by rintro rfl; cases hl
      have := validate_eq [] ds q
      rw [List.nil_append, ← e, hl] at this
      simp only [if_true, List.length_nil] at this ⊢
      rw [this, if_neg (fun h => hqn h.2.1)]
      simp only [hqn, and_false, false_or]
      exact fin _ _ _
    | false =>
      right
      simp only [Bool.false_eq_true, if_false]
      cases h3 : isSupplemental s with
      | true =>
        left
        unfold isSupplemental at h3
        cases s with
        | nil => cases h3
        | cons b ds =>
          simp only [List.head?_cons, beq_iff_eq, Option.some.injEq] at h3
          subst h3
          refine ⟨ds, rfl, trivial, trivial, ?_⟩
          have := validate_eq (u8!"H") ds []
          simp only [List.append_nil, List.length_nil, List.length_cons, Nat.zero_add] at this
          simp only [if_true]
          rw [show (0x48 : UInt8) :: ds = u8!"H" ++ ds from rfl, this, if_neg (by rintro ⟨h, _⟩; cases h)]
          simp only [reduceCtorEq, false_and, false_or]
          exact fin _ _ _
      | false =>
        right
        refine ⟨trivial, trivial, rfl, ?_⟩
        have := validate_eq [] s []
        simp only [List.nil_append, List.append_nil, List.length_nil, true_and, true_or, and_true] at this
        simp only [Bool.false_eq_true, if_false]
        rw [this]
        split
        · rfl
        · rename_i hs
          simp only [ne_eq, hs, not_false_eq_true, true_and]
          exact fin _ _ _

/-! ### C37 -/

/-- Every text gives an id or a domain error. -/
theorem C37_total (s : Str) : (∃ x, MorohashiId.parse s = .ok x) ∨ MorohashiId.parse s = .throw .domain := by
  have key : ∀ (P : Prop) [Decidable P] (x : MorohashiId),
      (∃ y, (if P then Res.ok x else .throw .domain) = .ok y) ∨ (if P then Res.ok x else .throw .domain) = .throw .domain := by
    intro P _ x; split
    · exact .inl ⟨x, rfl⟩
    · exact .inr rfl
  rcases parse_cases s with ⟨_, _, _, _, h⟩ | ⟨_, _, _, _, _, h⟩ | ⟨_, _, _, _, h⟩ | ⟨_, _, _, h⟩
  · rw [h]; exact key _ _
  · rw [h]; exact key _ _
  · rw [h]; exact key _ _
  · rw [h]
    by_cases hs : s = []
    · rw [if_pos hs]; exact .inl ⟨_, rfl⟩
    · rw [if_neg hs]; exact key _ _

theorem if_ok_iff {α : Type} {P : Prop} [Decidable P] {x y : α} {e : Exc} :
    (if P then Res.ok x else .throw e) = .ok y ↔ P ∧ x = y := by
  split <;> simp [*]

theorem not_endsWith {t : Str} {b c : UInt8} {q : Str} (h : b ≠ c) : endsWith (t ++ [b]) (q ++ [c]) = false := by
  cases he : endsWith (t ++ [b]) (q ++ [c]) with
  | false => rfl
  | true =>
    obtain ⟨p, e⟩ := (endsWith_iff _ _).mp he
    rw [← List.append_assoc] at e
    have := List.append_inj_right' e rfl
    simp only [List.cons.injEq, and_true] at this
    exact absurd this h

theorem endsWith_self (t q : Str) : endsWith (t ++ q) q = true := (endsWith_iff _ _).mpr ⟨t, rfl⟩

/-- A text that ends with a digit has no suffix mark. -/
theorem no_suffix {t : Str} {b : UInt8} (h : isDigitChar b = true) :
    isDoublePrime (t ++ [b]) = false ∧ isPrime (t ++ [b]) = false := by
  have h1 : b ≠ 0x50 := by rintro rfl; cases h
  have h2 : b ≠ 0x27 := by rintro rfl; cases h
  unfold isDoublePrime isPrime
  have e1 := not_endsWith (t := t) (q := [0x50]) h1
  have e2 := not_endsWith (t := t) (q := [0x27]) h2
  have e3 := not_endsWith (t := t) (q := []) h1
  have e4 := not_endsWith (t := t) (q := []) h2
  simp only [List.cons_append, List.nil_append] at e1 e2 e3 e4
  rw [e1, e2, e3, e4]
  exact ⟨rfl, rfl⟩

theorem digits_snoc {ds : Str} (h : ds ≠ []) (hd : ds.all isDigitChar = true) :
    ∃ t b, ds = t ++ [b] ∧ t.all isDigitChar = true ∧ isDigitChar b = true := by
  refine ⟨ds.dropLast, ds.getLast h, (List.dropLast_concat_getLast h).symm, ?_, ?_⟩
  · rw [List.all_eq_true] at hd ⊢
    exact fun x hx => hd x (List.dropLast_subset _ hx)
  · exact (List.all_eq_true.mp hd) _ (List.getLast_mem h)

theorem not_double {ds : Str} {c : UInt8} (h : ds ≠ []) (hd : ds.all isDigitChar = true) :
    isDoublePrime (ds ++ [c]) = false := by
  obtain ⟨t, b, rfl, _, hb⟩ := digits_snoc h hd
  have h1 : b ≠ 0x50 := by rintro rfl; cases hb
  have h2 : b ≠ 0x27 := by rintro rfl; cases hb
  have key : ∀ x : UInt8, b ≠ x → endsWith (t ++ [b] ++ [c]) [x, x] = false := by
    intro x hx
    cases he : endsWith (t ++ [b] ++ [c]) [x, x] with
    | false => rfl
    | true =>
      obtain ⟨p, e⟩ := (endsWith_iff _ _).mp he
      rw [List.append_assoc] at e
      have := List.append_inj_right' e rfl
      simp only [List.cons_append, List.cons.injEq, List.nil_append] at this
      exact absurd this.1 hx
  unfold isDoublePrime
  rw [key _ h1, key _ h2]; rfl

/-- C37: the constructor accepts exactly the documented texts and gives what they denote. -/
theorem C37_exact (s : Str) (x : MorohashiId) : MorohashiId.parse s = .ok x ↔ IsMorohashi s x := by
  constructor
  · intro hx
    rcases parse_cases s with ⟨ds, q, hq', hs, h⟩ | ⟨ds, q, hq', hs, hdp, h⟩ | ⟨ds, hs, hdp, hp, h⟩ | ⟨hdp, hp, hsu, h⟩
    · rw [h, if_ok_iff] at hx
      obtain ⟨⟨h1, h2, h3, h4⟩, rfl⟩ := hx
      refine .inr ⟨ds, ⟨h1, h2, rfl, h3⟩, h4, ?_⟩
      rcases hq' with rfl | rfl
      · exact .inl hs
      · exact .inr hs
    · rw [h, if_ok_iff] at hx
      obtain ⟨⟨h1, h2, h3, h4⟩, rfl⟩ := hx
      refine .inr ⟨ds, ⟨h1, h2, rfl, h3⟩, h4, ?_⟩
      rcases hq' with rfl | rfl
      · exact .inl hs
      · exact .inr hs
    · rw [h, if_ok_iff] at hx
      obtain ⟨⟨h1, h2, h3, h4⟩, rfl⟩ := hx
      exact .inr ⟨ds, ⟨h1, h2, rfl, h3⟩, h4, hs⟩
    · rw [h] at hx
      by_cases hs : s = []
      · rw [if_pos hs] at hx; cases hx; exact .inl ⟨hs, rfl⟩
      · rw [if_neg hs, if_ok_iff] at hx
        obtain ⟨⟨h1, h2⟩, rfl⟩ := hx
        exact .inr ⟨s, ⟨hs, h1, rfl, h2⟩, rfl⟩
  · rintro (⟨rfl, rfl⟩ | ⟨ds, ⟨h1, h2, h3, h4⟩, hm⟩)
    · decide
    · obtain ⟨n, k⟩ := x
      simp only at h3 h4 hm
      unfold MorohashiId.parse MorohashiId.getId MorohashiId.getIdType
      cases k with
      | plain =>
        subst hm
        obtain ⟨t, b, rfl, ht, hb⟩ := digits_snoc h1 h2
        have hsu : isSupplemental (t ++ [b]) = false := by
          unfold isSupplemental
          cases t with
          | nil =>
            simp only [List.nil_append, List.head?_cons, beq_eq_false_iff_ne, ne_eq, Option.some.injEq]
            rintro rfl; cases hb
          | cons y t =>
            simp only [List.cons_append, List.head?_cons, beq_eq_false_iff_ne, ne_eq, Option.some.injEq]
            rintro rfl
            simp [isDigitChar] at ht
        have hv := validate_eq [] (t ++ [b]) []
        simp only [List.nil_append, List.append_nil, List.length_nil, true_and] at hv
        rw [if_neg h1, if_pos ⟨h1, h2, by omega, .inl trivial⟩] at hv
        simp only [(no_suffix hb).1, (no_suffix hb).2, hsu, Bool.false_eq_true, if_false, hv, Res.bind_ok, h3]
      | prime =>
        have hv : ∀ c, morohashiValidate (ds ++ [c]) 0 1 = .ok n := by
          intro c
          have := validate_eq [] ds [c]
          simp only [List.nil_append, List.length_nil, List.length_singleton] at this
          rw [if_neg (by simp), if_pos ⟨h1, h2, by omega, .inr (by omega)⟩, h3] at this
          exact this
        have hd : ∀ c, isDoublePrime (ds ++ [c]) = false := fun c => not_double h1 h2
        have hp : isPrime s = true := by
          unfold isPrime
          rcases hm.2 with rfl | rfl
          · rw [endsWith_self]; rfl
          · rw [endsWith_self]; exact Bool.or_true _
        rcases hm.2 with h | h <;> rw [h] at hp ⊢ <;>
          simp only [hd, hv, hp, Bool.false_eq_true, if_false, if_true, Res.bind_ok]
      | doublePrime =>
        have hv : ∀ c c', morohashiValidate (ds ++ [c, c']) 0 2 = .ok n := by
          intro c c'
          have := validate_eq [] ds [c, c']
          simp only [List.nil_append, List.length_nil, List.length_cons, Nat.zero_add] at this
          rw [if_neg (by simp), if_pos ⟨h1, h2, by omega, .inr (by omega)⟩, h3] at this
          exact this
        have hd : isDoublePrime s = true := by
          unfold isDoublePrime
          rcases hm.2 with rfl | rfl
          · rw [endsWith_self]; rfl
          · rw [endsWith_self]; exact Bool.or_true _
        rcases hm.2 with h | h <;> rw [h] at hd ⊢ <;>
          simp only [hd, hv, if_true, Res.bind_ok]
      | supplemental =>
        obtain ⟨hn, rfl⟩ := hm
        obtain ⟨t, b, e, ht, hb⟩ := digits_snoc h1 h2
        have hns := no_suffix (t := u8!"H" ++ t) hb
        rw [List.append_assoc, ← e] at hns
        have hsu : isSupplemental (u8!"H" ++ ds) = true := rfl
        have hv := validate_eq (u8!"H") ds []
        simp only [List.append_nil, List.length_nil, List.length_singleton] at hv
        rw [if_neg (by simp), if_pos ⟨h1, h2, by omega, .inr (by omega)⟩, h3] at hv
        simp only [hns.1, hns.2, hsu, Bool.false_eq_true, if_false, if_true, hv, Res.bind_ok]

/-- The text determines the id. -/
theorem C37_unique (s : Str) (x y : MorohashiId) (h : IsMorohashi s x) (h' : IsMorohashi s y) : x = y := by
  have := (C37_exact s x).mpr h
  rw [(C37_exact s y).mpr h'] at this
  exact (Res.ok.inj this).symm

example : MorohashiId.parse (u8!"00123P") = .ok ⟨123, .prime⟩ := by decide
example : MorohashiId.parse (u8!"65535''") = .ok ⟨65535, .doublePrime⟩ := by decide
example : MorohashiId.parse (u8!"65536") = .throw .domain := by decide
example : MorohashiId.parse (u8!"H0") = .throw .domain := by decide
example : MorohashiId.parse (u8!"000") = .ok {} := by decide

/-! ### C38 -/

/-- An id that the constructors can produce: 16 bits, not zero with a mark. -/
def MorohashiId.Valid (x : MorohashiId) : Prop := x.id ≤ 65535 ∧ (x.idType ≠ .plain → x.id ≠ 0)

theorem C38_valid (s : Str) (x : MorohashiId) (h : MorohashiId.parse s = .ok x) : x.Valid := by
  rcases (C37_exact s x).mp h with ⟨_, rfl⟩ | ⟨ds, ⟨_, _, _, h4⟩, hm⟩
  · exact ⟨by decide, fun h => absurd rfl h⟩
  · obtain ⟨n, k⟩ := x
    refine ⟨h4, fun hk => ?_⟩
    cases k with
    | plain => exact absurd rfl hk
    | prime => exact hm.1
    | doublePrime => exact hm.1
    | supplemental => exact hm.1

/-- C38: printing and parsing gives the same id, for every id (the empty one included). -/
theorem C38_round_trip (x : MorohashiId) (h : x.Valid) : MorohashiId.parse x.toString = .ok x := by
  rw [C37_exact]
  obtain ⟨n, k⟩ := x
  obtain ⟨h1, h2⟩ := h
  simp only at h1 h2
  unfold MorohashiId.toString
  by_cases hn : n = 0
  · subst hn
    cases k with
    | plain => exact .inl ⟨rfl, rfl⟩
    | prime => exact absurd rfl (h2 (by decide))
    | doublePrime => exact absurd rfl (h2 (by decide))
    | supplemental => exact absurd rfl (h2 (by decide))
  · refine .inr ⟨toDec n, ⟨toDec_ne_nil n, toDec_digits n, toDec_value n, h1⟩, ?_⟩
    simp only [ne_eq, hn, not_false_eq_true, if_true]
    cases k with
    | plain => rfl
    | prime => exact ⟨trivial, .inl rfl⟩
    | doublePrime => exact ⟨trivial, .inl rfl⟩
    | supplemental => exact ⟨trivial, rfl⟩

/-- Distinct ids print differently. -/
theorem C38_injective (x y : MorohashiId) (hx : x.Valid) (hy : y.Valid) (h : x.toString = y.toString) : x = y := by
  have := C38_round_trip x hx
  rw [h, C38_round_trip y hy] at this
  exact (Res.ok.inj this).symm

theorem cmp_lt_iff (x y : MorohashiId) : x.cmp y = .lt ↔
    x.id < y.id ∨ (x.id = y.id ∧ x.idType.toNat < y.idType.toNat) := by
  unfold MorohashiId.cmp
  rw [Ordering.then_eq_lt, Nat.compare_eq_lt, Nat.compare_eq_lt, Nat.compare_eq_eq]

theorem cmp_eq_iff (x y : MorohashiId) : x.cmp y = .eq ↔ x = y := by
  unfold MorohashiId.cmp
  rw [Ordering.then_eq_eq, Nat.compare_eq_eq, Nat.compare_eq_eq]
  obtain ⟨n, k⟩ := x
  obtain ⟨m, l⟩ := y
  simp only [MorohashiId.mk.injEq]
  constructor
  · rintro ⟨h1, h2⟩
    refine ⟨h1, ?_⟩
    cases k <;> cases l <;> first | rfl | cases h2
  · rintro ⟨h1, rfl⟩; exact ⟨h1, rfl⟩

/-- The order is total and agrees with equality. -/
theorem C38_order (x y z : MorohashiId) :
    (x.cmp y = .eq ↔ x = y) ∧ ¬ x.cmp x = .lt ∧
    (x.cmp y = .lt → y.cmp z = .lt → x.cmp z = .lt) ∧
    (x.cmp y = .lt ∨ x = y ∨ y.cmp x = .lt) := by
  refine ⟨cmp_eq_iff x y, by rw [cmp_lt_iff]; omega, ?_, ?_⟩
  · simp only [cmp_lt_iff]; omega
  · rw [← cmp_eq_iff]
    unfold MorohashiId.cmp
    rw [Ordering.then_eq_lt, Ordering.then_eq_eq, Ordering.then_eq_lt]
    simp only [Nat.compare_eq_lt, Nat.compare_eq_eq]; omega

/-- Ids are ordered by number; with the same number by their kind: plain, prime, double prime, supplemental. -/
theorem C38_order_kinds (n m : Nat) (k l : IdType) :
    (n < m → MorohashiId.cmp ⟨n, k⟩ ⟨m, l⟩ = .lt) ∧
    MorohashiId.cmp ⟨n, .plain⟩ ⟨n, .prime⟩ = .lt ∧ MorohashiId.cmp ⟨n, .prime⟩ ⟨n, .doublePrime⟩ = .lt ∧
    MorohashiId.cmp ⟨n, .doublePrime⟩ ⟨n, .supplemental⟩ = .lt := by
  simp only [cmp_lt_iff]
  exact ⟨fun h => .inl h, .inr ⟨trivial, by decide⟩, .inr ⟨trivial, by decide⟩, .inr ⟨trivial, by decide⟩⟩

/-! ### C39: stroke counts -/

/-- One count: 1 to 64, anything else is a range error. -/
theorem C39_one (v : UInt8) :
    (1 ≤ v.toNat ∧ v.toNat ≤ 64 → Strokes.make v = .ok ⟨v, 0⟩) ∧
    (¬ (1 ≤ v.toNat ∧ v.toNat ≤ 64) → Strokes.make v = .throw .range) := by
  unfold Strokes.make
  have : (v = 0 ∨ v > 64) ↔ ¬ (1 ≤ v.toNat ∧ v.toNat ≤ 64) := by
    rw [gt_iff_lt, UInt8.lt_iff_toNat_lt, ← UInt8.toNat_inj]
    show v.toNat = 0 ∨ 64 < v.toNat ↔ _
    omega
  exact ⟨fun h => by rw [if_neg (fun h' => this.mp h' h)], fun h => by rw [if_pos (this.mpr h)]⟩

/-- Two counts: 2 to 64 and 3 to 33 and different. -/
theorem C39_two (v w : UInt8) :
    (2 ≤ v.toNat ∧ v.toNat ≤ 64 ∧ 3 ≤ w.toNat ∧ w.toNat ≤ 33 ∧ v ≠ w → Strokes.make2 v w = .ok ⟨v, w⟩) ∧
    (¬ (2 ≤ v.toNat ∧ v.toNat ≤ 64 ∧ 3 ≤ w.toNat ∧ w.toNat ≤ 33) → Strokes.make2 v w = .throw .range) ∧
    (2 ≤ v.toNat ∧ v.toNat ≤ 64 ∧ 3 ≤ w.toNat ∧ w.toNat ≤ 33 ∧ v = w → Strokes.make2 v w = .throw .domain) := by
  unfold Strokes.make2
  have h1 : (v < 2 ∨ v > 64) ↔ ¬ (2 ≤ v.toNat ∧ v.toNat ≤ 64) := by
    rw [gt_iff_lt, UInt8.lt_iff_toNat_lt, UInt8.lt_iff_toNat_lt]
    show v.toNat < 2 ∨ 64 < v.toNat ↔ _
    omega
  have h2 : (w < 3 ∨ w > 33) ↔ ¬ (3 ≤ w.toNat ∧ w.toNat ≤ 33) := by
    rw [gt_iff_lt, UInt8.lt_iff_toNat_lt, UInt8.lt_iff_toNat_lt]
    show w.toNat < 3 ∨ 33 < w.toNat ↔ _
    omega
  simp only [h1, h2]
  refine ⟨?_, ?_, ?_⟩
  · rintro ⟨a, b, c, d, e⟩
    rw [if_neg (fun h => h ⟨a, b⟩), if_neg (fun h => h ⟨c, d⟩), if_neg e]
  · intro h
    by_cases ha : 2 ≤ v.toNat ∧ v.toNat ≤ 64
    · rw [if_neg (fun h => h ha), if_pos (fun hc => h ⟨ha.1, ha.2, hc⟩)]
    · rw [if_pos ha]
  · rintro ⟨a, b, c, d, e⟩
    rw [if_neg (fun h => h ⟨a, b⟩), if_neg (fun h => h ⟨c, d⟩), if_pos e]

/-- Every stroke count that exists is within the bounds. -/
theorem C39_invariant (s : Strokes) (h : (∃ v, Strokes.make v = .ok s) ∨ ∃ v w, Strokes.make2 v w = .ok s) :
    1 ≤ s.value.toNat ∧ s.value.toNat ≤ 64 ∧
    (s.variant ≠ 0 → 2 ≤ s.value.toNat ∧ 3 ≤ s.variant.toNat ∧ s.variant.toNat ≤ 33 ∧ s.variant ≠ s.value) := by
  rcases h with ⟨v, h⟩ | ⟨v, w, h⟩
  · by_cases hv : 1 ≤ v.toNat ∧ v.toNat ≤ 64
    · rw [(C39_one v).1 hv] at h; cases h
      exact ⟨hv.1, hv.2, fun h => absurd rfl h⟩
    · rw [(C39_one v).2 hv] at h; cases h
  · by_cases hb : 2 ≤ v.toNat ∧ v.toNat ≤ 64 ∧ 3 ≤ w.toNat ∧ w.toNat ≤ 33
    · by_cases e : v = w
      · rw [(C39_two v w).2.2 ⟨hb.1, hb.2.1, hb.2.2.1, hb.2.2.2, e⟩] at h; cases h
      · rw [(C39_two v w).1 ⟨hb.1, hb.2.1, hb.2.2.1, hb.2.2.2, e⟩] at h; cases h
        exact ⟨Nat.le_trans (by omega) hb.1, hb.2.1, fun _ => ⟨hb.1, hb.2.2.1, hb.2.2.2, Ne.symm e⟩⟩
    · rw [(C39_two v w).2.1 hb] at h; cases h

/-- The printed form with variant determines the stroke counts. -/
theorem C39_printed (s t : Strokes) (h : s.toString true = t.toString true) : s = t := by
  obtain ⟨v, w⟩ := s
  obtain ⟨v', w'⟩ := t
  have key : ∀ (a : Str) (r r' b : Str), a.all isDigitChar = true → b.all isDigitChar = true →
      (r = [] ∨ ∃ x, r = 0x2f :: x) → (r' = [] ∨ ∃ x, r' = 0x2f :: x) → a ++ r = b ++ r' → a = b ∧ r = r' := by
    intro a
    induction a with
    | nil =>
      intro r r' b _ hb hr hr' e
      cases b with
      | nil => exact ⟨rfl, e⟩
      | cons c b =>
        rcases hr with rfl | ⟨x, rfl⟩
        · simp at e
        · simp only [List.nil_append, List.cons_append, List.cons.injEq] at e
          rw [← e.1] at hb; simp [isDigitChar] at hb
    | cons c a ih =>
      intro r r' b ha hb hr hr' e
      cases b with
      | nil =>
        rcases hr' with rfl | ⟨x, rfl⟩
        · simp at e
        · simp only [List.nil_append, List.cons_append, List.cons.injEq] at e
          rw [e.1] at ha; simp [isDigitChar] at ha
      | cons d b =>
        simp only [List.cons_append, List.cons.injEq] at e
        rw [List.all_cons, Bool.and_eq_true] at ha hb
        obtain ⟨h1, h2⟩ := ih r r' b ha.2 hb.2 hr hr' e.2
        exact ⟨by rw [e.1, h1], h2⟩
  unfold Strokes.toString at h
  simp only [true_and] at h
  obtain ⟨h1, h2⟩ := key _ _ _ _ (toDec_digits _) (toDec_digits _)
    (by split <;> simp) (by split <;> simp) h
  have hv := UInt8.toNat_inj.mp (toDec_injective h1)
  subst hv
  congr 1
  by_cases hw : w = 0
  · by_cases hw' : w' = 0
    · rw [hw, hw']
    · simp [hw, hw'] at h2
  · by_cases hw' : w' = 0
    · simp [hw, hw'] at h2
    · simp only [ne_eq, hw, hw', not_false_eq_true, if_true, List.cons.injEq, true_and] at h2
      exact UInt8.toNat_inj.mp (toDec_injective h2)

example : (Strokes.make2 8 9) = .ok ⟨8, 9⟩ := by decide
example : Strokes.toString ⟨8, 9⟩ true = u8!"8/9" := by decide

end KT
