import Verif.Spec.Order
import Verif.Model.Kanji
import Verif.Props.Str
/-!
# Lemmas about comparisons
-/
namespace KT
open Spec

theorem total_asymm {α : Type} {lt : α → α → Bool} (h : StrictTotalOrder lt) (x y : α) (hxy : lt x y = true) :
    lt y x = false := by
  cases hyx : lt y x with
  | false => rfl
  | true => have := h.trans x y x hxy hyx; rw [h.irrefl] at this; cases this

/-- Comparing by a key. -/
theorem swo_key {α β : Type} (f : α → β) {lt : β → β → Bool} (h : StrictTotalOrder lt) :
    StrictWeakOrder fun x y => lt (f x) (f y) where
  irrefl x := h.irrefl _
  asymm x y := total_asymm h _ _
  trans x y z := h.trans _ _ _
  incomp x y z hxy hyz := by
    have e1 : f x = f y := by rcases h.total (f x) (f y) with g | g | g <;> simp_all
    have e2 : f y = f z := by rcases h.total (f y) (f z) with g | g | g <;> simp_all
    rw [e1, e2]; exact ⟨h.irrefl _, h.irrefl _⟩

/-- Comparing by a key and then by another order. -/
theorem swo_lex {α β : Type} [BEq β] [LawfulBEq β] (f : α → β) {lt : β → β → Bool} (h : StrictTotalOrder lt)
    {r : α → α → Bool} (hr : StrictWeakOrder r) :
    StrictWeakOrder fun x y => lt (f x) (f y) || (f x == f y && r x y) where
  irrefl x := by simp [h.irrefl, hr.irrefl]
  asymm x y hxy := by
    simp only [Bool.or_eq_true, Bool.and_eq_true, beq_iff_eq, Bool.or_eq_false_iff, Bool.and_eq_false_iff] at *
    rcases hxy with g | ⟨g1, g2⟩
    · refine ⟨total_asymm h _ _ g, .inl ?_⟩
      simp only [beq_eq_false_iff_ne, ne_eq]
      intro e; rw [e, h.irrefl] at g; cases g
    · rw [g1]; exact ⟨h.irrefl _, .inr (hr.asymm _ _ g2)⟩
  trans x y z hxy hyz := by
    simp only [Bool.or_eq_true, Bool.and_eq_true, beq_iff_eq] at *
    rcases hxy with g | ⟨g1, g2⟩
    · rcases hyz with k | ⟨k1, k2⟩
      · exact .inl (h.trans _ _ _ g k)
      · rw [← k1]; exact .inl g
    · rw [g1]
      rcases hyz with k | ⟨k1, k2⟩
      · exact .inl k
      · exact .inr ⟨k1, hr.trans _ _ _ g2 k2⟩
  incomp x y z hxy hyz := by
    have key : ∀ a b, (lt (f a) (f b) || (f a == f b && r a b)) = false →
        (lt (f b) (f a) || (f b == f a && r b a)) = false → f a = f b ∧ r a b = false ∧ r b a = false := by
      intro a b h1 h2
      simp only [Bool.or_eq_false_iff] at h1 h2
      have e : f a = f b := by rcases h.total (f a) (f b) with g | g | g <;> simp_all
      simp only [e, BEq.rfl, Bool.true_and] at h1 h2
      exact ⟨e, h1.2, h2.2⟩
    obtain ⟨e1, a1, a2⟩ := key _ _ hxy.1 hxy.2
    obtain ⟨e2, b1, b2⟩ := key _ _ hyz.1 hyz.2
    have := hr.incomp x y z ⟨a1, a2⟩ ⟨b1, b2⟩
    simp [e1, e2, h.irrefl, this.1, this.2]

theorem nat_total : StrictTotalOrder fun x y : Nat => decide (x < y) where
  irrefl x := by simp
  trans x y z := by simp only [decide_eq_true_eq]; omega
  total x y := by simp only [decide_eq_true_eq]; omega

theorem u8_total : StrictTotalOrder fun x y : UInt8 => decide (x < y) where
  irrefl x := by simp
  trans x y z := by simp only [decide_eq_true_eq, UInt8.lt_iff_toNat_lt]; omega
  total x y := by simp only [decide_eq_true_eq, UInt8.lt_iff_toNat_lt, ← UInt8.toNat_inj]; omega

theorem u16_total : StrictTotalOrder fun x y : UInt16 => decide (x < y) where
  irrefl x := by simp
  trans x y z := by simp only [decide_eq_true_eq, UInt16.lt_iff_toNat_lt]; omega
  total x y := by simp only [decide_eq_true_eq, UInt16.lt_iff_toNat_lt, ← UInt16.toNat_inj]; omega

@[simp] theorem strLt_nil (s : Str) : strLt s [] = false := by cases s <;> rfl

theorem strLt_total : StrictTotalOrder strLt where
  irrefl x := by
    induction x with
    | nil => rfl
    | cons a x ih => simp [strLt, ih]
  trans x y z := by
    induction x generalizing y z with
    | nil => cases y <;> cases z <;> simp [strLt]
    | cons a x ih =>
      cases y with
      | nil => simp
      | cons b y =>
        cases z with
        | nil => simp
        | cons c z =>
          simp only [strLt, Bool.or_eq_true, decide_eq_true_eq, Bool.and_eq_true, beq_iff_eq]
          rintro (g | ⟨rfl, g⟩) (k | ⟨rfl, k⟩)
          · exact .inl (by rw [UInt8.lt_iff_toNat_lt] at *; omega)
          · exact .inl g
          · exact .inl k
          · exact .inr ⟨rfl, ih _ _ g k⟩
  total x y := by
    induction x generalizing y with
    | nil => cases y <;> simp [strLt]
    | cons a x ih =>
      cases y with
      | nil => simp [strLt]
      | cons b y =>
        simp only [strLt, Bool.or_eq_true, decide_eq_true_eq, Bool.and_eq_true, beq_iff_eq, List.cons.injEq]
        by_cases e : a = b
        · subst e
          rcases ih y with g | rfl | g
          · exact .inl (.inr ⟨rfl, g⟩)
          · exact .inr (.inl ⟨rfl, rfl⟩)
          · exact .inr (.inr (.inr ⟨rfl, g⟩))
        · rw [← UInt8.toNat_inj] at e
          simp only [UInt8.lt_iff_toNat_lt]
          omega

theorem strokes_cmp_lt (x y : Strokes) :
    (x.cmp y == .lt) = (decide (x.value < y.value) || (x.value == y.value && decide (x.variant < y.variant))) := by
  have key : ∀ a b : UInt8, compare a b = if a < b then .lt else if a = b then .eq else .gt := fun a b => rfl
  rw [Bool.eq_iff_iff]
  simp only [Strokes.cmp, key, UInt8.lt_iff_toNat_lt, ← UInt8.toNat_inj, Bool.or_eq_true, decide_eq_true_eq,
    Bool.and_eq_true, beq_iff_eq]
  by_cases h1 : x.value.toNat < y.value.toNat
  · simp [h1, Ordering.then]
  · by_cases h2 : x.value.toNat = y.value.toNat
    · simp only [h2, Nat.lt_irrefl, if_false, if_true, Ordering.then, false_or, true_and]
      by_cases h3 : x.variant.toNat < y.variant.toNat
      · simp [h3]
      · simp only [h3, if_false, iff_false]; split <;> simp
    · simp [h1, h2, Ordering.then]

theorem strokes_total : StrictTotalOrder fun x y : Strokes => x.cmp y == .lt where
  irrefl x := by rw [strokes_cmp_lt]; simp
  trans x y z := by
    simp only [strokes_cmp_lt, Bool.or_eq_true, decide_eq_true_eq, Bool.and_eq_true, beq_iff_eq,
      UInt8.lt_iff_toNat_lt, ← UInt8.toNat_inj]
    omega
  total x y := by
    have e : x = y ↔ x.value = y.value ∧ x.variant = y.variant := by
      cases x; cases y; simp
    simp only [strokes_cmp_lt, Bool.or_eq_true, decide_eq_true_eq, Bool.and_eq_true, beq_iff_eq,
      UInt8.lt_iff_toNat_lt, e, ← UInt8.toNat_inj]
    omega

/-! ## Hexadecimal text -/

theorem strLt_append (s t p q : Str) (hl : s.length = t.length) :
    strLt (s ++ p) (t ++ q) = (strLt s t || (s == t && strLt p q)) := by
  induction s generalizing t with
  | nil => cases t with
    | nil => simp
    | cons b t => simp at hl
  | cons a s ih => cases t with
    | nil => simp at hl
    | cons b t =>
      rw [List.cons_append, List.cons_append, strLt, strLt, ih t (by simpa using hl), List.cons_beq_cons]
      cases decide (a < b) <;> cases (a == b) <;> simp

theorem digit_lt (a b : UInt8) (i j : Nat) (ha : a.toNat < 0x61) (hb : b.toNat < 0x61)
    (hi : digitValue a = some i) (hj : digitValue b = some j) : (a < b ↔ i < j) ∧ (a = b ↔ i = j) := by
  unfold digitValue at hi hj
  rw [UInt8.lt_iff_toNat_lt, ← UInt8.toNat_inj]
  split at hi <;> split at hj <;>
    (try split at hi) <;> (try split at hj) <;> (try split at hi) <;> (try split at hj) <;>
    simp only [Option.some.injEq, reduceCtorEq] at hi hj <;> omega

/-- Upper case digit texts of the same length are ordered like their values. -/
theorem readFrom_strLt (s t : Str) (a b x y : Nat) (hl : s.length = t.length) (hs : NoLowerDigits s)
    (ht : NoLowerDigits t) (hx : readFrom 16 a s = some x) (hy : readFrom 16 b t = some y) :
    x < y ↔ a < b ∨ (a = b ∧ strLt s t = true) := by
  induction s generalizing t a b with
  | nil =>
    cases t with
    | nil => simp only [readFrom, Option.some.injEq] at hx hy; subst hx hy; simp
    | cons => simp at hl
  | cons c s ih =>
    cases t with
    | nil => simp at hl
    | cons d t =>
      simp only [readFrom] at hx hy
      split at hx
      · simp at hx
      rename_i i hi
      have hi16 : i < 16 := by
        apply Classical.byContradiction; intro h; rw [if_neg h] at hx; cases hx
      rw [if_pos hi16] at hx
      split at hy
      · simp at hy
      rename_i j hj
      have hj16 : j < 16 := by
        apply Classical.byContradiction; intro h; rw [if_neg h] at hy; cases hy
      rw [if_pos hj16] at hy
      obtain ⟨d1, d2⟩ := digit_lt c d i j (hs c (by simp)) (ht d (by simp)) hi hj
      rw [ih t (a * 16 + i) (b * 16 + j) (by simpa using hl) (fun b hb => hs b (by simp [hb]))
        (fun b hb => ht b (by simp [hb])) hx hy]
      simp only [strLt, Bool.or_eq_true, decide_eq_true_eq, Bool.and_eq_true, beq_iff_eq, d1, d2]
      constructor
      · rintro (h | ⟨h1, h2⟩)
        · by_cases hab : a < b
          · exact .inl hab
          · exact .inr ⟨by omega, .inl (by omega)⟩
        · exact .inr ⟨by omega, .inr ⟨by omega, h2⟩⟩
      · rintro (h | ⟨rfl, h | ⟨rfl, h⟩⟩)
        · exact .inl (by omega)
        · exact .inl (by omega)
        · exact .inr ⟨rfl, h⟩

theorem toUnicode_facts (c : Nat) : readFrom 16 0 (toUnicode c) = some c ∧ NoLowerDigits (toUnicode c) ∧
    4 ≤ (toUnicode c).length ∧ (4 < (toUnicode c).length → 16 ^ ((toUnicode c).length - 1) ≤ c) := by
  obtain ⟨h1, h2, _, h4, h5⟩ := C09_toHex 4 c .upper 4
  have hs : toUnicode c = toHex 4 c .none .upper 4 := rfl
  rw [hs]
  simp only [wantedSize] at h4 h5
  refine ⟨?_, h2 rfl, h4, fun h => ?_⟩
  · rw [readNumber] at h1; split at h1
    · simp at h1
    · exact h1
  · rcases h5 h with g | g
    · rw [g] at h; exact absurd h (by decide)
    · exact g

theorem toUnicode_length (c : Nat) (hc : c < 0x10000) : (toUnicode c).length = 4 := by
  obtain ⟨_, _, h3, h4⟩ := toUnicode_facts c
  by_cases h : 4 < (toUnicode c).length
  · have := h4 h
    have : 16 ^ 4 ≤ 16 ^ ((toUnicode c).length - 1) := Nat.pow_le_pow_right (by decide) (by omega)
    omega
  · omega

theorem toUnicode_length5 (c : Nat) (hc : 0x10000 ≤ c) (hc2 : c < 0x100000) : (toUnicode c).length = 5 := by
  obtain ⟨h1, _, h3, h4⟩ := toUnicode_facts c
  have h5 := (readFrom_lt 16 (by decide) _ _ _ h1).2
  by_cases h : 5 < (toUnicode c).length
  · have := h4 (by omega)
    have : 16 ^ 5 ≤ 16 ^ ((toUnicode c).length - 1) := Nat.pow_le_pow_right (by decide) (by omega)
    omega
  · by_cases h' : (toUnicode c).length = 4
    · rw [h'] at h5; omega
    · omega

theorem toUnicode_lt (c d : Nat) (hl : (toUnicode c).length = (toUnicode d).length) :
    strLt (toUnicode c) (toUnicode d) = decide (c < d) ∧ (toUnicode c == toUnicode d) = decide (c = d) := by
  obtain ⟨h1, h2, _, _⟩ := toUnicode_facts c
  obtain ⟨k1, k2, _, _⟩ := toUnicode_facts d
  have := readFrom_strLt _ _ 0 0 c d hl h2 k2 h1 k1
  constructor
  · rw [Bool.eq_iff_iff, decide_eq_true_eq, this]; simp
  · rw [Bool.eq_iff_iff, decide_eq_true_eq, beq_iff_eq]
    constructor
    · intro e; rw [e, k1] at h1; exact (Option.some.inj h1).symm
    · rintro rfl; rfl

theorem toUnicode_ne_nil (c : Nat) : toUnicode c ≠ [] := by
  obtain ⟨_, _, h3, _⟩ := toUnicode_facts c
  intro h; rw [h] at h3; simp at h3

/-- The text of a sequence of code points, without the accumulator. -/
def codesText : List Nat → Str
  | [] => []
  | [c] => toUnicode c
  | c :: d :: cs => toUnicode c ++ u8!" " ++ codesText (d :: cs)

theorem toUnicodeLoop_eq (cs : List Nat) (r : Str) (hr : r ≠ []) :
    toUnicodeLoop cs r = match cs with | [] => r | _ => r ++ u8!" " ++ codesText cs := by
  induction cs generalizing r with
  | nil => rfl
  | cons c cs ih =>
    have he : r.isEmpty = false := by cases r with | nil => exact absurd rfl hr | cons => rfl
    rw [toUnicodeLoop, he, if_neg (by simp), ih _ (by simp [hr])]
    cases cs with
    | nil => rfl
    | cons d cs => simp [codesText]

theorem toUnicodeCodes_eq (cs : List Nat) : toUnicodeCodes cs = codesText cs := by
  show toUnicodeLoop cs [] = _
  cases cs with
  | nil => rfl
  | cons c cs =>
    rw [toUnicodeLoop]
    show toUnicodeLoop cs (toUnicode c) = _
    rw [toUnicodeLoop_eq _ _ (toUnicode_ne_nil c)]
    cases cs with
    | nil => rfl
    | cons d cs => rfl

theorem codesText_lt (n : Nat) (cs ds : List Nat) (hc : ∀ c ∈ cs, (toUnicode c).length = n)
    (hd : ∀ c ∈ ds, (toUnicode c).length = n) : strLt (codesText cs) (codesText ds) = codesLt cs ds := by
  induction cs generalizing ds with
  | nil =>
    cases ds with
    | nil => rfl
    | cons d ds =>
      have h : ∃ a r, codesText (d :: ds) = a :: r := by
        cases h : codesText (d :: ds) with
        | nil =>
          cases ds with
          | nil => exact absurd h (toUnicode_ne_nil d)
          | cons => simp [codesText] at h
        | cons a r => exact ⟨a, r, rfl⟩
      obtain ⟨a, r, h⟩ := h
      rw [h]; rfl
  | cons c cs ih =>
    cases ds with
    | nil => simp [codesText, codesLt]
    | cons d ds =>
      have hl : (toUnicode c).length = (toUnicode d).length := by rw [hc c (by simp), hd d (by simp)]
      obtain ⟨l1, l2⟩ := toUnicode_lt c d hl
      have ih' := ih ds (fun c h => hc c (by simp [h])) (fun c h => hd c (by simp [h]))
      have hcd : (c == d) = decide (c = d) := rfl
      have step : ∀ p q : Str, strLt p q = codesLt cs ds →
          strLt (toUnicode c ++ p) (toUnicode d ++ q) = codesLt (c :: cs) (d :: ds) := by
        intro p q h
        rw [strLt_append _ _ _ _ hl, l1, l2, h, codesLt, hcd]
      cases cs with
      | nil =>
        cases ds with
        | nil => simpa [codesText] using step [] [] (by rfl)
        | cons e ds => simpa [codesText] using step [] (0x20 :: codesText (e :: ds)) rfl
      | cons b cs =>
        cases ds with
        | nil => simpa [codesText] using step (0x20 :: codesText (b :: cs)) [] rfl
        | cons e ds =>
          have := step (0x20 :: codesText (b :: cs)) (0x20 :: codesText (e :: ds))
            (by rw [strLt, ih']; simp)
          simpa [codesText] using this

end KT
