import Verif.Model.KanjiData
/-!
# C44: lookup by frequency

Model: `Verif/Model/KanjiData.lean`.
-/
namespace KT

/-- Insert kanji with ranks `r`, `r + 1`, …, in order. -/
def addRanked {α : Type} : List α → Nat → FreqData α → Res (FreqData α)
  | [], _, d => .ok d
  | k :: ks, r, d => (d.add k r).bind (addRanked ks (r + 1))

/-- What a bucket holds. -/
def bucketOf {α : Type} (l : List α) (b : Nat) : List α :=
  if b < 9 then (l.drop (250 * b)).take 250 else l.drop 2250

theorem bucketOf_snoc {α : Type} (l : List α) (k : α) (b : Nat) (hb : b < 10) :
    bucketOf (l ++ [k]) b =
      if (if l.length / 250 < 10 then l.length / 250 else 9) = b then bucketOf l b ++ [k] else bucketOf l b := by
  unfold bucketOf
  by_cases h9 : b < 9
  · rw [if_pos h9, if_pos h9, List.drop_append, List.take_append, List.length_drop]
    by_cases h1 : l.length < 250 * b
    · have e1 : ¬ (if l.length / 250 < 10 then l.length / 250 else 9) = b := by split <;> omega
      rw [if_neg e1]
      have : [k].drop (250 * b - l.length) = [] := by
        rw [List.drop_eq_nil_of_le]; simp; omega
      rw [this]; simp
    · have e0 : 250 * b - l.length = 0 := by omega
      rw [e0, List.drop_zero]
      by_cases h2 : l.length - 250 * b < 250
      · have e1 : (if l.length / 250 < 10 then l.length / 250 else 9) = b := by split <;> omega
        rw [if_pos e1]
        have : 250 - (l.length - 250 * b) = (249 - (l.length - 250 * b)) + 1 := by omega
        rw [this, List.take_succ_cons, List.take_nil]
      · have e1 : ¬ (if l.length / 250 < 10 then l.length / 250 else 9) = b := by split <;> omega
        rw [if_neg e1]
        have : 250 - (l.length - 250 * b) = 0 := by omega
        rw [this]; simp
  · have : b = 9 := by omega
    subst this
    rw [if_neg h9, if_neg h9, List.drop_append]
    by_cases h1 : l.length < 2250
    · have e1 : ¬ (if l.length / 250 < 10 then l.length / 250 else 9) = 9 := by split <;> omega
      rw [if_neg e1]
      have : [k].drop (2250 - l.length) = [] := by
        rw [List.drop_eq_nil_of_le]; simp; omega
      rw [this]; simp
    · have e1 : (if l.length / 250 < 10 then l.length / 250 else 9) = 9 := by split <;> omega
      rw [if_pos e1, show 2250 - l.length = 0 by omega]; rfl

/-- The members after inserting `l`. -/
def rankedData {α : Type} (l : List α) (m : Nat) : FreqData α :=
  ⟨(List.range 10).map (bucketOf l), if l.length = 0 then m else max m (l.length + 1)⟩

theorem add_ranked {α : Type} (l : List α) (k : α) (m : Nat) (h : l.length < 65534) :
    (rankedData l m).add k (l.length + 1) = .ok (rankedData (l ++ [k]) m) := by
  unfold FreqData.add
  rw [if_neg (by omega)]
  simp only [Nat.add_sub_cancel, Res.ok.injEq, rankedData, FreqData.mk.injEq]
  refine ⟨?_, ?_⟩
  · apply List.ext_getElem?
    intro i
    rw [List.getElem?_modify, List.getElem?_map, List.getElem?_map]
    by_cases hi : i < 10
    · rw [List.getElem?_range hi]
      simp only [Option.map_some, Option.map_eq_map]
      rw [bucketOf_snoc l k i hi]
    · rw [List.getElem?_eq_none (by simpa using hi)]; simp
  · have hlen : (l ++ [k]).length = l.length + 1 := by simp
    rw [hlen, if_neg (by omega : ¬ l.length + 1 = 0)]
    have hmod : (l.length + 1 + 1) % 65536 = l.length + 1 + 1 := Nat.mod_eq_of_lt (by omega)
    rw [hmod]
    by_cases h0 : l.length = 0
    · simp only [h0, if_true]; split <;> omega
    · simp only [h0, if_false]; split <;> omega

theorem addRanked_spec {α : Type} (l l' : List α) (m : Nat) (h : l.length + l'.length ≤ 65534) :
    addRanked l' (l.length + 1) (rankedData l m) = .ok (rankedData (l ++ l') m) := by
  induction l' generalizing l with
  | nil => simp [addRanked]
  | cons k ks ih =>
    simp only [List.length_cons] at h
    rw [addRanked, add_ranked l k m (by omega)]
    have := ih (l ++ [k]) (by simp; omega)
    simp only [List.length_append, List.length_singleton, List.append_assoc, List.singleton_append] at this
    exact this

theorem addRanked_all {α : Type} (l : List α) (m : Nat) (h : l.length ≤ 65534) :
    addRanked l 1 { maxFrequency := m } = .ok (rankedData l m) := by
  have := addRanked_spec [] l m (by simpa using h)
  exact this

/-- A rank above the capacity. -/
theorem find_ranked_beyond {α : Type} (l : List α) (m r : Nat) (h1 : 2750 < r)
    (h2 : r < (rankedData l m).maxFrequency) : (rankedData l m).find r = .ub := by
  unfold FreqData.find
  rw [if_neg (by omega)]
  have hb : ¬ (r - 1) / 250 = 10 := by omega
  simp only [hb, if_false]
  have : (rankedData l m).buckets[(r - 1) / 250]? = none := by
    apply List.getElem?_eq_none
    show ((List.range 10).map _).length ≤ _
    simp; omega
  rw [this]

/-- A rank within the capacity. -/
theorem find_ranked_within {α : Type} (l : List α) (m r : Nat) (h0 : 0 < r) (h1 : r ≤ 2750)
    (h2 : r < (rankedData l m).maxFrequency) :
    (rankedData l m).find r = match l[r - 1]? with | none => .ub | some k => .ok (some k) := by
  unfold FreqData.find
  rw [if_neg (by omega)]
  simp only
  have hlt : (if (r - 1) / 250 = 10 then (r - 1) / 250 - 1 else (r - 1) / 250) < 10 := by split <;> omega
  have hget : (rankedData l m).buckets[if (r - 1) / 250 = 10 then (r - 1) / 250 - 1 else (r - 1) / 250]? =
      some (bucketOf l (if (r - 1) / 250 = 10 then (r - 1) / 250 - 1 else (r - 1) / 250)) := by
    show ((List.range 10).map _)[_]? = _
    rw [List.getElem?_map, List.getElem?_range hlt]; rfl
  rw [hget]
  simp only
  have hx : (bucketOf l (if (r - 1) / 250 = 10 then (r - 1) / 250 - 1 else (r - 1) / 250))[r - 1 -
      (if (r - 1) / 250 = 10 then (r - 1) / 250 - 1 else (r - 1) / 250) * 250]? = l[r - 1]? := by
    unfold bucketOf
    by_cases h10 : (r - 1) / 250 = 10
    · rw [if_pos h10, h10, if_neg (by omega), List.getElem?_drop]; exact congrArg (l[·]?) (by omega)
    · rw [if_neg h10]
      split
      · rw [List.getElem?_take_of_lt (by omega), List.getElem?_drop]; exact congrArg (l[·]?) (by omega)
      · rw [List.getElem?_drop]; exact congrArg (l[·]?) (by omega)
  rw [hx]
  cases l[r - 1]? <;> rfl

/-- For any number of kanji (list files have at most 65534 entries) inserted in the order of their ranks into the
first object of the program, every rank is found and nothing else. -/
def C44_statement : Prop :=
  ∀ (l : List Nat), l.length ≤ 65534 →
    ∃ d, addRanked l 1 {} = .ok d ∧ ∀ r, d.find r = .ok (if r = 0 then none else l[r - 1]?)

/-- With 2751 kanji looking up the last one reads outside of the array of buckets. -/
theorem C44_violated : ¬ C44_statement := by
  intro h
  obtain ⟨l, hl⟩ : ∃ l : List Nat, l.length = 2751 := ⟨_, List.length_replicate (a := 0)⟩
  obtain ⟨d, h1, h2⟩ := h l (by omega)
  rw [addRanked_all l 0 (by omega)] at h1
  cases h1
  have hm : (rankedData l 0).maxFrequency = 2752 := by
    show (if l.length = 0 then 0 else max 0 (l.length + 1)) = 2752
    rw [hl]; rfl
  have := h2 2751
  rw [find_ranked_beyond l 0 2751 (by omega) (by omega)] at this
  cases this

/-- Holds for up to 2750 kanji, also when another object was loaded before if that had no larger rank. -/
theorem C44_partial {α : Type} (l : List α) (hl : l.length ≤ 2750) (m : Nat) (hm : m ≤ l.length + 1) :
    ∃ d, addRanked l 1 { maxFrequency := m } = .ok d ∧
      ∀ r, d.find r = .ok (if r = 0 then none else l[r - 1]?) := by
  refine ⟨rankedData l m, addRanked_all l m (by omega), fun r => ?_⟩
  have hmax : (rankedData l m).maxFrequency = if l.length = 0 then m else l.length + 1 := by
    show (if l.length = 0 then m else max m (l.length + 1)) = _
    split <;> omega
  by_cases h0 : r = 0
  · subst h0
    rfl
  · rw [if_neg h0]
    by_cases hr : r < (rankedData l m).maxFrequency
    · have hlt : r - 1 < l.length := by
        rw [hmax] at hr
        split at hr <;> omega
      rw [find_ranked_within l m r (by omega) (by omega) hr, List.getElem?_eq_getElem hlt]
    · unfold FreqData.find
      rw [if_pos (.inr (by omega))]
      have : l[r - 1]? = none := by
        apply List.getElem?_eq_none
        rw [hmax] at hr
        split at hr <;> omega
      rw [this]

/-- `_maxFrequency` is shared by all objects: after an object with more kanji, looking up a rank that only that
object has reads outside of the lists of the other. -/
theorem C44_shared {α : Type} (l : List α) (hl : l.length ≤ 65534) (m r : Nat) (h1 : l.length < r) (h2 : r < m) :
    ∃ d, addRanked l 1 { maxFrequency := m } = .ok d ∧ d.find r = .ub := by
  refine ⟨_, addRanked_all l m hl, ?_⟩
  have hr : r < (rankedData l m).maxFrequency := by
    show r < if l.length = 0 then m else max m (l.length + 1)
    split <;> omega
  by_cases hc : 2750 < r
  · exact find_ranked_beyond l m r hc hr
  · rw [find_ranked_within l m r (by omega) (by omega) hr, List.getElem?_eq_none (by omega)]

example : ∃ d, addRanked [7, 8, 9] 1 {} = .ok d ∧ d.find 2 = .ok (some 8) ∧ d.find 4 = .ok none :=
  ⟨_, rfl, by decide, by decide⟩

end KT
