import Verif.Model.KanjiData
/-!
# Lemmas about association lists
-/
namespace KT

theorem lookup_append {α β : Type} [BEq α] [LawfulBEq α] (m₁ m₂ : List (α × β)) (a : α) :
    (m₁ ++ m₂).lookup a = (m₁.lookup a).or (m₂.lookup a) := by
  induction m₁ with
  | nil => simp
  | cons p m ih =>
    obtain ⟨k, v⟩ := p
    rw [List.cons_append, List.lookup_cons, List.lookup_cons]
    cases a == k <;> simp [ih]

theorem lookup_single {α β : Type} [BEq α] [LawfulBEq α] (a k : α) (v : β) :
    [(k, v)].lookup a = if k == a then some v else none := by
  rw [List.lookup_cons, List.lookup_nil, BEq.comm]
  cases k == a <;> rfl

theorem lookup_mapEmplace {α β : Type} [BEq α] [LawfulBEq α] (m : List (α × β)) (k a : α) (v : β) :
    (mapEmplace m k v).1.lookup a = (m.lookup a).or (if k == a then some v else none) := by
  unfold mapEmplace
  split
  · rename_i h
    cases hka : k == a with
    | false => simp
    | true =>
      rw [eq_of_beq hka] at h
      obtain ⟨w, hw⟩ := Option.isSome_iff_exists.mp h
      simp [hw]
  · rw [lookup_append, lookup_single]

theorem mapEmplace_snd {α β : Type} [BEq α] (m : List (α × β)) (k : α) (v : β) :
    (mapEmplace m k v).2 = (m.lookup k).isNone := by
  unfold mapEmplace
  cases m.lookup k <;> rfl

/-- The list found under a key. -/
def listAt {α β : Type} [BEq α] (m : List (α × List β)) (a : α) : List β := (m.lookup a).getD []

theorem listAt_mapPush {α β : Type} [BEq α] [LawfulBEq α] (m : List (α × List β)) (k a : α) (v : β) :
    listAt (mapPush m k v) a = listAt m a ++ (if k == a then [v] else []) := by
  induction m with
  | nil =>
    rw [mapPush]
    simp only [listAt, lookup_single]
    cases k == a <;> rfl
  | cons p m ih =>
    obtain ⟨k', l⟩ := p
    rw [mapPush]
    cases hk : k' == k with
    | true =>
      have := eq_of_beq hk; subst this
      simp only [if_true, listAt, List.lookup_cons]
      cases ha : a == k' with
      | true => have := eq_of_beq ha; subst this; simp
      | false => rw [BEq.comm] at ha; simp [ha]
    | false =>
      have hne : k' ≠ k := by simpa using hk
      simp only [listAt] at ih
      simp only [Bool.false_eq_true, if_false, listAt, List.lookup_cons]
      cases ha : a == k' with
      | true =>
        have := eq_of_beq ha; subst this
        have : (k == a) = false := by simpa using Ne.symm hne
        simp [this]
      | false => exact ih

theorem lookup_map_key {β γ : Type} (l : List γ) (key : γ → Str) (val : γ → β) (s : Str) :
    (l.map fun x => (key x, val x)).lookup s = (l.find? fun x => key x == s).map val := by
  induction l with
  | nil => rfl
  | cons x l ih =>
    rw [List.map_cons, List.lookup_cons, List.find?_cons, BEq.comm]
    cases key x == s with
    | true => rfl
    | false => exact ih

end KT
