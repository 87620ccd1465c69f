import Verif.Model.StatsProgram
import Verif.Spec.StatsProgram
import Verif.Lemmas.Order
import Verif.Props.Stats
/-!
# Lemmas on sorted lists of names and counts
-/
namespace KT
open Spec

theorem snoc_induction {α : Type} {P : List α → Prop} (h0 : P []) (hs : ∀ l a, P l → P (l ++ [a])) (l : List α) : P l := by
  rw [← List.reverse_reverse l]
  induction l.reverse with
  | nil => exact h0
  | cons a r ih => rw [List.reverse_cons]; exact hs _ _ ih

/-- Increasing lists with the same members are equal. -/
theorem increasing_ext {α : Type} (f : α → Str) : ∀ {a b : List α},
    a.Pairwise (fun x y => strLt (f x) (f y) = true) → b.Pairwise (fun x y => strLt (f x) (f y) = true) →
    (∀ x, x ∈ a ↔ x ∈ b) → a = b
  | [], [], _, _, _ => rfl
  | [], y :: b, _, _, h => by simpa using (h y)
  | x :: a, [], _, _, h => by simpa using (h x)
  | x :: a, y :: b, ha, hb, h => by
    have ha' := List.pairwise_cons.mp ha
    have hb' := List.pairwise_cons.mp hb
    have e : x = y := by
      rcases List.mem_cons.mp ((h x).mp (by simp)) with e | hx
      · exact e
      rcases List.mem_cons.mp ((h y).mpr (by simp)) with e | hy
      · exact e.symm
      have h1 := ha'.1 y hy
      have h2 := hb'.1 x hx
      exact absurd h2 (by rw [total_asymm strLt_total _ _ h1]; simp)
    subst e
    rw [increasing_ext f ha'.2 hb'.2]
    intro z
    have hz := h z
    simp only [List.mem_cons] at hz
    constructor
    · intro hm
      rcases hz.mp (.inr hm) with rfl | h'
      · have := ha'.1 z hm
        rw [strLt_total.irrefl] at this
        exact absurd this (by simp)
      · exact h'
    · intro hm
      rcases hz.mpr (.inr hm) with rfl | h'
      · have := hb'.1 z hm
        rw [strLt_total.irrefl] at this
        exact absurd this (by simp)
      · exact h'

/-! ## `different` -/

theorem insertNew_mem (s x : Str) (l : List Str) : x ∈ insertNew s l ↔ x = s ∨ x ∈ l := by
  induction l with
  | nil => simp [insertNew]
  | cons t l ih =>
    rw [insertNew]
    split
    · simp
    · split
      · next h => subst h; simp
      · simp only [List.mem_cons, ih]
        constructor
        · rintro (h | h | h) <;> simp [h]
        · rintro (h | h | h) <;> simp [h]

theorem insertNew_sorted (s : Str) (l : List Str) (h : l.Pairwise fun x y => strLt x y = true) :
    (insertNew s l).Pairwise fun x y => strLt x y = true := by
  induction l with
  | nil => simp [insertNew]
  | cons t l ih =>
    have h' := List.pairwise_cons.mp h
    rw [insertNew]
    split
    · next hlt =>
      refine List.pairwise_cons.mpr ⟨?_, h⟩
      intro x hx
      rcases List.mem_cons.mp hx with rfl | hx
      · exact hlt
      · exact strLt_total.trans _ _ _ hlt (h'.1 x hx)
    · next hnl =>
      split
      · exact h
      · next hne =>
        refine List.pairwise_cons.mpr ⟨?_, ih h'.2⟩
        intro x hx
        rcases (insertNew_mem s x l).mp hx with rfl | hx
        · rcases strLt_total.total t x with h1 | h1 | h1
          · exact h1
          · exact absurd h1.symm hne
          · exact absurd h1 hnl
        · exact h'.1 x hx

theorem different_mem (x : Str) (l : List Str) : x ∈ different l ↔ x ∈ l := by
  induction l with
  | nil => simp [different]
  | cons t l ih => rw [different, List.foldr_cons, insertNew_mem, List.mem_cons]; exact or_congr_right ih

theorem different_sorted (l : List Str) : (different l).Pairwise fun x y => strLt x y = true := by
  induction l with
  | nil => simp [different]
  | cons t l ih => exact insertNew_sorted t _ ih

theorem different_filter (p : Str → Bool) (l : List Str) : different (l.filter p) = (different l).filter p := by
  refine increasing_ext id (different_sorted _) ((different_sorted l).filter _) ?_
  intro x
  simp [different_mem]

theorem tally_sorted (l : List Str) : (tally l).Pairwise fun x y => strLt x.1 y.1 = true := by
  rw [tally, List.pairwise_map]
  exact different_sorted l

theorem tally_mem (l : List Str) (p : Str × Nat) : p ∈ tally l ↔ p.1 ∈ l ∧ p.2 = l.count p.1 := by
  simp only [tally, List.mem_map, different_mem]
  constructor
  · rintro ⟨s, hs, rfl⟩; exact ⟨hs, rfl⟩
  · rintro ⟨hs, e⟩; exact ⟨p.1, hs, by rw [← e]⟩

/-! ## `byKey` -/

theorem insertKey_perm (p : Str × Nat) (m : List (Str × Nat)) : (insertKey p m).Perm (p :: m) := by
  induction m with
  | nil => exact List.Perm.refl _
  | cons q m ih =>
    rw [insertKey]
    split
    · exact List.Perm.refl _
    · exact (ih.cons q).trans (List.Perm.swap p q m)

theorem byKey_perm (m : List (Str × Nat)) : (byKey m).Perm m := by
  induction m with
  | nil => exact List.Perm.refl _
  | cons p m ih => exact (insertKey_perm p _).trans (ih.cons p)

theorem insertKey_sorted (p : Str × Nat) (m : List (Str × Nat)) (hp : ∀ q ∈ m, q.1 ≠ p.1)
    (h : m.Pairwise fun x y => strLt x.1 y.1 = true) : (insertKey p m).Pairwise fun x y => strLt x.1 y.1 = true := by
  induction m with
  | nil => simp [insertKey]
  | cons q m ih =>
    have h' := List.pairwise_cons.mp h
    rw [insertKey]
    split
    · next hlt =>
      refine List.pairwise_cons.mpr ⟨?_, h⟩
      intro x hx
      rcases List.mem_cons.mp hx with rfl | hx
      · exact hlt
      · exact strLt_total.trans _ _ _ hlt (h'.1 x hx)
    · next hnl =>
      refine List.pairwise_cons.mpr ⟨?_, ih (fun x hx => hp x (by simp [hx])) h'.2⟩
      intro x hx
      rcases List.mem_cons.mp ((insertKey_perm p m).mem_iff.mp hx) with rfl | hx
      · rcases strLt_total.total q.1 x.1 with h1 | h1 | h1
        · exact h1
        · exact absurd h1 (hp q (by simp))
        · exact absurd h1 hnl
      · exact h'.1 x hx

theorem byKey_sorted (m : List (Str × Nat)) (hn : (m.map (·.1)).Nodup) :
    (byKey m).Pairwise fun x y => strLt x.1 y.1 = true := by
  induction m with
  | nil => simp [byKey]
  | cons p m ih =>
    rw [List.map_cons, List.nodup_cons] at hn
    refine insertKey_sorted p _ ?_ (ih hn.2)
    intro q hq e
    refine hn.1 ?_
    rw [← e]
    exact List.mem_map_of_mem ((byKey_perm m).mem_iff.mp hq)

/-! ## Counting -/

/-- A map after its values have been counted one after the other. -/
def incAll (l : List Str) : List (Str × Nat) := l.foldl mapInc []

theorem incAll_snoc (l : List Str) (s : Str) : incAll (l ++ [s]) = mapInc (incAll l) s := by simp [incAll]

theorem incAll_facts (l : List Str) : ((incAll l).map (·.1)).Nodup ∧ (∀ s, s ∈ (incAll l).map (·.1) ↔ s ∈ l) ∧
    (∀ s, ((incAll l).lookup s).getD 0 = l.count s) ∧ ((incAll l).map (·.2)).sum = l.length := by
  refine snoc_induction (P := fun l => ((incAll l).map (·.1)).Nodup ∧ (∀ s, s ∈ (incAll l).map (·.1) ↔ s ∈ l) ∧
    (∀ s, ((incAll l).lookup s).getD 0 = l.count s) ∧ ((incAll l).map (·.2)).sum = l.length) ?_ ?_ l
  · exact ⟨by simp [incAll], by simp [incAll], by simp [incAll], rfl⟩
  · intro l s ⟨h1, h2, h3, h4⟩
    rw [incAll_snoc]
    refine ⟨mapInc_nodup _ _ h1, ?_, ?_, ?_⟩
    · intro x; rw [mapInc_mem, h2]; simp
    · intro x
      rw [lookup_mapInc, h3, List.count_append, List.count_singleton]
    · rw [mapInc_sum, h4]; simp

theorem mapLookup_of_mem {m : List (Str × Nat)} (hn : (m.map (·.1)).Nodup) {p : Str × Nat} (h : p ∈ m) :
    m.lookup p.1 = some p.2 := by
  induction m with
  | nil => simp at h
  | cons q m ih =>
    rw [List.map_cons, List.nodup_cons] at hn
    obtain ⟨a, b⟩ := q
    rw [List.lookup_cons]
    rcases List.mem_cons.mp h with rfl | h
    · simp
    · have : (p.1 == a) = false := by
        rw [beq_eq_false_iff_ne]
        intro e
        refine hn.1 ?_
        show a ∈ _
        rw [← e]
        exact List.mem_map_of_mem (f := (·.1)) h
      rw [this]
      exact ih hn.2 h

/-- The counted values in their order are the tally. -/
theorem byKey_incAll (l : List Str) : byKey (incAll l) = tally l := by
  obtain ⟨h1, h2, h3, _⟩ := incAll_facts l
  refine increasing_ext (·.1) (byKey_sorted _ h1) (tally_sorted l) ?_
  intro p
  rw [(byKey_perm _).mem_iff, tally_mem]
  constructor
  · intro h
    refine ⟨(h2 _).mp (List.mem_map_of_mem h), ?_⟩
    rw [← h3, mapLookup_of_mem h1 h]; rfl
  · rintro ⟨h, e⟩
    obtain ⟨q, hq, e2⟩ := List.mem_map.mp ((h2 _).mpr h)
    have : q = p := by
      refine Prod.ext e2 ?_
      rw [e, ← h3, ← e2, mapLookup_of_mem h1 hq]; rfl
    rw [← this]; exact hq

theorem byKey_total (l : List Str) : predTotal (byKey (incAll l)) = l.length := by
  have e : ∀ (m : List (Str × Nat)) (n : Nat), m.foldl (fun n e => n + e.2) n = n + (m.map (·.2)).sum := by
    intro m
    induction m with
    | nil => simp
    | cons p m ih => intro n; simp [ih, Nat.add_assoc]
  rw [predTotal, e, ((byKey_perm _).map _).sum_nat, (incAll_facts l).2.2.2, Nat.zero_add]

end KT
