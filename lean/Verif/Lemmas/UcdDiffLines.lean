import Verif.Lemmas.UcdDiff
/-! # Lemmas for C200: what `diff` marks, and the arguments -/
namespace KT
open Spec

/-! ## diff -/

theorem _root_.Spec.Parts.sub {w k o : List Str} (h : Parts w k o) : k.Sublist w := by
  induction h with
  | nil => exact List.Sublist.slnil
  | kept l w k o _ ih => exact ih.cons_cons l
  | other l w k o _ ih => exact ih.cons l

theorem _root_.Spec.Parts.other_eq {w k o : List Str} (h : Parts w k o) : w.Nodup → o = w.filter fun l => !k.contains l := by
  induction h with
  | nil => intro _; rfl
  | kept l w k o hp ih =>
    intro hd
    rw [List.nodup_cons] at hd
    rw [List.filter_cons_of_neg (by simp), ih hd.2]
    apply List.filter_congr
    intro x hx
    have : x ≠ l := by rintro rfl; exact hd.1 hx
    simp [this]
  | other l w k o hp ih =>
    intro hd
    rw [List.nodup_cons] at hd
    rw [List.filter_cons_of_pos, ← ih hd.2]
    simpa using fun hx => hd.1 (hp.sub.subset hx)

theorem diff_eq (a b : List Str) (ha : a.Nodup) (hb : b.Nodup)
    (hs : (a.filter fun l => b.contains l) = b.filter fun l => a.contains l) (d : List Str × List Str) (h : IsDiff a b d) :
    d = (a.filter fun l => !b.contains l, b.filter fun l => !a.contains l) := by
  obtain ⟨c, h1, h2, h3⟩ := h
  have hc : c.Sublist (a.filter fun l => b.contains l) := by
    have := h1.sub.filter fun l => b.contains l
    rwa [List.filter_eq_self.mpr (fun x hx => by simpa using h2.sub.subset hx)] at this
  have hl := h3 (a.filter fun l => b.contains l) List.filter_sublist (by rw [hs]; exact List.filter_sublist)
  have e := hc.eq_of_length_le hl
  refine Prod.ext ?_ ?_
  · rw [h1.other_eq ha]
    apply List.filter_congr
    intro x hx
    rw [e]
    simp [hx]
  · rw [h2.other_eq hb]
    apply List.filter_congr
    intro x hx
    rw [e, hs]
    simp [hx]

theorem sublist_filter {α : Type} [BEq α] [LawfulBEq α] {l n : List α} (h : l.Sublist n) (hd : n.Nodup) : l = n.filter fun x => l.contains x := by
  induction h with
  | slnil => rfl
  | cons x _ ih =>
    rename_i l n hs
    rw [List.nodup_cons] at hd
    rw [List.filter_cons_of_neg (by simpa using fun hx => hd.1 (hs.subset hx))]
    exact ih hd.2
  | cons_cons x _ ih =>
    rename_i l n hs
    rw [List.nodup_cons] at hd
    rw [List.filter_cons_of_pos (by simp)]
    congr 1
    rw [ih hd.2]
    apply List.filter_congr
    intro y hy
    have : y ≠ x := by rintro rfl; exact hd.1 hy
    rw [← ih hd.2]
    simp [this]

theorem names_inj {f : List (Str × Str)} (hd : (f.map Prod.fst).Nodup) {p q : Str × Str} (hp : p ∈ f) (hq : q ∈ f)
    (e : p.1 = q.1) : p = q := by
  induction f with
  | nil => cases hp
  | cons x f ih =>
    rw [List.map_cons, List.nodup_cons] at hd
    rcases List.mem_cons.mp hp with rfl | hp2
    · rcases List.mem_cons.mp hq with rfl | hq2
      · rfl
      · exact absurd (List.mem_map.mpr ⟨q, hq2, e.symm⟩) hd.1
    · rcases List.mem_cons.mp hq with rfl | hq2
      · exact absurd (List.mem_map.mpr ⟨p, hp2, e⟩) hd.1
      · exact ih hd.2 hp2 hq2

theorem eq_of_names {f : List (Str × Str)} (hd : (f.map Prod.fst).Nodup) :
    ∀ p q : List (Str × Str), p.map Prod.fst = q.map Prod.fst → (∀ x ∈ p, x ∈ f) → (∀ x ∈ q, x ∈ f) → p = q
  | [], [], _, _, _ => rfl
  | [], _ :: _, h, _, _ => by cases h
  | _ :: _, [], h, _, _ => by cases h
  | x :: p, y :: q, h, hp, hq => by
    rw [List.map_cons, List.map_cons] at h
    obtain ⟨h1, h2⟩ := List.cons.inj h
    rw [names_inj hd (hp x List.mem_cons_self) (hq y List.mem_cons_self) h1,
      eq_of_names hd p q h2 (fun z hz => hp z (List.mem_cons_of_mem _ hz)) fun z hz => hq z (List.mem_cons_of_mem _ hz)]

theorem common_names (f g : List (Str × Str)) :
    ((f.filter fun p => g.contains p).map Prod.fst).Sublist
      ((f.map Prod.fst).filter fun n => (g.map Prod.fst).contains n) := by
  rw [List.filter_map]
  apply List.Sublist.map
  have : (f.filter fun p => g.contains p) = (f.filter ((fun n => (g.map Prod.fst).contains n) ∘ Prod.fst)).filter fun p => g.contains p := by
    rw [List.filter_filter]
    apply List.filter_congr
    intro p _
    by_cases hp : p ∈ g
    · have : p.1 ∈ g.map Prod.fst := List.mem_map.mpr ⟨p, hp, rfl⟩
      simp only [Function.comp, List.contains_eq_mem, hp, this, decide_true, Bool.and_self]
    · simp [hp]
  rw [this]
  exact List.filter_sublist

theorem common_same (f g : List (Str × Str)) (hf : (f.map Prod.fst).Nodup) (h : SameOrder f g) :
    (f.filter fun p => g.contains p) = g.filter fun p => f.contains p := by
  have hn : ((f.map Prod.fst).filter fun n => (g.map Prod.fst).contains n).Nodup := hf.sublist List.filter_sublist
  have s1 := sublist_filter (common_names f g) hn
  have s2 := common_names g f
  rw [← (show SameOrder f g from h)] at s2
  have s3 := sublist_filter s2 hn
  have hm : ∀ p, p ∈ (f.filter fun p => g.contains p) ↔ p ∈ g.filter fun p => f.contains p := by
    intro p; simp [and_comm]
  refine eq_of_names hf _ _ ?_ (fun x hx => (List.mem_filter.mp hx).1) fun x hx => (List.mem_filter.mp ((hm x).mpr hx)).1
  refine s1.trans (Eq.trans ?_ s3.symm)
  apply List.filter_congr
  intro n _
  rw [Bool.eq_iff_iff]
  rw [List.contains_iff_mem, List.contains_iff_mem, List.mem_map, List.mem_map]
  exact ⟨fun ⟨a, ha, e⟩ => ⟨a, (hm a).mp ha, e⟩, fun ⟨a, ha, e⟩ => ⟨a, (hm a).mpr ha, e⟩⟩

theorem fieldText_inj {p q : Str × Str} (hp : 0x3d ∉ p.1) (hq : 0x3d ∉ q.1) (h : fieldText p = fieldText q) : p = q := by
  have e : p.1 ++ 0x3d :: (0x22 :: (p.2 ++ [0x22])) = q.1 ++ 0x3d :: (0x22 :: (q.2 ++ [0x22])) := by
    simpa [fieldText] using h
  have h1 := split_before hp hq e
  rw [h1] at e
  have h2 := List.append_cancel_left e
  simp only [List.cons.injEq, true_and] at h2
  exact Prod.ext h1 (List.append_cancel_right h2)

theorem contains_fieldText (g : List (Str × Str)) (hg : ∀ p ∈ g, 0x3d ∉ p.1) (p : Str × Str) (hp : 0x3d ∉ p.1) :
    (g.map fieldText).contains (fieldText p) = g.contains p := by
  rw [Bool.eq_iff_iff]
  simp only [List.contains_eq_mem, decide_eq_true_eq, List.mem_map]
  constructor
  · rintro ⟨q, hq, e⟩
    rw [← fieldText_inj (hg q hq) hp e]; exact hq
  · intro h
    exact ⟨p, h, rfl⟩

theorem nodup_fieldText (f : List (Str × Str)) (hf : (f.map Prod.fst).Nodup) (hn : ∀ p ∈ f, 0x3d ∉ p.1) :
    (f.map fieldText).Nodup := by
  induction f with
  | nil => simp
  | cons p f ih =>
    rw [List.map_cons, List.nodup_cons] at hf ⊢
    refine ⟨fun hx => ?_, ih hf.2 fun q hq => hn q (List.mem_cons_of_mem _ hq)⟩
    obtain ⟨q, hq, e⟩ := List.mem_map.mp hx
    have := fieldText_inj (hn q (List.mem_cons_of_mem _ hq)) (hn p List.mem_cons_self) e
    exact hf.1 (List.mem_map.mpr ⟨q, hq, by rw [this]⟩)

theorem diff_fields (f g : List (Str × Str)) (hf : (f.map Prod.fst).Nodup) (hg : (g.map Prod.fst).Nodup)
    (nf : ∀ p ∈ f, 0x3d ∉ p.1) (ng : ∀ p ∈ g, 0x3d ∉ p.1) (h : SameOrder f g) (d : List Str × List Str)
    (hd : IsDiff (f.map fieldText) (g.map fieldText) d) :
    d = ((onlyIn f g).map fieldText, (onlyIn g f).map fieldText) := by
  have e1 : ∀ (f g : List (Str × Str)), (∀ p ∈ f, 0x3d ∉ p.1) → (∀ p ∈ g, 0x3d ∉ p.1) →
      ((f.map fieldText).filter fun l => (g.map fieldText).contains l) = (f.filter fun p => g.contains p).map fieldText := by
    intro f g nf ng
    rw [List.filter_map]
    congr 1
    apply List.filter_congr
    intro p hp
    exact contains_fieldText g ng p (nf p hp)
  have e2 : ∀ (f g : List (Str × Str)), (∀ p ∈ f, 0x3d ∉ p.1) → (∀ p ∈ g, 0x3d ∉ p.1) →
      ((f.map fieldText).filter fun l => !(g.map fieldText).contains l) = (onlyIn f g).map fieldText := by
    intro f g nf ng
    unfold onlyIn
    rw [List.filter_map]
    congr 1
    apply List.filter_congr
    intro p hp
    simp only [Function.comp]
    rw [contains_fieldText g ng p (nf p hp)]
  rw [diff_eq _ _ (nodup_fieldText f hf nf) (nodup_fieldText g hg ng) (by
    rw [e1 f g nf ng, e1 g f ng nf, common_same f g hf h]) d hd, e2 f g nf ng, e2 g f ng nf]

end KT
