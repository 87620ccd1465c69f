import Verif.Model.UcdTotals
import Verif.Spec.UcdTotals
import Verif.Props.UcdScript
/-!
# Lemmas about the totals of scripts/parseUcdAllFlat.sh
-/
namespace KT
open Spec

/-! ## Different values -/

theorem foldl_setKey (l acc : List Str) :
    l.foldl setKey acc = acc ++ (l.filter fun s => s != [] && !acc.contains s).eraseDups := by
  induction l generalizing acc with
  | nil => simp
  | cons k l ih =>
    rw [List.foldl_cons, ih, List.filter_cons]
    unfold setKey
    by_cases h : k = [] ∨ k ∈ acc
    · rw [if_pos h, if_neg]
      rcases h with rfl | h
      · simp
      · simp [h]
    · rw [if_neg h]
      rw [not_or] at h
      rw [if_pos (by simp [h.1, h.2]), List.eraseDups_cons, List.append_assoc, List.singleton_append, List.filter_filter]
      congr 3
      apply List.filter_congr
      intro s _
      rw [Bool.eq_iff_iff]
      simp
      grind

theorem setKeys_length (l : List Str) : (l.foldl setKey []).length = differentValues l := by
  rw [foldl_setKey]
  unfold differentValues
  simp

/-! ## Cells with commas -/

theorem cellNumbers_plain (a : Str) (h : 0x2c ∉ a) : cellNumbers a = [a] := by
  induction a with
  | nil => rfl
  | cons b a ih =>
    simp only [List.mem_cons, not_or] at h
    rw [cellNumbers, if_neg (Ne.symm h.1), ih h.2]

theorem cellNumbers_split (a s : Str) (h : 0x2c ∉ a) : cellNumbers (a ++ 0x2c :: s) = a :: cellNumbers s := by
  induction a with
  | nil => simp [cellNumbers]
  | cons b a ih =>
    simp only [List.mem_cons, not_or] at h
    rw [List.cons_append, cellNumbers, if_neg (Ne.symm h.1), ih h.2]

theorem cellNumbers_commas (ws : List Str) (h : ∀ w ∈ ws, 0x2c ∉ w) : cellNumbers (commas ws) = if ws = [] then [[]] else ws := by
  induction ws with
  | nil => rfl
  | cons w ws ih =>
    rw [if_neg (List.cons_ne_nil _ _)]
    have hw := h w List.mem_cons_self
    have ih := ih fun x hx => h x (List.mem_cons_of_mem _ hx)
    cases ws with
    | nil => simpa [commas, List.intercalate] using cellNumbers_plain w hw
    | cons x ws =>
      rw [if_neg (List.cons_ne_nil _ _)] at ih
      have : commas (w :: x :: ws) = w ++ 0x2c :: commas (x :: ws) := by
        simp [commas, List.intercalate]
      rw [this, cellNumbers_split w _ hw, ih]

theorem differentValues_nil_cell (l m : List Str) : differentValues (l ++ [] :: m) = differentValues (l ++ m) := by
  unfold differentValues
  rw [List.filter_append, List.filter_append, List.filter_cons_of_neg (by simp)]

end KT
