import Verif.Model.Kana
import Verif.Model.Converter
import Verif.Lemmas.Utf8Validate
import Verif.Lemmas.UnicodeBlock
import Verif.Spec.Kana
import Verif.Lemmas.KanaNodup
/-!
# Lemmas about the Kana tables
-/
namespace KT
open Spec

theorem lookup_mem {α : Type} {s : Str} {v : α} {m : List (Str × α)} (h : m.lookup s = some v) :
    (s, v) ∈ m := by
  induction m with
  | nil => simp at h
  | cons p m ih =>
    obtain ⟨k, w⟩ := p
    by_cases hk : s = k
    · subst hk; simp [List.lookup] at h; simp [h]
    · have : (s == k) = false := by simpa using hk
      simp only [List.lookup, this] at h
      exact List.mem_cons_of_mem _ (ih h)

theorem lookup_of_mem {α : Type} {s : Str} {v : α} {m : List (Str × α)}
    (hn : (m.map Prod.fst).Nodup) (h : (s, v) ∈ m) : m.lookup s = some v := by
  induction m with
  | nil => simp at h
  | cons p m ih =>
    obtain ⟨k, w⟩ := p
    simp only [List.map_cons, List.nodup_cons] at hn
    rcases List.mem_cons.mp h with hm | hm
    · cases hm; simp [List.lookup]
    · have hk : s ≠ k := by
        rintro rfl
        exact hn.1 (List.mem_map.mpr ⟨(s, v), hm, rfl⟩)
      have : (s == k) = false := by simpa using hk
      simp only [List.lookup, this]
      exact ih hn.2 hm

theorem mem_kanaMap {t : CharType} {s : Str} {k : Kana} :
    (s, k) ∈ kanaMap t ↔ k ∈ allKana ∧ s ∈ kanaKeys t k := by
  simp only [kanaMap, List.mem_flatMap, List.mem_map, Prod.mk.injEq]
  constructor
  · rintro ⟨k', h1, s', h2, rfl, rfl⟩; exact ⟨h1, h2⟩
  · rintro ⟨h1, h2⟩; exact ⟨k, h1, s, h2, rfl, rfl⟩

theorem findKana_mem {t : CharType} {s : Str} {k : Kana} (h : findKana t s = some k) :
    k ∈ allKana ∧ s ∈ kanaKeys t k := mem_kanaMap.mp (lookup_mem h)

theorem kanaMap_nodup (t : CharType) : ((kanaMap t).map Prod.fst).Nodup := by
  cases t
  · exact nodup_hiragana
  · exact nodup_katakana
  · exact nodup_romaji

theorem findKana_iff {t : CharType} {s : Str} {k : Kana} :
    findKana t s = some k ↔ k ∈ allKana ∧ s ∈ kanaKeys t k :=
  ⟨findKana_mem, fun h => lookup_of_mem (kanaMap_nodup t) (mem_kanaMap.mpr h)⟩

theorem findKana_hiragana {k : Kana} (h : k ∈ allKana) : findKana .hiragana k.hiragana = some k :=
  findKana_iff.mpr ⟨h, by simp [kanaKeys]⟩
theorem findKana_katakana {k : Kana} (h : k ∈ allKana) : findKana .katakana k.katakana = some k :=
  findKana_iff.mpr ⟨h, by simp [kanaKeys]⟩
theorem findKana_romaji {k : Kana} (h : k ∈ allKana) : findKana .romaji k.romaji = some k :=
  findKana_iff.mpr ⟨h, by simp [kanaKeys]⟩

theorem findKana_none {t : CharType} {s : Str} (h : ∀ k ∈ allKana, s ∉ kanaKeys t k) :
    findKana t s = none := by
  cases hf : findKana t s with
  | none => rfl
  | some k => exact absurd (findKana_mem hf).2 (h k (findKana_mem hf).1)

/-! ## Packed keys, to make kernel evaluation of failing lookups cheap -/

/-- A number for every string. -/
def pack : Str → Nat
  | [] => 0
  | b :: r => b.toNat + 1 + 257 * pack r

theorem pack_inj {a b : Str} (h : pack a = pack b) : a = b := by
  induction a generalizing b with
  | nil => cases b with
    | nil => rfl
    | cons y b => simp only [pack] at h; omega
  | cons x a ih =>
    cases b with
    | nil => simp only [pack] at h; omega
    | cons y b =>
      simp only [pack] at h
      have hx := x.toNat_lt
      have hy := y.toNat_lt
      have h1 : x.toNat = y.toNat := by omega
      have h2 : pack a = pack b := by omega
      rw [ih h2, UInt8.toNat_inj.mp h1]

/-- Membership test on numbers. -/
def nmem (n : Nat) : List Nat → Bool
  | [] => false
  | k :: r => bif Nat.beq n k then true else nmem n r

theorem nmem_iff (n : Nat) (l : List Nat) : nmem n l = true ↔ n ∈ l := by
  induction l with
  | nil => simp [nmem]
  | cons k l ih =>
    by_cases h : n = k
    · simp [nmem, h]
    · have : Nat.beq n k = false := by rw [← Bool.not_eq_true, Nat.beq_eq]; exact h
      simp [nmem, this, ih, h]

end KT
