import Verif.Props.ConverterKeys
import Verif.Props.Converter
/-!
# C30, C207: text typed in upper and lower case
-/
namespace KT
open Spec
namespace Converter

theorem delim_low (c : Converter) {b : UInt8} (h : b ∈ narrowDelimList) :
    toLowerChar b = b ∧ ∃ d, c.delimOut b = .ok d ∧ toLower d = d := by
  have key : ∀ b ∈ narrowDelimList, toLowerChar b = b ∧ (b ≠ apostrophe → b ≠ dash →
      (match narrowDelimAt b with | .ok d => decide (toLower d = d) | _ => false) = true) := by decide +kernel
  obtain ⟨h1, h2⟩ := key b h
  refine ⟨h1, ?_⟩
  unfold delimOut
  split
  · rename_i hb
    replace h2 := h2 hb.1 hb.2.1
    cases hd : narrowDelimAt b with
    | ok d => rw [hd] at h2; exact ⟨d, rfl, by simpa using h2⟩
    | throw e => rw [hd] at h2; cases h2
    | ub => rw [hd] at h2; cases h2
  · exact ⟨[], rfl, rfl⟩

theorem delim_low_iff (b : UInt8) : toLowerChar b ∈ narrowDelimList ↔ b ∈ narrowDelimList := by
  have key : ∀ n : Nat, n < 256 → (toLowerChar (UInt8.ofNat n) ∈ narrowDelimList ↔ UInt8.ofNat n ∈ narrowDelimList) := by
    decide +kernel
  exact byte_cases (fun b => toLowerChar b ∈ narrowDelimList ↔ b ∈ narrowDelimList) key b

theorem not_delim {b : UInt8} (h : b ∉ narrowDelimList) : ¬ IsDelim [b] := by
  rintro ⟨x, hx, he⟩
  simp at he; subst he; exact h hx

theorem run_low (c : Converter) (hc : c.target ≠ .romaji) : ∀ (s : Str) (st : ToState),
    (∀ b ∈ s, b.toNat < 128) → NoCapital (st.letters ++ s) →
    ∃ y, c.run st (s.map ([·])) = .ok y ∧ c.run (low st) ((toLower s).map ([·])) = .ok (toLower y) := by
  intro s
  induction s with
  | nil =>
    intro st _ hn
    obtain ⟨y, h1, h2⟩ := end_low c hc st.letters.length st (by simpa using hn) (Nat.le_refl _)
    refine ⟨y, h1, ?_⟩
    show c.toKanaEnd (low st).letters.length (low st) = _
    rw [show (low st).letters.length = st.letters.length by simp [low, toLower], h2]
  | cons b s ih =>
    intro st hb hn
    rw [show toLower (b :: s) = toLowerChar b :: toLower s from rfl, List.map_cons, List.map_cons]
    by_cases hd : b ∈ narrowDelimList
    · obtain ⟨h1, d, h2, h3⟩ := delim_low c hd
      obtain ⟨w, h4, h5⟩ := end_low c hc st.letters.length st (by
        intro u x y v he
        exact hn u x y (v ++ b :: s) (by rw [he]; simp)) (Nat.le_refl _)
      obtain ⟨r, h6, h7⟩ := ih {} (fun x hx => hb x (List.mem_cons_of_mem _ hx))
        (noCapital_suffix hn ⟨st.letters ++ [b], by simp⟩)
      refine ⟨w ++ d ++ r, ?_, ?_⟩
      · rw [run_delim c st _ hd, h4, h2, h6]; rfl
      · rw [h1, run_delim c (low st) _ hd, show (low st).letters.length = st.letters.length by simp [low, toLower], h5, h2,
          show ({} : ToState) = low {} from rfl, h7, toLower_append, toLower_append, h3]; rfl
    · obtain ⟨st1, h1, h2, h3⟩ := step_low c hc st (hb b List.mem_cons_self) hn
      obtain ⟨y, h4, h5⟩ := ih st1 (fun x hx => hb x (List.mem_cons_of_mem _ hx)) h3
      refine ⟨y, ?_, ?_⟩
      · rw [run_cons c st _ (not_delim hd), h1]; exact h4
      · rw [run_cons c (low st) _ (not_delim fun h => hd ((delim_low_iff b).mp h)), h2]; exact h5

end Converter

open Converter in
/-- C30 for text with marks, spaces, apostrophes and dashes: unless a capital letter starts a doubled consonant, text is
converted as its lower-case form up to the case of the letters that aren't converted. -/
theorem C30_text_partial (c : Converter) (hc : c.target ≠ .romaji) (s : Str) (hs : ∀ b ∈ s, b.toNat < 128 ∧ b ≠ 0)
    (hn : NoCapital s) :
    ∃ y, c.convertFrom .romaji s = .ok y ∧ c.convertFrom .romaji (toLower s) = .ok (toLower y) := by
  have h1 : ∀ s : Str, (∀ b ∈ s, b.toNat < 128 ∧ b ≠ 0) → c.convertFrom .romaji s = c.run {} (s.map ([·])) := by
    intro s hs
    have he : (s.map ([·])).flatten = s := by
      clear hs; induction s with
      | nil => rfl
      | cons b s ih => simp only [List.map_cons, List.flatten_cons, ih]; rfl
    have := convert_run c (ps := s.map ([·])) (by
      intro p hp; obtain ⟨b, hb, rfl⟩ := List.mem_map.mp hp; exact Or.inl ⟨b, (hs b hb).1, (hs b hb).2, rfl⟩) hc
    rwa [he] at this
  have key : ∀ n : Nat, n < 256 → (UInt8.ofNat n).toNat < 128 ∧ UInt8.ofNat n ≠ 0 →
      (toLowerChar (UInt8.ofNat n)).toNat < 128 ∧ toLowerChar (UInt8.ofNat n) ≠ 0 := by decide +kernel
  obtain ⟨y, h2, h3⟩ := run_low c hc s {} (fun b hb => (hs b hb).1) hn
  refine ⟨y, by rw [h1 s hs, h2], ?_⟩
  rw [h1 (toLower s), ← h3]; · rfl
  intro b hb
  obtain ⟨d, hd, rfl⟩ := List.mem_map.mp hb
  exact byte_cases (fun b => b.toNat < 128 ∧ b ≠ 0 → (toLowerChar b).toNat < 128 ∧ toLowerChar b ≠ 0) key d (hs d hd)

theorem kana_high : allKana.all (fun k => (k.hiragana ++ k.katakana).all fun b => decide (128 ≤ b.toNat)) = true := by
  decide +kernel

theorem encode_high {x : Char} (h : 128 ≤ x.toNat) : ∀ b ∈ String.utf8EncodeChar x, 128 ≤ b.toNat := by
  intro b hb
  obtain ⟨y, t, he, hy, ht⟩ := encodeChar_first h
  rw [he] at hb
  rcases List.mem_cons.mp hb with rfl | hb
  · omega
  · exact (ht b hb).1

/-- What is read has no ASCII letters. -/
theorem readKeys_high (c : Converter) (ht : c.target ≠ .romaji) (us : List KeyUnit) (hu : ∀ u ∈ us, u.Known IsKey) :
    ∀ b ∈ readKeys c us, 128 ≤ b.toNat := by
  have h1 : ∀ k t, k ∈ allKana → t ≠ .romaji → ∀ b ∈ k.str t, 128 ≤ b.toNat := by
    intro k t hk ht b hb
    have := List.all_eq_true.mp kana_high k hk
    simp only [List.all_eq_true, List.mem_append, decide_eq_true_eq] at this
    cases t with
    | romaji => exact absurd rfl ht
    | hiragana => exact this b (Or.inl hb)
    | katakana => exact this b (Or.inr hb)
  have h2 : ∀ kat : Bool, ∀ b ∈ String.utf8EncodeChar (tsu kat) ++ String.utf8EncodeChar (nn kat), 128 ≤ b.toNat := by decide
  have h3 : ∀ v, 128 ≤ (vowelLetter v).toNat := by
    intro v
    unfold vowelLetter
    split; · decide
    split; · decide
    split; · decide
    split <;> decide
  intro b hb
  obtain ⟨u, hum, hb⟩ := List.mem_flatMap.mp hb
  have hk := hu u hum
  cases u with
  | key d w l =>
    obtain ⟨k, hf⟩ := Option.isSome_iff_exists.mp hk.1
    simp only [KeyUnit.read, kanaOfKey, hf, Option.map_some, Option.getD_some, List.mem_append] at hb
    rcases hb with (hb | hb) | hb
    · cases d with
      | none => cases hb
      | some y => exact h2 _ b (List.mem_append_left _ hb)
    · exact h1 k _ (findKana_mem hf).1 ht b hb
    · cases l with
      | false => cases hb
      | true =>
        refine encode_high ?_ b hb
        split
        · exact h3 _
        · decide
  | n s => exact h2 _ b (List.mem_append_right _ hb)
  | other x =>
    simp only [KeyUnit.read] at hb
    split at hb
    · cases hb
    · exact encode_high hk.1 b hb

/-- Text of such spellings in upper and lower case is read in the same way, unless a capital letter starts a doubled consonant. -/
theorem C207_case (c : Converter) (ht : c.target ≠ .romaji) (us : List KeyUnit) (hu : ∀ u ∈ us, u.Known IsKey)
    (hs : Separated us) (s : Str) (hl : ∀ b ∈ s, b.toNat < 128 ∧ b ≠ 0) (hn : Converter.NoCapital s)
    (he : toLower s = us.flatMap KeyUnit.text) : c.convertFrom .romaji s = .ok (readKeys c us) := by
  obtain ⟨y, h1, h2⟩ := C30_text_partial c ht s hl hn
  rw [he, C207_keys c ht us hu hs] at h2
  simp only [Res.ok.injEq] at h2
  have key : ∀ n : Nat, n < 256 → 128 ≤ (toLowerChar (UInt8.ofNat n)).toNat → 128 ≤ (UInt8.ofNat n).toNat := by
    decide +kernel
  rw [h1, h2, Converter.toLower_high]
  intro b hb
  exact Converter.byte_cases (fun b => 128 ≤ (toLowerChar b).toNat → 128 ≤ b.toNat) key b
    (readKeys_high c ht us hu _ (by rw [h2]; exact List.mem_map_of_mem hb))

example : (⟨.hiragana, .none, true⟩ : Converter).convertFrom .romaji (u8!"Nippon, Shin'ya!") = .ok u8!"にっぽん、　しんや！" := by
  decide +kernel

end KT
