import Verif.Model.Str
/-!
# Helper lemmas: replacing Ascii characters before decoding
-/
namespace KT
open Spec

/-- A map of bytes that keeps NUL and everything above 127, and maps Ascii to Ascii. -/
structure AsciiMap (f : UInt8 → UInt8) : Prop where
  high : ∀ b : UInt8, 128 ≤ b.toNat → f b = b
  low : ∀ b : UInt8, b.toNat < 128 → (f b).toNat < 128
  zero : ∀ b : UInt8, f b = 0 ↔ b = 0

/-- The map of codes that belongs to a map of bytes. -/
def codeMap (f : UInt8 → UInt8) (c : Nat) : Nat := if c < 128 then (f (UInt8.ofNat c)).toNat else c

theorem AsciiMap.countl {f} (h : AsciiMap f) (b : UInt8) : countlOne (f b) = countlOne b := by
  by_cases hb : b.toNat < 128
  · rw [(countlOne_zero_iff _).mpr hb, (countlOne_zero_iff _).mpr (h.low b hb)]
  · rw [h.high b (by omega)]

theorem AsciiMap.eq_of_countl {f} (h : AsciiMap f) (b : UInt8) (hb : countlOne b ≠ 0) : f b = b := by
  have := mt (countlOne_zero_iff b).mpr hb
  exact h.high b (by omega)

theorem codeMap_of_ge {f} {c : Nat} (h : 128 ≤ c) : codeMap f c = c := by
  unfold codeMap; rw [if_neg (by omega)]

theorem convertOne_map {f} (h : AsciiMap f) (l : List UInt8) :
    convertOneUtf8 (l.map f) = (convertOneUtf8 l).map fun r => (codeMap f r.1, r.2.map f) := by
  have he : codeMap f errorReplacement = errorReplacement := codeMap_of_ge (by decide)
  cases l with
  | nil => rfl
  | cons b1 r1 =>
    simp only [List.map_cons, convertOneUtf8, h.countl]
    by_cases h0 : countlOne b1 = 0
    · simp only [h0, if_true, Option.map_some, Option.some.injEq, Prod.mk.injEq, and_true]
      rw [countlOne_zero_iff] at h0
      unfold codeMap
      rw [if_pos h0, byte_ofNat_toNat]
    · rw [if_neg h0, if_neg h0, h.eq_of_countl b1 h0]
      by_cases h1 : countlOne b1 = 1 ∨ countlOne b1 > 4
      · simp only [h1, if_true, Option.map_some, he]
      · rw [if_neg h1, if_neg h1]
        cases r1 with
        | nil => rfl
        | cons b2 r2 =>
          simp only [List.map_cons, h.countl]
          by_cases h2 : countlOne b2 = 1
          case neg => simp only [ne_eq, h2, not_false_eq_true, if_true, Option.map_some, he, List.map_cons]
          simp only [h2, ne_eq, not_true, if_false, h.eq_of_countl b2 (by omega)]
          by_cases h3 : countlOne b1 > 2
          case neg =>
            simp only [h3, if_false, Option.map_some, Option.some.injEq, Prod.mk.injEq, and_true]
            split
            · rename_i hv
              exact (codeMap_of_ge (by omega)).symm
            · exact he.symm
          simp only [h3, if_true]
          cases r2 with
          | nil => rfl
          | cons b3 r3 =>
            simp only [List.map_cons, h.countl]
            by_cases h4 : countlOne b3 = 1
            case neg => simp only [h4, not_false_eq_true, if_true, Option.map_some, he, List.map_cons]
            simp only [h4, not_true, if_false, h.eq_of_countl b3 (by omega)]
            by_cases h5 : countlOne b1 = 4
            case neg =>
              simp only [h5, if_false, Option.map_some, Option.some.injEq, Prod.mk.injEq, and_true]
              split
              · rename_i hv
                exact (codeMap_of_ge (by simp only [max2Uni] at hv; omega)).symm
              · exact he.symm
            simp only [h5, if_true]
            cases r3 with
            | nil => rfl
            | cons b4 r4 =>
              simp only [List.map_cons, h.countl]
              by_cases h6 : countlOne b4 = 1
              case neg => simp only [h6, not_false_eq_true, if_true, Option.map_some, he, List.map_cons]
              simp only [h6, not_true, if_false, h.eq_of_countl b4 (by omega), Option.map_some,
                Option.some.injEq, Prod.mk.injEq, and_true]
              split
              · rename_i hv
                exact (codeMap_of_ge (by simp only [max3Uni] at hv; omega)).symm
              · exact he.symm

theorem convertLoop_map {f} (h : AsciiMap f) (fuel : Nat) (u : List UInt8) (n : Nat) (acc : List Nat) :
    convertLoop fuel (u.map f) n (acc.map (codeMap f)) =
      (convertLoop fuel u n acc).map (List.map (codeMap f)) := by
  induction fuel generalizing u acc with
  | zero => rfl
  | succ fuel ih =>
    simp only [convertLoop, convertOne_map h]
    cases convertOneUtf8 u with
    | none => rfl
    | some r =>
      obtain ⟨c, u'⟩ := r
      simp only [Option.map_some]
      have e : acc.map (codeMap f) ++ [codeMap f c] = (acc ++ [c]).map (codeMap f) := by simp
      cases u' with
      | nil => rfl
      | cons b u' =>
        simp only [List.map_cons]
        rw [e, List.length_map]
        have hz : f b ≠ 0 ↔ b ≠ 0 := not_congr (h.zero b)
        by_cases hc : b ≠ 0 ∧ (n = 0 ∨ (acc ++ [c]).length < n)
        · rw [if_pos hc, if_pos ⟨hz.mpr hc.1, hc.2⟩]
          exact ih (b :: u') (acc ++ [c])
        · rw [if_neg hc, if_neg (fun hh => hc ⟨hz.mp hh.1, hh.2⟩)]
          rfl

theorem decodeN_map {f} (h : AsciiMap f) (s : Str) (n : Nat) :
    decodeN (s.map f) n = (decodeN s n).map (codeMap f) := by
  have key : fromUtf8 (s.map f) n = (fromUtf8 s n).map (List.map (codeMap f)) := by
    unfold fromUtf8
    have e : s.map f ++ [0] = (s ++ [0]).map f := by simp [(h.zero 0).mpr rfl]
    rw [e]
    cases hs : s ++ [0] with
    | nil => rfl
    | cons b r =>
      simp only [List.map_cons, convertFromUtf8]
      by_cases hb : b = 0
      · subst hb; simp only [(h.zero 0).mpr rfl, if_true, Option.map_some, List.map_nil]
      · simp only [mt (h.zero b).mp hb, hb, if_false]
        have := convertLoop_map h (b :: r).length (b :: r) n []
        simpa using this
  rw [fromUtf8_decodeN, fromUtf8_decodeN] at key
  simpa using key

theorem decode_map {f} (h : AsciiMap f) (s : Str) : decode (s.map f) = (decode s).map (codeMap f) :=
  decodeN_map h s 0

/-- One step of the decoder consumes one byte and then only bytes above 127. -/
theorem convertOne_consumes {l : List UInt8} {c : Nat} {u : List UInt8}
    (h : convertOneUtf8 l = some (c, u)) :
    ∃ b p, l = b :: p ++ u ∧ (∀ x ∈ p, 128 ≤ x.toNat) ∧ (b.toNat < 128 → p = [] ∧ c = b.toNat) ∧
      (128 ≤ b.toNat → 128 ≤ c) := by
  have hc : ∀ {x : UInt8}, countlOne x = 1 → 128 ≤ x.toNat := fun hx => ((countlOne_one_iff _).mp hx).1
  cases l with
  | nil => simp [convertOneUtf8] at h
  | cons b1 r1 =>
    simp only [convertOneUtf8] at h
    by_cases h0 : countlOne b1 = 0
    · simp only [h0, if_true, Option.some.injEq, Prod.mk.injEq] at h
      obtain ⟨rfl, rfl⟩ := h
      rw [countlOne_zero_iff] at h0
      exact ⟨b1, [], rfl, by simp, fun _ => ⟨rfl, rfl⟩, fun hh => by omega⟩
    · rw [if_neg h0] at h
      have hb : 128 ≤ b1.toNat := by
        have := mt (countlOne_zero_iff b1).mpr h0; omega
      have fin : ∀ p, (∀ x ∈ p, 128 ≤ x.toNat) → b1 :: r1 = b1 :: p ++ u → 128 ≤ c →
          ∃ b p, b1 :: r1 = b :: p ++ u ∧ (∀ x ∈ p, 128 ≤ x.toNat) ∧
            (b.toNat < 128 → p = [] ∧ c = b.toNat) ∧ (128 ≤ b.toNat → 128 ≤ c) :=
        fun p hp e hcc => ⟨b1, p, e, hp, fun hh => by omega, fun _ => hcc⟩
      by_cases h1 : countlOne b1 = 1 ∨ countlOne b1 > 4
      · simp only [h1, if_true, Option.some.injEq, Prod.mk.injEq] at h
        obtain ⟨rfl, rfl⟩ := h
        exact fin [] (by simp) rfl (by decide)
      · rw [if_neg h1] at h
        cases r1 with
        | nil => simp at h
        | cons b2 r2 =>
          by_cases h2 : countlOne b2 = 1
          case neg =>
            simp only [ne_eq, h2, not_false_eq_true, if_true, Option.some.injEq, Prod.mk.injEq] at h
            obtain ⟨rfl, rfl⟩ := h
            exact fin [] (by simp) rfl (by decide)
          simp only [h2, ne_eq, not_true, if_false] at h
          by_cases h3 : countlOne b1 > 2
          case neg =>
            simp only [h3, if_false, Option.some.injEq, Prod.mk.injEq] at h
            obtain ⟨rfl, rfl⟩ := h
            refine fin [b2] (by simpa using hc h2) rfl ?_
            split
            · omega
            · decide
          simp only [h3, if_true] at h
          cases r2 with
          | nil => simp at h
          | cons b3 r3 =>
            by_cases h4 : countlOne b3 = 1
            case neg =>
              simp only [h4, not_false_eq_true, if_true, Option.some.injEq, Prod.mk.injEq] at h
              obtain ⟨rfl, rfl⟩ := h
              exact fin [b2] (by simpa using hc h2) rfl (by decide)
            simp only [h4, not_true, if_false] at h
            by_cases h5 : countlOne b1 = 4
            case neg =>
              simp only [h5, if_false, Option.some.injEq, Prod.mk.injEq] at h
              obtain ⟨rfl, rfl⟩ := h
              refine fin [b2, b3] (by simpa using ⟨hc h2, hc h4⟩) rfl ?_
              split
              · rename_i hv; simp only [max2Uni] at hv; omega
              · decide
            simp only [h5, if_true] at h
            cases r3 with
            | nil => simp at h
            | cons b4 r4 =>
              by_cases h6 : countlOne b4 = 1
              case neg =>
                simp only [h6, not_false_eq_true, if_true, Option.some.injEq, Prod.mk.injEq] at h
                obtain ⟨rfl, rfl⟩ := h
                exact fin [b2, b3] (by simpa using ⟨hc h2, hc h4⟩) rfl (by decide)
              simp only [h6, not_true, if_false, Option.some.injEq, Prod.mk.injEq] at h
              obtain ⟨rfl, rfl⟩ := h
              refine fin [b2, b3, b4] (by simpa using ⟨hc h2, hc h4, hc h6⟩) rfl ?_
              split
              · rename_i hv; simp only [max3Uni] at hv; omega
              · decide

/-- The Ascii characters of a text are the codes below 128, in the same order. -/
theorem decodes_ascii {a cs} (h : Decodes a cs) :
    cs.filter (fun c => decide (c < 128)) =
      (a.filter (fun b => decide (b.toNat < 128))).map (fun b => b.toNat) ∧
    ((∀ c ∈ cs, c < 128) ↔ ∀ b ∈ a, b.toNat < 128) := by
  induction h with
  | nil => simp
  | @cons p t c cs hp hs hor hloc ht ih =>
    obtain ⟨b, q, e, hq, h1, h2⟩ := convertOne_consumes (hloc 0 [] countlOne_zero)
    rw [List.append_assoc] at e
    have e := List.append_cancel_right e
    subst e
    have hqf : q.filter (fun b => decide (b.toNat < 128)) = [] := by
      rw [List.filter_eq_nil_iff]; intro x hx; simpa using hq x hx
    by_cases hb : b.toNat < 128
    · obtain ⟨rfl, rfl⟩ := h1 hb
      simp [hb, ih]
    · have hc := h2 (by omega)
      refine ⟨?_, ?_⟩
      · rw [List.filter_append, List.filter_cons, List.filter_cons, if_neg (by simpa using hc),
          if_neg (by simpa using hb), hqf, ih.1, List.nil_append]
      · constructor
        · intro hh; have := hh c (by simp); omega
        · intro hh; exact absurd (hh b (by simp)) hb

end KT
