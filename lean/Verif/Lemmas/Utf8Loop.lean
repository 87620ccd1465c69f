import Verif.Lemmas.Utf8
/-!
# Helper lemmas: the decoding loop
-/
namespace KT
open Spec

/-- `Decodes a cs`: stepping the decoder through `a` yields `cs` and ends exactly at the end of
`a`, whatever non-continuation byte follows `a`. -/
inductive Decodes : Str → List Nat → Prop where
  | nil : Decodes [] []
  | cons {p t : Str} {c : Nat} {cs : List Nat} : p ≠ [] → IsScalar c →
      (p = enc c ∨ (c = errorReplacement ∧ ∀ n, IsScalar n → ¬ enc n <+: p ++ t)) →
      (∀ b y, countlOne b ≠ 1 → convertOneUtf8 (p ++ t ++ b :: y) = some (c, t ++ b :: y)) →
      Decodes t cs → Decodes (p ++ t) (c :: cs)

theorem decodes_exists (a : Str) : ∃ cs, Decodes a cs := by
  generalize hn : a.length = n
  induction n using Nat.strongRecOn generalizing a with
  | ind n ih =>
    by_cases ha : a = []
    · subst ha; exact ⟨[], .nil⟩
    · obtain ⟨c, p, t, hpt, hp, hs, hor, hloc⟩ := convertOne_local a ha
      subst hpt
      have hlt : t.length < n := by
        have : 0 < p.length := List.length_pos_iff.mpr hp
        simp at hn; omega
      obtain ⟨cs, hcs⟩ := ih t.length hlt t rfl
      exact ⟨c :: cs, .cons hp hs hor hloc hcs⟩

theorem Decodes.scalar {a cs} (h : Decodes a cs) : ∀ c ∈ cs, IsScalar c := by
  induction h with
  | nil => simp
  | cons _ hs _ _ _ ih => intro x hx; simp at hx; rcases hx with rfl | hx; exact hs; exact ih x hx

theorem Decodes.length_le {a cs} (h : Decodes a cs) : cs.length ≤ a.length := by
  induction h with
  | nil => simp
  | cons hp _ _ _ _ ih =>
    have := List.length_pos_iff.mpr hp
    simp; omega

theorem Decodes.eq_nil_iff {a cs} (h : Decodes a cs) : cs = [] ↔ a = [] := by
  cases h with
  | nil => simp
  | cons hp => simp [hp]

theorem countlOne_zero : countlOne 0 ≠ 1 := by decide

theorem Decodes.unique {a cs ds} (h : Decodes a cs) (h' : Decodes a ds) : cs = ds := by
  induction h generalizing ds with
  | nil => exact ((h'.eq_nil_iff).mpr rfl).symm
  | @cons p t c cs hp hs hor hloc ht ih =>
    have e1 := hloc 0 [] countlOne_zero
    generalize hx : p ++ t = x at h' e1
    cases h' with
    | nil => simp at hx; exact absurd hx.1 hp
    | @cons p' t' c' ds hp' hs' hor' hloc' ht' =>
      have e2 := hloc' 0 [] countlOne_zero
      rw [e1] at e2
      simp only [Option.some.injEq, Prod.mk.injEq] at e2
      obtain ⟨rfl, e⟩ := e2
      have e' : t = t' := by simpa using e
      subst e'
      rw [ih ht']

/-- The loop computes `Decodes` (up to the requested number of codes). -/
theorem convertLoop_eq {a cs} (h : Decodes a cs) (ha : a ≠ []) (h0 : (0 : UInt8) ∉ a)
    (y : List UInt8) (maxSize : Nat) (acc : List Nat) (hm : maxSize = 0 ∨ acc.length < maxSize)
    (fuel : Nat) (hf : a.length ≤ fuel) :
    convertLoop fuel (a ++ 0 :: y) maxSize acc =
      some (acc ++ if maxSize = 0 then cs else cs.take (maxSize - acc.length)) := by
  induction h generalizing acc fuel with
  | nil => exact absurd rfl ha
  | @cons p t c cs hp hs hor hloc ht ih =>
    have hlp : 0 < p.length := List.length_pos_iff.mpr hp
    cases fuel with
    | zero => simp at hf; exact absurd hf.1 hp
    | succ fuel =>
      simp only [convertLoop]
      rw [hloc 0 y countlOne_zero]
      by_cases htn : t = []
      · subst htn
        have : cs = [] := ht.eq_nil_iff.mpr rfl
        subst this
        simp only [List.nil_append]
        simp only [ne_eq, not_true, false_and, if_false]
        by_cases hz : maxSize = 0
        · simp [hz]
        · have : 1 ≤ maxSize - acc.length := by omega
          rw [if_neg hz]
          have : ([c] : List Nat).take (maxSize - acc.length) = [c] := by
            apply List.take_of_length_le; simpa using this
          rw [this]
      · match t, htn with
        | b :: t, _ =>
          have hb : b ≠ 0 := by
            intro hb; subst hb; exact h0 (by simp)
          have h0t : (0 : UInt8) ∉ b :: t := fun hmem => h0 (List.mem_append_right _ hmem)
          have hft : (b :: t).length ≤ fuel := by
            simp only [List.length_append] at hf; omega
          simp only [List.cons_append, ne_eq, hb, not_false_eq_true, true_and]
          by_cases hz : maxSize = 0
          · have := ih (by simp) h0t (acc ++ [c]) (Or.inl hz) fuel hft
            simp only [hz, true_or, if_true]
            simp only [hz, if_true, List.cons_append] at this
            rw [this]; simp
          · by_cases hlt : (acc ++ [c]).length < maxSize
            · have := ih (by simp) h0t (acc ++ [c]) (Or.inr hlt) fuel hft
              simp only [hz, false_or, hlt, if_true, if_false]
              simp only [hz, if_false, List.cons_append] at this
              rw [this]
              have e : maxSize - acc.length = (maxSize - (acc ++ [c]).length) + 1 := by
                simp at hlt ⊢; omega
              rw [e, List.take_succ_cons]; simp
            · simp only [hz, false_or, hlt, if_false]
              have e : maxSize - acc.length = 1 := by
                simp at hlt; omega
              rw [e]; simp

theorem cStr_no_zero (s : Str) : (0 : UInt8) ∉ cStr s := by
  intro h
  have := List.all_takeWhile (l := s) (p := fun x : UInt8 => decide (x ≠ 0))
  rw [List.all_eq_true] at this
  have := this 0 h
  simp at this

theorem cStr_of_no_zero {s : Str} (h : (0 : UInt8) ∉ s) : cStr s = s := by
  unfold cStr
  induction s with
  | nil => rfl
  | cons b s ih =>
    have hb : b ≠ 0 := by intro hb; subst hb; exact h (by simp)
    rw [List.takeWhile_cons, ih (fun hm => h (List.mem_cons_of_mem _ hm))]
    simp [hb]

theorem buf_split (s : Str) : ∃ y, s ++ [0] = cStr s ++ 0 :: y := by
  induction s with
  | nil => exact ⟨[], rfl⟩
  | cons b s ih =>
    by_cases hb : b = 0
    · subst hb; exact ⟨s ++ [0], by simp [cStr]⟩
    · obtain ⟨y, hy⟩ := ih
      refine ⟨y, ?_⟩
      have : cStr (b :: s) = b :: cStr s := by simp [cStr, hb]
      rw [this, List.cons_append, List.cons_append, hy]

/-- Complete description of `fromUtf8`. -/
theorem fromUtf8_eq (s : Str) (n : Nat) {cs : List Nat} (h : Decodes (cStr s) cs) :
    fromUtf8 s n = some (if n = 0 then cs else cs.take n) := by
  obtain ⟨y, hy⟩ := buf_split s
  unfold fromUtf8
  rw [hy]
  unfold convertFromUtf8
  by_cases he : cStr s = []
  · have : cs = [] := h.eq_nil_iff.mpr he
    rw [he, this]; simp
  · match hc : cStr s, he with
    | b :: t, _ =>
      have h0 := cStr_no_zero s
      rw [hc] at h0
      have hb : b ≠ 0 := by intro hb; subst hb; exact h0 (by simp)
      simp only [List.cons_append, hb, if_false]
      have := convertLoop_eq (hc ▸ h) (by simp) h0 y n [] (by simp; omega)
        (b :: (t ++ 0 :: y)).length (by simp)
      rw [List.cons_append] at this
      rw [this]; simp

theorem fromUtf8_isSome (s : Str) (n : Nat := 0) : (fromUtf8 s n).isSome := by
  obtain ⟨cs, h⟩ := decodes_exists (cStr s)
  rw [fromUtf8_eq s n h]; rfl

/-- The result of `fromUtf8(s, n)`, using that it always exists (`fromUtf8_isSome`). -/
def decodeN (s : Str) (n : Nat) : List Nat := (fromUtf8 s n).get (fromUtf8_isSome s n)

/-- The result of `fromUtf8(s)`. -/
def decode (s : Str) : List Nat := decodeN s 0

theorem fromUtf8_decodeN (s : Str) (n : Nat) : fromUtf8 s n = some (decodeN s n) := by
  simp [decodeN]

theorem fromUtf8_decode (s : Str) : fromUtf8 s = some (decode s) := fromUtf8_decodeN s 0

theorem decodes_decode (s : Str) : Decodes (cStr s) (decode s) := by
  obtain ⟨cs, h⟩ := decodes_exists (cStr s)
  have := fromUtf8_eq s 0 h
  rw [fromUtf8_decodeN] at this
  simp only [Option.some.injEq, if_true] at this
  unfold decode
  rw [this]; exact h

theorem decode_of_decodes {s : Str} {cs} (h0 : (0 : UInt8) ∉ s) (h : Decodes s cs) :
    decode s = cs := by
  have := decodes_decode s
  rw [cStr_of_no_zero h0] at this
  exact this.unique h

theorem decodeN_eq_take (s : Str) (n : Nat) (hn : n ≠ 0) : decodeN s n = (decode s).take n := by
  have := fromUtf8_eq s n (decodes_decode s)
  rw [fromUtf8_decodeN] at this
  simpa [hn] using this

theorem decodes_enc {c : Nat} (hc : IsScalar c) {t cs} (h : Decodes t cs) :
    Decodes (enc c ++ t) (c :: cs) := by
  refine .cons (enc_ne_nil c) hc (Or.inl rfl) ?_ h
  intro b y _
  rw [List.append_assoc, convertOne_enc hc]

theorem decodes_flatMap {cs : List Nat} (h : ∀ c ∈ cs, IsScalar c) :
    Decodes (cs.flatMap enc) cs := by
  induction cs with
  | nil => exact .nil
  | cons c cs ih =>
    rw [List.flatMap_cons]
    exact decodes_enc (h c (by simp)) (ih fun x hx => h x (by simp [hx]))

theorem decodes_append {a cs} (h : Decodes a cs) {b ds} (h' : Decodes b ds)
    (hb : ∀ x y, b = x :: y → countlOne x ≠ 1) : Decodes (a ++ b) (cs ++ ds) := by
  induction h with
  | nil => simpa using h'
  | @cons p t c cs hp hs hor hloc ht ih =>
    rw [List.append_assoc, List.cons_append]
    refine .cons hp hs ?_ ?_ ih
    · rcases hor with hor | ⟨rfl, hno⟩
      · exact Or.inl hor
      · by_cases hex : ∃ n, IsScalar n ∧ enc n <+: p ++ (t ++ b)
        · obtain ⟨n, hn, q, hq⟩ := hex
          -- decode the longer string both ways
          have e2 : convertOneUtf8 (p ++ (t ++ b) ++ [0]) = some (n, q ++ [0]) := by
            rw [← hq, List.append_assoc, convertOne_enc hn]
          have e1 : convertOneUtf8 (p ++ (t ++ b) ++ [0]) =
              some (errorReplacement, t ++ b ++ [0]) := by
            cases b with
            | nil => simpa using hloc 0 [] countlOne_zero
            | cons x y =>
              have := hloc x (y ++ [0]) (hb x y rfl)
              simpa using this
          rw [e1] at e2
          simp only [Option.some.injEq, Prod.mk.injEq] at e2
          obtain ⟨e3, e4⟩ := e2
          have e5 : t ++ b = q := List.append_cancel_right e4
          subst e5; subst e3
          left
          exact (List.append_cancel_right hq).symm
        · exact Or.inr ⟨rfl, fun n hn hp' => hex ⟨n, hn, hp'⟩⟩
    · intro x y hx
      cases b with
      | nil => simpa using hloc x y hx
      | cons z w =>
        have := hloc z (w ++ x :: y) (hb z w rfl)
        simpa using this

end KT
