import Verif.Props.Choice

/-! # Prompts with a range of characters (C34) -/

namespace KT

theorem addRange_total {first : UInt8} : ∀ (ns : List Nat) (cs : Choices), cs.Sorted → ns.Nodup →
    (∀ n ∈ ns, first.toNat + n < 256) →
    (∀ n ∈ ns, cs.has (first + UInt8.ofNat n) = false) → ∃ out, addRange ns first cs = .ok out := by
  intro ns
  induction ns with
  | nil => intro cs _ _ _ _; exact ⟨cs, rfl⟩
  | cons n r ih =>
    intro cs hs hnd hlt hno
    unfold addRange Choices.emplace
    have h0 := hno n List.mem_cons_self
    rw [h0]
    simp only [Bool.false_eq_true, if_false, Bool.not_true]
    refine ih _ (insert_sorted hs [] h0) (List.nodup_cons.mp hnd).2
      (fun k hk => hlt k (List.mem_cons_of_mem _ hk)) fun k hk => ?_
    cases hb : (cs.insert (first + UInt8.ofNat n) []).has (first + UInt8.ofNat k) with
    | false => rfl
    | true =>
      exfalso
      obtain ⟨d, hm⟩ := (has_iff _ _).mp hb
      rcases (insert_mem _ _ _ _).mp hm with e | e
      · have e1 := congrArg (fun p : UInt8 × Str => p.1.toNat) e
        simp only [UInt8.toNat_add, UInt8.toNat_ofNat'] at e1
        have l1 := hlt n List.mem_cons_self
        have l2 := hlt k (List.mem_cons_of_mem _ hk)
        have : k = n := by omega
        subst this
        exact (List.nodup_cons.mp hnd).1 hk
      · have := hno k (List.mem_cons_of_mem _ hk)
        rw [(has_iff _ _).mpr ⟨d, e⟩] at this
        cases this

theorem addRange_fresh {first : UInt8} : ∀ (ns : List Nat) (cs out : Choices), cs.Sorted →
    addRange ns first cs = .ok out → ∀ n ∈ ns, cs.has (first + UInt8.ofNat n) = false := by
  intro ns
  induction ns with
  | nil => intro cs out _ _ n hn; cases hn
  | cons n r ih =>
    intro cs out hs h
    unfold addRange Choices.emplace at h
    cases hh : cs.has (first + UInt8.ofNat n) with
    | true => rw [hh] at h; cases h
    | false =>
      rw [hh] at h
      simp only [Bool.false_eq_true, if_false, Bool.not_true] at h
      intro k hk
      rcases List.mem_cons.mp hk with rfl | hk
      · exact hh
      · have := ih _ _ (insert_sorted hs [] hh) h k hk
        cases hb : cs.has (first + UInt8.ofNat k) with
        | false => rfl
        | true =>
          obtain ⟨d, hm⟩ := (has_iff _ _).mp hb
          rw [(has_iff _ _).mpr ⟨d, (insert_mem _ _ _ _).mpr (.inr hm)⟩] at this
          cases this

theorem addRange_domain {first : UInt8} : ∀ (ns : List Nat) (cs : Choices) (e : Exc),
    addRange ns first cs = .throw e → e = .domain := by
  intro ns
  induction ns with
  | nil => intro cs e h; cases h
  | cons n r ih =>
    intro cs e h
    unfold addRange Choices.emplace at h
    cases hh : cs.has (first + UInt8.ofNat n) with
    | true => rw [hh] at h; cases h; rfl
    | false =>
      rw [hh] at h
      simp only [Bool.false_eq_true, if_false, Bool.not_true] at h
      exact ih _ _ h

theorem addRange_noUb {first : UInt8} : ∀ (ns : List Nat) (cs : Choices),
    addRange ns first cs ≠ .ub := by
  intro ns
  induction ns with
  | nil => intro cs h; cases h
  | cons n r ih =>
    intro cs h
    unfold addRange Choices.emplace at h
    cases hh : cs.has (first + UInt8.ofNat n) with
    | true => rw [hh] at h; cases h
    | false =>
      rw [hh] at h
      simp only [Bool.false_eq_true, if_false, Bool.not_true] at h
      exact ih _ h

/-- A range can be added exactly if its ends are printable and in order and none of its characters is
a choice already. -/
def RangeFits (first last : UInt8) (choices : Choices) : Prop :=
  isPrintable first = true ∧ isPrintable last = true ∧ first ≤ last ∧
    ∀ b, first ≤ b → b ≤ last → choices.has b = false

/-- A prompt with a range is the prompt for the choices and, without explanation, all characters of
the range, with the same default and the same quit character. -/
theorem C34_range_choices (quit : Quit) (first last : UInt8) (msg : Str) (useQuit : Bool)
    (choices : Choices) (dflt : Option UInt8) (hs : choices.Sorted) :
    (RangeFits first last choices → ∃ cs : Choices, cs.Sorted ∧
      (∀ b d, (b, d) ∈ cs ↔ (b, d) ∈ choices ∨ (first ≤ b ∧ b ≤ last ∧ d = [])) ∧
      ∀ fuel s, Choice.getRange fuel quit first last msg useQuit choices dflt s =
        Choice.get fuel quit msg useQuit cs dflt s) ∧
    (¬ RangeFits first last choices → ∀ fuel s,
      Choice.getRange fuel quit first last msg useQuit choices dflt s = .throw .domain) := by
  have hrange : ∀ b : UInt8, first ≤ last → ((first ≤ b ∧ b ≤ last) ↔
      ∃ n ∈ List.range (last.toNat - first.toNat + 1), b = first + UInt8.ofNat n) := by
    intro b hle
    have hl := last.toNat_lt
    have hb := b.toNat_lt
    simp only [UInt8.le_iff_toNat_le] at *
    constructor
    · rintro ⟨h1, h2⟩
      refine ⟨b.toNat - first.toNat, List.mem_range.mpr (by omega), ?_⟩
      rw [← UInt8.toNat_inj, UInt8.toNat_add, UInt8.toNat_ofNat']
      omega
    · rintro ⟨n, hn, rfl⟩
      rw [List.mem_range] at hn
      simp only [UInt8.toNat_add, UInt8.toNat_ofNat'] at *
      omega
  constructor
  · rintro ⟨h1, h2, h3, h4⟩
    have hr : Choice.rangeChoices first last choices =
        addRange (List.range (last.toNat - first.toNat + 1)) first choices := by
      unfold Choice.rangeChoices checkPrintable
      rw [if_pos h1, if_pos h2]
      simp only [Res.bind_ok]
      rw [if_neg (UInt8.not_lt.mpr h3)]
    obtain ⟨cs, hcs⟩ := addRange_total (first := first) (List.range (last.toNat - first.toNat + 1)) choices hs
      List.nodup_range (fun n hn => by
        have hl := last.toNat_lt
        rw [UInt8.le_iff_toNat_le] at h3
        rw [List.mem_range] at hn
        omega) (fun n hn => by
        have := (hrange _ h3).mpr ⟨n, hn, rfl⟩
        exact h4 _ this.1 this.2)
    obtain ⟨k1, k2⟩ := addRange_ok _ _ _ hs hcs
    refine ⟨cs, k1, fun b d => ?_, fun fuel s => ?_⟩
    · rw [k2]
      constructor
      · rintro (h | ⟨n, hn, e⟩)
        · exact .inl h
        · cases e
          have := (hrange _ h3).mpr ⟨n, hn, rfl⟩
          exact .inr ⟨this.1, this.2, rfl⟩
      · rintro (h | ⟨h5, h6, rfl⟩)
        · exact .inl h
        · obtain ⟨n, hn, rfl⟩ := (hrange _ h3).mp ⟨h5, h6⟩
          exact .inr ⟨n, hn, rfl⟩
    · unfold Choice.getRange
      rw [hr, hcs, Res.bind_ok]
  · intro hno fuel s
    unfold Choice.getRange
    have : Choice.rangeChoices first last choices = .throw .domain := by
      unfold Choice.rangeChoices checkPrintable
      by_cases h1 : isPrintable first = true
      · rw [if_pos h1, Res.bind_ok]
        by_cases h2 : isPrintable last = true
        · rw [if_pos h2, Res.bind_ok]
          by_cases h3 : first > last
          · rw [if_pos h3]
          · rw [if_neg h3]
            have h3' := UInt8.not_lt.mp h3
            cases hr : addRange (List.range (last.toNat - first.toNat + 1)) first choices with
            | throw e => rw [addRange_domain _ _ _ hr]
            | ub => exact absurd hr (addRange_noUb _ _)
            | ok cs =>
              exfalso
              apply hno
              refine ⟨h1, h2, h3', fun b hb1 hb2 => ?_⟩
              obtain ⟨n, hn, e⟩ := (hrange b h3').mp ⟨hb1, hb2⟩
              exact addRange_fresh _ _ _ hs hr n hn |> fun h => e ▸ h
        · rw [if_neg h2]; rfl
      · rw [if_neg h1]; rfl
    rw [this]; rfl

/-- "-", a-c and f with the default b: an empty line is the default. -/
example : RangeFits 0x61 0x63 [(0x2d, []), (0x66, [])] ∧
    ¬ RangeFits 0x61 0x66 [(0x2d, []), (0x66, [])] ∧
    Choice.getRange 9 none 0x61 0x63 (u8!"?") false [(0x2d, []), (0x66, [])] (some 0x62)
      ⟨u8!"e\n\nf\n", true⟩ = .ok (some (0x62, ⟨u8!"f\n", true⟩)) := by
  refine ⟨⟨by decide, by decide, by decide, fun b h1 h2 => ?_⟩, fun h => ?_, by decide +kernel⟩
  · have hb : b ≠ 0x2d ∧ b ≠ 0x66 := by
      constructor <;> rintro rfl <;> revert h1 h2 <;> decide
    cases h : Choices.has [(0x2d, []), (0x66, [])] b with
    | false => rfl
    | true =>
      obtain ⟨d, hm⟩ := (has_iff _ _).mp h
      simp only [List.mem_cons, Prod.mk.injEq, List.not_mem_nil, or_false] at hm
      rcases hm with hm | hm
      · exact absurd hm.1 hb.1
      · exact absurd hm.1 hb.2
  · have := h.2.2.2 0x66 (by decide) (by decide)
    revert this
    decide

end KT
