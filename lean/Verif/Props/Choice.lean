import Verif.Model.Choice
import Verif.Spec.Choice
/-!
# C34, C35, C72: prompts

Specification: `Verif/Spec/Choice.lean`.  Model: `Verif/Model/Choice.lean`.
-/
namespace KT
open Spec

/-- The entries of a `std::map`: strictly increasing keys. -/
def Choices.Sorted (cs : Choices) : Prop := cs.Pairwise fun a b => a.1 < b.1

theorem has_iff (cs : Choices) (c : UInt8) : cs.has c = true ↔ ∃ d, (c, d) ∈ cs := by
  unfold Choices.has
  rw [List.any_eq_true]
  constructor
  · rintro ⟨⟨a, d⟩, h, e⟩; simp at e; subst e; exact ⟨d, h⟩
  · rintro ⟨d, h⟩; exact ⟨(c, d), h, by simp⟩

theorem insert_mem (cs : Choices) (c : UInt8) (d : Str) (p : UInt8 × Str) :
    p ∈ cs.insert c d ↔ p = (c, d) ∨ p ∈ cs := by
  induction cs with
  | nil => simp [Choices.insert]
  | cons q r ih =>
    unfold Choices.insert
    split
    · simp
    · rw [List.mem_cons, ih, List.mem_cons]
      constructor <;> rintro (h | h | h) <;> simp [h]

theorem insert_sorted {cs : Choices} (h : cs.Sorted) {c : UInt8} (d : Str) (hc : cs.has c = false) :
    (cs.insert c d).Sorted := by
  induction cs with
  | nil => simp [Choices.insert, Choices.Sorted]
  | cons q r ih =>
    have hq : q.1 ≠ c ∧ Choices.has r c = false := by
      unfold Choices.has at hc
      simp only [List.any_cons, Bool.or_eq_false_iff, beq_eq_false_iff_ne] at hc
      exact hc
    obtain ⟨h1, h2⟩ := List.pairwise_cons.mp h
    unfold Choices.insert
    split
    · rename_i hlt
      refine List.pairwise_cons.mpr ⟨?_, h⟩
      intro p hp
      rcases List.mem_cons.mp hp with rfl | hp
      · exact hlt
      · exact UInt8.lt_trans hlt (h1 p hp)
    · rename_i hlt
      refine List.pairwise_cons.mpr ⟨?_, ih h2 hq.2⟩
      intro p hp
      rcases (insert_mem r c d p).mp hp with rfl | hp
      · rcases UInt8.lt_or_lt_of_ne hq.1 with h | h
        · exact h
        · exact absurd h hlt
      · exact h1 p hp

/-! ## The prompt -/

theorem addStep_printable {begin : UInt8 × Str} {st : AddState} {i : UInt8 × Str}
    (h : isPrintable i.1 = false) : addStep begin st i = .throw .domain := by
  unfold addStep checkPrintable; rw [h]; rfl

theorem addLoop_printable {begin : UInt8 × Str} : ∀ (cs : Choices) (st : AddState),
    (∃ p ∈ cs, isPrintable p.1 = false) → addLoop begin cs st = .throw .domain := by
  intro cs
  induction cs with
  | nil => rintro st ⟨p, h, _⟩; cases h
  | cons i r ih =>
    rintro st ⟨p, h, hp⟩
    unfold addLoop
    cases hi : isPrintable i.1 with
    | false => rw [addStep_printable hi]; rfl
    | true =>
      have hr : ∃ p ∈ r, isPrintable p.1 = false := by
        rcases List.mem_cons.mp h with rfl | h
        · rw [hi] at hp; cases hp
        · exact ⟨p, h, hp⟩
      have : ∃ st', addStep begin st i = .ok st' := by
        unfold addStep checkPrintable
        rw [hi]
        simp only [if_true, Res.bind_ok]
        split
        · split
          · exact ⟨_, rfl⟩
          · split
            · exact ⟨_, rfl⟩
            · exact ⟨_, rfl⟩
        · exact ⟨_, rfl⟩
      obtain ⟨st', h'⟩ := this
      rw [h', Res.bind_ok, ih st' hr]

/-- Rendering of the segments after the first. -/
def tailText (ss : List Seg) : Str := ss.flatMap fun s => u8!", " ++ s.text

/-- The text still to come in a state with an open run from `a` to `p`. -/
def openText (a p : UInt8) : List Seg → Str
  | .run f l :: s => if f.toNat = p.toNat + 1 then u8!"-" ++ [l] ++ tailText s
      else (if a ≠ p then u8!"-" ++ [p] else []) ++ tailText (.run f l :: s)
  | s => (if a ≠ p then u8!"-" ++ [p] else []) ++ tailText s

/-- The prompt at the end of `add`. -/
def AddState.final (st : AddState) : Str := if st.rangeStart.isSome then st.completeRange else st.prompt

theorem run_first_le : ∀ (cs : Choices), cs.Sorted → ∀ f l s, segments cs = .run f l :: s →
    f ≤ l ∧ ∃ d r, cs = (f, d) :: r := by
  intro cs
  induction cs with
  | nil => intro _ f l s h; simp [segments] at h
  | cons i r ih =>
    obtain ⟨c, d⟩ := i
    intro hs f l s h
    obtain ⟨h1, h2⟩ := List.pairwise_cons.mp hs
    unfold segments at h
    split at h
    · cases h
    · split at h
      · rename_i f' l' s' hr
        obtain ⟨h3, d', r', h4⟩ := ih h2 f' l' s' hr
        split at h
        · cases h
          rename_i hf
          refine ⟨?_, d, r, rfl⟩
          have : c.toNat < f'.toNat := by omega
          rw [UInt8.le_iff_toNat_le] at *; omega
        · cases h
          exact ⟨UInt8.le_refl _, d, r, rfl⟩
      · cases h
        exact ⟨UInt8.le_refl _, d, r, rfl⟩

theorem addLoop_text {begin : UInt8 × Str} : ∀ (cs : Choices), cs.Sorted → (∀ p ∈ cs, isPrintable p.1 = true) →
    (∀ p ∈ cs, begin.1 < p.1) → ∀ st : AddState,
    (st.rangeStart = none → ∃ st', addLoop begin cs st = .ok st' ∧
      st'.final = st.prompt ++ tailText (segments cs)) ∧
    (∀ a, st.rangeStart = some a → a ≤ st.prevChar → (∀ p ∈ cs, st.prevChar < p.1) →
      ∃ st', addLoop begin cs st = .ok st' ∧
        st'.final = st.prompt ++ openText a st.prevChar (segments cs)) := by
  intro cs
  induction cs with
  | nil =>
    intro _ _ _ st
    refine ⟨fun h => ⟨st, rfl, by simp [AddState.final, h, segments, tailText]⟩, ?_⟩
    intro a ha _ _
    refine ⟨st, rfl, ?_⟩
    simp only [AddState.final, ha, Option.isSome_some, if_true, AddState.completeRange, segments, openText,
      tailText, List.flatMap_nil, List.append_nil, ne_eq, Option.some.injEq]
    split
    · simp
    · simp
  | cons i r ih =>
    obtain ⟨c, d⟩ := i
    intro hs hp hb st
    obtain ⟨h1, h2⟩ := List.pairwise_cons.mp hs
    have hp' : ∀ p ∈ r, isPrintable p.1 = true := fun p h => hp p (List.mem_cons_of_mem _ h)
    have hb' : ∀ p ∈ r, begin.1 < p.1 := fun p h => hb p (List.mem_cons_of_mem _ h)
    have hc := hp (c, d) List.mem_cons_self
    have hbc : c ≠ begin.1 := by
      have := hb (c, d) List.mem_cons_self
      rintro rfl; exact UInt8.lt_irrefl _ this
    have hbc' : ((c, d) : UInt8 × Str) ≠ begin := by rintro rfl; exact hbc rfl
    have ih' := ih h2 hp' hb'
    -- text of an opened run
    have hopen : (u8!", " ++ [c]) ++ openText c c (segments r) = tailText (segments ((c, []) :: r)) := by
      simp only [segments, ne_eq, not_true, if_false]
      cases hsr : segments r with
      | nil => simp [openText, tailText, Seg.text]
      | cons s ss =>
        cases s with
        | described c' d' => simp [openText, tailText, Seg.text]
        | run f l' =>
          simp only [openText]
          split
          · rename_i hf
            have hne : c ≠ l' := by
              obtain ⟨h3, _⟩ := run_first_le r h2 f l' ss hsr
              rintro rfl
              rw [UInt8.le_iff_toNat_le] at h3; omega
            simp [tailText, Seg.text, hne]
          · simp [tailText, Seg.text]
    constructor
    · intro hn
      unfold addLoop addStep checkPrintable
      simp only [hc, if_true, Res.bind_ok, hn]
      split
      · rename_i hd
        rw [Res.bind_ok]
        obtain ⟨st', k1, k2⟩ := (ih' ⟨st.prompt ++ u8!", " ++ [c], some c, c⟩).2 c rfl (UInt8.le_refl _) h1
        refine ⟨st', k1, ?_⟩
        rw [k2, hd, ← hopen]; simp
      · rename_i hd
        rw [Res.bind_ok]
        simp only [Option.isSome_none, Bool.false_eq_true, if_false]
        obtain ⟨st', k1, k2⟩ := (ih' ⟨st.prompt ++ u8!", " ++ [c] ++ u8!"=" ++ d, none, c⟩).1 rfl
        refine ⟨st', k1, ?_⟩
        rw [k2]
        simp [segments, hd, tailText, Seg.text]
    · intro a ha hap hpr
      have hpc := hpr (c, d) List.mem_cons_self
      have hpc' : st.prevChar.toNat < c.toNat := UInt8.lt_iff_toNat_lt.mp hpc
      unfold addLoop addStep checkPrintable
      simp only [hc, if_true, Res.bind_ok, ha]
      have hcomp : st.completeRange = st.prompt ++ (if a ≠ st.prevChar then u8!"-" ++ [st.prevChar] else []) := by
        unfold AddState.completeRange
        rw [ha]
        by_cases h : a = st.prevChar <;> simp [h]
      split
      · rename_i hd
        subst hd
        rw [if_neg (by simp)]
        by_cases hj : (c.toNat : Int) - st.prevChar.toNat > 1
        · rw [if_pos hj, Res.bind_ok]
          obtain ⟨st', k1, k2⟩ := (ih' ⟨st.completeRange ++ u8!", " ++ [c], some c, c⟩).2 c rfl (UInt8.le_refl _) h1
          refine ⟨st', k1, ?_⟩
          rw [k2, hcomp]
          have hneq : ¬ c.toNat = st.prevChar.toNat + 1 := by omega
          have ho : openText a st.prevChar (segments ((c, []) :: r)) =
              (if a ≠ st.prevChar then u8!"-" ++ [st.prevChar] else []) ++ tailText (segments ((c, []) :: r)) := by
            simp only [segments, ne_eq, not_true, if_false]
            split
            · split
              · simp [openText, hneq]
              · simp [openText, hneq]
            · simp [openText, hneq]
          rw [ho, ← hopen]
          simp
        · rw [if_neg hj, Res.bind_ok]
          obtain ⟨st', k1, k2⟩ := (ih' ⟨st.prompt, some a, c⟩).2 a rfl
            (UInt8.le_of_lt (UInt8.lt_of_le_of_lt hap hpc)) h1
          refine ⟨st', k1, ?_⟩
          rw [k2]
          have heq : c.toNat = st.prevChar.toNat + 1 := by omega
          have hac : a ≠ c := by
            rintro rfl
            rw [UInt8.le_iff_toNat_le] at hap; omega
          congr 1
          simp only [segments, ne_eq, not_true, if_false]
          cases hsr : segments r with
          | nil => simp [openText, heq, hac]
          | cons s ss =>
            cases s with
            | described c' d' => simp [openText, heq, hac]
            | run f l' =>
              by_cases hf : f.toNat = c.toNat + 1
              · simp [openText, heq, hf]
              · rw [heq] at hf
                simp [openText, heq, hf, hac]
      · rename_i hd
        rw [Res.bind_ok]
        simp only [Option.isSome_some, if_true]
        obtain ⟨st', k1, k2⟩ := (ih' ⟨st.completeRange ++ u8!", " ++ [c] ++ u8!"=" ++ d, none, c⟩).1 rfl
        refine ⟨st', k1, ?_⟩
        rw [k2, hcomp]
        simp [segments, hd, tailText, Seg.text, openText]

theorem addChoices_text (prompt : Str) (cs : Choices) (hs : cs.Sorted) (hp : ∀ p ∈ cs, isPrintable p.1 = true) :
    addChoices prompt cs = .ok (prompt ++ segText (segments cs)) := by
  cases cs with
  | nil => simp [addChoices, segments, segText]
  | cons i r =>
    obtain ⟨c, d⟩ := i
    obtain ⟨h1, h2⟩ := List.pairwise_cons.mp hs
    have hp' : ∀ p ∈ r, isPrintable p.1 = true := fun p h => hp p (List.mem_cons_of_mem _ h)
    have hc := hp (c, d) List.mem_cons_self
    have key := addLoop_text (begin := (c, d)) r h2 hp' h1
    unfold addChoices addLoop addStep checkPrintable
    simp only [hc, if_true, Res.bind_ok]
    split
    · rename_i hd
      subst hd
      rw [Res.bind_ok]
      simp only [ne_eq, not_true, if_false]
      obtain ⟨st', k1, k2⟩ := (key ⟨prompt ++ [c], some c, c⟩).2 c rfl
        (UInt8.le_refl _) h1
      rw [k1, Res.bind_ok]
      congr 1
      have : st'.final = prompt ++ segText (segments ((c, []) :: r)) := by
        rw [k2]
        simp only [segments, ne_eq, not_true, if_false]
        cases hsr : segments r with
        | nil => simp [openText, segText, tailText, Seg.text]
        | cons s ss =>
          cases s with
          | described c' d' => simp [openText, segText, tailText, Seg.text]
          | run f l' =>
            simp only [openText]
            split
            · rename_i hf
              have hne : c ≠ l' := by
                obtain ⟨h3, _⟩ := run_first_le r h2 f l' ss hsr
                rintro rfl
                rw [UInt8.le_iff_toNat_le] at h3; omega
              simp [tailText, segText, Seg.text, hne]
            · simp [tailText, segText, Seg.text]
      rw [← this]; rfl
    · rename_i hd
      rw [Res.bind_ok]
      simp only [Option.isSome_none, Bool.false_eq_true, if_false, ne_eq, not_true]
      obtain ⟨st', k1, k2⟩ := (key ⟨prompt ++ [c] ++ u8!"=" ++ d, none, c⟩).1 rfl
      rw [k1, Res.bind_ok]
      congr 1
      have : st'.final = prompt ++ segText (segments ((c, d) :: r)) := by
        rw [k2]; simp [segments, hd, segText, tailText, Seg.text]
      rw [← this]; rfl

/-! ### C72: the prompt lists the choices -/

theorem run_choices {c f l : UInt8} (h : f.toNat = c.toNat + 1) (hl : f ≤ l) :
    (Seg.run c l).choices = (c, []) :: (Seg.run f l).choices := by
  rw [UInt8.le_iff_toNat_le] at hl
  simp only [Seg.choices]
  have e : l.toNat - c.toNat + 1 = (l.toNat - f.toNat + 1) + 1 := by omega
  rw [e, List.range_succ_eq_map, List.map_cons, List.map_map]
  congr 1
  · simp
  · apply List.map_congr_left
    intro n _
    have : f = c + 1 := by
      apply UInt8.toNat_inj.mp
      have := l.toNat_lt
      rw [UInt8.toNat_add, h]
      show c.toNat + 1 = (c.toNat + 1) % 256
      omega
    simp only [Function.comp, Prod.mk.injEq, and_true]
    rw [this]
    apply UInt8.toNat_inj.mp
    simp only [UInt8.toNat_add, UInt8.toNat_ofNat']
    have : (1 : UInt8).toNat = 1 := rfl
    omega

/-- The segments stand for exactly the choices, in their order. -/
theorem C72_segments : ∀ (cs : Choices), cs.Sorted → (segments cs).flatMap Seg.choices = cs := by
  intro cs
  induction cs with
  | nil => intro _; rfl
  | cons i r ih =>
    obtain ⟨c, d⟩ := i
    intro hs
    obtain ⟨h1, h2⟩ := List.pairwise_cons.mp hs
    have ih := ih h2
    unfold segments
    split
    · simp [Seg.choices, ih]
    · rename_i hd
      simp only [ne_eq, Classical.not_not] at hd
      subst hd
      split
      · rename_i f l s hr
        obtain ⟨h3, _⟩ := run_first_le r h2 f l s hr
        rw [hr] at ih
        split
        · rename_i hf
          rw [List.flatMap_cons, run_choices hf h3, ← ih]
          simp
        · simp only [List.flatMap_cons] at ih ⊢
          rw [ih]
          simp [Seg.choices]
      · rename_i s _
        simp only [List.flatMap_cons]
        rw [ih]
        simp [Seg.choices]

/-- Runs are maximal: neighbouring runs don't touch. -/
theorem C72_maximal : ∀ (cs : Choices), ∀ a b a' b' pre post,
    segments cs = pre ++ .run a b :: .run a' b' :: post → cs.Sorted → a'.toNat > b.toNat + 1 := by
  intro cs
  induction cs with
  | nil => intro a b a' b' pre post h; simp [segments] at h
  | cons i r ih =>
    obtain ⟨c, d⟩ := i
    intro a b a' b' pre post h hs
    obtain ⟨h1, h2⟩ := List.pairwise_cons.mp hs
    unfold segments at h
    split at h
    · cases pre with
      | nil => cases h
      | cons p pre =>
        simp only [List.cons_append, List.cons.injEq] at h
        exact ih _ _ _ _ pre post h.2 h2
    · split at h
      · rename_i f l s hr
        split at h
        · cases pre with
          | nil => cases h; exact ih f b _ _ [] post hr h2
          | cons p pre =>
            simp only [List.cons_append, List.cons.injEq] at h
            exact ih a b a' b' (.run f l :: pre) post (by rw [hr, h.2]; rfl) h2
        · rename_i hf
          cases pre with
          | nil =>
            cases h
            obtain ⟨_, d', r', e⟩ := run_first_le r h2 _ _ _ hr
            have := h1 (a', d') (by rw [e]; exact List.mem_cons_self)
            rw [UInt8.lt_iff_toNat_lt] at this
            simp only at this
            omega
          | cons p pre =>
            simp only [List.cons_append, List.cons.injEq] at h
            exact ih a b a' b' pre post (by rw [hr, h.2]) h2
      · rename_i s hne
        cases pre with
        | nil =>
          simp only [List.nil_append, List.cons.injEq] at h
          exact absurd h.2 (hne _ _ _)
        | cons p pre =>
          simp only [List.cons_append, List.cons.injEq] at h
          exact ih a b a' b' pre post h.2 h2

/-! ## What is offered -/

/-- The choices together with the quit option, when quit is enabled. -/
def offered (quit : Quit) (useQuit : Bool) (choices : Choices) : Choices :=
  match quit with
  | some (q, d) => if useQuit then choices.insert q d else choices
  | none => choices

/-- What a caller has to respect: the quit character isn't one of the choices, something is offered, it
can be printed, and the default is offered. -/
structure Acceptable (quit : Quit) (useQuit : Bool) (choices : Choices) (dflt : Option UInt8) : Prop where
  noClash : ∀ q d, quit = some (q, d) → choices.has q = false
  nonempty : offered quit useQuit choices ≠ []
  print : ∀ p ∈ offered quit useQuit choices, isPrintable p.1 = true
  hasDflt : ∀ d, dflt = some d → (offered quit useQuit choices).has d = true

theorem offered_sorted {quit : Quit} {useQuit : Bool} {choices : Choices} (hs : choices.Sorted)
    (h : ∀ q d, quit = some (q, d) → choices.has q = false) : (offered quit useQuit choices).Sorted := by
  unfold offered
  split
  · rename_i q d
    split
    · exact insert_sorted hs d (h q d rfl)
    · exact hs
  · exact hs

/-- The text shown to the user. -/
def promptText (msg : Str) (cs : Choices) (dflt : Option UInt8) : Str :=
  msg ++ (if msg = [] then u8!"(" else u8!" (") ++ segText (segments cs) ++
    match dflt with
    | some d => u8!") def '" ++ [d] ++ u8!"': "
    | none => u8!"): "

theorem prepare_step (quit : Quit) (msg : Str) (useQuit : Bool) (choices : Choices) (dflt : Option UInt8)
    (h : ∀ q d, quit = some (q, d) → choices.has q = false) :
    Choice.prepare quit msg useQuit choices dflt =
      if offered quit useQuit choices = [] then .throw .domain
      else (addChoices (msg ++ (if msg = [] then u8!"(" else u8!" (")) (offered quit useQuit choices)).bind fun prompt =>
        match dflt with
        | some d =>
          if !(offered quit useQuit choices).has d then .throw .domain
          else .ok (offered quit useQuit choices, prompt ++ u8!") def '" ++ [d] ++ u8!"': ")
        | none => .ok (offered quit useQuit choices, prompt ++ u8!"): ") := by
  unfold Choice.prepare offered
  cases quit with
  | none => rfl
  | some p =>
    obtain ⟨q, d⟩ := p
    have := h q d rfl
    cases useQuit with
    | true => simp only [if_true, Choices.emplace, this]; rfl
    | false => simp only [this]; rfl

/-- C72: if a prompt is shown then it lists exactly the offered choices. -/
theorem C72_prompt (quit : Quit) (msg : Str) (useQuit : Bool) (choices : Choices) (dflt : Option UInt8)
    (hs : choices.Sorted) (h : Acceptable quit useQuit choices dflt) :
    Choice.prepare quit msg useQuit choices dflt =
      .ok (offered quit useQuit choices, promptText msg (offered quit useQuit choices) dflt) := by
  rw [prepare_step _ _ _ _ _ h.noClash, if_neg h.nonempty, addChoices_text _ _ (offered_sorted hs h.noClash) h.print]
  cases hd : dflt with
  | none => simp only [Res.bind, promptText]
  | some d =>
    simp only [Res.bind, promptText, h.hasDflt d hd]
    simp

/-- C34: a prompt with an unacceptable set of choices is a domain error and nothing is asked. -/
theorem C34_rejected (quit : Quit) (msg : Str) (useQuit : Bool) (choices : Choices) (dflt : Option UInt8)
    (hs : choices.Sorted) (h : ¬ Acceptable quit useQuit choices dflt) :
    Choice.prepare quit msg useQuit choices dflt = .throw .domain := by
  by_cases hq : ∀ q d, quit = some (q, d) → choices.has q = false
  · rw [prepare_step _ _ _ _ _ hq]
    by_cases hn : offered quit useQuit choices = []
    · rw [if_pos hn]
    · rw [if_neg hn]
      by_cases hp : ∀ p ∈ offered quit useQuit choices, isPrintable p.1 = true
      · rw [addChoices_text _ _ (offered_sorted hs hq) hp]
        simp only [Res.bind]
        cases hd : dflt with
        | none => exact absurd ⟨hq, hn, hp, fun d h => by rw [hd] at h; cases h⟩ h
        | some d =>
          simp only
          cases hh : (offered quit useQuit choices).has d with
          | false => rfl
          | true =>
            exact absurd ⟨hq, hn, hp, fun d' h => by rw [hd] at h; cases h; exact hh⟩ h
      · have : ∃ p ∈ offered quit useQuit choices, isPrintable p.1 = false := by
          apply Classical.byContradiction
          intro hc
          apply hp
          intro p hp'
          cases hpr : isPrintable p.1 with
          | true => rfl
          | false => exact absurd ⟨p, hp', hpr⟩ hc
        have hadd : ∀ m, addChoices m (offered quit useQuit choices) = .throw .domain := by
          intro m
          revert this hn
          generalize offered quit useQuit choices = cs
          intro hn this
          cases cs with
          | nil => exact absurd rfl hn
          | cons p r =>
            unfold addChoices
            simp only
            rw [addLoop_printable _ _ this]; rfl
        rw [hadd]; rfl
  · have : ∃ q d, quit = some (q, d) ∧ choices.has q = true := by
      apply Classical.byContradiction
      intro hc
      apply hq
      intro q d e
      cases hh : choices.has q with
      | false => rfl
      | true => exact absurd ⟨q, d, e, hh⟩ hc
    obtain ⟨q, d, e, hh⟩ := this
    subst e
    unfold Choice.prepare
    cases useQuit with
    | true => simp only [if_true, Choices.emplace, hh]; rfl
    | false => simp only [hh]; rfl

/-! ## Reading answers -/

theorem cutLine_lines (s : Str) : inputLines s =
    match cutLine s with
    | (l, some r) => l :: inputLines r
    | (l, none) => [l] := by
  induction s with
  | nil => rfl
  | cons b r ih =>
    rw [inputLines, cutLine]
    split
    · rfl
    · rw [ih]
      rcases hc : cutLine r with ⟨l, _ | r'⟩ <;> simp

theorem cutLine_length (s : Str) (l r : Str) (h : cutLine s = (l, some r)) : r.length < s.length := by
  induction s generalizing l with
  | nil => cases h
  | cons b t ih =>
    unfold cutLine at h
    split at h
    · cases h; simp
    · rcases hc : cutLine t with ⟨l', _ | r'⟩
      · rw [hc] at h; cases h
      · rw [hc] at h; cases h
        have := ih _ hc
        simp only [List.length_cons]; omega

/-- After the end the same line is seen again and again. -/
theorem loop_bad (cs : Choices) (dflt : Option UInt8) : ∀ (fuel : Nat) (rest line : Str),
    Choice.answer cs dflt line = none → Choice.loop cs dflt fuel ⟨rest, false⟩ line = none := by
  intro fuel
  induction fuel with
  | zero => intros; rfl
  | succ n ih =>
    intro rest line h
    unfold Choice.loop InStream.getline
    simp only [Bool.false_eq_true, if_false, h]
    exact ih rest line h

/-- C34: the answer is that of the first line which is acceptable. -/
theorem loop_first (cs : Choices) (dflt : Option UInt8) : ∀ (fuel : Nat) (rest line : Str),
    fuel ≥ (inputLines rest).length →
    (Choice.loop cs dflt fuel ⟨rest, true⟩ line).map Prod.fst = (inputLines rest).findSome? (Choice.answer cs dflt) := by
  intro fuel
  induction fuel with
  | zero =>
    intro rest line h
    rw [cutLine_lines] at h
    rcases hc : cutLine rest with ⟨l, _ | r⟩ <;> rw [hc] at h <;> simp at h
  | succ n ih =>
    intro rest line h
    unfold Choice.loop InStream.getline
    rw [cutLine_lines] at h ⊢
    rcases hc : cutLine rest with ⟨l, _ | r⟩
    · simp only [if_true, List.findSome?_cons, List.findSome?_nil]
      cases ha : Choice.answer cs dflt l with
      | some b => rfl
      | none => simp only [loop_bad cs dflt n [] l ha, Option.map_none]
    · rw [hc] at h
      simp only [if_true, List.findSome?_cons]
      simp only [List.length_cons] at h
      cases ha : Choice.answer cs dflt l with
      | some b => rfl
      | none => exact ih r l (by omega)

theorem loop_mono (cs : Choices) (dflt : Option UInt8) : ∀ (n m : Nat) (s : InStream) (line : Str) x,
    Choice.loop cs dflt n s line = some x → n ≤ m → Choice.loop cs dflt m s line = some x := by
  intro n
  induction n with
  | zero => intro m s line x h; cases h
  | succ n ih =>
    intro m s line x h hm
    obtain ⟨m, rfl⟩ : ∃ k, m = k + 1 := ⟨m - 1, by omega⟩
    unfold Choice.loop at h ⊢
    revert h
    rcases s.getline line with ⟨s', l'⟩
    simp only
    cases Choice.answer cs dflt l' with
    | some b => exact id
    | none => intro h; exact ih m s' l' x h (by omega)

theorem answer_offered {cs : Choices} {dflt : Option UInt8} {line : Str} {b : UInt8}
    (h : Choice.answer cs dflt line = some b) :
    (line = [] ∧ dflt = some b) ∨ (line = [b] ∧ cs.has b = true) := by
  unfold Choice.answer at h
  split at h
  · cases h; exact .inl ⟨rfl, rfl⟩
  · split at h
    · cases h; rename_i hh; exact .inr ⟨rfl, hh⟩
    · cases h
  · cases h

/-! ### C34: only offered answers -/

/-- The answer of `get` belongs to the first acceptable line of the input. -/
theorem C34_first (quit : Quit) (msg : Str) (useQuit : Bool) (choices : Choices) (dflt : Option UInt8)
    (hs : choices.Sorted) (input : Str) (fuel : Nat) (b : UInt8) (s : InStream)
    (h : Choice.get fuel quit msg useQuit choices dflt ⟨input, true⟩ = .ok (some (b, s))) :
    Acceptable quit useQuit choices dflt ∧
    ∃ pre l post, inputLines input = pre ++ l :: post ∧
      (∀ x ∈ pre, Choice.answer (offered quit useQuit choices) dflt x = none) ∧
      ((l = [] ∧ dflt = some b) ∨ (l = [b] ∧ (offered quit useQuit choices).has b = true)) := by
  by_cases ha : Acceptable quit useQuit choices dflt
  · refine ⟨ha, ?_⟩
    unfold Choice.get at h
    rw [C72_prompt _ _ _ _ _ hs ha, Res.bind_ok] at h
    simp only [Res.ok.injEq] at h
    have hm := loop_mono _ _ _ (max fuel (inputLines input).length) _ _ _ h (by omega)
    have hf := loop_first (offered quit useQuit choices) dflt (max fuel (inputLines input).length) input []
      (by omega)
    rw [hm, Option.map_some] at hf
    obtain ⟨pre, l, post, h1, h2, h3⟩ := List.findSome?_eq_some_iff.mp hf.symm
    exact ⟨pre, l, post, h1, h3, answer_offered h2⟩
  · unfold Choice.get at h
    rw [C34_rejected _ _ _ _ _ hs ha] at h
    cases h

/-- Whatever is typed, the answer is one of the choices, or the quit character when it's enabled. -/
theorem C34_offered (quit : Quit) (msg : Str) (useQuit : Bool) (choices : Choices) (dflt : Option UInt8)
    (hs : choices.Sorted) (input : Str) (fuel : Nat) (b : UInt8) (s : InStream)
    (h : Choice.get fuel quit msg useQuit choices dflt ⟨input, true⟩ = .ok (some (b, s))) :
    choices.has b = true ∨ (useQuit = true ∧ ∃ d, quit = some (b, d)) := by
  obtain ⟨ha, _, l, _, _, _, h1⟩ := C34_first _ _ _ _ _ hs _ _ _ _ h
  have hb : (offered quit useQuit choices).has b = true := by
    rcases h1 with ⟨_, h1⟩ | ⟨_, h1⟩
    · exact ha.hasDflt b h1
    · exact h1
  unfold offered at hb
  split at hb
  · rename_i q d
    split at hb
    · rename_i hu
      obtain ⟨d', hm⟩ := (has_iff _ _).mp hb
      rcases (insert_mem _ _ _ _).mp hm with e | e
      · cases e; exact .inr ⟨hu, _, rfl⟩
      · exact .inl ((has_iff _ _).mpr ⟨d', e⟩)
    · exact .inl hb
  · exact .inl hb

theorem addRange_ok {first : UInt8} : ∀ (ns : List Nat) (cs out : Choices), cs.Sorted →
    addRange ns first cs = .ok out → out.Sorted ∧
      ∀ p, p ∈ out ↔ p ∈ cs ∨ ∃ n ∈ ns, p = (first + UInt8.ofNat n, []) := by
  intro ns
  induction ns with
  | nil => intro cs out hs h; cases h; exact ⟨hs, fun p => by simp⟩
  | cons n r ih =>
    intro cs out hs h
    unfold addRange Choices.emplace at h
    cases hh : cs.has (first + UInt8.ofNat n) with
    | true => rw [hh] at h; cases h
    | false =>
      rw [hh] at h
      simp only [Bool.false_eq_true, if_false, Bool.not_true] at h
      obtain ⟨h1, h2⟩ := ih _ _ (insert_sorted hs [] hh) h
      refine ⟨h1, fun p => ?_⟩
      rw [h2, insert_mem]
      constructor
      · rintro ((rfl | h) | ⟨k, hk, rfl⟩)
        · exact .inr ⟨n, List.mem_cons_self, rfl⟩
        · exact .inl h
        · exact .inr ⟨k, List.mem_cons_of_mem _ hk, rfl⟩
      · rintro (h | ⟨k, hk, rfl⟩)
        · exact .inl (.inr h)
        · rcases List.mem_cons.mp hk with rfl | hk
          · exact .inl (.inl rfl)
          · exact .inr ⟨k, hk, rfl⟩

/-- The same for a prompt with a range. -/
theorem C34_range (quit : Quit) (first last : UInt8) (msg : Str) (useQuit : Bool) (choices : Choices)
    (dflt : Option UInt8) (hs : choices.Sorted) (input : Str) (fuel : Nat) (b : UInt8) (s : InStream)
    (h : Choice.getRange fuel quit first last msg useQuit choices dflt ⟨input, true⟩ = .ok (some (b, s))) :
    (first ≤ b ∧ b ≤ last) ∨ choices.has b = true ∨ (useQuit = true ∧ ∃ d, quit = some (b, d)) := by
  unfold Choice.getRange at h
  cases hr : Choice.rangeChoices first last choices with
  | throw e => rw [hr] at h; cases h
  | ub => rw [hr] at h; cases h
  | ok cs =>
    rw [hr, Res.bind_ok] at h
    unfold Choice.rangeChoices at hr
    cases h1 : checkPrintable first with
    | throw e => rw [h1] at hr; cases hr
    | ub => rw [h1] at hr; cases hr
    | ok _ =>
      cases h2 : checkPrintable last with
      | throw e => rw [h1, h2] at hr; cases hr
      | ub => rw [h1, h2] at hr; cases hr
      | ok _ =>
        rw [h1, h2] at hr
        simp only [Res.bind_ok] at hr
        split at hr
        · cases hr
        · rename_i hle
          obtain ⟨h3, h4⟩ := addRange_ok _ _ _ hs hr
          rcases C34_offered _ _ _ _ _ h3 _ _ _ _ h with h5 | h5
          · obtain ⟨d, hm⟩ := (has_iff _ _).mp h5
            rcases (h4 _).mp hm with hm | ⟨n, hn, e⟩
            · exact .inr (.inl ((has_iff _ _).mpr ⟨d, hm⟩))
            · left
              cases e
              rw [List.mem_range] at hn
              have := UInt8.not_lt.mp hle
              have hl := last.toNat_lt
              simp only [UInt8.le_iff_toNat_le, UInt8.toNat_add, UInt8.toNat_ofNat'] at *
              omega
          · exact .inr (.inr h5)

/-! ### C35: prompts end -/

/-- The property. -/
def C35_statement : Prop :=
  ∀ (quit : Quit) (msg : Str) (useQuit : Bool) (choices : Choices) (dflt : Option UInt8) (input : Str),
    choices.Sorted → Acceptable quit useQuit choices dflt →
    ∃ fuel x, Choice.get fuel quit msg useQuit choices dflt ⟨input, true⟩ = .ok (some x)

/-- Exactly when a prompt ends: some line of the input (the last, unfinished one included) is
acceptable. -/
theorem C35_partial (quit : Quit) (msg : Str) (useQuit : Bool) (choices : Choices) (dflt : Option UInt8)
    (input : Str) (hs : choices.Sorted) (ha : Acceptable quit useQuit choices dflt) :
    (∃ fuel x, Choice.get fuel quit msg useQuit choices dflt ⟨input, true⟩ = .ok (some x)) ↔
    ∃ l ∈ inputLines input, (l = [] ∧ dflt.isSome = true) ∨
      ∃ b, l = [b] ∧ (offered quit useQuit choices).has b = true := by
  constructor
  · rintro ⟨fuel, ⟨b, s⟩, h⟩
    obtain ⟨_, pre, l, post, h1, _, h2⟩ := C34_first _ _ _ _ _ hs _ _ _ _ h
    refine ⟨l, by rw [h1]; simp, ?_⟩
    rcases h2 with ⟨h2, h3⟩ | h2
    · exact .inl ⟨h2, by rw [h3]; rfl⟩
    · exact .inr ⟨b, h2⟩
  · rintro ⟨l, hl, h⟩
    have hf := loop_first (offered quit useQuit choices) dflt (inputLines input).length input []
      (Nat.le_refl _)
    have hsome : ((inputLines input).findSome? (Choice.answer (offered quit useQuit choices) dflt)).isSome := by
      rw [List.findSome?_isSome_iff]
      refine ⟨l, hl, ?_⟩
      unfold Choice.answer
      rcases h with ⟨rfl, h⟩ | ⟨b, rfl, h⟩
      · cases dflt with
        | none => cases h
        | some d => rfl
      · simp only [h, if_true, Option.isSome_some]
    rw [← hf, Option.isSome_map] at hsome
    obtain ⟨x, hx⟩ := Option.isSome_iff_exists.mp hsome
    refine ⟨(inputLines input).length, x, ?_⟩
    unfold Choice.get
    rw [C72_prompt _ _ _ _ _ hs ha, Res.bind_ok]
    simp only
    rw [hx]

theorem yn_sorted : Choices.Sorted [(0x6e, u8!"no"), (0x79, u8!"yes")] := by
  unfold Choices.Sorted; decide

theorem yn_acceptable (dflt : Option UInt8) (h : dflt = none ∨ dflt = some 0x79) :
    Acceptable none false [(0x6e, u8!"no"), (0x79, u8!"yes")] dflt := by
  refine ⟨fun q d h => (by cases h), by decide, by decide, ?_⟩
  rintro d rfl
  rcases h with h | h <;> cases h
  decide

/-- C35 fails: with no default the prompt `Continue (n=no, y=yes): ` is repeated forever once the input
has ended. -/
theorem C35_violated : ¬ C35_statement := by
  intro h
  have h1 := h none (u8!"Continue") false [(0x6e, u8!"no"), (0x79, u8!"yes")] none [] yn_sorted
    (yn_acceptable none (.inl rfl))
  have := (C35_partial none _ false _ none [] yn_sorted (yn_acceptable none (.inl rfl))).mp h1
  obtain ⟨l, hl, h⟩ := this
  simp only [inputLines, List.mem_singleton] at hl
  subst hl
  rcases h with ⟨_, h⟩ | ⟨b, h, _⟩ <;> cases h

/-- A default doesn't help: after input `ok` without newline the old line is tested forever. -/
theorem C35_default_violated : ¬ ∃ fuel x, Choice.get fuel none (u8!"Continue") false
    [(0x6e, u8!"no"), (0x79, u8!"yes")] (some 0x79) ⟨u8!"ok", true⟩ = .ok (some x) := by
  intro h
  have := (C35_partial none _ false _ (some 0x79) (u8!"ok") yn_sorted (yn_acceptable _ (.inr rfl))).mp h
  obtain ⟨l, hl, h⟩ := this
  have e : inputLines (u8!"ok") = [u8!"ok"] := by decide
  rw [e, List.mem_singleton] at hl
  subst hl
  rcases h with ⟨h, _⟩ | ⟨b, h, _⟩ <;> cases h

/-- A final newline leaves an empty line behind it. -/
theorem newline_last (t : Str) : ([] : Str) ∈ (inputLines (t ++ [0x0a])).drop 1 := by
  induction t with
  | nil => decide
  | cons y u ih =>
    rw [List.cons_append, inputLines]
    split
    · exact List.mem_of_mem_drop ih
    · split
      · rename_i h; rw [h] at ih; exact ih
      · rename_i h; rw [h] at ih; exact ih

/-- With a default the prompt ends if the input is empty or ends with a newline. -/
theorem C35_default_partial (quit : Quit) (msg : Str) (useQuit : Bool) (choices : Choices) (d : UInt8)
    (input : Str) (hs : choices.Sorted) (ha : Acceptable quit useQuit choices (some d))
    (hi : input = [] ∨ ∃ t, input = t ++ [0x0a]) :
    ∃ fuel x, Choice.get fuel quit msg useQuit choices (some d) ⟨input, true⟩ = .ok (some x) := by
  rw [C35_partial _ _ _ _ _ _ hs ha]
  refine ⟨[], ?_, .inl ⟨rfl, rfl⟩⟩
  rcases hi with rfl | ⟨t, rfl⟩
  · exact List.mem_singleton.mpr rfl
  · exact List.mem_of_mem_drop (newline_last t)

example : Choice.prepare none (u8!"Continue") false [(0x6e, u8!"no"), (0x79, u8!"yes")] (some 0x79) =
    .ok ([(0x6e, u8!"no"), (0x79, u8!"yes")], u8!"Continue (n=no, y=yes) def 'y': ") := by decide
example : Choice.rangeChoices 0x61 0x64 [(0x2d, []), (0x66, [])] =
    .ok [(0x2d, []), (0x61, []), (0x62, []), (0x63, []), (0x64, []), (0x66, [])] := by decide
example : Choice.prepare (some (0x71, u8!"quit")) [] true
    [(0x2d, []), (0x61, []), (0x62, []), (0x63, []), (0x64, []), (0x66, [])] none =
    .ok ([(0x2d, []), (0x61, []), (0x62, []), (0x63, []), (0x64, []), (0x66, []), (0x71, u8!"quit")],
      u8!"(-, a-d, f, q=quit): ") := by decide
example : Choice.get 9 (some (0x71, u8!"quit")) [] true [(0x61, [])] none ⟨u8!"b\nqq\nq\na\n", true⟩ =
    .ok (some (0x71, ⟨u8!"a\n", true⟩)) := by decide

end KT
