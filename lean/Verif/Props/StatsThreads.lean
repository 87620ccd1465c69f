import Verif.Lemmas.StatsThreads
/-!
# C202: the threads of kanjiStats
-/
namespace KT
open Spec

/-! ## All threads -/

/-- `countKanji` when nothing runs at the same time. -/
def StatsCall.sequential (c : StatsCall) : Res Str := countKanji c.data c.breakdown c.verbose c.path c.node

theorem sequential_eq (c : StatsCall) :
    c.sequential = (Res.each (threadRun c) (List.range threadCount)).bind fun rs =>
      .ok ((rs.map (·.1)).flatten ++ totalLine percentText (predNames.zip (rs.map (·.2)))) := by
  have e : predNames.zipIdx = (List.range threadCount).map fun i => (threadName i, i) := by decide +kernel
  unfold StatsCall.sequential countKanji
  rw [e, each_map]
  rfl

/-- Either all threads end with a text, or all of them throw as there is nothing at the path. -/
theorem threadRun_cases (c : StatsCall) (i : Nat) :
    (atPath c.node = none ∧ threadRun c i = .throw .domain) ∨ (atPath c.node ≠ none ∧ ∃ r, threadRun c i = .ok r) := by
  have h := countRun_eq (!removesFurigana (threadName i)) (c.addsTag (threadName i)) (statAllow c.data.ucd i) c.path c.node
  rw [Bool.not_not] at h
  have hrun : threadRun c i = (countRun (removesFurigana (threadName i)) (c.addsTag (threadName i))
    (statAllow c.data.ucd i) c.path c.node).bind _ := rfl
  cases hn : atPath c.node with
  | none => exact .inl ⟨rfl, by rw [hrun, h.1 hn]; rfl⟩
  | some n =>
    obtain ⟨st, hst, _⟩ := h.2 n hn
    exact .inr ⟨by simp, by rw [hrun, hst]; exact ⟨_, rfl⟩⟩

theorem each_snoc {α β : Type} (f : α → Res β) (l : List α) (a : α) :
    Res.each f (l ++ [a]) = (Res.each f l).bind fun rs => (f a).bind fun r => .ok (rs ++ [r]) := by
  induction l with
  | nil => simp only [List.nil_append, Res.each, Res.bind]
  | cons b l ih =>
    rw [List.cons_append, Res.each, Res.each, ih]
    cases f b with
    | throw e => rfl
    | ub => rfl
    | ok b =>
      simp only [Res.bind]
      cases Res.each f l with
      | throw e => rfl
      | ub => rfl
      | ok rs =>
        simp only [Res.bind]
        cases f a <;> rfl

theorem each_facts {α β : Type} (f : α → Res β) (l : List α) (rs : List β) (h : Res.each f l = .ok rs) :
    l.map f = rs.map .ok := by
  induction l generalizing rs with
  | nil =>
    simp only [Res.each, Res.ok.injEq] at h
    subst h
    rfl
  | cons a l ih =>
    rw [Res.each] at h
    cases hf : f a with
    | throw e => simp [hf, Res.bind] at h
    | ub => simp [hf, Res.bind] at h
    | ok b =>
      cases he : Res.each f l with
      | throw e => simp [hf, he, Res.bind] at h
      | ub => simp [hf, he, Res.bind] at h
      | ok bs =>
        simp only [hf, he, Res.bind, Res.ok.injEq] at h
        subst h
        simp [hf, ih bs he]

/-- What has been taken by the main thread so far. -/
def Taken (c : StatsCall) (out : Str) (m : Threads) (k : Nat) : Prop :=
  (∀ i, m.pc i = .absent ↔ threadCount ≤ i) ∧ (∀ i, i < k → m.pc i = .ended) ∧
    ∃ rs, Res.each (threadRun c) (List.range k) = .ok rs ∧ m.out = out ++ (rs.map (·.1)).flatten

/-- Where the main thread is agrees with the threads. -/
def MainInv (c : StatsCall) (out : Str) (m : Threads) : MainPc → Prop
  | .creating k => k ≤ threadCount ∧ (∀ i, m.pc i = .absent ↔ k ≤ i) ∧ m.out = out
  | .getting k => k ≤ threadCount ∧ Taken c out m k
  | .totals => Taken c out m threadCount
  | .unwinding k e =>
    k ≤ threadCount ∧ (∀ i, m.pc i = .absent ↔ threadCount ≤ i) ∧ (∀ i, k ≤ i → i < threadCount → m.pc i = .ended) ∧
      c.sequential = .throw e ∧ m.out = out
  | .returned => (∀ i, m.pc i = if i < threadCount then .ended else .absent) ∧ ∃ t, c.sequential = .ok t ∧ m.out = out ++ t
  | .threw e => (∀ i, m.pc i = if i < threadCount then .ended else .absent) ∧ c.sequential = .throw e ∧ m.out = out

structure ThreadsInv (c : StatsCall) (out : Str) (m : Threads) : Prop where
  thread : ∀ i, ThreadInv c i (m.os i) (m.total i) (m.future i) (m.pc i)
  main : MainInv c out m m.main

/-- The number of steps left for the main thread, at most. -/
def mainLeft : MainPc → Nat
  | .creating k => 4 * threadCount - k
  | .getting k => 3 * threadCount - 1 - k
  | .totals => 1
  | .unwinding k _ => k + 1
  | .returned => 0
  | .threw _ => 0

/-- The number of steps left, at most. -/
def stepsLeft (c : StatsCall) (m : Threads) : Nat :=
  ((List.range threadCount).map fun i => threadLeft c i (m.pc i)).sum + mainLeft m.main

theorem sum_less (f g : Nat → Nat) (l : List Nat) (i : Nat) (hi : i ∈ l) (hl : l.Nodup) (h : f i + 1 = g i)
    (hj : ∀ j, j ≠ i → f j = g j) : (l.map f).sum + 1 = (l.map g).sum := by
  induction l with
  | nil => simp at hi
  | cons a l ih =>
    rw [List.nodup_cons] at hl
    simp only [List.map_cons, List.sum_cons]
    by_cases ha : a = i
    · subst ha
      have : l.map f = l.map g := List.map_congr_left fun j hm => hj j (by rintro rfl; exact hl.1 hm)
      rw [this]
      omega
    · have := ih (by simpa [Ne.symm ha] using hi) hl.2
      rw [hj a ha]
      omega

theorem main_inv_frame (c : StatsCall) (out : Str) (m m' : Threads) (i : Nat) (pc : MainPc)
    (h1 : ∀ j, j ≠ i → m'.pc j = m.pc j) (h2 : m'.out = m.out) (h3 : m.pc i ≠ .absent) (h4 : m'.pc i ≠ .absent)
    (h5 : m.pc i ≠ .ended) (h : MainInv c out m pc) : MainInv c out m' pc := by
  have ab : ∀ j, m'.pc j = .absent ↔ m.pc j = .absent := by
    intro j
    by_cases hj : j = i
    · subst hj; simp [h3, h4]
    · rw [h1 j hj]
  have en : ∀ j, m.pc j = .ended → m'.pc j = .ended := by
    intro j he
    rw [h1 j (by rintro rfl; exact h5 he)]
    exact he
  have lt : ∀ {k}, Taken c out m k → Taken c out m' k := by
    rintro k ⟨a, b, rs, d, e⟩
    exact ⟨fun j => by rw [ab, a], fun j hj => en j (b j hj), rs, d, by rw [h2, e]⟩
  have fin : (∀ i, m.pc i = if i < threadCount then ThreadPc.ended else .absent) → False := by
    intro h
    have := h i
    split at this
    · exact h5 this
    · exact h3 this
  cases pc with
  | creating k => exact ⟨h.1, fun j => by rw [ab, h.2.1], by rw [h2, h.2.2]⟩
  | getting k => exact ⟨h.1, lt h.2⟩
  | totals => exact lt h
  | unwinding k e =>
    obtain ⟨a, b, d, e1, e2⟩ := h
    exact ⟨a, fun j => by rw [ab, b], fun j u v => en j (d j u v), e1, by rw [h2, e2]⟩
  | returned => exact (fin h.1).elim
  | threw e => exact (fin h.1).elim

theorem all_ended (m : Threads) (h1 : ∀ i, m.pc i = .absent ↔ threadCount ≤ i) (h2 : ∀ i, i < threadCount → m.pc i = .ended) :
    ∀ i, m.pc i = if i < threadCount then .ended else .absent := by
  intro i
  split
  · next h => exact h2 i h
  · next h => exact (h1 i).mpr (by omega)

/-- A step of the main thread. -/
theorem main_step (c : StatsCall) (out : Str) (m : Threads) (r : Res Threads) (hi : ThreadsInv c out m)
    (h : mainStep m = some r) :
    ∃ m', r = .ok m' ∧ ThreadsInv c out m' ∧ stepsLeft c m' < stepsLeft c m := by
  have hm := hi.main
  unfold mainStep at h
  cases hp : m.main with
  | creating k =>
    rw [hp] at hm
    obtain ⟨hk, hab, ho⟩ := hm
    simp only [hp] at h
    split at h
    · next hlt =>
      simp only [Option.some.injEq] at h
      refine ⟨_, h.symm, ⟨?_, ?_, ?_, ?_⟩, ?_⟩
      · intro i
        by_cases hik : i = k
        · subst hik; simp [setAt_same, ThreadInv]
        · simp only [setAt_other _ _ _ _ hik]; exact hi.thread i
      · omega
      · intro i
        by_cases hik : i = k
        · subst hik; simp [setAt_same]
        · simp only [setAt_other _ _ _ _ hik, hab]; omega
      · exact ho
      · have : ((List.range threadCount).map fun i => threadLeft c i (setAt m.pc k .start i)) =
            (List.range threadCount).map fun i => threadLeft c i (m.pc i) := by
          refine List.map_congr_left fun i _ => ?_
          by_cases hik : i = k
          · subst hik
            rw [setAt_same, (hab i).mpr (Nat.le_refl _)]
            rfl
          · rw [setAt_other _ _ _ _ hik]
        simp only [stepsLeft, this, hp, mainLeft]
        omega
    · next hlt =>
      simp only [Option.some.injEq] at h
      have hk : k = threadCount := by omega
      subst hk
      refine ⟨_, h.symm, ⟨hi.thread, Nat.zero_le _, hab, fun i h => absurd h (by omega), [], rfl, by simp [ho]⟩, ?_⟩
      simp only [stepsLeft, hp, mainLeft]
      have : threadCount = 9 := rfl
      omega
  | getting k =>
    rw [hp] at hm
    obtain ⟨hk, hab, hen, rs, hrs, ho⟩ := hm
    simp only [hp] at h
    split at h
    · next hlt =>
      have hthread := hi.thread k
      cases hf : m.future k with
      | none => simp [hf] at h
      | some f =>
        have hend : m.pc k = .ended := (future_ended _ _ _ _ _ _ hthread).mp (by simp [hf])
        rw [hend, ThreadInv, hf] at hthread
        cases f with
        | ok t =>
          simp only [hf, Option.some.injEq] at h
          refine ⟨_, h.symm, ⟨hi.thread, ?_, hab, ?_, ?_⟩, ?_⟩
          · omega
          · intro i hlt'
            by_cases hik : i = k
            · subst hik; exact hend
            · exact hen i (by omega)
          · cases hr : threadRun c k with
            | ub => simp [hr] at hthread
            | throw e => simp [hr] at hthread
            | ok q =>
              obtain ⟨t', n⟩ := q
              simp only [hr, Option.some.injEq, Except.ok.injEq] at hthread
              obtain ⟨rfl, _⟩ := hthread
              refine ⟨rs ++ [(t, n)], ?_, ?_⟩
              · rw [List.range_succ, each_snoc, hrs]
                simp [Res.bind, hr]
              · simp [ho]
          · simp only [stepsLeft, hp, mainLeft]
            have : threadCount = 9 := rfl
            omega
        | error e =>
          simp only [hf, Option.some.injEq] at h
          have he : threadRun c k = .throw e := by
            cases hr : threadRun c k with
            | ub => simp [hr] at hthread
            | ok q => simp [hr] at hthread
            | throw e' => simp [hr] at hthread; rw [hthread]
          have hnone : atPath c.node = none := by
            rcases threadRun_cases c k with h | ⟨_, r, h⟩
            · exact h.1
            · rw [he] at h; simp at h
          have hzero : k = 0 := by
            cases k with
            | zero => rfl
            | succ k =>
              have := each_facts _ _ _ hrs
              rw [List.range_succ_eq_map, List.map_cons] at this
              rcases threadRun_cases c 0 with h | h
              · rw [h.2] at this
                cases rs <;> simp at this
              · exact absurd hnone h.1
          subst hzero
          simp only [List.range_zero, Res.each, Res.ok.injEq] at hrs
          subst hrs
          refine ⟨_, h.symm, ⟨hi.thread, Nat.le_refl _, hab, fun i a b => absurd a (by omega), ?_, by simpa using ho⟩, ?_⟩
          · rw [sequential_eq, show List.range threadCount = 0 :: (List.range 8).map Nat.succ from rfl, Res.each, he]
            rfl
          · simp only [stepsLeft, hp, mainLeft]
            have : threadCount = 9 := rfl
            omega
    · next hlt =>
      simp only [Option.some.injEq] at h
      have hk : k = threadCount := by omega
      subst hk
      refine ⟨_, h.symm, ⟨hi.thread, hab, hen, rs, hrs, ho⟩, ?_⟩
      simp only [stepsLeft, hp, mainLeft]
      have : threadCount = 9 := rfl
      omega
  | totals =>
    rw [hp] at hm
    obtain ⟨hab, hen, rs, hrs, ho⟩ := hm
    simp only [hp, Option.some.injEq] at h
    refine ⟨_, h.symm, ⟨hi.thread, all_ended m hab hen,
      (rs.map (·.1)).flatten ++ totalLine percentText (predNames.zip (rs.map (·.2))), ?_, ?_⟩, ?_⟩
    · rw [sequential_eq, hrs]
      rfl
    · have e := each_facts _ _ _ hrs
      have hlen : rs.length = threadCount := by
        have := congrArg List.length e
        simpa using this.symm
      have htot : predNames.zipIdx.map (fun p => (p.1, m.total p.2)) = predNames.zip (rs.map (·.2)) := by
        refine List.ext_getElem ?_ ?_
        · simp [hlen, threadCount]
        · intro i h1 h2
          have hlt : i < threadCount := by simpa [threadCount] using h1
          have hr : threadRun c i = .ok rs[i] := by
            have := List.getElem_of_eq e (i := i) (by simpa using hlt)
            simpa using this
          have ht := hi.thread i
          rw [hen i hlt, ThreadInv, hr] at ht
          simp only [List.getElem_map, List.getElem_zipIdx, List.getElem_zip, Nat.zero_add]
          rw [ht.2]
          rfl
      show m.out ++ totalLine percentText (predNames.zipIdx.map fun p => (p.1, m.total p.2)) = _
      rw [htot, ho, List.append_assoc]
    · simp only [stepsLeft, hp, mainLeft]
      omega
  | unwinding k e =>
    rw [hp] at hm
    obtain ⟨hk, hab, hen, hs, ho⟩ := hm
    cases k with
    | zero =>
      simp only [hp, Option.some.injEq] at h
      refine ⟨_, h.symm, ⟨hi.thread, all_ended m hab fun i h => hen i (Nat.zero_le _) h, hs, ho⟩, ?_⟩
      simp only [stepsLeft, hp, mainLeft]
      omega
    | succ k =>
      simp only [hp] at h
      cases hf : m.future k with
      | none => simp [hf] at h
      | some f =>
        have hend : m.pc k = .ended := (future_ended _ _ _ _ _ _ (hi.thread k)).mp (by simp [hf])
        simp only [hf, Option.some.injEq] at h
        refine ⟨_, h.symm, ⟨hi.thread, by omega, hab, ?_, hs, ho⟩, ?_⟩
        · intro i a b
          by_cases hik : i = k
          · subst hik; exact hend
          · exact hen i (by omega) b
        · simp only [stepsLeft, hp, mainLeft]
          omega
  | returned => simp [hp] at h
  | threw e => simp [hp] at h

theorem absent_behind (c : StatsCall) (out : Str) (m : Threads) (h : ThreadsInv c out m) (i : Nat) (hi : m.pc i ≠ .absent) :
    i < threadCount := by
  have hm := h.main
  cases hp : m.main <;> rw [hp] at hm
  case creating k =>
    have := hm.2.1 i
    have := hm.1
    refine Nat.lt_of_not_le fun hle => hi ?_
    rw [hm.2.1 i]; omega
  case getting => exact Nat.lt_of_not_le fun hle => hi ((hm.2.1 i).mpr hle)
  case totals => exact Nat.lt_of_not_le fun hle => hi ((hm.1 i).mpr hle)
  case unwinding => exact Nat.lt_of_not_le fun hle => hi ((hm.2.1 i).mpr hle)
  case returned => exact Nat.lt_of_not_le fun hle => hi (by rw [hm.1 i, if_neg (by omega)])
  case threw => exact Nat.lt_of_not_le fun hle => hi (by rw [hm.1 i, if_neg (by omega)])

theorem any_step (c : StatsCall) (out : Str) (m : Threads) (who : Option Nat) (r : Res Threads) (hi : ThreadsInv c out m)
    (h : anyStep c who m = some r) :
    ∃ m', r = .ok m' ∧ ThreadsInv c out m' ∧ stepsLeft c m' < stepsLeft c m := by
  cases who with
  | none => exact main_step c out m r hi h
  | some i =>
    obtain ⟨m', e, h1, h2, h3, h4, h5, h6, h7, h8⟩ := thread_step c i m r (hi.thread i) h
    refine ⟨m', e, ⟨?_, ?_⟩, ?_⟩
    · intro j
      by_cases hj : j = i
      · subst hj; exact h1
      · obtain ⟨a, b, d, e⟩ := h2 j hj
        rw [a, b, d, e]
        exact hi.thread j
    · rw [h3]
      exact main_inv_frame c out m m' i _ (fun j hj => (h2 j hj).2.2.2) h4 h5 h6 h7 hi.main
    · have := sum_less (fun i => threadLeft c i (m'.pc i)) (fun i => threadLeft c i (m.pc i)) (List.range threadCount) i
        (List.mem_range.mpr (absent_behind c out m hi i h5)) List.nodup_range h8
        (fun j hj => by rw [(h2 j hj).2.2.2])
      simp only [stepsLeft, h3]
      omega

theorem execution_inv (c : StatsCall) (out : Str) (order : List (Option Nat)) (m : Threads) (h : Execution c out order m) :
    ThreadsInv c out m ∧ order.length + stepsLeft c m ≤ stepsLeft c (.call out) := by
  induction h with
  | begin =>
    refine ⟨⟨fun i => rfl, Nat.zero_le _, fun i => ⟨fun _ => Nat.zero_le _, fun _ => rfl⟩, rfl⟩, by simp⟩
  | step who _ hs ih =>
    obtain ⟨m', e, h1, h2⟩ := any_step c out _ who _ ih.1 hs
    simp only [Res.ok.injEq] at e
    subst e
    refine ⟨h1, ?_⟩
    rw [List.length_append, List.length_singleton]
    omega

/-! ## Every order of the steps -/

/-- However the threads take turns: nothing undefined happens. -/
theorem C202_defined (c : StatsCall) (out : Str) (order : List (Option Nat)) (m : Threads) (h : Execution c out order m)
    (who : Option Nat) (r : Res Threads) (hs : anyStep c who m = some r) : ∃ m', r = .ok m' := by
  obtain ⟨m', e, _⟩ := any_step c out m who r (execution_inv c out order m h).1 hs
  exact ⟨m', e⟩

/-- Before the function has returned or thrown somebody can take a step: the threads never wait for each other. -/
theorem C202_no_deadlock (c : StatsCall) (out : Str) (order : List (Option Nat)) (m : Threads) (h : Execution c out order m)
    (h1 : m.main ≠ .returned) (h2 : ∀ e, m.main ≠ .threw e) : ∃ who m', anyStep c who m = some (.ok m') := by
  have hi := (execution_inv c out order m h).1
  have key : ∃ who, anyStep c who m ≠ none := by
    have wait : ∀ k, m.pc k ≠ .absent → m.future k = none → ∃ who, anyStep c who m ≠ none := by
      intro k ha hf
      refine ⟨some k, thread_enabled c k m ha fun he => ?_⟩
      exact (future_ended _ _ _ _ _ _ (hi.thread k)).mpr he hf
    have hm := hi.main
    cases hp : m.main with
    | creating k => refine ⟨none, ?_⟩; simp only [anyStep, mainStep, hp]; split <;> simp
    | totals => exact ⟨none, by simp [anyStep, mainStep, hp]⟩
    | returned => exact absurd hp h1
    | threw e => exact absurd hp (h2 e)
    | getting k =>
      rw [hp] at hm
      by_cases hk : k < threadCount
      · cases hf : m.future k with
        | none => exact wait k (fun ha => by have := (hm.2.1 k).mp ha; omega) hf
        | some f =>
          refine ⟨none, ?_⟩
          simp only [anyStep, mainStep, hp, hk, if_true, hf]
          cases f <;> simp
      · exact ⟨none, by simp [anyStep, mainStep, hp, hk]⟩
    | unwinding k e =>
      rw [hp] at hm
      cases k with
      | zero => exact ⟨none, by simp [anyStep, mainStep, hp]⟩
      | succ k =>
        cases hf : m.future k with
        | none => exact wait k (fun ha => by have := (hm.2.1 k).mp ha; have := hm.1; omega) hf
        | some f => exact ⟨none, by simp [anyStep, mainStep, hp, hf]⟩
  obtain ⟨who, hw⟩ := key
  cases hr : anyStep c who m with
  | none => exact absurd hr hw
  | some r =>
    obtain ⟨m', rfl⟩ := C202_defined c out order m h who r hr
    exact ⟨who, m', hr⟩

/-- There is a number of steps that no execution exceeds. -/
theorem C202_ends (c : StatsCall) (out : Str) (order : List (Option Nat)) (m : Threads) (h : Execution c out order m) :
    order.length ≤ stepsLeft c (.call out) := by
  have := (execution_inv c out order m h).2
  omega

/-- When nobody can take a step anymore, all threads have ended, and what has been written is the report specified; if there
is nothing at the path then nothing has been written and the exception leaves the function. -/
theorem C202_report (c : StatsCall) (mf : UInt16) (hset : ∀ xs, SetBuilt (StatCount.lt mf) xs (c.data.set xs)) (out : Str)
    (order : List (Option Nat)) (m : Threads) (h : Execution c out order m) (hend : ∀ who, anyStep c who m = none) :
    (∀ i, i < threadCount → m.pc i = .ended) ∧
    match atPath c.node with
    | some n => m.main = .returned ∧ m.out = out ++ statsReport c.data c.breakdown c.verbose c.path n
    | none => m.main = .threw .domain ∧ m.out = out := by
  have hm := (execution_inv c out order m h).1.main
  have key : m.main = .returned ∨ ∃ e, m.main = .threw e := by
    by_cases h1 : m.main = .returned
    · exact .inl h1
    · by_cases h2 : ∃ e, m.main = .threw e
      · exact .inr h2
      · obtain ⟨who, m', hs⟩ := C202_no_deadlock c out order m h h1 fun e he => h2 ⟨e, he⟩
        rw [hend who] at hs
        simp at hs
  have hseq : c.sequential = match atPath c.node with
      | some n => .ok (statsReport c.data c.breakdown c.verbose c.path n)
      | none => .throw .domain := by
    cases hn : atPath c.node with
    | none => exact countKanji_none _ _ _ _ _ hn
    | some n => exact C175_report c.data mf hset c.breakdown c.verbose c.path c.node n hn
  rcases key with hr | ⟨e, hr⟩ <;> rw [hr] at hm
  · obtain ⟨ha, t, ht, ho⟩ := hm
    refine ⟨fun i hi => by rw [ha i, if_pos hi], ?_⟩
    cases hn : atPath c.node with
    | none => rw [hseq, hn] at ht; simp at ht
    | some n =>
      rw [hseq, hn] at ht
      simp only [Res.ok.injEq] at ht
      subst ht
      exact ⟨hr, ho⟩
  · obtain ⟨ha, ht, ho⟩ := hm
    refine ⟨fun i hi => by rw [ha i, if_pos hi], ?_⟩
    cases hn : atPath c.node with
    | some n => rw [hseq, hn] at ht; simp at ht
    | none =>
      rw [hseq, hn] at ht
      simp only [Res.throw.injEq] at ht
      subst ht
      exact ⟨hr, ho⟩

/-- A step of a thread changes nothing that belongs to another thread or to the main thread. -/
theorem C202_private (c : StatsCall) (out : Str) (order : List (Option Nat)) (m m' : Threads) (h : Execution c out order m)
    (i : Nat) (hs : anyStep c (some i) m = some (.ok m')) :
    m'.main = m.main ∧ m'.out = m.out ∧
    ∀ j, j ≠ i → m'.pc j = m.pc j ∧ m'.os j = m.os j ∧ m'.total j = m.total j ∧ m'.future j = m.future j := by
  obtain ⟨m'', e, _, h2, h3, h4, _⟩ := thread_step c i m _ ((execution_inv c out order m h).1.thread i) hs
  simp only [Res.ok.injEq] at e
  subst e
  exact ⟨h3, h4, fun j hj => ⟨(h2 j hj).2.2.2, (h2 j hj).1, (h2 j hj).2.1, (h2 j hj).2.2.1⟩⟩

/-- The main thread takes the totals when no thread runs that could change them. -/
theorem C202_totals (c : StatsCall) (out : Str) (order : List (Option Nat)) (m : Threads) (h : Execution c out order m)
    (hm : m.main = .totals) (i : Nat) : anyStep c (some i) m = none := by
  have hi := (execution_inv c out order m h).1.main
  rw [hm] at hi
  have hp : m.pc i = .ended ∨ m.pc i = .absent := by
    by_cases hlt : i < threadCount
    · exact .inl (hi.2.1 i hlt)
    · exact .inr ((hi.1 i).mpr (by omega))
  rcases hp with hp | hp <;> simp [anyStep, threadStep, hp]

/-- The function leaves no thread behind. -/
theorem C202_joined (c : StatsCall) (out : Str) (order : List (Option Nat)) (m : Threads) (h : Execution c out order m)
    (hm : m.main = .returned ∨ ∃ e, m.main = .threw e) (who : Option Nat) : anyStep c who m = none := by
  have hi := (execution_inv c out order m h).1.main
  have ha : ∀ i, m.pc i = if i < threadCount then .ended else .absent := by
    rcases hm with hm | ⟨e, hm⟩ <;> rw [hm] at hi <;> exact hi.1
  cases who with
  | none => rcases hm with hm | ⟨e, hm⟩ <;> simp [anyStep, mainStep, hm]
  | some i =>
    have := ha i
    split at this <;> simp [anyStep, threadStep, this]

/-- Every execution can be continued until nobody can take a step. -/
theorem execution_complete (c : StatsCall) (out : Str) (n : Nat) (order : List (Option Nat)) (m : Threads)
    (h : Execution c out order m) (hn : stepsLeft c m ≤ n) :
    ∃ order' m', Execution c out order' m' ∧ ∀ who, anyStep c who m' = none := by
  induction n generalizing order m with
  | zero =>
    refine ⟨order, m, h, fun who => ?_⟩
    cases hs : anyStep c who m with
    | none => rfl
    | some r =>
      obtain ⟨m', _, _, hlt⟩ := any_step c out m who r (execution_inv c out order m h).1 hs
      omega
  | succ n ih =>
    by_cases hall : ∀ who, anyStep c who m = none
    · exact ⟨order, m, h, hall⟩
    · obtain ⟨who, hw⟩ := Classical.not_forall.mp hall
      cases hs : anyStep c who m with
      | none => exact absurd hs hw
      | some r =>
        obtain ⟨m', rfl, _, hlt⟩ := any_step c out m who r (execution_inv c out order m h).1 hs
        exact ih (order ++ [who]) m' (.step who h hs) (by omega)

/-- All files of the command line: there is an execution, and every execution writes the reports specified and ends with the
message specified. -/
theorem C202_files (d : StatsData) (mf : UInt16) (hset : ∀ xs, SetBuilt (StatCount.lt mf) xs (d.set xs))
    (breakdown verbose : Bool) (fs : Str → Option Node) (files : List Str) (out out' : Str) (msg : Option Str) :
    FilesRun d breakdown verbose fs files out out' msg ↔
      out' = out ++ (statsReports d breakdown verbose fs files).1 ∧ msg = (statsReports d breakdown verbose fs files).2 := by
  constructor
  · intro h
    induction h with
    | done out => simp [statsReports]
    | next he hm _ ih =>
      next f r out out' msg order m _ =>
      obtain ⟨_, h2⟩ := C202_report _ mf hset _ _ _ he (C202_joined _ _ _ _ he (.inl hm))
      simp only at h2
      rw [statsReports]
      cases hn : atPath (fs f) with
      | none => rw [hn, hm] at h2; simp at h2
      | some n =>
        rw [hn] at h2
        simp only at h2 ⊢
        rw [ih.1, h2.2]
        exact ⟨by simp, ih.2⟩
    | failed he hm =>
      next f r out order m e =>
      obtain ⟨_, h2⟩ := C202_report _ mf hset _ _ _ he (C202_joined _ _ _ _ he (.inr ⟨_, hm⟩))
      simp only at h2
      rw [statsReports]
      cases hn : atPath (fs f) with
      | some n => rw [hn, hm] at h2; simp at h2
      | none =>
        rw [hn] at h2
        simp [h2.2]
  · rintro ⟨rfl, rfl⟩
    induction files generalizing out with
    | nil => simpa [statsReports] using FilesRun.done out
    | cons f r ih =>
      obtain ⟨order, m, he, hend⟩ := execution_complete ⟨d, breakdown, verbose, f, fs f⟩ out _ [] _ .begin (Nat.le_refl _)
      obtain ⟨_, h2⟩ := C202_report _ mf hset _ _ _ he hend
      simp only at h2
      rw [statsReports]
      cases hn : atPath (fs f) with
      | none =>
        rw [hn] at h2
        have := FilesRun.failed (r := r) he h2.1
        rw [h2.2] at this
        simpa using this
      | some n =>
        rw [hn] at h2
        simp only at h2 ⊢
        refine FilesRun.next he h2.1 ?_
        have := ih m.out
        rw [h2.2] at this ⊢
        simpa using this

/-! ## Samples -/

/-- Steps in the order given, as long as they can be taken. -/
def takeSteps (c : StatsCall) : List (Option Nat) → Threads → Option Threads
  | [], m => some m
  | who :: r, m =>
    match anyStep c who m with
    | some (.ok m') => takeSteps c r m'
    | _ => none

theorem takeSteps_execution (c : StatsCall) (out : Str) (order before : List (Option Nat)) (m m' : Threads)
    (h : Execution c out before m) (hs : takeSteps c order m = some m') : Execution c out (before ++ order) m' := by
  induction order generalizing before m with
  | nil =>
    simp only [takeSteps, Option.some.injEq] at hs
    subst hs
    simpa using h
  | cons who r ih =>
    rw [takeSteps] at hs
    split at hs
    · next m1 h1 =>
      have := ih (before ++ [who]) m1 (.step who h h1) hs
      simpa using this
    · simp at hs

def sampleCall (node : Option Node) : StatsCall :=
  { data := ⟨fun _ => none, fun _ => false, id⟩, breakdown := false, verbose := true, path := u8!"a", node := node }

def mainSteps (n : Nat) : List (Option Nat) := List.replicate n none
def threadSteps (n i : Nat) : List (Option Nat) := List.replicate n (some i)

/-- One thread after the other, the first one has a character to count. -/
def sampleOrder : List (Option Nat) :=
  mainSteps 10 ++ threadSteps 6 0 ++ (List.range 8).flatMap (fun i => threadSteps 5 (i + 1)) ++ mainSteps 11

/-- The threads take turns, the last one first; some begin before others have been started, and the main thread takes the
first result before others have ended. -/
def otherOrder : List (Option Nat) :=
  mainSteps 3 ++ [some 2, some 0, some 0] ++ mainSteps 7 ++
    (List.range 4).flatMap (fun _ => (List.range 9).reverse.map some) ++ mainSteps 1 ++ [some 8, some 1] ++ mainSteps 1 ++
    [some 7, some 6, some 5, some 4, some 3] ++ mainSteps 9

example : ((takeSteps (sampleCall (some (.file (u8!"あ\n")))) sampleOrder (.call [])).map fun m =>
    (decide (m.out = statsReport (sampleCall none).data false true (u8!"a") (.file (u8!"あ\n"))),
      m.main matches .returned, m.total 0)) = some (true, true, 1) := by decide +kernel
example : ((takeSteps (sampleCall (some (.file (u8!"あ\n")))) otherOrder (.call [])).map fun m =>
    (decide (m.out = statsReport (sampleCall none).data false true (u8!"a") (.file (u8!"あ\n"))),
      m.main matches .returned, m.total 0)) = some (true, true, 1) := by decide +kernel
/-- There is nothing at the path: the first result is an exception, the main thread waits for the others. -/
example : ((takeSteps (sampleCall none) (mainSteps 10 ++ [some 8, some 0, none, none, some 1, some 2, some 7, none, some 3,
    some 4, some 5, some 6] ++ mainSteps 8) (.call (u8!"x"))).map fun m =>
    (m.out, m.main matches .threw .domain)) = some (u8!"x", true) := by decide +kernel

end KT
