import Verif.Model.StatsThreads
import Verif.Props.StatsProgram
/-!
# Lemmas about the threads of kanjiStats
-/
namespace KT
open Spec

theorem setAt_same {α : Type} (f : Nat → α) (i : Nat) (a : α) : setAt f i a i = a := by simp [setAt]

theorem setAt_other {α : Type} (f : Nat → α) (i j : Nat) (a : α) (h : j ≠ i) : setAt f i a j = f j := by simp [setAt, h]

/-! ## One thread -/

/-- What `Pred::run` does when nothing else runs. -/
def threadRun (c : StatsCall) (i : Nat) : Res (Str × Nat) :=
  predRun c.data (threadName i) (statAllow c.data.ucd i) c.breakdown c.verbose (i == 0) c.path c.node

/-- What is still written after everything has been counted. -/
def lastPartOf (c : StatsCall) (i : Nat) (count : CountState) (total : Nat) (l : List StatCount) : Str :=
  predText percentText (threadName i) c.breakdown (fun s => (count.tagsOf s).map byKey) total (c.data.set l)

def threadCounts (c : StatsCall) (i : Nat) (entries : List (Str × Nat)) : List StatCount :=
  predCounts c.data.findByName (predIsKanji (threadName i)) entries

/-- What a thread leaves in its memory is on the way to the result of `threadRun`. -/
def ThreadInv (c : StatsCall) (i : Nat) (os : Str) (total : Nat) (future : Option (Except Exc Str)) : ThreadPc → Prop
  | .absent => future = none
  | .start => os = [] ∧ total = 0 ∧ future = none
  | .adding files directories count debug calls =>
    total = 0 ∧ future = none ∧ ∃ st n,
      CountState.addAll (threadFind (threadName i)) (statAllow c.data.ucd i) count calls = some (st, n) ∧
      threadRun c i = .ok (os ++
        (if c.shows (threadName i) then (DebugState.addAll furiganaFind { debug with out := [] } calls).out else []) ++
        (if i == 0 then headerInfo (shownPath c.path) files directories st else []) ++
        lastPartOf c i st (predTotal (byKey st.map)) (threadCounts c i (byKey st.map)), predTotal (byKey st.map))
  | .summing count entries added =>
    future = none ∧
      threadRun c i = .ok (os ++ lastPartOf c i count (predTotal ((([] : Str), total) :: entries)) (added ++ threadCounts c i entries),
        predTotal (([], total) :: entries))
  | .ended =>
    match threadRun c i with
    | .ok (t, n) => future = some (.ok t) ∧ total = n
    | .throw e => future = some (.error e)
    | .ub => False

/-- The number of steps after `addFile` has begun. -/
def addingLeft (c : StatsCall) (i : Nat) (count : CountState) (calls : List (Str × Option Str)) : Nat :=
  match CountState.addAll (threadFind (threadName i)) (statAllow c.data.ucd i) count calls with
  | none => 0
  | some (st, _) => calls.length + (byKey st.map).length + 2

/-- The number of steps left for a thread. -/
def threadLeft (c : StatsCall) (i : Nat) : ThreadPc → Nat
  | .adding _ _ count _ calls => addingLeft c i count calls
  | .summing _ entries _ => entries.length + 1
  | .ended => 0
  | _ => 1 + match addFile true true (pathFilename c.path) c.node with
      | .ok es => match eventCalls (removesFurigana (threadName i)) (c.addsTag (threadName i)) es with
        | .ok calls => addingLeft c i {} calls
        | _ => 0
      | _ => 0

/-- The output of `add` goes after what has been written before. -/
theorem debug_split (st : DebugState) (calls : List (Str × Option Str)) :
    (DebugState.addAll furiganaFind st calls).out =
      st.out ++ (DebugState.addAll furiganaFind { st with out := [] } calls).out := by
  induction calls generalizing st with
  | nil => simp [DebugState.addAll]
  | cons x calls ih =>
    have h : ∀ st : DebugState, DebugState.addAll furiganaFind st (x :: calls) =
        DebugState.addAll furiganaFind (st.add x.1 (furiganaFind x.1) x.2) calls := fun _ => rfl
    rw [h, h, ih (st.add _ _ _), ih (DebugState.add _ _ _ _)]
    have e1 : (st.add x.1 (furiganaFind x.1) x.2).out =
        st.out ++ (({ st with out := [] } : DebugState).add x.1 (furiganaFind x.1) x.2).out := by
      unfold DebugState.add
      split
      · simp
      · simp only [List.nil_append, List.append_assoc]
    have e2 : ({ st.add x.1 (furiganaFind x.1) x.2 with out := [] } : DebugState) =
        { ({ st with out := [] } : DebugState).add x.1 (furiganaFind x.1) x.2 with out := [] } := by
      unfold DebugState.add
      split <;> rfl
    rw [e1, e2, List.append_assoc]

theorem predTotal_step (a n : Nat) (s : Str) (entries : List (Str × Nat)) :
    predTotal ((([] : Str), a) :: (s, n) :: entries) = predTotal (([], a + n) :: entries) := by
  simp [predTotal]

/-- The calls of `add` always succeed. -/
theorem addAll_some (find : Option (Str → Str)) (allow : Str → Bool) (st : CountState) (calls : List (Str × Option Str)) :
    ∃ r, CountState.addAll find allow st calls = some r := by
  induction calls generalizing st with
  | nil => exact ⟨_, rfl⟩
  | cons x calls ih =>
    obtain ⟨s, tag⟩ := x
    obtain ⟨st', h1, _⟩ := C50_counts find allow [(s, tag)]
    cases h : utf8Chars (replaced find s) with
    | none => simp [CountState.addAll, CountState.add, h] at h1
    | some r =>
      rw [CountState.addAll, CountState.add]
      simp only [h]
      obtain ⟨r', hr⟩ := ih _
      rw [hr]
      exact ⟨_, rfl⟩

/-- A step of a thread: it doesn't touch what belongs to others, and it is one step on the way to its result. -/
theorem thread_step (c : StatsCall) (i : Nat) (m : Threads) (r : Res Threads)
    (hi : ThreadInv c i (m.os i) (m.total i) (m.future i) (m.pc i)) (h : threadStep c i m = some r) :
    ∃ m', r = .ok m' ∧ ThreadInv c i (m'.os i) (m'.total i) (m'.future i) (m'.pc i) ∧
      (∀ j, j ≠ i → m'.os j = m.os j ∧ m'.total j = m.total j ∧ m'.future j = m.future j ∧ m'.pc j = m.pc j) ∧
      m'.main = m.main ∧ m'.out = m.out ∧ m.pc i ≠ .absent ∧ m'.pc i ≠ .absent ∧ m.pc i ≠ .ended ∧
      threadLeft c i (m'.pc i) + 1 = threadLeft c i (m.pc i) := by
  unfold threadStep at h
  simp only at h
  cases hp : m.pc i with
  | absent => simp [hp] at h
  | ended => simp [hp] at h
  | start =>
    simp only [hp] at h hi
    obtain ⟨ho, ht, hf⟩ := hi
    have hrun : threadRun c i = (countRun (removesFurigana (threadName i)) (c.addsTag (threadName i))
      (statAllow c.data.ucd i) c.path c.node).bind _ := rfl
    cases ha : addFile true true (pathFilename c.path) c.node with
    | ub => rw [addFile_eq] at ha; split at ha <;> simp at ha
    | throw e =>
      simp only [ha, Option.some.injEq] at h
      refine ⟨_, h.symm, ?_, ?_, rfl, rfl, by simp, by simp [setAt_same], by simp, ?_⟩
      · simp only [setAt_same, ThreadInv]
        rw [hrun, countRun, ha]
        simp [Res.bind]
      · intro j hj
        simp [setAt_other _ _ _ _ hj]
      · simp [setAt_same, threadLeft, ha]
    | ok es =>
      simp only [ha] at h
      cases he : eventCalls (removesFurigana (threadName i)) (c.addsTag (threadName i)) es with
      | ub => rw [eventCalls_eq] at he; simp at he
      | throw e => rw [eventCalls_eq] at he; simp at he
      | ok calls =>
        simp only [he, Option.some.injEq] at h
        obtain ⟨⟨st, n⟩, hall⟩ := addAll_some (threadFind (threadName i)) (statAllow c.data.ucd i) {} calls
        refine ⟨_, h.symm, ?_, ?_, rfl, rfl, by simp, by simp [setAt_same], by simp, ?_⟩
        · simp only [setAt_same, ThreadInv]
          refine ⟨ht, hf, st, n, hall, ?_⟩
          unfold threadFind at hall
          rw [hrun, countRun, ha]
          simp only [Res.bind]
          rw [he]
          simp only
          rw [hall, ho]
          unfold StatsCall.shows lastPartOf threadCounts
          simp only [Res.ok.injEq, Prod.mk.injEq, and_true, List.nil_append]
          by_cases hs : (decide (threadName i = u8!"Hiragana") && c.verbose) = true
          · simp only [hs, if_true, List.append_assoc]
          · simp only [hs, if_false, List.append_assoc, List.nil_append, Bool.false_eq_true]
        · intro j hj
          simp [setAt_other _ _ _ _ hj]
        · simp only [setAt_same, threadLeft, ha, he]
          omega
  | adding files directories count debug calls =>
    rw [hp] at hi
    obtain ⟨ht, hf, st, n, hall, hrun⟩ := hi
    cases calls with
    | nil =>
      simp only [hp, Option.some.injEq] at h
      have hst : count = st := by simp [CountState.addAll] at hall; exact hall.1
      subst hst
      refine ⟨_, h.symm, ?_, ?_, rfl, rfl, by simp, by simp [setAt_same], by simp, ?_⟩
      · simp only [setAt_same, ThreadInv]
        refine ⟨hf, ?_⟩
        rw [hrun, ht]
        simp [DebugState.addAll, predTotal]
      · intro j hj
        simp [setAt_other _ _ _ _ hj]
      · simp only [setAt_same, threadLeft, addingLeft, CountState.addAll, List.length_nil]
        omega
    | cons x calls =>
      obtain ⟨s, tag⟩ := x
      simp only [hp] at h
      cases hadd : count.add (threadFind (threadName i)) (statAllow c.data.ucd i) s tag with
      | none => simp [CountState.addAll, hadd] at hall
      | some q =>
        obtain ⟨count', k⟩ := q
        simp only [hadd, Option.some.injEq] at h
        have hall0 := hall
        rw [CountState.addAll, hadd] at hall
        simp only at hall
        cases hrest : CountState.addAll (threadFind (threadName i)) (statAllow c.data.ucd i) count' calls with
        | none => simp [hrest] at hall
        | some q =>
          obtain ⟨st', k'⟩ := q
          simp only [hrest, Option.some.injEq, Prod.mk.injEq] at hall
          obtain ⟨rfl, _⟩ := hall
          refine ⟨_, h.symm, ?_, ?_, rfl, rfl, by simp, by simp [setAt_same], by simp, ?_⟩
          · simp only [setAt_same, ThreadInv]
            refine ⟨ht, hf, st', k', hrest, ?_⟩
            rw [hrun]
            have e : (DebugState.addAll furiganaFind { debug with out := [] } ((s, tag) :: calls)).out =
                (({ debug with out := [] } : DebugState).add s (furiganaFind s) tag).out ++
                  (DebugState.addAll furiganaFind
                    { ({ debug with out := [] } : DebugState).add s (furiganaFind s) tag with out := [] } calls).out :=
              debug_split _ calls
            rw [e]
            by_cases hs : c.shows (threadName i) = true
            · simp only [hs, if_true, List.append_assoc]
            · simp only [hs, if_false, List.append_assoc, List.nil_append, Bool.false_eq_true]
          · intro j hj
            simp [setAt_other _ _ _ _ hj]
          · simp only [setAt_same, threadLeft, addingLeft, hrest, hall0, List.length_cons]
            omega
  | summing count entries added =>
    rw [hp] at hi
    obtain ⟨hf, hrun⟩ := hi
    cases entries with
    | nil =>
      simp only [hp, Option.some.injEq] at h
      refine ⟨_, h.symm, ?_, ?_, rfl, rfl, by simp, by simp [setAt_same], by simp, ?_⟩
      · simp only [setAt_same, ThreadInv]
        rw [hrun]
        simp [lastPartOf, threadCounts, predCounts, predTotal]
      · intro j hj
        simp [setAt_other _ _ _ _ hj]
      · simp [setAt_same, threadLeft]
    | cons x entries =>
      obtain ⟨s, n⟩ := x
      simp only [hp, Option.some.injEq] at h
      refine ⟨_, h.symm, ?_, ?_, rfl, rfl, by simp, by simp [setAt_same], by simp, ?_⟩
      · simp only [setAt_same, ThreadInv]
        refine ⟨hf, ?_⟩
        rw [hrun, predTotal_step]
        simp [threadCounts, predCounts]
      · intro j hj
        simp [setAt_other _ _ _ _ hj]
      · simp [setAt_same, threadLeft]

/-- A thread that has been started and hasn't ended can always take a step. -/
theorem thread_enabled (c : StatsCall) (i : Nat) (m : Threads) (h1 : m.pc i ≠ .absent) (h2 : m.pc i ≠ .ended) :
    threadStep c i m ≠ none := by
  unfold threadStep
  simp only
  split
  · next h => exact absurd h h1
  · next h => exact absurd h h2
  all_goals (repeat' split) <;> simp

/-- The future is set when the thread has ended. -/
theorem future_ended (c : StatsCall) (i : Nat) (os : Str) (total : Nat) (future : Option (Except Exc Str)) (pc : ThreadPc)
    (h : ThreadInv c i os total future pc) : future ≠ none ↔ pc = .ended := by
  cases pc with
  | absent => simp_all [ThreadInv]
  | start => simp_all [ThreadInv]
  | adding => simp_all [ThreadInv]
  | summing => simp_all [ThreadInv]
  | ended =>
    rw [ThreadInv] at h
    split at h
    · simp [h.1]
    · simp [h]
    · exact h.elim

end KT
