import Verif.Model.KanjiData
import Verif.Spec.Args
/-!
# C45 and C75: program arguments

Model: `Verif/Model/KanjiData.lean`.
-/
namespace KT
open Spec

/-! ## C45: iterating with `nextArg` -/

theorem programArgs_true (l : List Str) : programArgs true l = programArgs false (l.drop 1) := by
  cases l <;> rfl

/-- One call of `nextArg`. -/
theorem nextArgLoop_spec (args : List Str) (hn : args.length ≤ 65535)
    (hl : args.length = 65535 → args[65534]? ≠ some (u8!"-data")) (fuel current : Nat)
    (hc : current ≤ args.length) (hc' : current = args.length → args.length < 65535) (h0 : args ≠ [])
    (hf : args.length - current < fuel) :
    ∃ j, nextArgLoop args fuel current = .ok j ∧ current < j ∧
      ((args[j]? = none ∧ programArgs false (args.drop (current + 1)) = []) ∨
        ∃ a, args[j]? = some a ∧ programArgs false (args.drop (current + 1)) = a :: programArgs false (args.drop (j + 1))) := by
  induction fuel generalizing current with
  | zero => omega
  | succ fuel ih =>
    have hmod : (current + 1) % 65536 = current + 1 := Nat.mod_eq_of_lt (by omega)
    rw [nextArgLoop, if_neg (by omega), if_neg h0]
    simp only [hmod]
    cases ha : args[current + 1]? with
    | none =>
      refine ⟨current + 1, rfl, by omega, .inl ⟨ha, ?_⟩⟩
      rw [List.drop_eq_nil_of_le (List.getElem?_eq_none_iff.mp ha), programArgs]
    | some arg =>
      obtain ⟨hlt, hget⟩ := List.getElem?_eq_some_iff.mp ha
      have hdrop : args.drop (current + 1) = arg :: args.drop (current + 1 + 1) := by
        rw [List.drop_eq_getElem_cons hlt, hget]
      simp only
      by_cases h1 : arg = u8!"-data"
      · have hmod2 : (current + 1 + 1) % 65536 = current + 1 + 1 := by
          apply Nat.mod_eq_of_lt
          have : current + 1 + 1 ≤ args.length := hlt
          omega
        have hlast : current + 1 + 1 = args.length → args.length < 65535 := by
          intro e
          rcases Nat.lt_or_ge args.length 65535 with g | g
          · exact g
          · have e1 : args.length = 65535 := by omega
            have e2 : current + 1 = 65534 := by omega
            rw [e2, h1] at ha
            exact absurd ha (hl e1)
        obtain ⟨j, e1, e2, e3⟩ := ih (current + 1 + 1) (by omega) hlast (by omega)
        have hspec : programArgs false (args.drop (current + 1)) =
            programArgs false (args.drop (current + 1 + 1 + 1)) := by
          rw [hdrop, programArgs, if_pos h1, programArgs_true, List.drop_drop]
        refine ⟨j, by rw [if_pos h1, hmod2]; exact e1, by omega, ?_⟩
        rw [hspec]; exact e3
      · by_cases h2 : arg = u8!"-debug" ∨ arg = u8!"-info"
        · obtain ⟨j, e1, e2, e3⟩ := ih (current + 1) (by omega) (by omega) (by omega)
          have hspec : programArgs false (args.drop (current + 1)) =
              programArgs false (args.drop (current + 1 + 1)) := by
            rw [hdrop, programArgs, if_neg h1, if_pos h2]
          refine ⟨j, by rw [if_neg h1, if_pos h2]; exact e1, by omega, ?_⟩
          rw [hspec]; exact e3
        · refine ⟨current + 1, by rw [if_neg h1, if_neg h2], by omega, .inr ⟨arg, ha, ?_⟩⟩
          rw [hdrop, programArgs, if_neg h1, if_neg h2]

theorem visitArgs_spec (args : List Str) (hn : args.length ≤ 65535)
    (hl : args.length = 65535 → args[65534]? ≠ some (u8!"-data")) (fuel i : Nat) (hi : i < args.length)
    (hf : args.length - i < fuel) :
    visitArgs args fuel i = some (.ok (programArgs false (args.drop (i + 1)))) := by
  induction fuel generalizing i with
  | zero => omega
  | succ fuel ih =>
    have h0 : args ≠ [] := by intro e; rw [e] at hi; simp at hi
    obtain ⟨j, e1, e2, e3⟩ := nextArgLoop_spec args hn hl (args.length + 1) i (by omega) (by omega) h0 (by omega)
    rw [visitArgs, nextArg, e1]
    rcases e3 with ⟨g1, g2⟩ | ⟨a, g1, g2⟩
    · simp only [g1, g2]
    · have hj := (List.getElem?_eq_some_iff.mp g1).1
      simp only [g1]
      rw [ih j hj (by omega), g2]

/-- For all lists of at most 65535 arguments (the limit of class `Args`) the loop of the programs ends and visits
exactly the program arguments in order. -/
def C45_statement : Prop :=
  ∀ args : List Str, args.length ≤ 65535 →
    ∃ fuel, visitArgs args fuel 0 = some (.ok (programArgs false (args.drop 1)))

/-- With 65535 arguments of which the last is `-data` the index wraps around to 0, so that the name of the program is
visited, and then all the arguments once more, and so on. -/
theorem C45_violated : ¬ C45_statement := by
  intro h
  obtain ⟨args, ha⟩ : ∃ args : List Str, args = List.replicate 65534 (u8!"x") ++ [u8!"-data"] := ⟨_, rfl⟩
  have hlen : args.length = 65535 := by
    rw [ha, List.length_append, List.length_replicate]; rfl
  obtain ⟨fuel, hf⟩ := h args (by omega)
  have hne : args ≠ [] := by intro e; rw [e] at hlen; simp at hlen
  have hx : ∀ i, i < 65534 → args[i]? = some (u8!"x") := by
    intro i hi
    rw [ha, List.getElem?_append_left (by rw [List.length_replicate]; exact hi), List.getElem?_replicate, if_pos hi]
  have hd : args[65534]? = some (u8!"-data") := by
    rw [ha, List.getElem?_append_right (by rw [List.length_replicate]; exact Nat.le_refl _), List.length_replicate]; rfl
  -- every call gives an argument `x`
  have step : ∀ i, i ≤ 65533 → ∃ j, j ≤ 65533 ∧ nextArg args i = .ok j := by
    intro i hi
    by_cases h1 : i = 65533
    · subst h1
      refine ⟨0, by omega, ?_⟩
      rw [nextArg, hlen, nextArgLoop, if_neg (by omega), if_neg hne]
      simp only [hd]
      rw [if_pos trivial, show (65535 : Nat) = 65534 + 1 from rfl, nextArgLoop, if_neg (by omega), if_neg hne]
      simp only [hx 0 (by omega)]
      rw [if_neg (by decide), if_neg (by decide)]
    · refine ⟨i + 1, by omega, ?_⟩
      rw [nextArg, hlen, nextArgLoop, if_neg (by omega), if_neg hne]
      rw [show (i + 1) % 65536 = i + 1 from Nat.mod_eq_of_lt (by omega)]
      simp only [hx (i + 1) (by omega)]
      rw [if_neg (by decide), if_neg (by decide)]
  -- so the loop never ends
  have endless : ∀ fuel i, i ≤ 65533 → visitArgs args fuel i = none := by
    intro fuel
    induction fuel with
    | zero => intros; rfl
    | succ fuel ih =>
      intro i hi
      obtain ⟨j, hj, e⟩ := step i hi
      rw [visitArgs, e]
      simp only [hx j (by omega)]
      rw [ih j hj]
  rw [endless fuel 0 (by omega)] at hf
  cases hf

/-- Holds for all other lists. -/
theorem C45_args_partial (args : List Str) (hn : args.length ≤ 65535)
    (hl : args.length = 65535 → args[65534]? ≠ some (u8!"-data")) (fuel : Nat) (hf : args.length < fuel) :
    visitArgs args fuel 0 = some (.ok (programArgs false (args.drop 1))) := by
  cases args with
  | nil =>
    cases fuel with
    | zero => simp at hf
    | succ fuel => rfl
  | cons a as => exact visitArgs_spec (a :: as) hn hl fuel 0 (by simp) (by simpa using hf)

example : visitArgs [u8!"quiz", u8!"-debug", u8!"x", u8!"-data", u8!"y", u8!"z", u8!"-info"] 8 0 =
    some (.ok [u8!"x", u8!"z"]) := by decide

/-- One call: positions behind the end are refused; otherwise the result is the position of the next program
argument or behind the end if there is none. -/
theorem C45_next_partial (args : List Str) (hn : args.length < 65535) (current : Nat) :
    (args.length < current → nextArg args current = .throw .domain) ∧
    (args = [] → current = 0 → nextArg args current = .ok 0) ∧
    (args ≠ [] → current ≤ args.length → ∃ j, nextArg args current = .ok j ∧ current < j ∧
      ((args[j]? = none ∧ programArgs false (args.drop (current + 1)) = []) ∨
        ∃ a, args[j]? = some a ∧ programArgs false (args.drop (current + 1)) = a :: programArgs false (args.drop (j + 1)))) := by
  refine ⟨fun h => ?_, fun h hc => ?_, fun h0 hc => ?_⟩
  · rw [nextArg, nextArgLoop, if_pos h]
  · subst h hc; rfl
  · exact nextArgLoop_spec args (by omega) (fun e => absurd e (by omega)) _ current hc (fun _ => hn) h0 (by omega)

example : nextArg [u8!"quiz", u8!"-debug", u8!"-data", u8!"x", u8!"-info", u8!"z"] 0 = .ok 5 := by decide
example : nextArg [u8!"quiz", u8!"x"] 3 = .throw .domain := by decide

/-! ## C75: the debug mode -/

/-- Whether an argument is one of the two options. -/
def isDebugArg (a : Str) : Bool := a == u8!"-debug" || a == u8!"-info"

/-- The mode is the one asked for by the only debug option; without an option it is `None`, and more than one option
(also the same one twice) is an error. -/
theorem C75_debugMode (prog : Str) (args : List Str) :
    getDebugMode (prog :: args) =
      match args.filter isDebugArg with
      | [] => .ok .none
      | [a] => .ok (if a = u8!"-debug" then .full else .info)
      | _ => .throw .domain := by
  show debugModeLoop args .none = _
  have some_set : ∀ (l : List Str) (m : DebugMode), m ≠ .none →
      debugModeLoop l m = match l.filter isDebugArg with | [] => .ok m | _ => .throw .domain := by
    intro l m hm
    induction l with
    | nil => rfl
    | cons a l ih =>
      by_cases h1 : a = u8!"-debug"
      · have hb : isDebugArg a = true := by rw [h1]; decide
        rw [debugModeLoop, if_pos h1, if_pos hm, List.filter_cons_of_pos hb]
      · by_cases h2 : a = u8!"-info"
        · have hb : isDebugArg a = true := by rw [h2]; decide
          rw [debugModeLoop, if_neg h1, if_pos h2, if_pos hm, List.filter_cons_of_pos hb]
        · have hb : ¬ isDebugArg a = true := by simp only [isDebugArg, Bool.or_eq_true, beq_iff_eq]; simp [h1, h2]
          rw [debugModeLoop, if_neg h1, if_neg h2, List.filter_cons_of_neg hb, ih]
  induction args with
  | nil => rfl
  | cons a l ih =>
    by_cases h1 : a = u8!"-debug"
    · have hb : isDebugArg a = true := by rw [h1]; decide
      rw [debugModeLoop, if_pos h1, if_neg (by simp), List.filter_cons_of_pos hb, some_set l .full (by simp)]
      cases l.filter isDebugArg with
      | nil => simp only; rw [if_pos h1]
      | cons => rfl
    · by_cases h2 : a = u8!"-info"
      · have hb : isDebugArg a = true := by rw [h2]; decide
        rw [debugModeLoop, if_neg h1, if_pos h2, if_neg (by simp), List.filter_cons_of_pos hb, some_set l .info (by simp)]
        cases l.filter isDebugArg with
        | nil => simp only; rw [if_neg h1]
        | cons => rfl
      · have hb : ¬ isDebugArg a = true := by simp only [isDebugArg, Bool.or_eq_true, beq_iff_eq]; simp [h1, h2]
        rw [debugModeLoop, if_neg h1, if_neg h2, List.filter_cons_of_neg hb, ih]

end KT
