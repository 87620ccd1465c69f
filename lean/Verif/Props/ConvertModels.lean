import Verif.Props.ConvertProgram
/-!
# C168 and the properties of the arguments of kanaConvert are about the same program

`Model/KanaConvert` has the arguments with exceptions, `Model/ConvertProgram` with their messages.
-/
namespace KT

/-- The message is forgotten. -/
def forgetMessage {α : Type} : Except Str α → Res α
  | .ok a => .ok a
  | .error _ => .throw .domain

theorem flagValue_forget (st : ConvState) (arg : Str) : forgetMessage (st.flagValueWhy arg) = st.flagValue arg := by
  match arg with
  | [] => rfl
  | [c] =>
    simp only [ConvState.flagValueWhy, ConvState.flagValue]
    cases st.flagArgs c <;> rfl
  | _ :: _ :: _ => rfl

theorem processArg_forget (st : ConvState) (arg : Str) : forgetMessage (st.processArgWhy arg) = st.processArg arg := by
  unfold ConvState.processArgWhy ConvState.processArg
  cases st.hasMode <;> simp only [Bool.false_eq_true, if_false, if_true] <;> repeat' split
  all_goals first | rfl | simp_all [forgetMessage]

/-- The loop over the arguments. -/
theorem convLoop_forget (args : List Str) : ∀ (fuel i : Nat) (st : ConvState),
    (convLoopWhy args fuel i st).map forgetMessage = convArgsLoop args fuel i st := by
  intro fuel
  induction fuel with
  | zero => intro i st; rfl
  | succ fuel ih =>
    intro i st
    unfold convLoopWhy convArgsLoop
    cases args[i]? with
    | none => rfl
    | some arg =>
      simp only
      split
      · exact ih _ _
      split
      · rfl
      split
      · cases args[i + 1]? with
        | none => rfl
        | some v =>
          simp only
          have h := flagValue_forget st v
          rw [← h]
          cases st.flagValueWhy v with
          | ok st' => exact ih _ _
          | error m => rfl
      · have h := processArg_forget st arg
        unfold ConvState.otherArg
        rw [← h]
        cases st.processArgWhy arg with
        | error m => rfl
        | ok o =>
          cases o with
          | none => exact ih _ _
          | some st' => exact ih _ _

theorem select_forget (st : ConvState) (needsOption : Bool) :
    forgetMessage (st.selectWhy needsOption) = st.select needsOption := by
  unfold ConvState.selectWhy ConvState.select
  repeat' split
  all_goals rfl

/-- The program with messages ends with an exception exactly if the one without messages does, and otherwise does the same. -/
theorem C168_models (args : List Str) (tty : Bool) :
    (convLoopWhy args (args.length + 1) 1 {}).map (fun a => (forgetMessage a).bind fun r =>
      match r with
      | .usage => .ok none
      | .run st => (forgetMessage (st.selectWhy tty)).bind fun x => .ok (some x)) =
    (convArgsLoop args (args.length + 1) 1 {}).map (fun a => a.bind fun r =>
      match r with
      | .usage => .ok none
      | .run st => (st.select tty).bind fun x => .ok (some x)) := by
  rw [← convLoop_forget, Option.map_map]
  congr 1
  funext a
  simp only [Function.comp, select_forget]

end KT
