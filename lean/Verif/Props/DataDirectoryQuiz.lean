import Verif.Props.DataDirectory
import Verif.Props.LoadedProgram
/-!
# C180: the quiz program with a data directory
-/
namespace KT
open Spec

/-- The quiz program runs with what was loaded from any directory: it ends or waits for input, whatever the arguments, the
random numbers and the input are. -/
theorem C180_quiz (reg : List Str) (hreg : reg.Nodup) (ltr : Bool) (x : Disk) (dir : Str) (d : DetailStore)
    (h : loadDataFrom reg ltr x dir = .ok d) (hw : WithinLimits (dirData x dir) d)
    (sort : List KanjiRec → List KanjiRec) (e : StoulTexts) (debug : Bool) (args : List Str) (n : Nat) (r : Drawn)
    (s : InStream) : ∃ o, runProgram sort d e debug args n r s = .ok o :=
  C171_quiz ltr (dirData x dir) d ((C180_load reg hreg ltr x dir d).mp h).2.2 hw sort e debug args n r s

end KT
