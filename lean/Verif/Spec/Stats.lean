import Verif.Model.Stats
/-!
# Specification of the statistics
-/
namespace Spec
open KT

/-- The characters of a text after its replacement. -/
def charsOf (find : Option (Str → Str)) (s : Str) : List Str :=
  ((utf8Chars ((find.getD id) s)).map (·.1)).getD []

/-- Everything that is countedChars by a sequence of `add` calls: each accepted character of each text, with
the tag of the call. -/
def countedChars (find : Option (Str → Str)) (allow : Str → Bool) (calls : List (Str × Option Str)) :
    List (Str × Option Str) :=
  calls.flatMap fun (s, tag) => ((charsOf find s).filter allow).map fun c => (c, tag)

/-- The counters of an iteration over a text. -/
def endState (find : Option (Str → Str)) (s : Str) : Utf8CharState :=
  ((utf8Chars ((find.getD id) s)).map (·.2)).getD { loc := [] }

mutual
/-- The file or directory found by following positions in the directories, starting from a node; links
aren't followed. -/
def nodeAt (name : Str) (n : Node) : List Nat → Option (Str × Node)
  | [] => some (name, n)
  | i :: p =>
    match n with
    | .dir es => entryAt es i p
    | _ => none

def entryAt : Entries → Nat → List Nat → Option (Str × Node)
  | .nil, _, _ => none
  | .cons name n _, 0, p => nodeAt name n p
  | .cons _ _ rest, i + 1, p => entryAt rest i p
end

/-- The regular files directly in a directory. -/
def topFiles : Entries → List (Str × Str)
  | .nil => []
  | .cons name (.file c) rest => (name, c) :: topFiles rest
  | .cons _ _ rest => topFiles rest

end Spec
