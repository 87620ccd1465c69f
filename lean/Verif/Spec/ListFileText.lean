import Verif.Model.Utf8
/-!
# What is wrong with a token of a list file
-/
namespace Spec
open KT

/-- What can be wrong with a token. -/
inductive TokenProblem where
  | multiple | invalid | duplicate | nonUnique | tooMany
  deriving DecidableEq, Repr

/-- What is wrong with a token of a line, given the tokens before it in the file: in a file with one token per line it isn't
the line; it is no multi-byte character; it was before in the file; it was in an earlier file (for files that aren't of a
kind whose duplicates are collected); there are 65534 entries already. -/
def tokenProblem (onePerLine typed : Bool) (names before : List Str) (line token : Str) : Option TokenProblem :=
  if onePerLine = true ∧ token ≠ line then some .multiple
  else if isValidMBUtf8 token true ≠ some true then some .invalid
  else if token ∉ names ∧ token ∈ before then some .duplicate
  else if token ∈ names then (if typed then none else some .nonUnique)
  else if (before.filter fun t => !names.contains t).length = 65534 then some .tooMany
  else none

/-- The first token with a problem: the number of its line, the token and the problem. -/
def firstProblem (onePerLine typed : Bool) (names : List Str) : List Str → List (Nat × Str × Str) →
    Option (Nat × Str × TokenProblem)
  | _, [] => none
  | before, (n, line, token) :: rest =>
    match tokenProblem onePerLine typed names before line token with
    | some p => some (n, token, p)
    | none => firstProblem onePerLine typed names (before ++ [token]) rest

end Spec
