/-!
# Specification of delimited text
-/
namespace Spec

/-- Split a text at every delimiter: `n` delimiters give `n + 1` (possibly empty) fields. -/
def split (delim : UInt8) : List UInt8 → List (List UInt8)
  | [] => [[]]
  | b :: r =>
    if b = delim then [] :: split delim r
    else match split delim r with
      | [] => [[b]]
      | f :: fs => (b :: f) :: fs

/-- The last field is dropped when it is empty (so a trailing delimiter is ignored). -/
def dropEmptyLast (fs : List (List UInt8)) : List (List UInt8) :=
  if fs.getLast? = some [] then fs.dropLast else fs

/-- Join fields with a delimiter. -/
def join (delim : UInt8) : List (List UInt8) → List UInt8
  | [] => []
  | [f] => f
  | f :: g :: fs => f ++ delim :: join delim (g :: fs)

end Spec
