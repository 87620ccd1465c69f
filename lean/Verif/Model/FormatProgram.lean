import Verif.Model.Format
import Verif.Model.Stats
import Verif.Model.Symbol
import Verif.Model.Decimal
/-!
# Model of apps/formatMain.cpp from the arguments to the output
-/
namespace KT

/-- `is_regular_file` (formatMain.cpp:15), which follows links: the content of the file. -/
def regularFile : Option Node → Option Str
  | some (.file content) => some content
  | some (.link (some (.file content))) => some content
  | _ => none

/-- `Args(int, List)` with the messages (Args.cpp:7-12 and 21-28); in a program `argc` is the length of the array `argv`,
which isn't null. -/
def argsWhy (argv : List Str) : Except Str (List Str) :=
  if argv.length > 65535 then .error (u8!"argc " ++ toDec argv.length ++ u8!" is greater than 65535")
  else if argv.length = 0 then .error (u8!"argc is 0, but argv is not null")
  else .ok argv

/-- `format` (formatMain.cpp:12-43).  The file is opened for reading and writing (line 20); if that fails no line is read. -/
def runFormat (fs : Str → Option Node) (opens : Str → Bool) (args : List Str) : Except Str Str :=
  match args with
  | _ :: file :: _ =>
    match regularFile (fs file) with
    | none => .error (u8!"file not found: " ++ file)
    | some content => .ok (formatFile (if opens file then content else []))
  | _ => .error (u8!"specify a file to format")

/-- `main` (formatMain.cpp:45-53): what is written to `std::cout` and `std::cerr`, and the exit code. -/
def mainFormat (fs : Str → Option Node) (opens : Str → Bool) (argv : List Str) : Str × Str × Nat :=
  match argsWhy argv with
  | .error m => ([], m ++ u8!"\n", 1)
  | .ok args =>
    match runFormat fs opens args with
    | .error m => ([], m ++ u8!"\n", 1)
    | .ok out => (out, [], 0)

end KT
