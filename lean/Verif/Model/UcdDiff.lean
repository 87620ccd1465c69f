import Verif.Model.UcdDefinition
/-!
# Model of scripts/ucdDiff.sh

The script prints the fields of a character in `ucd.all.flat.xml`, or the fields that are different for two characters
or in two files.  `files` are the files by name, as lines; `oldFile` and `newFile` are the defaults (lines 18-19).
`diff` is an input: the lines that it marks with `<` and `>`.  Left out: the text of `usage` behind the message, file names
with blanks or pattern characters (`[[ $oldFile = $newFile ]]` and unquoted expansions), backslashes (`echo -e`), and
malformed UTF-8.  Ranges of `grep` are those of ASCII.
-/
namespace KT

abbrev DiffFiles := Str → Option (List Str)

/-- The files, `printOnlyCJK` and the remaining arguments. -/
structure DiffArgs where
  old : Str
  new : Str
  cjk : Bool
  codes : List Str
  deriving DecidableEq

/-- `checkFile` without a file (line 43). -/
def noFileText (opt : Str) : Str := u8!"'" ++ opt ++ u8!"' must be followed by a UCD file"
/-- `checkFile` (line 44). -/
def badFileText (f : Str) : Str := u8!"'" ++ f ++ u8!"' ia not a valid file"

/-- The loop for `-d` (lines 49-61). -/
def diffOptions (files : DiffFiles) : List Str → Str → Str → Except Str (Str × Str × List Str)
  | [], old, new => .ok (old, new, [])
  | [a], old, new => if a = u8!"-o" ∨ a = u8!"-n" then .error (noFileText a) else .ok (old, new, [a])
  | a :: f :: rest, old, new =>
    if a = u8!"-o" then if (files f).isSome then diffOptions files rest f new else .error (badFileText f)
    else if a = u8!"-n" then if (files f).isSome then diffOptions files rest old f else .error (badFileText f)
    else .ok (old, new, a :: f :: rest)

/-- The loop without `-d` (lines 66-78): the file and `printOnlyCJK`. -/
def printOptions (files : DiffFiles) : List Str → Str → Bool → Except Str (Str × Bool × List Str)
  | [], file, cjk => .ok (file, cjk, [])
  | [a], file, cjk =>
    if a = u8!"-f" then .error (noFileText a) else if a = u8!"-p" then .ok (file, true, []) else .ok (file, cjk, [a])
  | a :: f :: rest, file, cjk =>
    if a = u8!"-f" then if (files f).isSome then printOptions files rest f cjk else .error (badFileText f)
    else if a = u8!"-p" then printOptions files (f :: rest) file true
    else .ok (file, cjk, a :: f :: rest)

/-- The arguments (lines 47-86); the error is the message of `usage`. -/
def diffArgs (files : DiffFiles) (oldFile newFile : Str) (args : List Str) : Except Str DiffArgs :=
  if args.head? = some (u8!"-d") then
    match diffOptions files args.tail oldFile newFile with
    | .error m => .error m
    | .ok (old, new, codes) =>
      if old = new then .error (u8!"'old file' is the same as 'new file'")
      else if codes.length > 1 then .error (u8!"only one code point should be specified with '-d'")
      else if codes.length < 1 then .error (u8!"must specify at least one code point")
      else .ok ⟨old, new, false, codes⟩
  else
    match printOptions files args newFile false with
    | .error m => .error m
    | .ok (file, cjk, codes) =>
      if cjk ∧ codes.length > 1 then .error (u8!"only one code point should be specified with '-p'")
      else if codes.length > 2 then .error (u8!"too many arguments")
      else if codes.length < 1 then .error (u8!"must specify at least one code point")
      else .ok ⟨file, file, cjk, codes⟩

/-- `${1^^}` for ASCII. -/
def shUpper (b : UInt8) : UInt8 := if 0x61 ≤ b ∧ b ≤ 0x7a then b - 32 else b

/-- `^[1-9A-E]?[0-9A-F]{4}$` (line 98). -/
def isDiffCode (s : Str) : Bool :=
  s.all rxUni && (s.length == 4 || (s.length == 5 && s.head? != some 0x30 && s.head? != some 0x46))

/-- `getCodePoint` (lines 88-101); the argument isn't quoted, so it gets the first word. -/
def diffCode (arg : Str) : Except Str Str :=
  let s := (shWords arg).headD []
  if s.any rxUtf then
    match (fromUtf8 s).getD [] with
    | [c] => .ok (toUnicode c)
    | _ => .error (u8!"code point '" ++ s ++ u8!"' should be a single UTF-8 value")
  else if isDiffCode (s.map shUpper) then .ok (s.map shUpper)
  else .error (u8!"invalid code point '" ++ s ++ u8!"'")

/-- `grep` for a text. -/
def hasText (t : Str) : Str → Bool
  | [] => t == []
  | b :: s => t.isPrefixOf (b :: s) || hasText t s

/-- `sed 's/" /"\n/g'` (line 106) as lines. -/
def splitQuoted : Str → List Str
  | [] => [[]]
  | b :: s =>
    if b = 0x22 ∧ s.head? = some 0x20 then [b] :: splitQuoted s.tail
    else match splitQuoted s with
      | [] => [[b]]
      | l :: ls => (b :: l) :: ls
  termination_by s => s.length
  decreasing_by all_goals (simp only [List.length_cons, List.length_tail]; omega)

/-- `${xml%/>}`. -/
def withoutEnd (s : Str) : Str := if (u8!"/>").isSuffixOf s then s.take (s.length - 2) else s

/-- `getXml` (lines 103-107): the lines of `xml`, `none` if the code isn't found. -/
def getXml (files : DiffFiles) (file code : Str) : Option (List Str) :=
  match (((files file).getD []).filter fun l => hasText (u8!"<char cp=\"" ++ code ++ u8!"\"") l).reverse with
  | [] => none
  | l :: ls => some (((ls.reverse ++ [withoutEnd l]).flatMap splitQuoted).filter fun l => !hasText (u8!"<char cp=") l)

/-- `sed 's/="/: /g'` (line 128). -/
def sedColon : Str → Str
  | [] => []
  | b :: s => if b = 0x3d ∧ s.head? = some 0x22 then u8!": " ++ sedColon s.tail else b :: sedColon s
  termination_by s => s.length
  decreasing_by all_goals (simp only [List.length_cons, List.length_tail]; omega)

/-- `sed` and `tr` (line 128). -/
def withoutQuotes (s : Str) : Str := (sedColon s).filter (· != 0x22)

/-- `echo "$xml"`. -/
def echoLines (ls : List Str) : Str := (u8!"\n").intercalate ls ++ u8!"\n"

/-- `printFields` (lines 109-114). -/
def generalFields (xml : List Str) (names : List Str) : Str :=
  (names.flatMap fun n =>
    u8!", " ++ (u8!"\n").intercalate ((xml.filter fun l => (n ++ u8!"=\"").isPrefixOf l).map fun l =>
      n ++ u8!"=\"" ++ (l.drop (n.length + 2)).takeWhile (· != 0x22))) ++ u8!"\n"

/-- `Code $1 (\U$1)`. -/
def codeText (code : Str) : Str := u8!"Code " ++ code ++ u8!" (" ++ codeUtf8 code ++ u8!")"

/-- Lines 120-128. -/
def printXml (file code : Str) (cjk : Bool) (xml : List Str) : Str :=
  codeText code ++ withoutQuotes
    (if cjk then
      generalFields xml [u8!"age", u8!"blk", u8!"sc", u8!"Ideo", u8!"Radical"] ++
        (xml.filter fun l => (l.take 1 == u8!"k" && (l.drop 1).head?.any fun b => 0x41 ≤ b && b ≤ 0x5a) &&
          !hasText (u8!"\"\"") l).flatMap (· ++ u8!"\n")
    else u8!" from '" ++ file ++ u8!"'\n" ++ echoLines xml)

/-- `diffs` (lines 147-150). -/
def diffsText (code file : Str) (ls : List Str) : Str :=
  if ls = [] then [] else codeText code ++ u8!" from '" ++ file ++ u8!"'\n" ++ echoLines (ls.map fun l => u8!"  " ++ l)

/-- The end of the script: the message of `usage` (status 1), or text and exit status. -/
inductive DiffResult where
  | usage (message : Str)
  | shown (text : Str) (status : Nat)
  deriving DecidableEq

/-- Lines 138-153: the last command is the second `diffs`, which fails when there is nothing to show. -/
def showDiffs (old firstCode new code : Str) (d : List Str × List Str) : DiffResult :=
  if d = ([], []) then .shown (u8!"no diffs found\n") 0
  else .shown (diffsText firstCode old d.1 ++ diffsText code new d.2) (if d.2 = [] then 1 else 0)

def notFoundText (code file : Str) : Str := u8!"'" ++ code ++ u8!"' not found in: " ++ file

/-- The script. -/
def ucdDiff (files : DiffFiles) (oldFile newFile : Str) (diff : List Str → List Str → List Str × List Str)
    (args : List Str) : DiffResult :=
  match diffArgs files oldFile newFile args with
  | .error m => .usage m
  | .ok a =>
    match diffCode (a.codes.headD []) with
    | .error m => .usage m
    | .ok firstCode =>
      match getXml files a.old firstCode with
      | none => .usage (notFoundText firstCode a.old)
      | some firstXml =>
        if a.old = a.new then
          match a.codes.tail with
          | [] => .shown (printXml a.new firstCode a.cjk firstXml) 0
          | c :: _ =>
            match diffCode c with
            | .error m => .usage m
            | .ok code =>
              if firstCode = code then .usage (u8!"code points are the same")
              else match getXml files a.new code with
                | none => .usage (notFoundText code a.new)
                | some xml => showDiffs a.old firstCode a.new code (diff firstXml xml)
        else match getXml files a.new firstCode with
          | none => .usage (notFoundText firstCode a.new)
          | some xml => showDiffs a.old firstCode a.new firstCode (diff firstXml xml)

end KT
