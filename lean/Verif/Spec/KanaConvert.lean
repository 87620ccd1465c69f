import Verif.Model.KanaConvert
/-!
# What the documentation of kanaConvert says (usage text, KanaConvert.cpp:191-219)
-/
namespace Spec
open KT

/-- The options other than `-f`, `-?` and `--`. -/
inductive ConvOpt where
  | interactive
  | suppressNewLine
  | markdown
  | chart
  | target (t : CharType)
  | source (t : CharType)
  deriving DecidableEq, Repr

def convOptions : List (Str × ConvOpt) :=
  [(u8!"-i", .interactive), (u8!"-n", .suppressNewLine), (u8!"-m", .markdown), (u8!"-p", .chart),
   (u8!"-h", .target .hiragana), (u8!"-k", .target .katakana), (u8!"-r", .target .romaji),
   (u8!"-H", .source .hiragana), (u8!"-K", .source .katakana), (u8!"-R", .source .romaji)]

/-- The values of `-f`. -/
inductive ConvFlag where
  | hepburn | kunrei | noProlongMark | removeSpaces
  deriving DecidableEq, Repr

def convFlags : List (Str × ConvFlag) :=
  [(u8!"h", .hepburn), (u8!"k", .kunrei), (u8!"n", .noProlongMark), (u8!"r", .removeSpaces)]

/-- A flag is added to those already set. -/
def withFlag (f : ConvertFlags) : ConvFlag → ConvertFlags
  | .hepburn => { f with hepburn := true }
  | .kunrei => { f with kunrei := true }
  | .noProlongMark => { f with noProlongMark := true }
  | .removeSpaces => { f with removeSpaces := true }

def addFlag (st : ConvState) (f : ConvFlag) : ConvState :=
  { st with converter := { st.converter with flags := withFlag st.converter.flags f } }

/-- The modes of which only one can be given. -/
def modes (st : ConvState) : List Bool := [st.interactive, st.suppressNewLine, st.printKana, st.printMarkdown]

/-- The effect of an option, `none` if it clashes with one given before. -/
def applyOpt (st : ConvState) : ConvOpt → Option ConvState
  | .target t => some { st with converter := { st.converter with target := t } }
  | .source t => some { st with source := some t }
  | .interactive => if true ∈ modes st then none else some { st with interactive := true }
  | .suppressNewLine => if true ∈ modes st then none else some { st with suppressNewLine := true }
  | .markdown => if true ∈ modes st then none else some { st with printMarkdown := true }
  | .chart => if true ∈ modes st then none else some { st with printKana := true }

/-- The arguments after the program name, one after the other. -/
def readConvArgs (st : ConvState) : List Str → Res ConvArgs
  | [] => .ok (.run st)
  | a :: r =>
    if a = u8!"--" then .ok (.run { st with strings := st.strings ++ r })
    else if a = u8!"-?" then .ok .usage
    else if a = u8!"-f" then
      match r with
      | [] => .throw .domain
      | v :: r =>
        match convFlags.lookup v with
        | none => .throw .domain
        | some f => readConvArgs (addFlag st f) r
    else
      match convOptions.lookup a with
      | some o =>
        match applyOpt st o with
        | none => .throw .domain
        | some st => readConvArgs st r
      | none =>
        if a.head? = some 0x2d then .throw .domain
        else readConvArgs { st with strings := st.strings ++ [a] } r

/-- Texts one after the other, with `sep` between them. -/
def separated (sep : Str) : List Str → Str
  | [] => []
  | [a] => a
  | a :: b :: r => a ++ sep ++ separated sep (b :: r)

/-- The conversions of several strings. -/
def conversions (st : ConvState) : List Str → Res (List Str)
  | [] => .ok []
  | s :: r => (st.convert s).bind fun c => (conversions st r).bind fun cs => .ok (c :: cs)

/-- What separates the conversions: `-f r` only applies to Hiragana and Katakana. -/
def convSep (c : Converter) : Str :=
  if c.target = .romaji then u8!" " else if c.flags.removeSpaces then [] else u8!"　"

/-- A dialogue in interactive mode, line by line.  `asking` says that a flag has been asked for.  The
boolean of the result is false if the input ends while the flag is asked for. -/
def dialogue (st : ConvState) (asking : Bool) : List Str → Res (List ConvEvent × Bool)
  | [] => .ok ([], !asking)
  | l :: r =>
    if asking then
      match convFlags.lookup l with
      | none => dialogue st true r
      | some f => (dialogue (addFlag st f) false r).bind fun o => .ok ((addFlag st f).options :: o.1, o.2)
    else if l = u8!"q" then .ok ([], true)
    else if l = [] then dialogue st false r
    else if l = u8!"f" then dialogue st true r
    else if l = u8!"h" then (dialogue st false r).bind fun o => .ok (.usage :: st.options :: o.1, o.2)
    else if l = u8!"c" then
      let st : ConvState := { st with converter := { st.converter with flags := .none } }
      (dialogue st false r).bind fun o => .ok (st.options :: o.1, o.2)
    else if l.head? = some 0x2d then
      match convOptions.lookup l with
      | some (.target t) =>
        let st : ConvState := { st with converter := { st.converter with target := t } }
        (dialogue st false r).bind fun o => .ok (st.options :: o.1, o.2)
      | some (.source t) =>
        let st : ConvState := { st with source := some t }
        (dialogue st false r).bind fun o => .ok (st.options :: o.1, o.2)
      | _ => (dialogue st false r).bind fun o => .ok (.illegal l :: st.options :: o.1, o.2)
    else (st.convert l).bind fun c =>
      (dialogue st false r).bind fun o => .ok (.text (c ++ if st.suppressNewLine then [] else u8!"\n") :: o.1, o.2)

/-- The conversions of the lines up to a line "q". -/
def piped (st : ConvState) : List Str → Res (List ConvEvent × Bool)
  | [] => .ok ([], true)
  | l :: r =>
    if l = u8!"q" then .ok ([], true)
    else (st.convert l).bind fun c =>
      (piped st r).bind fun o => .ok (.text (c ++ if st.suppressNewLine then [] else u8!"\n") :: o.1, o.2)

end Spec
