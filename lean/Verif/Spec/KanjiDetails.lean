import Verif.Spec.Digits
import Verif.Spec.Utf8
import Verif.Model.KanjiDetails
/-!
# Specification of `kanjiQuiz <kanji>`: what is asked for, what is shown and the messages of errors
-/
namespace Spec
open KT

/-! ## Morohashi IDs -/

/-- A Morohashi ID without its mark: `PP` or `''` for "double prime", `P` or `'` for "prime" (at the end), or `H` for
"supplemental" (at the beginning). -/
def unmarked (s : Str) : IdType × Str :=
  if (u8!"PP") <:+ s ∨ (u8!"''") <:+ s then (.doublePrime, s.take (s.length - 2))
  else if (u8!"P") <:+ s ∨ (u8!"'") <:+ s then (.prime, s.dropLast)
  else match s with
    | 0x48 :: r => (.supplemental, r)
    | _ => (.plain, s)

/-- The number that a text begins with. -/
def firstNumber (s : Str) : Nat := (readNumber 10 (s.takeWhile fun b => 0x30 ≤ b.toNat && b.toNat ≤ 0x39)).getD 0

/-- What is wrong with a Morohashi ID.  Digits are read from left to right: if the number becomes too large then it
doesn't matter what follows. -/
def idProblem (s : Str) : Option Str :=
  let (kind, number) := unmarked s
  if number = [] then (if kind = .plain then none else some (u8!"is invalid"))
  else if firstNumber number > 65535 then some (u8!"exceeds max")
  else if readNumber 10 number = none then some (u8!"is non-numeric")
  else if kind ≠ .plain ∧ firstNumber number = 0 then some (u8!"can't be zero")
  else none

/-! ## Arguments -/

/-- What an argument asks for, or the message for an argument that can't be understood. -/
def argument (arg : Str) : Except Str KanjiQuery :=
  match readNumber 10 arg with
  | some n => if n ≤ 65535 then .ok (.frequency n) else .error (u8!"invalid frequency '" ++ arg ++ u8!"'")
  | none =>
    match arg with
    | [] => .error (u8!"invalid frequency ''")
    | 0x6d :: id =>
      match idProblem id with
      | some why => .error (u8!"Morohashi ID '" ++ id ++ u8!"' " ++ why)
      | none => .ok (.morohashi ⟨firstNumber (unmarked id).2, (unmarked id).1⟩)
    | 0x6e :: id =>
      match readNumber 10 id with
      | some n => if n ≤ 65535 then .ok (.nelson n) else .error (u8!"invalid Nelson ID '" ++ id ++ u8!"'")
      | none => .error (u8!"Nelson ID '" ++ id ++ u8!"' is non-numeric")
    | 0x75 :: id =>
      match readNumber 16 id with
      | some n =>
        if id.length = 4 ∨ (id.length = 5 ∧ (id.head? = some 0x31 ∨ id.head? = some 0x32)) then .ok (.unicode n)
        else .error (u8!"Unicode value '" ++ id ++ u8!"' is invalid")
      | none => .error (u8!"Unicode value '" ++ id ++ u8!"' is invalid")
    | _ =>
      if isKanji arg then .ok (.name arg)
      else .error (u8!"unrecognized 'kanji' value '" ++ arg ++ u8!"', use -h for help")

/-! ## What is shown -/

/-- The explanation of abbreviations. -/
def legendText : Str :=
  u8!">>> Legend:\nFields: N[1-5]=JLPT Level, K[1-10]=Kentei Kyu, G[1-6]=Grade (S=Secondary School)\nSuffix: .=常用 '=JLPT \"=Freq ^=人名用 ~=LinkJ %=LinkO +=Extra @=検定 #=1級 *=Ucd\n"

/-- One kanji: legend, sources and what is known about the kanji. -/
def onePage (card : Str → Str) (name : Str) : Str :=
  legendText ++ u8!"Sources: G=China / Singapore, H=Hong Kong, J=Japan, K=Korea, T=Taiwan, V=Vietnam\n\n" ++ card name

/-- All kanji with an ID. -/
def idPage (card : Str → Str) (kind id : Str) : List Str → Str
  | [] => u8!"Found 0 matches for " ++ kind ++ u8!" ID " ++ id ++ u8!"\n"
  | [name] => onePage card name
  | names => legendText ++ u8!"\nFound " ++ toDec names.length ++ u8!" matches for " ++ kind ++ u8!" ID " ++ id ++
      u8!":\n\n" ++ (names.map card).flatten

/-- A character, or U+FFFD for a surrogate. -/
def character (code : Nat) : Str := String.utf8EncodeChar (if IsScalar code then Char.ofNat code else Char.ofNat 0xfffd)

/-- What is shown for an argument; `card` is what is known about a name, `ranked` the kanji with a frequency. -/
def kanjiPage (card : Str → Str) (ranked : Nat → Option KanjiRec) (store : KanjiStore) (arg : Str) : Shown :=
  match argument arg with
  | .error message => .error message
  | .ok (.frequency n) =>
    match ranked n with
    | some k => .text (onePage card k.kanji.name)
    | none => .error (u8!"Kanji not found for frequency '" ++ arg ++ u8!"'")
  | .ok (.morohashi id) =>
    .text (idPage card (u8!"Morohashi") id.toString ((store.findByMorohashiId id).map (·.kanji.name)))
  | .ok (.nelson n) =>
    .text (idPage card (u8!"Nelson") arg.tail ((store.findByNelsonId (UInt16.ofNat n)).map (·.kanji.name)))
  | .ok (.unicode n) => .text (onePage card (character n))
  | .ok (.name s) => .text (onePage card s)

end Spec
