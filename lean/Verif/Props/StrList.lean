import Verif.Props.Str
import Verif.Props.Utf8
import Verif.Lemmas.Order
/-!
# Texts of several code points, and strings accepted as a multi-byte character (String.cpp:66-82, Utf8.cpp:272-274)
-/
namespace KT
open Spec

/-- A string is accepted exactly if it starts with a well-formed character that isn't Ascii and, if one character is
asked for, there is nothing after it. -/
theorem C05_accepted (s : Str) (so : Bool) :
    isValidMBUtf8 s so = some true ↔
      ∃ c : Char, 128 ≤ c.toNat ∧ StartsWith s c ∧ (so = true → cStr s = String.utf8EncodeChar c) := by
  rw [← C05_valid_iff]
  unfold isValidMBUtf8
  cases validateMBUtf8 s so with
  | none => simp
  | some r => obtain ⟨a, b⟩ := r; simp

/-- The text of code points has the texts of all of them with one space between. -/
theorem C10_list (cs : List Nat) : toUnicodeCodes cs = (u8!" ").intercalate (cs.map toUnicode) := by
  rw [toUnicodeCodes_eq]
  induction cs with
  | nil => rfl
  | cons c cs ih =>
    cases cs with
    | nil => simp [codesText, List.intercalate]
    | cons d cs =>
      rw [codesText, ih]
      simp [List.intercalate]

example : toUnicodeCodes [0x6f22, 0x5b57] = u8!"6F22 5B57" ∧ isValidMBUtf8 (u8!"a") = some false ∧
    isValidMBUtf8 (u8!"漢") true = some true := by decide

end KT
