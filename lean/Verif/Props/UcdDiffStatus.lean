import Verif.Props.UcdDiff
/-! # C200: exit status, and samples -/
namespace KT
open Spec

/-! ## A `diff` exists -/

theorem parts_exist {k w : List Str} (h : k.Sublist w) : ∃ o, Parts w k o := by
  induction h with
  | slnil => exact ⟨[], .nil⟩
  | cons x _ ih => obtain ⟨o, ho⟩ := ih; exact ⟨x :: o, .other _ _ _ _ ho⟩
  | cons_cons x _ ih => obtain ⟨o, ho⟩ := ih; exact ⟨o, .kept _ _ _ _ ho⟩

theorem longest_common (a b : List Str) : ∀ (n : Nat) (c : List Str), c.Sublist a → c.Sublist b → a.length - c.length ≤ n →
    ∃ c : List Str, c.Sublist a ∧ c.Sublist b ∧ ∀ c' : List Str, c'.Sublist a → c'.Sublist b → c'.length ≤ c.length
  | 0, c, h1, h2, hn => ⟨c, h1, h2, fun c' k1 _ => by have := k1.length_le; omega⟩
  | n + 1, c, h1, h2, hn => by
    by_cases h : ∃ c' : List Str, c'.Sublist a ∧ c'.Sublist b ∧ c.length < c'.length
    · obtain ⟨c', k1, k2, k3⟩ := h
      exact longest_common a b n c' k1 k2 (by have := k1.length_le; omega)
    · exact ⟨c, h1, h2, fun c' k1 k2 => by
        have : ¬ c.length < c'.length := fun hx => h ⟨c', k1, k2, hx⟩
        omega⟩

theorem diff_exists (a b : List Str) : ∃ d, IsDiff a b d := by
  obtain ⟨c, h1, h2, h3⟩ := longest_common a b _ [] (List.nil_sublist a) (List.nil_sublist b) (Nat.le_refl _)
  obtain ⟨o1, k1⟩ := parts_exist h1
  obtain ⟨o2, k2⟩ := parts_exist h2
  exact ⟨(o1, o2), c, k1, k2, h3⟩

/-! ## Exit status -/

/-- The status is 0 when the differences of a character in two files are shown. -/
def C200_statement : Prop :=
  ∀ (files : DiffFiles) (oldFile newFile : Str) (diff : List Str → List Str → List Str × List Str)
    (_ : ∀ a b, IsDiff a b (diff a b)) (w : Str) (c : Nat) (rs rs' : List CharRecord)
    (r r' : CharRecord) (_ : oldFile ≠ newFile)
    (_ : HasChars files oldFile rs) (_ : HasChars files newFile rs') (_ : r ∈ rs) (_ : r' ∈ rs')
    (_ : r.cp = toUnicode c) (_ : r'.cp = toUnicode c) (_ : GivenChar w c) (_ : SameOrder r.fields r'.fields),
    ∃ text, ucdDiff files oldFile newFile diff [u8!"-d", w] = .shown text 0

/-- A character of the old version: two fields. -/
def oldChar : CharRecord := ⟨u8!"   ", u8!"3400", [(u8!"age", u8!"3.0"), (u8!"kTotalStrokes", u8!"5")]⟩
/-- The same in the new version, without the second field. -/
def newChar : CharRecord := ⟨u8!"   ", u8!"3400", [(u8!"age", u8!"3.0")]⟩
/-- Another character of the new version. -/
def otherChar : CharRecord := ⟨[], u8!"3401", [(u8!"age", u8!"3.1"), (u8!"kDefinition", u8!"to lick")]⟩

def diffSampleFiles : DiffFiles := fun f =>
  if f = u8!"old" then some [u8!"<ucd>", oldChar.text, u8!"</ucd>"]
  else if f = u8!"new" then some [u8!"<ucd>", newChar.text, otherChar.text, u8!"</ucd>"]
  else none

theorem oldChar_fits : oldChar.Fits := by
  constructor <;> decide
theorem newChar_fits : newChar.Fits := by
  constructor <;> decide
theorem otherChar_fits : otherChar.Fits := by
  constructor <;> decide

theorem old_chars : HasChars diffSampleFiles (u8!"old") [oldChar] := by
  refine ⟨_, rfl, Or.inl ⟨?_, Or.inr ⟨oldChar, [], rfl, rfl, oldChar_fits, Or.inl ⟨?_, rfl⟩⟩⟩, by decide⟩
  · rw [← hasText_iff]; decide
  · rw [← hasText_iff]; decide

theorem new_chars : HasChars diffSampleFiles (u8!"new") [newChar, otherChar] := by
  refine ⟨_, rfl, Or.inl ⟨?_, Or.inr ⟨newChar, _, rfl, rfl, newChar_fits,
    Or.inr ⟨otherChar, [], rfl, rfl, otherChar_fits, Or.inl ⟨?_, rfl⟩⟩⟩⟩, by decide⟩
  · rw [← hasText_iff]; decide
  · rw [← hasText_iff]; decide

theorem sample_given : GivenChar (u8!"3400") 0x3400 := C200_every 0x3400 (Or.inl (by decide)) (by decide)

/-- The status is 1 although the differences are shown: the last command fails when the second file has no field of its own
(line 149). -/
theorem C200_violated : ¬ C200_statement := by
  intro h
  obtain ⟨text, e⟩ := h diffSampleFiles (u8!"old") (u8!"new") (fun a b => (diff_exists a b).choose)
    (fun a b => (diff_exists a b).choose_spec) (u8!"3400") 0x3400 [oldChar] [newChar, otherChar] oldChar newChar (by decide)
    old_chars new_chars (by simp) (by simp) (by decide) (by decide) sample_given (by unfold SameOrder; decide)
  have k := C200_versions_partial diffSampleFiles (u8!"old") (u8!"new") (fun a b => (diff_exists a b).choose)
    (fun a b => (diff_exists a b).choose_spec) [] (u8!"3400") 0x3400 [oldChar] [newChar, otherChar] oldChar newChar
    (by simp) (by decide) old_chars new_chars (by simp) (by simp) (by decide) (by decide) sample_given (by unfold SameOrder; decide)
  simp only [List.flatMap_nil, List.nil_append] at k
  rw [e, if_neg (by decide), if_pos (by decide)] at k
  cases k

/-- The status is 0 when the second has a field that the first doesn't have, or there are no differences. -/
theorem C200_status_partial (files : DiffFiles) (oldFile newFile : Str) (diff : List Str → List Str → List Str × List Str)
    (hdiff : ∀ a b, IsDiff a b (diff a b)) (w : Str) (c : Nat) (rs rs' : List CharRecord)
    (r r' : CharRecord) (hn : oldFile ≠ newFile)
    (hf : HasChars files oldFile rs) (hf' : HasChars files newFile rs') (hr : r ∈ rs) (hr' : r' ∈ rs')
    (hc : r.cp = toUnicode c) (hc' : r'.cp = toUnicode c) (hw : GivenChar w c) (ho : SameOrder r.fields r'.fields)
    (hs : onlyIn r'.fields r.fields ≠ [] ∨ onlyIn r.fields r'.fields = []) :
    ∃ text, ucdDiff files oldFile newFile diff [u8!"-d", w] = .shown text 0 := by
  have k := C200_versions_partial files oldFile newFile diff hdiff [] w c rs rs' r r' (by simp) hn hf hf' hr hr' hc hc' hw ho
  simp only [List.flatMap_nil, List.nil_append] at k
  by_cases h : onlyIn r'.fields r.fields = []
  · have h2 : onlyIn r.fields r'.fields = [] := hs.resolve_left fun hx => hx h
    rw [if_pos ⟨h2, h⟩] at k
    exact ⟨_, k⟩
  · rw [if_neg (fun hx => h hx.2), if_neg h] at k
    exact ⟨_, k⟩

/-! ## Samples -/

/-- The character 㐁 in the new file. -/
example : ucdDiff diffSampleFiles (u8!"old") (u8!"new") (fun a b => (diff_exists a b).choose) [u8!"㐁"] =
    .shown (u8!"Code 3401 (㐁) from 'new'\nage: 3.1\nkDefinition: to lick\n") 0 := by
  have k := C200_fields diffSampleFiles (u8!"old") (u8!"new") (fun a b => (diff_exists a b).choose) [] (u8!"㐁") 0x3401
    [newChar, otherChar] otherChar (by simp) (by simp) new_chars (by decide) (by simp) (by decide)
    ⟨Or.inl (by decide), Or.inl ⟨by decide, by decide⟩⟩
  simp only [List.flatMap_nil, List.nil_append] at k
  rw [k]
  congr 1

/-- With `-p`. -/
example : ucdDiff diffSampleFiles (u8!"old") (u8!"new") (fun a b => (diff_exists a b).choose) [u8!"-p", u8!"3401"] =
    .shown (u8!"Code 3401 (㐁), age: 3.1, , , , \nkDefinition: to lick\n") 0 := by
  have k := C200_cjk diffSampleFiles (u8!"old") (u8!"new") (fun a b => (diff_exists a b).choose) [.cjk] (u8!"3401") 0x3401
    [newChar, otherChar] otherChar (by simp) (by simp) new_chars (by simp) (by decide)
    (C200_every 0x3401 (Or.inl (by decide)) (by decide))
  simp only [List.flatMap_cons, List.flatMap_nil, PrintOption.words, List.append_nil, List.cons_append, List.nil_append] at k
  rw [k]
  congr 1

/-- Two characters: only the second has a definition. -/
example : ucdDiff diffSampleFiles (u8!"old") (u8!"new") (fun a b => (diff_exists a b).choose) [u8!"3400", u8!"㐁"] =
    .shown (u8!"Code 3400 (㐀) from 'new'\n  age=\"3.0\"\nCode 3401 (㐁) from 'new'\n  age=\"3.1\"\n  kDefinition=\"to lick\"\n") 0 := by
  have k := C200_two_partial diffSampleFiles (u8!"old") (u8!"new") (fun a b => (diff_exists a b).choose)
    (fun a b => (diff_exists a b).choose_spec) [] (u8!"3400") (u8!"㐁") 0x3400 0x3401 [newChar, otherChar] newChar otherChar
    (by simp) (by simp) new_chars (by simp) (by simp) (by decide) (by decide) (by decide) sample_given
    ⟨Or.inl (by decide), Or.inl ⟨by decide, by decide⟩⟩ (by unfold SameOrder; decide)
  simp only [List.flatMap_nil, List.nil_append] at k
  rw [k, if_neg (by decide), if_neg (by decide)]
  congr 1

/-- Codes: small letters are accepted, planes 15 and 16 are not. -/
example : diffCode (u8!"4db5") = .ok (u8!"4DB5") ∧ diffCode (u8!"20B9F") = .ok (u8!"20B9F") ∧
    diffCode (u8!"犬") = .ok (u8!"72AC") ∧ diffCode (u8!"F0000") = .error (u8!"invalid code point 'F0000'") ∧
    diffCode (u8!"犬犬") = .error (u8!"code point '犬犬' should be a single UTF-8 value") := by
  refine ⟨?_, ?_, ?_, ?_, ?_⟩ <;> rfl

/-- The order of the checks: `-d` with one file twice, two codes with `-p`. -/
example : diffArgs diffSampleFiles (u8!"old") (u8!"new") [u8!"-d", u8!"-o", u8!"new", u8!"3400"] =
      .error (u8!"'old file' is the same as 'new file'") ∧
    diffArgs diffSampleFiles (u8!"old") (u8!"new") [u8!"-p", u8!"3400", u8!"3401"] =
      .error (u8!"only one code point should be specified with '-p'") ∧
    diffArgs diffSampleFiles (u8!"old") (u8!"new") [u8!"-f", u8!"x", u8!"3400"] = .error (u8!"'x' ia not a valid file") := by
  refine ⟨?_, ?_, ?_⟩ <;> rfl

end KT
