import Verif.Lemmas.ConverterCase
/-!
# C26-C31, C71: conversions between Hiragana, Katakana and Romaji

Specification: `Verif/Spec/Converter.lean` (letters and marks of the scripts by Unicode code).
Model: `Verif/Model/Converter.lean`.  A converter is any value of `Converter`: any target, any flags
and either order of evaluation at Converter.cpp:262-263.

`Readable t cs` (`Verif/Lemmas/ConverterKana.lean`) excludes one thing: っ followed by a letter of
normal size and a small letter that together aren't in the table, for example っかぁ
(`Unsplit`).  `processKana` looks up the two letters together, doesn't find them and adds them to the
result as they are (Converter.cpp:264-268, "shouldn't happen").
-/
namespace KT
open Spec Converter

/-! ## C26: between the kana scripts -/

/-- Full statement: conversion to the other script is letter by letter. -/
def C26_statement : Prop :=
  ∀ (c : Converter) (t : CharType), t ≠ .romaji → c.target = other t →
    ∀ cs : List Char, (∀ x ∈ cs, IsLetter (t == .katakana) x ∨ x = 'ー') →
      c.convertFrom t (utf8Encode cs) = .ok (utf8Encode (cs.map (otherScript (t == .katakana))))

/-- っかぁ becomes ッかぁ. -/
theorem C26_violated : ¬ C26_statement := by
  intro h
  have := h ⟨.katakana, .none, true⟩ .hiragana (by decide) rfl ['っ', 'か', 'ぁ'] (by decide)
  exact absurd this (by decide +kernel)

/-- Holds for any readable text (letters, marks and any other characters). -/
theorem C26_partial (c : Converter) (t : CharType) (ht : t ≠ .romaji) (hc : c.target = other t)
    (cs : List Char) (h : ∀ x ∈ cs, Simple x) (hr : Readable t cs) :
    c.convertFrom t (utf8Encode cs) = .ok (utf8Encode (cs.map (otherScript (t == .katakana)))) :=
  swap_text c ht hc h hr

/-- And back: text without letters and marks of the other script comes back as it was. -/
theorem C26_round_trip_partial (c1 c2 : Converter) (t : CharType) (ht : t ≠ .romaji)
    (h1 : c1.target = other t) (h2 : c2.target = t) (cs : List Char)
    (h : ∀ x ∈ cs, Simple x ∧ ¬ IsLetter (!(t == .katakana)) x ∧ ¬ IsIterationMark (!(t == .katakana)) x)
    (hr : Readable t cs) :
    ∃ r, c1.convertFrom t (utf8Encode cs) = .ok r ∧ c2.convertFrom (other t) r = .ok (utf8Encode cs) := by
  refine ⟨_, swap_text c1 ht h1 (fun x hx => (h x hx).1) hr, ?_⟩
  rw [swap_text c2 (other_ne t).1 (by rw [h2, ((other_ne t).2 ht).2])]
  · congr 2
    rw [List.map_map, other_beq ht]
    have : ∀ x ∈ cs, (otherScript (!(t == .katakana)) ∘ otherScript (t == .katakana)) x = id x :=
      fun x hx => otherScript_back (h x hx).2
    rw [List.map_congr_left this, List.map_id]
  · intro x hx
    obtain ⟨y, hy, rfl⟩ := List.mem_map.mp hx
    exact simple_other (h y hy).1
  · exact readable_other ht (fun x hx => (h x hx).2.1) hr

/-- `Readable` is decided by the letters after each っ: text without small letters is readable. -/
theorem C26_readable (t : CharType) (cs : List Char) (h : ∀ x ∈ cs, ¬ IsSmall (t == .katakana) x) :
    Readable t cs := by
  intro a x s b he hu
  exact h s (by rw [he]; simp) hu.2.1

example : (⟨.katakana, .none, true⟩ : Converter).convertFrom .hiragana (u8!"きょうカっぱ。ー漢字ゝ") =
    .ok u8!"キョウカッパ。ー漢字ヽ" := by decide +kernel

/-! ## C27: to Romaji and back -/

/-- Full statement. -/
def C27_statement : Prop :=
  ∀ (c1 c2 : Converter) (t : CharType), t ≠ .romaji → c1.target = .romaji → c1.flags = .none →
    c2.target = t → c2.flags = .none →
    ∀ cs : List Char, (∀ x ∈ cs, IsLetter (t == .katakana) x ∨ x = 'ー') →
      ∃ r, c1.convertFrom t (utf8Encode cs) = .ok r ∧ c2.convertFrom .romaji r = .ok (utf8Encode cs)

/-- っかぁー becomes "ltuかぁ": the prolong mark is lost. -/
theorem C27_violated : ¬ C27_statement := by
  intro h
  obtain ⟨r, h1, h2⟩ := h ⟨.romaji, .none, true⟩ ⟨.hiragana, .none, true⟩ .hiragana (by decide) rfl rfl rfl rfl
    ['っ', 'か', 'ぁ', 'ー'] (by decide)
  have e : (⟨.romaji, .none, true⟩ : Converter).convertFrom .hiragana (utf8Encode ['っ', 'か', 'ぁ', 'ー']) =
      .ok u8!"ltuかぁ" := by decide +kernel
  rw [e] at h1
  cases h1
  exact absurd h2 (by decide +kernel)

/-- Holds for any text without Ascii characters, iteration marks of the script and vowels with macron,
except where っ, two letters that aren't read together and a prolong mark follow each other. -/
theorem C27_partial (c1 c2 : Converter) (t : CharType) (ht : t ≠ .romaji) (h1 : c1.target = .romaji)
    (h2 : c1.flags = .none) (h3 : c2.target = t) (h4 : c2.flags = .none) (cs : List Char)
    (h : ∀ x ∈ cs, Simple x ∧ 128 ≤ x.toNat ∧ ¬ IsIterationMark (t == .katakana) x ∧
      x ∉ ['ā', 'ī', 'ū', 'ē', 'ō'])
    (hr : ∀ a x s b, cs = a ++ [tsu (t == .katakana), x, s, 'ー'] ++ b → ¬ Unsplit t x s) :
    ∃ r, c1.convertFrom t (utf8Encode cs) = .ok r ∧ c2.convertFrom .romaji r = .ok (utf8Encode cs) := by
  have hs : ∀ x ∈ cs, Simple x := fun x hx => (h x hx).1
  have hp := (simple_pieces hs).1
  obtain ⟨items, k1, k2, k3⟩ := fromKana_items c1 ht hp
  obtain ⟨ps, k4, k5, k6⟩ := round_items c1 c2 ht ⟨h1, h2⟩ h3 h4 items k1 (by
    rw [k2]
    intro p hp'
    obtain ⟨x, hx, rfl⟩ := List.mem_map.mp hp'
    obtain ⟨e1, e2, e3, e4⟩ := h x hx
    refine ⟨hp _ hp', ?_, ?_, ?_⟩
    · have := (encodeChar_length e2).1
      match he : String.utf8EncodeChar x with
      | [] => rfl
      | [b] => rw [he] at this; simp at this
      | _ :: _ :: _ => rfl
    · cases hl : macrons.lookup (String.utf8EncodeChar x) with
      | none => rfl
      | some v =>
        exfalso
        have hm := List.mem_map_of_mem (f := Prod.fst) (lookup_mem hl)
        rw [show macrons.map Prod.fst = ['ā', 'ī', 'ū', 'ē', 'ō'].map String.utf8EncodeChar from by decide] at hm
        obtain ⟨y, hy, he⟩ := List.mem_map.mp hm
        rw [← encodeChar_inj he] at e4
        exact e4 hy
    · cases hf : findIterationMark t (String.utf8EncodeChar x) with
      | none => rfl
      | some m => exact absurd ((iteration_char ht).mp ⟨m, hf⟩) e3) (by
    intro x s n hb hm
    obtain ⟨a, x', s', b, he, hu, hb'⟩ := bad_infix ht k1 k2 hb hm
    obtain ⟨b', rfl⟩ := hb' rfl
    exact hr a x' s' b' (by rw [he]; simp) hu)
  refine ⟨items.flatMap (itemOut c1 t), ?_, ?_⟩
  · rw [convertFrom_simple c1 ht (by rw [h1]; exact fun h => ht h.symm) hs, k3]
  · rw [← k5, convert_run c2 k4 (by rw [h3]; exact ht)]
    have := k6 [] [] (Or.inl rfl) (fun h => absurd rfl h)
    rw [show ({} : ToState) = ⟨[], []⟩ from rfl, this, k2]
    simp [pend, utf8Encode, List.flatMap_def]

example : (⟨.romaji, .none, true⟩ : Converter).convertFrom .hiragana (u8!"しんよう、にゃんこ「ラーメンがっこー」っかぁ") =
    .ok u8!"shin'you,nyanko[ラーメンgakkō]ltuかぁ" := by decide +kernel

/-! ## C28: other characters -/

/-- Text without letters and iteration marks of the source script is unchanged, except that wide
delimiters become narrow when the target is Romaji. -/
theorem C28_unchanged (c : Converter) (t : CharType) (ht : t ≠ .romaji) (cs : List Char)
    (h : ∀ x ∈ cs, Simple x ∧ ¬ IsLetter (t == .katakana) x ∧ ¬ IsIterationMark (t == .katakana) x ∧
      (c.target = .romaji → wideDelimFind (String.utf8EncodeChar x) = none)) :
    c.convertFrom t (utf8Encode cs) = .ok (utf8Encode cs) := by
  by_cases hc : c.target = t
  · unfold convertFrom; rw [if_pos hc.symm]
  · have hs : ∀ x ∈ cs, Simple x := fun x hx => (h x hx).1
    rw [convertFrom_simple c ht hc hs, fromKana_nothing c ht (simple_pieces hs).1]
    · simp [utf8Encode, List.flatMap_def]
    · intro p hp
      obtain ⟨x, hx, rfl⟩ := List.mem_map.mp hp
      obtain ⟨e1, e2, e3, e4⟩ := h x hx
      refine ⟨?_, ?_, e4⟩
      · cases hf : findIterationMark t (String.utf8EncodeChar x) with
        | none => rfl
        | some m => exact absurd ((iteration_char ht).mp ⟨m, hf⟩) e3
      · cases hf : findKana t (String.utf8EncodeChar x) with
        | none => rfl
        | some k => exact absurd ((letter_char ht).mp ⟨k, hf⟩) e2

/-- The wide delimiters and what they become. -/
theorem C28_delimiters : delims.map (fun d => (d.2, [d.1])) =
    ("　！”＃＄％＆（）＊＋、。・０１２３４５６７８９：；＜＝＞？＠「￥」＾＿｀『｜』〜".toList.map String.utf8EncodeChar).zip
      (" !\"#$%&()*+,./0123456789:;<=>?@[\\]^_`{|}~".toList.map String.utf8EncodeChar) := by decide +kernel

/-- A character that isn't kana of the source script, an iteration mark or a prolong mark stays in
place: the text before it and the text after it are converted as if they were alone.  (An iteration
mark in the text after it may refer to the kana before it if the target is Romaji.) -/
theorem C28_in_place (c : Converter) (t : CharType) (ht : t ≠ .romaji) (hc : c.target ≠ t)
    (a b : List Char) (x : Char) (hs : ∀ y ∈ a ++ x :: b, Simple y)
    (hx : ¬ IsLetter (t == .katakana) x ∧ ¬ IsIterationMark (t == .katakana) x ∧ x ≠ 'ー')
    (hb : c.target ≠ .romaji ∨ ∀ y ∈ b, ¬ IsIterationMark (t == .katakana) y) :
    ∃ ra rb, c.convertFrom t (utf8Encode a) = .ok ra ∧ c.convertFrom t (utf8Encode b) = .ok rb ∧
      c.convertFrom t (utf8Encode (a ++ x :: b)) = .ok (ra ++ otherOut c (String.utf8EncodeChar x) ++ rb) := by
  obtain ⟨ra, h1⟩ := convertFrom_ok c t (utf8Encode a)
  obtain ⟨rb, h2⟩ := convertFrom_ok c t (utf8Encode b)
  refine ⟨ra, rb, h1, h2, ?_⟩
  rw [convertFrom_simple c ht hc (fun y hy => hs y (by simp [hy]))] at h1 h2
  rw [convertFrom_simple c ht hc hs, List.map_append, List.map_cons]
  refine fromKana_split c ht ?_ ?_ ?_ ?_ h1 h2
  · exact fun h => hx.2.2 (encodeChar_inj (h.trans (show prolongMark = String.utf8EncodeChar 'ー' from rfl)))
  · cases hf : findIterationMark t (String.utf8EncodeChar x) with
    | none => rfl
    | some m => exact absurd ((iteration_char ht).mp ⟨m, hf⟩) hx.2.1
  · cases hf : findKana t (String.utf8EncodeChar x) with
    | none => rfl
    | some k => exact absurd ((letter_char ht).mp ⟨k, hf⟩) hx.1
  · refine hb.imp_right fun hb p hp => ?_
    obtain ⟨y, hy, rfl⟩ := List.mem_map.mp hp
    cases hf : findIterationMark t (String.utf8EncodeChar y) with
    | none => rfl
    | some m => exact absurd ((iteration_char ht).mp ⟨m, hf⟩) (hb y hy)

example : (⟨.romaji, .none, true⟩ : Converter).convertFrom .katakana (u8!"ーabcひらがな漢字😀") =
    .ok u8!"ーabcひらがな漢字😀" := by decide +kernel
example : (⟨.romaji, .none, true⟩ : Converter).convertFrom .hiragana (u8!"きょう（漢）") = .ok u8!"kyou(漢)" := by
  decide +kernel

/-! ## C29: nothing left -/

/-- Full statement. -/
def C29_statement : Prop :=
  ∀ (c : Converter) (t : CharType), t ≠ .romaji → c.target = .romaji →
    ∀ cs : List Char, (∀ x ∈ cs, IsLetter (t == .katakana) x) →
      ∃ rs : List Char, c.convertFrom t (utf8Encode cs) = .ok (utf8Encode rs) ∧
        ∀ r ∈ rs, ¬ IsLetter (t == .katakana) r

/-- っかぁ becomes "ltuかぁ". -/
theorem C29_violated : ¬ C29_statement := by
  intro h
  obtain ⟨rs, h1, h2⟩ := h ⟨.romaji, .none, true⟩ .hiragana (by decide) rfl ['っ', 'か', 'ぁ'] (by decide)
  have e : (⟨.romaji, .none, true⟩ : Converter).convertFrom .hiragana (utf8Encode ['っ', 'か', 'ぁ']) =
      .ok (utf8Encode ['l', 't', 'u', 'か', 'ぁ']) := by decide +kernel
  rw [e] at h1
  simp only [Res.ok.injEq] at h1
  have := utf8Encode_inj h1
  rw [← this] at h2
  exact h2 'か' (by decide) (by decide)

/-- Holds for any readable text and any target and flags. -/
theorem C29_partial (c : Converter) (t : CharType) (ht : t ≠ .romaji) (hc : c.target ≠ t)
    (cs : List Char) (h : ∀ x ∈ cs, Simple x) (hr : Readable t cs) :
    ∃ rs : List Char, c.convertFrom t (utf8Encode cs) = .ok (utf8Encode rs) ∧
      ∀ r ∈ rs, ¬ IsLetter (t == .katakana) r := by
  by_cases hc2 : c.target = .romaji
  · obtain ⟨items, k1, k2, k3⟩ := fromKana_items c ht (simple_pieces h).1
    obtain ⟨rs, h1, h2⟩ := itemOut_clean ht hc2 items k1 (by
      rw [k2]; intro p hp; obtain ⟨x, _, rfl⟩ := List.mem_map.mp hp; exact ⟨x, rfl⟩) (by
      intro x s pr n hb hm
      obtain ⟨a, x', s', b, he, hu, _⟩ := bad_infix ht k1 k2 hb hm
      exact hr a x' s' b he hu)
    exact ⟨rs, by rw [convertFrom_simple c ht hc h, k3, h1], h2⟩
  · have ho : c.target = other t := by
      revert ht hc hc2; cases t <;> cases c.target <;> simp [other]
    refine ⟨_, swap_text c ht ho h hr, ?_⟩
    intro r hr' hl
    obtain ⟨x, hx, rfl⟩ := List.mem_map.mp hr'
    have key : ∀ (b : Bool) (d : Char), IsLetter b d → ¬ IsLetter (!b) d ∧ ¬ IsIterationMark (!b) d := by
      intro b d
      cases b <;> simp only [IsLetter, IsIterationMark, Bool.false_eq_true, if_false, if_true, Bool.not_false, Bool.not_true] <;> omega
    rcases otherScript_cases (t == .katakana) x with h1 | h1 | h1
    · exact (key _ _ hl).1 h1.2.1
    · exact (key _ _ hl).2 h1.2.1
    · rw [h1.2.2] at hl; exact h1.1 hl

example : (⟨.romaji, ⟨true, true, true, true⟩, false⟩ : Converter).convertFrom .hiragana (u8!"じゃんけん") =
    .ok u8!"zyanken" := by decide +kernel

/-! ## C30: upper case -/

/-- Full statement, for texts of Ascii letters that are converted completely. -/
def C30_statement : Prop :=
  ∀ (c : Converter), c.target ≠ .romaji → ∀ s y : Str, (∀ b ∈ s, isUpper b = true ∨ isLower b = true) →
    c.convertFrom .romaji (toLower s) = .ok y → (∀ b ∈ y, 128 ≤ b.toNat) → c.convertFrom .romaji s = .ok y

/-- "KKa" becomes "Kか". -/
theorem C30_violated : ¬ C30_statement := by
  intro h
  have := h ⟨.hiragana, .none, true⟩ (by decide) (u8!"KKa") (u8!"っか") (by decide) (by decide +kernel) (by decide)
  exact absurd this (by decide +kernel)

theorem letter_piece {b : UInt8} (h : isUpper b = true ∨ isLower b = true) :
    b.toNat < 128 ∧ IsPiece [b] ∧ ¬ IsDelim [b] ∧ IsPiece [toLowerChar b] ∧ ¬ IsDelim [toLowerChar b] := by
  have key : ∀ n : Nat, n < 256 → (isUpper (UInt8.ofNat n) = true ∨ isLower (UInt8.ofNat n) = true) →
      ((UInt8.ofNat n).toNat < 128 ∧ UInt8.ofNat n ≠ 0 ∧ UInt8.ofNat n ∉ narrowDelimList) ∧
      ((toLowerChar (UInt8.ofNat n)).toNat < 128 ∧ toLowerChar (UInt8.ofNat n) ≠ 0 ∧
        toLowerChar (UInt8.ofNat n) ∉ narrowDelimList) := by decide +kernel
  obtain ⟨⟨h1, h2, h3⟩, h4, h5, h6⟩ := byte_cases (fun b => (isUpper b = true ∨ isLower b = true) →
      (b.toNat < 128 ∧ b ≠ 0 ∧ b ∉ narrowDelimList) ∧
      ((toLowerChar b).toNat < 128 ∧ toLowerChar b ≠ 0 ∧ toLowerChar b ∉ narrowDelimList)) key b h
  refine ⟨h1, Or.inl ⟨b, h1, h2, rfl⟩, ?_, Or.inl ⟨_, h4, h5, rfl⟩, ?_⟩
  · rintro ⟨x, hx, he⟩; simp at he; subst he; exact h3 hx
  · rintro ⟨x, hx, he⟩; simp at he; subst he; exact h6 hx

/-- Unless an upper-case letter starts a doubled consonant, the conversion of a text is the
conversion of its lower-case form up to the case of the letters that aren't converted. -/
theorem C30_up_to_case_partial (c : Converter) (hc : c.target ≠ .romaji) (s : Str)
    (hs : ∀ b ∈ s, isUpper b = true ∨ isLower b = true) (hn : NoCapital s) :
    ∃ y, c.convertFrom .romaji s = .ok y ∧ c.convertFrom .romaji (toLower s) = .ok (toLower y) := by
  have h1 : ∀ s : Str, (∀ b ∈ s, IsPiece [b] ∧ ¬ IsDelim [b]) →
      c.convertFrom .romaji s = c.toKanaChars (s.map ([·])) := by
    intro s hs
    have hp : ∀ p ∈ s.map ([·]), IsPiece p := by
      intro p hp; obtain ⟨b, hb, rfl⟩ := List.mem_map.mp hp; exact (hs b hb).1
    have he : (s.map ([·])).flatten = s := by
      clear hp hs; induction s with
      | nil => rfl
      | cons b s ih => simp only [List.map_cons, List.flatten_cons, ih]; rfl
    have := convert_run c hp hc
    rw [he] at this
    rw [this]
    have h2 := run_append c {} [] (xs := s.map ([·])) (by
      intro p hp; obtain ⟨b, hb, rfl⟩ := List.mem_map.mp hp; exact (hs b hb).2)
    rw [List.append_nil] at h2
    rw [h2]
    unfold toKanaChars
    cases c.toKanaLoop {} (s.map ([·])) <;> rfl
  obtain ⟨y, h2, h3⟩ := toKana_low c hc s (fun b hb => (letter_piece (hs b hb)).1) hn
  refine ⟨y, ?_, ?_⟩
  · rw [h1 s fun b hb => ⟨(letter_piece (hs b hb)).2.1, (letter_piece (hs b hb)).2.2.1⟩, h2]
  · rw [h1 (toLower s) ?_, h3]
    intro b hb
    obtain ⟨d, hd, rfl⟩ := List.mem_map.mp hb
    exact ⟨(letter_piece (hs d hd)).2.2.2.1, (letter_piece (hs d hd)).2.2.2.2⟩

/-- The statement under the same condition. -/
theorem C30_partial (c : Converter) (hc : c.target ≠ .romaji) (s y : Str)
    (hs : ∀ b ∈ s, isUpper b = true ∨ isLower b = true) (hn : NoCapital s)
    (h : c.convertFrom .romaji (toLower s) = .ok y) (hy : ∀ b ∈ y, 128 ≤ b.toNat) :
    c.convertFrom .romaji s = .ok y := by
  obtain ⟨z, h1, h2⟩ := C30_up_to_case_partial c hc s hs hn
  rw [h2] at h
  simp only [Res.ok.injEq] at h
  rw [h1]
  congr 1
  have key : ∀ n : Nat, n < 256 → 128 ≤ (toLowerChar (UInt8.ofNat n)).toNat → 128 ≤ (UInt8.ofNat n).toNat := by
    decide +kernel
  rw [← h, toLower_high]
  intro b hb
  exact byte_cases (fun b => 128 ≤ (toLowerChar b).toNat → 128 ≤ b.toNat) key b
    (hy _ (by rw [← h]; exact List.mem_map_of_mem hb))

example : (⟨.hiragana, .none, true⟩ : Converter).convertFrom .romaji (u8!"NiPPon") = .ok u8!"にPぽん" ∧
    (⟨.hiragana, .none, true⟩ : Converter).convertFrom .romaji (u8!"NIpPONNJIN") = .ok u8!"にっぽんんじん" := by
  decide +kernel

/-! ## C31: incomplete Romaji -/

/-- Full statement: a character that isn't Romaji is written after the letters before it. -/
def C31_statement : Prop :=
  ∀ (c : Converter), c.target ≠ .romaji → ∀ (a b : List Char) (x : Char) (y z : Str),
    (∀ d ∈ a ++ x :: b, Simple d) → 128 ≤ x.toNat → x ∉ ['ā', 'ī', 'ū', 'ē', 'ō'] →
    c.convertFrom .romaji (utf8Encode a) = .ok y → c.convertFrom .romaji (utf8Encode b) = .ok z →
    c.convertFrom .romaji (utf8Encode (a ++ x :: b)) = .ok (y ++ String.utf8EncodeChar x ++ z)

/-- "kあ" becomes "あk". -/
theorem C31_violated : ¬ C31_statement := by
  intro h
  have := h ⟨.hiragana, .none, true⟩ (by decide) ['k'] [] 'あ' (u8!"k") [] (by decide) (by decide) (by decide)
    (by decide +kernel) (by decide +kernel)
  exact absurd this (by decide +kernel)

/-- Holds if the text before it is converted completely. -/
theorem C31_partial (c : Converter) (hc : c.target ≠ .romaji) (a b : List Char) (x : Char) (y z : Str)
    (hs : ∀ d ∈ a ++ x :: b, Simple d) (hx : 128 ≤ x.toNat) (hm : x ∉ ['ā', 'ī', 'ū', 'ē', 'ō'])
    (ha : c.convertFrom .romaji (utf8Encode a) = .ok y) (hb : c.convertFrom .romaji (utf8Encode b) = .ok z)
    (hy : ∀ d ∈ y, 128 ≤ d.toNat) :
    c.convertFrom .romaji (utf8Encode (a ++ x :: b)) = .ok (y ++ String.utf8EncodeChar x ++ z) := by
  have e : ∀ l : List Char, utf8Encode l = (l.map String.utf8EncodeChar).flatten := by
    intro l; simp [utf8Encode, List.flatMap_def]
  rw [e, convert_run c (simple_pieces fun d hd => hs d (by simp [hd])).1 hc] at ha hb
  rw [e, convert_run c (simple_pieces hs).1 hc, List.map_append, List.map_cons]
  refine run_complete c (isPiece_simple (hs x (by simp))) ?_ ?_ hb _ _ _ ha hy (by simp)
  · have := (encodeChar_length hx).1
    match he : String.utf8EncodeChar x with
    | [] => rfl
    | [b] => rw [he] at this; simp at this
    | _ :: _ :: _ => rfl
  · cases hl : macrons.lookup (String.utf8EncodeChar x) with
    | none => rfl
    | some v =>
      exfalso
      have hm' := List.mem_map_of_mem (f := Prod.fst) (lookup_mem hl)
      rw [show macrons.map Prod.fst = ['ā', 'ī', 'ū', 'ē', 'ō'].map String.utf8EncodeChar from by decide] at hm'
      obtain ⟨y, hy, he⟩ := List.mem_map.mp hm'
      rw [← encodeChar_inj he] at hm
      exact hm hy

/-- Delimiters always keep their place, whatever is before and after them. -/
theorem C31_delimiters (c : Converter) (hc : c.target ≠ .romaji) (a b : List Char) (d : Char)
    (hs : ∀ x ∈ a ++ d :: b, Simple x) (hd : d.toNat ∈ narrowDelimList.map UInt8.toNat) :
    ∃ y o z, c.convertFrom .romaji (utf8Encode a) = .ok y ∧ c.convertFrom .romaji (utf8Encode b) = .ok z ∧
      c.delimOut (UInt8.ofNat d.toNat) = .ok o ∧
      c.convertFrom .romaji (utf8Encode (a ++ d :: b)) = .ok (y ++ o ++ z) := by
  obtain ⟨u, hu, hud⟩ := List.mem_map.mp hd
  have hdu : UInt8.ofNat d.toNat = u := by rw [← hud]; simp
  obtain ⟨y, hy⟩ := convertFrom_ok c .romaji (utf8Encode a)
  obtain ⟨z, hz⟩ := convertFrom_ok c .romaji (utf8Encode b)
  obtain ⟨o, ho⟩ : ∃ o, c.delimOut u = .ok o := by
    unfold delimOut
    split
    · rename_i h
      exact narrowDelimAt_ok u hu h.1 h.2.1
    · exact ⟨_, rfl⟩
  refine ⟨y, o, z, hy, hz, by rw [hdu, ho], ?_⟩
  have e : ∀ l : List Char, utf8Encode l = (l.map String.utf8EncodeChar).flatten := by
    intro l; simp [utf8Encode, List.flatMap_def]
  rw [e, convert_run c (simple_pieces fun x hx => hs x (by simp [hx])).1 hc] at hy hz
  rw [e, convert_run c (simple_pieces hs).1 hc, List.map_append, List.map_cons]
  have hde : String.utf8EncodeChar d = [u] := by
    have := (delim_not_letter u hu).2.1
    rw [utf8EncodeChar_eq_enc, enc, if_pos (by omega), hdu]
  rw [hde]
  exact run_split c hu ho hz _ _ _ hy

example : (⟨.hiragana, .none, true⟩ : Converter).convertFrom .romaji (u8!"kan漢k ji-q") = .ok u8!"かん漢k　じq" := by
  decide +kernel

/-! ## C71: conversion never fails -/

/-- Converting any byte string, with given source or trying each in turn, gives a result: no
exception, no read outside of a string or list and no endless loop. -/
theorem C71_total (c : Converter) (s : Str) :
    (∀ t, ∃ r, c.convertFrom t s = .ok r) ∧ ∃ r, c.convert s = .ok r :=
  ⟨fun t => convertFrom_ok c t s, convert_ok c s⟩

/-- Converting to the script a text is already in changes nothing. -/
theorem C71_same (c : Converter) (s : Str) : c.convertFrom c.target s = .ok s := by
  unfold convertFrom; rw [if_pos rfl]

example : (⟨.romaji, .none, true⟩ : Converter).convert [0xe3, 0x81, 0xff, 0x41] = .ok [0x41] := by decide +kernel

end KT
