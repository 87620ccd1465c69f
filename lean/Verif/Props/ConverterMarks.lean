import Verif.Spec.IterationMark
import Verif.Lemmas.ConverterMarks
/-!
# C204: iteration marks in Romaji
-/
namespace KT
open Spec

/-- A letter of normal size, alone or with a small letter that is read together with it. -/
def ReadTogether (t : CharType) (x : Char) (s : List Char) : Prop :=
  IsNormal (t == .katakana) x ∧ (s = [] ∨ ∃ z, s = [z] ∧ IsSmall (t == .katakana) z ∧ ¬ Converter.Unsplit t x z)

/-- The letters that a mark stands for: the letter before it, accented or not, together with its small letter.  If these
aren't read together then it is the same as before. -/
def repeatedKana (t : CharType) (x : Char) (s : List Char) (m : Char) : List Char :=
  let y := repeatedLetter (t == .katakana) (IsAccentedMark m) x
  if (findKana t (utf8Encode (y :: s))).isSome then y :: s else x :: s

/-- Text that may follow: it doesn't start with a small letter, a mark or a prolong mark, and if it doesn't start with a
letter then there are no marks in it. -/
def MayFollow (t : CharType) (Y : List Char) : Prop :=
  Y = [] ∨ (∃ y B, Y = y :: B ∧ IsLetter (t == .katakana) y ∧ ¬ IsSmall (t == .katakana) y) ∨
    ((∀ y ∈ Y, ¬ IsIterationMark (t == .katakana) y) ∧ ∃ y B, Y = y :: B ∧ y ≠ 'ー' ∧ ¬ IsLetter (t == .katakana) y)

/-! ## The table -/

/-- The code of a letter of three bytes. -/
def codeOf3 (s : Str) : Nat :=
  match s with
  | [a, b, c] => (a.toNat - 0xe0) * 4096 + (b.toNat - 0x80) * 64 + (c.toNat - 0x80)
  | _ => 0

/-- The kana that the program takes for a mark. -/
def markKana (k : Kana) (accented : Bool) : Kana := if accented then k.dakuten.getD k else k.plain.getD k

/-- What is checked for an entry. -/
def markEntry (t : CharType) (accented : Bool) (k : Kana) : Bool :=
  let kat := t == .katakana
  let n := codeOf3 ((k.str t).take 3) - scriptOffset kat
  let y := enc (repeatedHiragana accented n + scriptOffset kat)
  let rest := (k.str t).drop 3
  k == smallTsu || k == kanaN || k.small ||
  (markKana k accented).str t == y ++ rest && decide (markKana k accented ∈ allKana) ||
  markKana k accented == k && (findKana t (y ++ rest)).isNone

theorem mark_hiragana : ∀ a, allKana.all (markEntry .hiragana a) = true := by decide +kernel
theorem mark_katakana : ∀ a, allKana.all (markEntry .katakana a) = true := by decide +kernel
theorem mark_table {t : CharType} (ht : t ≠ .romaji) (a : Bool) : allKana.all (markEntry t a) = true := by
  cases t
  · exact mark_hiragana a
  · exact mark_katakana a
  · exact absurd rfl ht

theorem codeOf3_letter {t : CharType} (ht : t ≠ .romaji) {x : Char} (hx : IsLetter (t == .katakana) x) :
    codeOf3 (String.utf8EncodeChar x) = x.toNat := by
  have h : ∀ i < 0x56, codeOf3 (enc (0x3041 + i)) = 0x3041 + i ∧ codeOf3 (enc (0x30a1 + i)) = 0x30a1 + i := by decide +kernel
  rw [Converter.isLetter_base ht] at hx
  rw [utf8EncodeChar_eq_enc]
  cases t
  · have := (h (x.toNat - 0x3041) (by simp [Converter.base] at hx; omega)).1
    simp [Converter.base] at hx
    rwa [show 0x3041 + (x.toNat - 0x3041) = x.toNat by omega] at this
  · have := (h (x.toNat - 0x30a1) (by simp [Converter.base] at hx; omega)).2
    simp [Converter.base] at hx
    rwa [show 0x30a1 + (x.toNat - 0x30a1) = x.toNat by omega] at this
  · exact absurd rfl ht

/-- A letter of normal size by its Hiragana code. -/
def normalCode (n : Nat) : Bool := n ∉ smallCodes && n != 0x3063 && n != 0x3093

theorem isNormal_code {t : CharType} (ht : t ≠ .romaji) {x : Char} (hx : IsLetter (t == .katakana) x) :
    IsNormal (t == .katakana) x ↔ normalCode (x.toNat - scriptOffset (t == .katakana)) = true := by
  have e : ∀ d : Char, x = d ↔ x.toNat = d.toNat := fun d => ⟨fun h => by rw [h], fun h => Converter.char_toNat_inj h⟩
  unfold IsNormal normalCode IsSmall tsu nn
  cases t
  · simp [e, hx, scriptOffset]
    simp [and_assoc]
  · have hb : 0x30a1 ≤ x.toNat := by simp [IsLetter] at hx; omega
    have h1 : x.toNat - 0x60 ∈ smallCodes ↔ x.toNat ∈ smallCodes.map (· + 0x60) := by
      rw [List.mem_map]
      constructor
      · intro h; exact ⟨_, h, by omega⟩
      · rintro ⟨n, h, e⟩; rw [← e]; simpa using h
    have h2 : (x.toNat - 0x60 = 0x3063) ↔ x.toNat = 0x30c3 := by omega
    have h3 : (x.toNat - 0x60 = 0x3093) ↔ x.toNat = 0x30f3 := by omega
    simp only [show (CharType.katakana == CharType.katakana) = true from rfl, if_true, scriptOffset, e,
      show 'ッ'.toNat = 0x30c3 from rfl, show 'ン'.toNat = 0x30f3 from rfl, Bool.and_eq_true, decide_eq_true_eq, bne_iff_ne, ne_eq,
      h1, h2, h3, and_assoc, decide_not, Bool.not_eq_true', decide_eq_false_iff_not]
    simp only [show IsLetter true x from hx, true_and]
  · exact absurd rfl ht

theorem repeated_enc {t : CharType} (ht : t ≠ .romaji) {x : Char} (hx : IsLetter (t == .katakana) x) (a : Bool) :
    IsLetter (t == .katakana) (repeatedLetter (t == .katakana) a x) ∧
    (IsNormal (t == .katakana) x → IsNormal (t == .katakana) (repeatedLetter (t == .katakana) a x)) ∧
    String.utf8EncodeChar (repeatedLetter (t == .katakana) a x) =
      enc (repeatedHiragana a (x.toNat - scriptOffset (t == .katakana)) + scriptOffset (t == .katakana)) := by
  have h : ∀ a : Bool, ∀ i < 0x56, 0x3041 ≤ repeatedHiragana a (0x3041 + i) ∧ repeatedHiragana a (0x3041 + i) ≤ 0x3096 ∧
      (normalCode (0x3041 + i) = true → normalCode (repeatedHiragana a (0x3041 + i)) = true) := by decide +kernel
  have hb : 0x3041 + scriptOffset (t == .katakana) ≤ x.toNat ∧ x.toNat ≤ 0x3096 + scriptOffset (t == .katakana) := by
    cases t
    · simpa [IsLetter, scriptOffset] using hx
    · simpa [IsLetter, scriptOffset] using hx
    · exact absurd rfl ht
  have h1 := h a (x.toNat - scriptOffset (t == .katakana) - 0x3041) (by omega)
  rw [show 0x3041 + (x.toNat - scriptOffset (t == .katakana) - 0x3041) = x.toNat - scriptOffset (t == .katakana) by omega] at h1
  have ho : scriptOffset (t == .katakana) ≤ 0x60 := by unfold scriptOffset; split <;> omega
  have hv : (repeatedLetter (t == .katakana) a x).toNat =
      repeatedHiragana a (x.toNat - scriptOffset (t == .katakana)) + scriptOffset (t == .katakana) := by
    unfold repeatedLetter
    exact Converter.ofNat_toNat (by simp only [IsScalar]; omega)
  have hl : IsLetter (t == .katakana) (repeatedLetter (t == .katakana) a x) := by
    obtain ⟨h1, h2, _⟩ := h1
    unfold IsLetter
    rw [hv]
    cases t
    · simp [scriptOffset] at h1 h2 ⊢; omega
    · simp [scriptOffset] at h1 h2 ⊢; omega
    · exact absurd rfl ht
  refine ⟨hl, ?_, by rw [utf8EncodeChar_eq_enc, hv]⟩
  rw [isNormal_code ht hx, isNormal_code ht hl, hv]
  intro hn
  simpa using h1.2.2 hn

namespace Converter

theorem letter_simple {b : Bool} {x : Char} (h : IsLetter b x) : Simple x := by
  unfold IsLetter at h
  refine ⟨?_, ?_, ?_⟩
  · split at h <;> omega
  · unfold IsSelector; split at h <;> omega
  · unfold IsKanaMark; split at h <;> omega

/-- The entries of letters that are read together. -/
theorem together_reads {t : CharType} (ht : t ≠ .romaji) {x : Char} {s : List Char} (h : ReadTogether t x s) :
    ∃ P k, Reads t P k ∧ P.map (·.str t) = (x :: s).map String.utf8EncodeChar ∧ findKana t (utf8Encode (x :: s)) = some k ∧
      k.str t = utf8Encode (x :: s) := by
  obtain ⟨hx, hs⟩ := h
  obtain ⟨kx, hkx⟩ := (letter_char ht).mpr hx.1
  obtain ⟨hm, hmono, he⟩ := char_mono ht hkx
  have hn : Normal kx := (normal_char ht hm he).mpr hx
  rcases hs with rfl | ⟨z, rfl, hz, hu⟩
  · refine ⟨[kx], kx, .one hm hmono hn, by simp [he], ?_, ?_⟩
    · simpa [utf8Encode] using hkx
    · simpa [utf8Encode] using he
  · have hzl : IsLetter (t == .katakana) z := by
      have h : ∀ b : Bool, ∀ n ∈ smallCodes.map (· + if b = true then 0x60 else 0),
          if b = true then 0x30a1 ≤ n ∧ n ≤ 0x30f6 else 0x3041 ≤ n ∧ n ≤ 0x3096 := by decide
      exact h _ _ hz
    obtain ⟨kz, hkz⟩ := (letter_char ht).mpr hzl
    obtain ⟨hmz, hmonoz, hez⟩ := char_mono ht hkz
    have hsm := (small_char ht hmz hez).mpr hz
    cases hf : findKana t (String.utf8EncodeChar x ++ String.utf8EncodeChar z) with
    | none => exact absurd ⟨hx, hz, hf⟩ hu
    | some k =>
      refine ⟨[kx, kz], k, .two hm hmono hn hmz hmonoz hsm (by rw [he, hez, hf]), by simp [he, hez], ?_, ?_⟩
      · simpa [utf8Encode] using hf
      · rw [← ((found_iff ht).mp hf).2]; simp [utf8Encode]

/-- The kana of a mark is written with the letters that it stands for. -/
theorem repeated_reads {t : CharType} (ht : t ≠ .romaji) {x : Char} {s : List Char} (h : ReadTogether t x s) {P : List Kana}
    {k : Kana} (hP : Reads t P k) (hPs : P.map (·.str t) = (x :: s).map String.utf8EncodeChar) (m : Char) :
    ∃ P', Reads t P' (markKana k (IsAccentedMark m)) ∧
      P'.map (·.str t) = (repeatedKana t x s m).map String.utf8EncodeChar := by
  obtain ⟨hk, hch, hl⟩ := hP.mem ht
  have hstr : k.str t = utf8Encode (x :: s) := by
    rw [← hch]
    show (P.map (·.str t)).flatten = ((x :: s).map String.utf8EncodeChar).flatten
    rw [hPs]
  have hxl := h.1.1
  have hlen : (String.utf8EncodeChar x).length = 3 := by
    obtain ⟨kx, hkx⟩ := (letter_char ht).mpr hxl
    obtain ⟨h1, h2, h3⟩ := char_mono ht hkx
    rw [← h3, mono_length3 h1 h2]
  have htake : (k.str t).take 3 = String.utf8EncodeChar x := by
    rw [hstr]; exact List.take_left' hlen
  have hdrop : (k.str t).drop 3 = utf8Encode s := by
    rw [hstr]; exact List.drop_left' hlen
  have hns : k ≠ smallTsu ∧ k ≠ kanaN ∧ k.small = false := by
    cases hP with
    | one _ _ hn => exact hn
    | two h1 h2 h3 h4 h5 h6 h7 =>
      obtain ⟨_, _, _, h8, h9, _⟩ := digraph_found ht ⟨h1, h2⟩ ⟨h4, h5⟩ h7
      refine ⟨h8, h9, ?_⟩
      cases hsm : k.small with
      | false => rfl
      | true =>
        have := mono_length3 hk (small_mono k hk hsm) t
        rw [← ((found_iff ht).mp h7).2, List.length_append, mono_length3 h1 h2, mono_length3 h4 h5] at this
        omega
  have hT := List.all_eq_true.mp (mark_table ht (IsAccentedMark m)) k hk
  obtain ⟨hyl, hyn, hye⟩ := repeated_enc ht hxl (IsAccentedMark m)
  unfold markEntry at hT
  simp only [htake, hdrop, codeOf3_letter ht hxl, ← hye] at hT
  have e1 : (k == smallTsu) = false := by simp [hns.1]
  have e2 : (k == kanaN) = false := by simp [hns.2.1]
  rw [e1, e2, hns.2.2] at hT
  simp only [Bool.or_false, Bool.false_or] at hT
  have hy' : String.utf8EncodeChar (repeatedLetter (t == .katakana) (IsAccentedMark m) x) ++ utf8Encode s =
      utf8Encode (repeatedLetter (t == .katakana) (IsAccentedMark m) x :: s) := rfl
  rw [hy'] at hT
  unfold repeatedKana
  simp only
  cases hf : findKana t (utf8Encode (repeatedLetter (t == .katakana) (IsAccentedMark m) x :: s)) with
  | none =>
    have hk' : markKana k (IsAccentedMark m) = k := by
      rcases Bool.or_eq_true_iff.mp hT with h | h
      · simp only [Bool.and_eq_true, beq_iff_eq, decide_eq_true_eq] at h
        rw [← h.1, found ht h.2] at hf
        cases hf
      · simp only [Bool.and_eq_true, beq_iff_eq] at h
        exact h.1
    rw [hk']
    exact ⟨P, hP, by simpa using hPs⟩
  | some k' =>
    have hk' : markKana k (IsAccentedMark m) = k' := by
      rcases Bool.or_eq_true_iff.mp hT with h | h
      · simp only [Bool.and_eq_true, beq_iff_eq, decide_eq_true_eq] at h
        rw [← h.1, found ht h.2] at hf
        simpa using hf
      · rw [hf] at h; simp at h
    rw [hk']
    obtain ⟨j, hj⟩ := (letter_char ht).mpr hyl
    obtain ⟨hjm, hjmono, hje⟩ := char_mono ht hj
    obtain ⟨h2, h3, h4⟩ := (normal_char ht hjm hje).mpr (hyn h.1)
    · simp only [Option.isSome_some, if_true]
      cases hP with
      | @one k h5 h6 h7 =>
        have hs : s = [] := by
          simp at hPs
          exact hPs.2
        subst hs
        have : k' = j := by
          rw [show utf8Encode [repeatedLetter (t == .katakana) (IsAccentedMark m) x] =
            String.utf8EncodeChar (repeatedLetter (t == .katakana) (IsAccentedMark m) x) by simp [utf8Encode], hj] at hf
          simpa using hf.symm
        subst this
        exact ⟨[k'], .one hjm hjmono ⟨h2, h3, h4⟩, by simp [hje]⟩
      | @two x' s' k h5 h6 h7 h8 h9 h10 h11 =>
        obtain ⟨z, hz⟩ : ∃ z, s = [z] := by
          have := congrArg List.length hPs
          simp at this
          match s, this with
          | [z], _ => exact ⟨z, rfl⟩
        subst hz
        simp only [List.map_cons, List.map_nil, List.cons.injEq, and_true] at hPs
        refine ⟨[j, s'], .two hjm hjmono ⟨h2, h3, h4⟩ h8 h9 h10 ?_, by simp [hje, hPs.2]⟩
        rw [hje, hPs.2]
        simpa [utf8Encode] using hf

theorem mark_kind {t : CharType} (ht : t ≠ .romaji) {m : Char} (h : IsIterationMark (t == .katakana) m) :
    findIterationMark t (String.utf8EncodeChar m) = some (if IsAccentedMark m then repeatAccented else repeatPlain) ∧
    String.utf8EncodeChar m ≠ prolongMark ∧ Simple m := by
  have key : ∀ n : Nat, m.toNat = n → m = Char.ofNat n := by
    rintro _ rfl
    exact (Char.ofNat_toNat m).symm
  unfold IsIterationMark at h
  cases t
  · rcases (by simpa using h) with h | h <;> (rw [key _ h]; decide +kernel)
  · rcases (by simpa using h) with h | h <;> (rw [key _ h]; decide +kernel)
  · exact absurd rfl ht

theorem markOut_kana (c : Converter) {t : CharType} (ht : t ≠ .romaji) (hc : c.target = .romaji) {m : Char}
    (h : IsIterationMark (t == .katakana) m) (k : Kana) :
    markOut c t k (String.utf8EncodeChar m) = kanaOut c (markKana k (IsAccentedMark m)) := by
  unfold markOut kanaOut
  rw [(mark_kind ht h).1, hc]
  simp only
  cases IsAccentedMark m <;> rfl

theorem macron_true (c : Converter) {k : Kana} (hk : k ∈ allKana) :
    ∃ s, c.processKanaMacron true none k = .ok (s, none) := by
  obtain ⟨p, h⟩ := macron_out c true none hk false
  suffices hp : p = none from ⟨_, hp ▸ h⟩
  rw [macron_eq] at h
  cases he : (if false = true then Res.ofOption (k.getSokuonRomaji c.flags) else c.get k) with
  | ok v =>
    rw [he] at h
    simp only [Res.bind] at h
    unfold macronTail at h
    simp only [if_true] at h
    repeat' split at h
    all_goals first | (simp only [Res.ok.injEq, Prod.mk.injEq] at h; exact h.2.symm) | cases h
  | throw e => rw [he] at h; cases h
  | ub => rw [he] at h; cases h

/-- The state after letters that are read together, with what has been written. -/
theorem text_after (c : Converter) {t : CharType} (ht : t ≠ .romaji) (a : List Char) (ha : ∀ y ∈ a, Simple y) {x : Char}
    {s : List Char} {P : List Kana} {k : Kana} (hP : Reads t P k)
    (hPs : P.map (·.str t) = (x :: s).map String.utf8EncodeChar) :
    ∃ st g, c.fromKanaLoop t {} ((a ++ x :: s).map String.utf8EncodeChar) = .ok st ∧ After t P k g st ∧
      (g = smallTsu :: P → a.getLast? = some (tsu (t == .katakana))) := by
  obtain ⟨st1, g1, pre, e1, h1, hs1⟩ := loop_holds c ht (a.map String.utf8EncodeChar) (simple_pieces ha).1 [] {} (holds_start t)
  obtain ⟨st2, g2, e2, h2, h3⟩ := reads_loop c ht hP h1
  refine ⟨st2, g2, ?_, h2, ?_⟩
  · rw [List.map_append, fromKanaLoop_append, e1, ← hPs]
    exact e2
  · intro hg
    rw [h3 hg] at hs1
    have := congrArg List.getLast? hs1
    simp only [List.map_nil, List.nil_append, List.map_cons, List.getLast?_map, List.getLast?_append, List.getLast?_singleton] at this
    cases hl : a.getLast? with
    | none => rw [hl] at this; simp at this
    | some y =>
      rw [hl] at this
      simp only [Option.map_some, (tsu_char ht).1] at this
      simp at this
      rw [encodeChar_inj this]

end Converter
open Converter

/-! ## The claims -/

/-- What goes before the marks: not っ, unless the consonant is doubled or the compiler evaluates from left to right. -/
def FineBefore (c : Converter) (t : CharType) (a : List Char) (x : Char) (s : List Char) : Prop :=
  c.ltr = true ∨ a.getLast? ≠ some (tsu (t == .katakana)) ∨ ∃ k, findKana t (utf8Encode (x :: s)) = some k ∧ Doubles k

/-- A mark after a kana reads like the letters that it stands for. -/
def C204_statement : Prop :=
  ∀ (c : Converter) (t : CharType), t ≠ .romaji → c.target = .romaji → ∀ (a : List Char) (x : Char) (s : List Char) (m : Char)
    (Y : List Char), (∀ y ∈ a ++ x :: s ++ m :: Y, Simple y) → ReadTogether t x s → IsIterationMark (t == .katakana) m →
    c.convertFrom t (utf8Encode (a ++ x :: s ++ m :: Y)) =
      c.convertFrom t (utf8Encode (a ++ x :: s ++ repeatedKana t x s m ++ Y))

/-- かゝー becomes "kakaー" although かかー is "kakā". -/
theorem C204_violated : ¬ C204_statement := by
  intro h
  have := h ⟨.romaji, .none, true⟩ .hiragana (by decide) rfl [] 'か' [] 'ゝ' ['ー'] (by decide +kernel)
    ⟨by decide +kernel, Or.inl rfl⟩ (by decide +kernel)
  revert this
  decide +kernel

/-- ゞ after a letter that has a voicing mark repeats it: ぱゞ becomes "papa". -/
example : Converter.convertFrom ⟨.romaji, .none, true⟩ .hiragana (u8!"ぱゞ") = .ok (u8!"papa") ∧
    repeatedKana .hiragana 'ぱ' [] 'ゞ' = ['ぱ'] := by decide +kernel

/-- Marks after a kana read like the letters that they stand for: without voicing marks for ゝ, voiced for ゞ if the kana
has no mark and can be voiced; except before a prolong mark or a small letter. -/
theorem C204_expanded_partial (c : Converter) (t : CharType) (ht : t ≠ .romaji) (hc : c.target = .romaji) (a : List Char)
    (x : Char) (s ms Y : List Char) (hs : ∀ y ∈ a ++ x :: s ++ ms ++ Y, Simple y) (hx : ReadTogether t x s)
    (hms : ∀ m ∈ ms, IsIterationMark (t == .katakana) m)
    (hf : FineBefore c t a x s) (hY : MayFollow t Y) :
    c.convertFrom t (utf8Encode (a ++ x :: s ++ ms ++ Y)) =
      c.convertFrom t (utf8Encode (a ++ x :: s ++ ms.flatMap (repeatedKana t x s) ++ Y)) := by
  have hne : c.target ≠ t := by rw [hc]; exact fun h => ht h.symm
  have hsimple : ∀ m, ∀ y ∈ repeatedKana t x s m, Simple y := by
    intro m y hy
    unfold repeatedKana at hy
    simp only at hy
    split at hy
    · rcases List.mem_cons.mp hy with rfl | hy
      · exact letter_simple (repeated_enc ht hx.1.1 _).1
      · exact hs y (by simp [hy])
    · exact hs y (by simp at hy; simp; rcases hy with h | h <;> simp [h])
  have hs' : ∀ y ∈ a ++ x :: s ++ ms.flatMap (repeatedKana t x s) ++ Y, Simple y := by
    intro y hy
    rw [List.mem_append, List.mem_append] at hy
    rcases hy with (hy | hy) | hy
    · exact hs y (by rw [List.mem_append, List.mem_append]; exact Or.inl (Or.inl hy))
    · obtain ⟨m, _, hm⟩ := List.mem_flatMap.mp hy
      exact hsimple m y hm
    · exact hs y (by rw [List.mem_append]; exact Or.inr hy)
  rw [convertFrom_simple c ht hne hs, convertFrom_simple c ht hne hs']
  by_cases hms0 : ms = []
  · rw [hms0]; simp
  obtain ⟨P, k, hP, hPs, hfk, hkstr⟩ := together_reads ht hx
  obtain ⟨st, g, e, hA, hg⟩ := text_after c ht a (fun y hy => hs y (by simp [hy])) hP hPs
  obtain ⟨R, q, hR, _, _, _⟩ := after_done c ht hc hA
  have hcl : Clear c g P k := by
    rcases hA.group with h | h
    · exact Or.inl h
    · rcases hf with h' | h' | ⟨k', h1, h2⟩
      · exact Or.inr (Or.inl h')
      · exact absurd (hg h) h'
      · rw [hfk] at h1
        simp only [Option.some.injEq] at h1
        exact Or.inr (Or.inr (h1 ▸ h2))
  have hYs : ∀ y ∈ Y, Simple y := fun y hy => hs y (by simp [hy])
  obtain ⟨r, hr⟩ : ∃ r, c.finish t {} (Y.map String.utf8EncodeChar) = .ok r := by
    obtain ⟨items, _, _, h3⟩ := fromKana_items c ht (simple_pieces hYs).1
    exact ⟨_, h3⟩
  have noMark : ∀ y : Char, ¬ IsIterationMark (t == .katakana) y → findIterationMark t (String.utf8EncodeChar y) = none := by
    intro y hy
    cases h : findIterationMark t (String.utf8EncodeChar y) with
    | none => rfl
    | some m => exact absurd ((iteration_char ht).mp ⟨m, h⟩) hy
  have left := after_marks c ht hc hA hcl hR (ms := ms.map String.utf8EncodeChar) (Y := Y.map String.utf8EncodeChar)
    (by simpa using hms0) (by
      intro p hp
      obtain ⟨m, hm, rfl⟩ := List.mem_map.mp hp
      obtain ⟨h1, h2, _⟩ := mark_kind ht (hms m hm)
      exact ⟨h2, by rw [h1]; rfl⟩)
    (by
      rcases hY with rfl | ⟨y, B, rfl, hl, hsm⟩ | ⟨hm, _⟩
      · exact Or.inl (by simp)
      · obtain ⟨ky, hky⟩ := (letter_char ht).mpr hl
        obtain ⟨h1, _, h3⟩ := char_mono ht hky
        exact Or.inr ⟨ky, B.map String.utf8EncodeChar, h1, by simp [h3]⟩
      · left
        intro p hp
        obtain ⟨y, hy, rfl⟩ := List.mem_map.mp hp
        exact noMark y (hm y hy)) hr
  have hus : ∀ ms : List Char, ∃ us : List (List Kana × Kana), (∀ u ∈ us, Reads t u.1 u.2) ∧
        us.flatMap (fun u => u.1.map (·.str t)) = (ms.flatMap (repeatedKana t x s)).map String.utf8EncodeChar ∧
        us.flatMap (fun u => kanaOut c u.2) = ms.flatMap (fun m => kanaOut c (markKana k (IsAccentedMark m))) := by
    intro ms
    induction ms with
    | nil => exact ⟨[], by simp, rfl, rfl⟩
    | cons m ms ih =>
      obtain ⟨us, h1, h2, h3⟩ := ih
      obtain ⟨P', h4, h5⟩ := repeated_reads ht hx hP hPs m
      refine ⟨(P', markKana k (IsAccentedMark m)) :: us, ?_, ?_, ?_⟩
      · intro u hu
        rcases List.mem_cons.mp hu with rfl | hu
        · exact h4
        · exact h1 u hu
      · simp only [List.flatMap_cons, List.map_append, h2, h5]
      · simp only [List.flatMap_cons, h3]
  obtain ⟨us, hu1, hu2, hu3⟩ := hus ms
  have right := after_units c ht hc (Y := Y.map String.utf8EncodeChar) (r := r)
    (by
      rcases hY with rfl | ⟨y, B, rfl, hl, hsm⟩ | ⟨hm, y, B, rfl, h1, h2⟩
      · exact Or.inl rfl
      · obtain ⟨ky, hky⟩ := (letter_char ht).mpr hl
        obtain ⟨h1, _, h3⟩ := char_mono ht hky
        refine Or.inr (Or.inl ⟨ky, B.map String.utf8EncodeChar, h1, ?_, by simp [h3]⟩)
        cases hk : ky.small with
        | false => rfl
        | true => exact absurd ((small_char ht h1 h3).mp hk) hsm
      · refine Or.inr (Or.inr ⟨?_, String.utf8EncodeChar y, B.map String.utf8EncodeChar, ?_, ?_, by simp⟩)
        · intro p hp
          obtain ⟨z, hz, rfl⟩ := List.mem_map.mp hp
          exact noMark z (hm z hz)
        · intro e
          exact h1 (encodeChar_inj (e.trans (show prolongMark = String.utf8EncodeChar 'ー' from rfl)))
        · cases h : findKana t (String.utf8EncodeChar y) with
          | none => rfl
          | some k => exact absurd ((letter_char ht).mp ⟨k, h⟩) h2) hr us hu1 hA hR
  have hout : (ms.map String.utf8EncodeChar).flatMap (markOut c t k) =
      ms.flatMap (fun m => kanaOut c (markKana k (IsAccentedMark m))) := by
    rw [List.flatMap_map]
    have : ∀ ms : List Char, (∀ m ∈ ms, IsIterationMark (t == .katakana) m) →
        ms.flatMap (fun m => markOut c t k (String.utf8EncodeChar m)) =
          ms.flatMap (fun m => kanaOut c (markKana k (IsAccentedMark m))) := by
      intro ms
      induction ms with
      | nil => intro _; rfl
      | cons m ms ih =>
        intro h
        simp only [List.flatMap_cons]
        rw [markOut_kana c ht hc (h m List.mem_cons_self), ih (fun y hy => h y (List.mem_cons_of_mem _ hy))]
    exact this ms hms
  show c.finish t {} _ = c.finish t {} _
  rw [List.append_assoc (a ++ x :: s) ms, List.append_assoc (a ++ x :: s) (ms.flatMap _),
    List.map_append (l₁ := a ++ x :: s), List.map_append (l₁ := a ++ x :: s), List.map_append (l₂ := Y), List.map_append (l₂ := Y)]
  rw [finish_append c t e, finish_append c t e]
  rw [hout] at left
  rw [hu2, hu3] at right
  rw [left, right]

/-- Marks at the beginning are left out. -/
theorem C204_beginning (c : Converter) (t : CharType) (ht : t ≠ .romaji) (hc : c.target = .romaji) (ms Y : List Char)
    (hms : ∀ m ∈ ms, IsIterationMark (t == .katakana) m) (hY : ∀ y ∈ Y, Simple y) :
    c.convertFrom t (utf8Encode (ms ++ Y)) = c.convertFrom t (utf8Encode Y) := by
  have hne : c.target ≠ t := by rw [hc]; exact fun h => ht h.symm
  rw [convertFrom_simple c ht hne (by
    intro y hy
    rcases List.mem_append.mp hy with h | h
    · exact (mark_kind ht (hms y h)).2.2
    · exact hY y h), convertFrom_simple c ht hne hY]
  show c.finish t {} _ = c.finish t {} _
  induction ms with
  | nil => rfl
  | cons m ms ih =>
    rw [← ih (fun y hy => hms y (List.mem_cons_of_mem _ hy))]
    simp only [List.cons_append, List.map_cons]
    rw [finish_cons]
    obtain ⟨h1, h2, _⟩ := mark_kind ht (hms m List.mem_cons_self)
    unfold fromKanaStep
    rw [if_neg h2, h1]
    simp only
    rw [doneGroup_empty c rfl, Res.bind_ok]
    simp only [IterationMark.get, hc, Res.ofOption, Res.bind_ok, Res.bind, reduceCtorEq, if_false, List.append_nil]

/-- After a prolonged kana they are left out too. -/
theorem C204_prolonged (c : Converter) (t : CharType) (ht : t ≠ .romaji) (hc : c.target = .romaji) (a : List Char) (x : Char)
    (s ms Y : List Char) (hs : ∀ y ∈ a ++ x :: s ++ ['ー'] ++ (ms ++ Y), Simple y) (hx : ReadTogether t x s)
    (hms : ∀ m ∈ ms, IsIterationMark (t == .katakana) m) (hl : a.getLast? ≠ some (tsu (t == .katakana))) :
    ∃ ra rb, c.convertFrom t (utf8Encode (a ++ x :: s ++ ['ー'])) = .ok ra ∧ c.convertFrom t (utf8Encode Y) = .ok rb ∧
      c.convertFrom t (utf8Encode (a ++ x :: s ++ ['ー'] ++ (ms ++ Y))) = .ok (ra ++ rb) := by
  have hne : c.target ≠ t := by rw [hc]; exact fun h => ht h.symm
  have hY : ∀ y ∈ Y, Simple y := fun y hy => hs y (by simp [hy])
  obtain ⟨P, k, hP, hPs, hfk, hkstr⟩ := together_reads ht hx
  obtain ⟨st, g, e, hA, hg⟩ := text_after c ht a (fun y hy => hs y (by simp [hy])) hP hPs
  obtain ⟨hk, hch, _⟩ := hP.mem ht
  have hgP : g = P := by
    rcases hA.group with h | h
    · exact h
    · exact absurd (hg h) hl
  obtain ⟨w, hw⟩ := macron_true c hk
  have hN : ¬ (c.target = .romaji ∧ kanaN.containsKana st.kanaGroup = true ∧ prolongMark ∈ KT.afterN t) := by
    rintro ⟨_, _, h⟩
    exact other_not_afterN ht (prolong_none ht) h
  have hstep : c.fromKanaStep t st prolongMark = .ok ⟨.new, st.result ++ w, [], none⟩ := by
    unfold fromKanaStep
    rw [if_pos rfl]
    unfold doneGroup
    have : c.processKana t st.kanaGroup st.prevKana true = .ok (w, none) := by
      rw [hA.holds.group, hgP, hch]
      unfold processKana
      rw [if_pos (fun e => str_length k hk t e), found ht hk]
      exact hw
    rw [show (DoneType.prolong == DoneType.prolong) = true from rfl, this, Res.bind_ok]
    simp only [hN, if_false, reduceCtorEq]
  have e' : c.fromKanaLoop t {} ((a ++ x :: s ++ ['ー']).map String.utf8EncodeChar) = .ok ⟨.new, st.result ++ w, [], none⟩ := by
    rw [List.map_append, fromKanaLoop_append, e]
    show c.fromKanaLoop t st [prolongMark] = _
    rw [fromKanaLoop, hstep]
    rfl
  obtain ⟨rb, hrb⟩ : ∃ r, c.finish t {} (Y.map String.utf8EncodeChar) = .ok r := by
    obtain ⟨items, _, _, h3⟩ := fromKana_items c ht (simple_pieces hY).1
    exact ⟨_, h3⟩
  have hrb' : c.finish t {} ((ms ++ Y).map String.utf8EncodeChar) = .ok rb := by
    have := C204_beginning c t ht hc ms Y hms hY
    rw [convertFrom_simple c ht hne (by
      intro y hy
      rcases List.mem_append.mp hy with h | h
      · exact (mark_kind ht (hms y h)).2.2
      · exact hY y h), convertFrom_simple c ht hne hY] at this
    exact this.trans hrb
  refine ⟨st.result ++ w, rb, ?_, ?_, ?_⟩
  · rw [convertFrom_simple c ht hne (fun y hy => hs y (List.mem_append_left _ hy))]
    show c.finish t {} _ = _
    rw [← List.append_nil (List.map _ _), finish_append c t e']
    simp [finish, fromKanaLoop, processKana]
  · rw [convertFrom_simple c ht hne hY]
    exact hrb
  · rw [convertFrom_simple c ht hne hs]
    show c.finish t {} _ = _
    rw [List.map_append (l₁ := a ++ x :: s ++ ['ー']), finish_append c t e']
    exact finish_upTo c t _ _ {} ⟨⟨rfl, rfl, by simp⟩, Or.inr rfl⟩ hrb'

/-! ## Samples -/

example : Converter.convertFrom ⟨.romaji, .none, true⟩ .hiragana (u8!"いすゞ、こゝろ、きょゞ、っつゞ、がゝ") =
    .ok (u8!"isuzu,kokoro,kyogyo,ttsudu,gaka") := by decide +kernel
/-- A mark may refer to a kana before other characters. -/
example : Converter.convertFrom ⟨.romaji, .none, true⟩ .hiragana (u8!"か。ゝ") = .ok (u8!"ka.ka") := by decide +kernel
/-- After ん there is no apostrophe. -/
example : Converter.convertFrom ⟨.romaji, .none, true⟩ .hiragana (u8!"んゝあ") = .ok (u8!"nna") := by decide +kernel
/-- After っ the mark stands for っ if the compiler evaluates from right to left. -/
example : Converter.convertFrom ⟨.romaji, .none, true⟩ .hiragana (u8!"っあゝ") = .ok (u8!"ltuaa") ∧
    Converter.convertFrom ⟨.romaji, .none, false⟩ .hiragana (u8!"っあゝ") = .ok (u8!"ltualtu") := by decide +kernel
example : repeatedKana .hiragana 'き' ['ょ'] 'ゞ' = ['ぎ', 'ょ'] ∧ repeatedKana .katakana 'ガ' [] 'ヽ' = ['カ'] ∧
    repeatedKana .hiragana 'つ' ['ぁ'] 'ゞ' = ['つ', 'ぁ'] ∧ repeatedKana .katakana 'ウ' [] 'ヾ' = ['ヴ'] := by decide +kernel

end KT
