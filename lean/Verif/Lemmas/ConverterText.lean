import Verif.Lemmas.ConverterRound
import Verif.Spec.Converter
/-!
# Converting text: characters, totality
-/
namespace KT
open Spec
namespace Converter

/-! ## Totality -/

theorem short_ok (c : Converter) (st : ToState) :
    ∃ st', c.processRomajiShort st = .ok st' ∧ st'.letters.length ≤ st.letters.length := by
  unfold processRomajiShort
  split
  · rename_i k h
    exact ⟨_, by rw [get_kanaOut c (findKana_mem h).1, Res.bind_ok], by simp⟩
  · exact ⟨_, rfl, Nat.le_refl _⟩

theorem processRomaji_ok (c : Converter) (st : ToState) :
    ∃ st', c.processRomaji st = .ok st' ∧ st'.letters.length ≤ st.letters.length := by
  unfold processRomaji
  split
  · rename_i x0 x1 x2 hl
    split
    · rename_i k h
      exact ⟨_, by rw [get_kanaOut c (findKana_mem h).1, Res.bind_ok], by simp⟩
    · have key : ∀ s : Str, ∃ st', c.processRomajiShort { letters := [x1, x2], result := s } = .ok st' ∧
          st'.letters.length ≤ st.letters.length := by
        intro s
        obtain ⟨st', h1, h2⟩ := short_ok c { letters := [x1, x2], result := s }
        exact ⟨st', h1, by rw [hl]; simp at h2 ⊢; omega⟩
      dsimp only
      split
      · rw [get_kanaOut c kanaN_mem, Res.bind_ok]; exact key _
      · split
        · split
          · rw [get_kanaOut c smallTsu_mem, Res.bind_ok]; exact key _
          · rw [Res.bind_ok]; exact key _
        · rw [Res.bind_ok]; exact key _
  · exact short_ok c st

theorem toKanaStep_ok (c : Converter) (st : ToState) (p : Str) : ∃ st', c.toKanaStep st p = .ok st' := by
  unfold toKanaStep
  split
  · split
    · obtain ⟨st', h, _⟩ := processRomaji_ok c { st with letters := st.letters ++ p }
      exact ⟨st', h⟩
    · split
      · exact ⟨_, rfl⟩
      · split
        · rw [get_kanaOut c kanaN_mem, Res.bind_ok]; exact ⟨_, rfl⟩
        · exact ⟨_, rfl⟩
  · split
    · rename_i r h
      unfold processRomajiMacron at h
      split at h
      · cases h
      · rename_i v d _
        cases h
        obtain ⟨st', h, _⟩ := processRomaji_ok c { st with letters := st.letters ++ [v] }
        rw [h, Res.bind_ok]
        split
        · exact ⟨_, rfl⟩
        · obtain ⟨st'', h, _⟩ := processRomaji_ok c { letters := [v], result := st'.result ++ st'.letters.dropLast }
          exact ⟨_, h⟩
    · obtain ⟨st', h, _⟩ := processRomaji_ok c st
      rw [h, Res.bind_ok]; exact ⟨_, rfl⟩

theorem toKanaLoop_ok (c : Converter) (st : ToState) (ps : List Str) :
    ∃ st', c.toKanaLoop st ps = .ok st' := by
  induction ps generalizing st with
  | nil => exact ⟨st, rfl⟩
  | cons p ps ih =>
    obtain ⟨st', h⟩ := toKanaStep_ok c st p
    rw [loop_ok c h]; exact ih st'

theorem toKanaEnd_ok (c : Converter) : ∀ (n : Nat) (st : ToState), st.letters.length ≤ n →
    ∃ r, c.toKanaEnd n st = .ok r := by
  intro n
  induction n with
  | zero =>
    intro st h
    have : st.letters = [] := List.length_eq_zero_iff.mp (by omega)
    exact ⟨_, by simp [toKanaEnd, this]; rfl⟩
  | succ n ih =>
    intro st h
    unfold toKanaEnd
    split
    · exact ⟨_, rfl⟩
    · rename_i x xs hl
      split
      · rw [get_kanaOut c kanaN_mem, Res.bind_ok]
        exact ih _ (by simp)
      · obtain ⟨st', h1, h2⟩ := processRomaji_ok c { letters := xs, result := st.result ++ [x] }
        rw [h1, Res.bind_ok]
        exact ih _ (by rw [hl] at h; simp at h h2; omega)

theorem toKana_ok (c : Converter) (s : Str) : ∃ r, c.toKana s = .ok r := by
  obtain ⟨ps, st, h⟩ := utf8Chars_total s
  unfold toKana
  rw [h]
  obtain ⟨st', h'⟩ := toKanaLoop_ok c {} ps
  obtain ⟨r, hr⟩ := toKanaEnd_ok c _ st' (Nat.le_refl _)
  exact ⟨r, by simp only [toKanaChars]; rw [h', Res.bind_ok, hr]⟩

theorem romajiLoop_ok (c : Converter) (s w res : Str) : ∃ r, c.convertRomajiLoop s w res = .ok r := by
  induction s generalizing w res with
  | nil =>
    obtain ⟨r, h⟩ := toKana_ok c w
    exact ⟨_, by simp only [convertRomajiLoop]; rw [h, Res.bind_ok]⟩
  | cons b s ih =>
    simp only [convertRomajiLoop]
    split
    · rename_i hb
      obtain ⟨r, h⟩ := toKana_ok c w
      rw [h, Res.bind_ok]
      split
      · rename_i hc
        obtain ⟨d, hd⟩ := narrowDelimAt_ok b hb hc.1 hc.2.1
        rw [hd, Res.bind_ok]; exact ih _ _
      · rw [Res.bind_ok]; exact ih _ _
    · exact ih _ _

theorem fromKana_ok (c : Converter) {t : CharType} (ht : t ≠ .romaji) (s : Str) :
    ∃ r, c.fromKana t s = .ok r := by
  obtain ⟨ps, st, h⟩ := utf8Chars_total s
  obtain ⟨items, _, _, hi⟩ := fromKana_items c ht (utf8Chars_isPiece h)
  exact ⟨_, by unfold fromKana; rw [h]; exact hi⟩

theorem convertFrom_ok (c : Converter) (t : CharType) (s : Str) : ∃ r, c.convertFrom t s = .ok r := by
  unfold convertFrom
  split
  · exact ⟨_, rfl⟩
  · cases t
    · exact fromKana_ok c (by decide) s
    · exact fromKana_ok c (by decide) s
    · exact romajiLoop_ok c s [] []

theorem convert_ok (c : Converter) (s : Str) : ∃ r, c.convert s = .ok r := by
  unfold convert
  generalize charTypes = l
  induction l generalizing s with
  | nil => exact ⟨_, rfl⟩
  | cons t l ih =>
    rw [List.foldlM_cons]
    split
    · obtain ⟨r, h⟩ := convertFrom_ok c t s
      rw [h, Res.bind_ok]; exact ih r
    · rw [Res.bind_ok]; exact ih s

/-! ## Pieces of simple text -/

theorem isPiece_simple {c : Char} (h : Simple c) : IsPiece (String.utf8EncodeChar c) := by
  by_cases hc : c.toNat < 128
  · have he : String.utf8EncodeChar c = [UInt8.ofNat c.toNat] := by
      rw [utf8EncodeChar_eq_enc, enc, if_pos (by omega)]
    left
    refine ⟨UInt8.ofNat c.toNat, ?_, ?_, he⟩
    · rw [UInt8.toNat_ofNat']; omega
    · intro h0
      have := congrArg UInt8.toNat h0
      rw [UInt8.toNat_ofNat'] at this
      have h1 := h.1
      simp at this; omega
  · exact Or.inr ⟨c, by omega, h.2.1, h.2.2, Or.inl rfl⟩

theorem simple_pieces {cs : List Char} (h : ∀ c ∈ cs, Simple c) :
    (∀ p ∈ cs.map String.utf8EncodeChar, IsPiece p) ∧
    ∃ st, utf8Chars (utf8Encode cs) false = some (cs.map String.utf8EncodeChar, st) := by
  have h1 : ∀ p ∈ cs.map String.utf8EncodeChar, IsPiece p := by
    intro p hp
    obtain ⟨c, hc, rfl⟩ := List.mem_map.mp hp
    exact isPiece_simple (h c hc)
  refine ⟨h1, ?_⟩
  have := utf8Chars_pieces h1
  rwa [show (cs.map String.utf8EncodeChar).flatten = utf8Encode cs by simp [utf8Encode, List.flatMap_def]] at this

theorem encodeChar_inj {c d : Char} (h : String.utf8EncodeChar c = String.utf8EncodeChar d) : c = d :=
  (prefix_unique (r := []) (r' := []) (by simp [h])).1

theorem utf8Encode_inj : ∀ {a b : List Char}, utf8Encode a = utf8Encode b → a = b := by
  have hne : ∀ (c : Char) (r : Str), String.utf8EncodeChar c ++ r ≠ [] := by
    intro c r h
    have := String.length_utf8EncodeChar c
    rw [(List.append_eq_nil_iff.mp h).1] at this
    have := c.utf8Size_pos
    simp at *
  intro a
  induction a with
  | nil =>
    intro b h
    cases b with
    | nil => rfl
    | cons c b => exact absurd h.symm (hne c _)
  | cons c a ih =>
    intro b h
    cases b with
    | nil => exact absurd h (hne c _)
    | cons d b =>
      have h' : String.utf8EncodeChar c ++ utf8Encode a = String.utf8EncodeChar d ++ utf8Encode b := h
      obtain ⟨rfl, h2⟩ := prefix_unique h'
      rw [ih h2]

theorem convertFrom_simple (c : Converter) {t : CharType} (ht : t ≠ .romaji) (hc : c.target ≠ t)
    {cs : List Char} (h : ∀ x ∈ cs, Simple x) :
    c.convertFrom t (utf8Encode cs) = c.fromKanaChars t (cs.map String.utf8EncodeChar) := by
  obtain ⟨_, st, h1⟩ := simple_pieces h
  unfold convertFrom
  rw [if_neg (fun h => hc h.symm)]
  cases t
  · simp only [fromKana, h1]
  · simp only [fromKana, h1]
  · exact absurd rfl ht

/-! ## Letters as characters -/

/-- The codes of a single letter in both scripts. -/
theorem mono_codes {k : Kana} (hk : k ∈ allKana) (hm : k.mono = true) :
    ∃ i < 0x56, k.hiragana = enc (0x3041 + i) ∧ k.katakana = enc (0x30a1 + i) := by
  have hall : allKana.all (fun k => !k.mono ||
      (List.range 0x56).any fun i => k.hiragana == enc (0x3041 + i) && k.katakana == enc (0x30a1 + i)) = true := by
    decide +kernel
  have := List.all_eq_true.mp hall k hk
  rw [hm] at this
  simpa [List.any_eq_true] using this

/-- First code of a script. -/
def base (t : CharType) : Nat := if t = .katakana then 0x30a1 else 0x3041

theorem mono_char {k : Kana} (hk : k ∈ allKana) (hm : k.mono = true) :
    ∃ i < 0x56, ∀ t', t' ≠ .romaji → ∃ c : Char, k.str t' = String.utf8EncodeChar c ∧ c.toNat = base t' + i := by
  obtain ⟨i, hi, h1, h2⟩ := mono_codes hk hm
  refine ⟨i, hi, ?_⟩
  intro t' ht'
  have hs : IsScalar (base t' + i) := by simp only [IsScalar, base]; split <;> omega
  refine ⟨charOf _ hs, ?_, charOf_toNat _ hs⟩
  rw [encodeChar_charOf]
  cases t'
  · simp [Kana.str, h1, base]
  · simp [Kana.str, h2, base]
  · exact absurd rfl ht'

theorem char_mono {t : CharType} (ht : t ≠ .romaji) {c : Char} {k : Kana}
    (h : findKana t (String.utf8EncodeChar c) = some k) :
    k ∈ allKana ∧ k.mono = true ∧ k.str t = String.utf8EncodeChar c := by
  obtain ⟨hk, he⟩ := (found_iff ht).mp h
  refine ⟨hk, ?_, he.symm⟩
  have := mono_length hk t
  rw [← he] at this
  have h4 : (String.utf8EncodeChar c).length ≤ 4 := by
    by_cases hc : 128 ≤ c.toNat
    · exact (encodeChar_length hc).2
    · rw [utf8EncodeChar_eq_enc, enc, if_pos (by omega)]; simp
  cases hm : k.mono with
  | true => rfl
  | false => rw [hm] at this; simp only [Bool.false_eq_true, if_false] at this; omega

theorem isLetter_base {t : CharType} (ht : t ≠ .romaji) (c : Char) :
    IsLetter (t == .katakana) c ↔ base t ≤ c.toNat ∧ c.toNat < base t + 0x56 := by
  cases t
  · simp [IsLetter, base]; omega
  · simp [IsLetter, base]; omega
  · exact absurd rfl ht

/-- The letters of the table are the letters of the block. -/
theorem letter_char {t : CharType} (ht : t ≠ .romaji) {c : Char} :
    (∃ k, findKana t (String.utf8EncodeChar c) = some k) ↔ IsLetter (t == .katakana) c := by
  constructor
  · rintro ⟨k, h⟩
    obtain ⟨hk, hm, he⟩ := char_mono ht h
    obtain ⟨i, hi, h1⟩ := mono_char hk hm
    obtain ⟨d, h2, h3⟩ := h1 t ht
    rw [he] at h2
    have := encodeChar_inj h2
    subst this
    rw [isLetter_base ht]; omega
  · intro h
    have key : ∀ i < 0x56, nmem (pack (enc (0x3041 + i))) (allKana.map fun k => pack k.hiragana) = true ∧
        nmem (pack (enc (0x30a1 + i))) (allKana.map fun k => pack k.katakana) = true := by
      decide +kernel
    unfold IsLetter at h
    rw [utf8EncodeChar_eq_enc]
    cases t
    · simp at h
      obtain ⟨a, _⟩ := key (c.toNat - 0x3041) (by omega)
      rw [show 0x3041 + (c.toNat - 0x3041) = c.toNat by omega, nmem_iff, List.mem_map] at a
      obtain ⟨k, hk, ek⟩ := a
      exact ⟨k, by rw [← pack_inj ek, findKana_hiragana hk]⟩
    · simp at h
      obtain ⟨_, a⟩ := key (c.toNat - 0x30a1) (by omega)
      rw [show 0x30a1 + (c.toNat - 0x30a1) = c.toNat by omega, nmem_iff, List.mem_map] at a
      obtain ⟨k, hk, ek⟩ := a
      exact ⟨k, by rw [← pack_inj ek, findKana_katakana hk]⟩
    · exact absurd rfl ht

theorem char_toNat_inj {c d : Char} (h : c.toNat = d.toNat) : c = d := by
  apply Char.ext
  exact UInt32.toNat_inj.mp h

/-- The other kana script. -/
def other (t : CharType) : CharType := if t = .hiragana then .katakana else .hiragana

theorem other_ne (t : CharType) : other t ≠ .romaji ∧ (t ≠ .romaji → other t ≠ t ∧ other (other t) = t) := by
  cases t <;> decide

theorem ofNat_toNat {n : Nat} (h : IsScalar n) : (Char.ofNat n).toNat = n := by
  have hv : n.isValidChar := by
    simp only [IsScalar] at h; simp only [Nat.isValidChar]; omega
  simp [Char.ofNat, hv, Char.toNat, Char.ofNatAux]

theorem otherScript_toNat {t : CharType} (ht : t ≠ .romaji) {c : Char}
    (h : IsLetter (t == .katakana) c) : (otherScript (t == .katakana) c).toNat + base t = c.toNat + base (other t) := by
  have hb1 : base .hiragana = 0x3041 := rfl
  have hb2 : base .katakana = 0x30a1 := rfl
  have hl := (isLetter_base ht c).mp h
  unfold otherScript
  rw [if_pos (Or.inl h)]
  cases t
  · rw [show (if (CharType.hiragana == CharType.katakana) = true then c.toNat - 96 else c.toNat + 96) = c.toNat + 96 from rfl,
      show other .hiragana = .katakana from rfl]
    rw [ofNat_toNat (by simp only [IsScalar]; omega)]; omega
  · rw [show (if (CharType.katakana == CharType.katakana) = true then c.toNat - 96 else c.toNat + 96) = c.toNat - 96 from rfl,
      show other .katakana = .hiragana from rfl]
    rw [ofNat_toNat (by simp only [IsScalar]; omega)]; omega
  · exact absurd rfl ht

theorem letter_other {t : CharType} (ht : t ≠ .romaji) {c : Char} {k : Kana}
    (h : findKana t (String.utf8EncodeChar c) = some k) :
    k.str (other t) = String.utf8EncodeChar (otherScript (t == .katakana) c) := by
  have hc := (letter_char ht).mp ⟨k, h⟩
  obtain ⟨hk, hm, he⟩ := char_mono ht h
  obtain ⟨i, hi, h1⟩ := mono_char hk hm
  obtain ⟨d, h2, h3⟩ := h1 t ht
  obtain ⟨e, h4, h5⟩ := h1 (other t) (other_ne t).1
  rw [he] at h2
  have := encodeChar_inj h2
  subst this
  rw [h4]
  congr 1
  apply char_toNat_inj
  have := otherScript_toNat ht hc
  omega

theorem iteration_char {t : CharType} (ht : t ≠ .romaji) {c : Char} :
    (∃ m, findIterationMark t (String.utf8EncodeChar c) = some m) ↔ IsIterationMark (t == .katakana) c := by
  have e : ∀ d : Char, (String.utf8EncodeChar d == String.utf8EncodeChar c) = (c.toNat == d.toNat) := by
    intro d
    rw [Bool.eq_iff_iff, beq_iff_eq, beq_iff_eq]
    exact ⟨fun h => by rw [encodeChar_inj h], fun h => by rw [char_toNat_inj h]⟩
  have e1 := e 'ゝ'
  have e2 := e 'ゞ'
  have e3 := e 'ヽ'
  have e4 := e 'ヾ'
  unfold findIterationMark IterationMark.matches IsIterationMark
  cases t
  · simp only [show repeatPlain.hiragana = String.utf8EncodeChar 'ゝ' from rfl,
      show repeatAccented.hiragana = String.utf8EncodeChar 'ゞ' from rfl, e1, e2]
    by_cases h1 : c.toNat = 0x309d
    · simp [h1]
    · by_cases h2 : c.toNat = 0x309e
      · simp [h2]
      · simp [h1, h2]
  · simp only [show repeatPlain.katakana = String.utf8EncodeChar 'ヽ' from rfl,
      show repeatAccented.katakana = String.utf8EncodeChar 'ヾ' from rfl, e3, e4]
    by_cases h1 : c.toNat = 0x30fd
    · simp [h1]
    · by_cases h2 : c.toNat = 0x30fe
      · simp [h2]
      · simp [h1, h2]
  · exact absurd rfl ht

end Converter
end KT
