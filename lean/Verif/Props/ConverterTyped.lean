import Verif.Lemmas.ConverterTyped
import Verif.Props.ConverterRoman
/-!
# C206: Rōmaji typed in any spelling
-/
namespace KT
open Spec

/-- The kana for a text with a style for each part. -/
def readText (c : Converter) (us : List (KanaUnit × RomajiStyle)) : List Char :=
  us.flatMap fun p => p.1.read (c.target == .katakana) c.flags.noProlongMark c.flags.removeSpaces p.2

namespace Converter

theorem macron_none {x : Char} (hm : x ∉ "āīūēō".toList) : macrons.lookup (String.utf8EncodeChar x) = none := by
  cases hl : macrons.lookup (String.utf8EncodeChar x) with
  | none => rfl
  | some v =>
    exfalso
    have hm' := List.mem_map_of_mem (f := Prod.fst) (lookup_mem hl)
    rw [show macrons.map Prod.fst = "āīūēō".toList.map String.utf8EncodeChar from by decide] at hm'
    obtain ⟨y, hy, he⟩ := List.mem_map.mp hm'
    exact hm (encodeChar_inj he ▸ hy)

theorem wide_single {x : Char} (hx : 128 ≤ x.toNat) : isSingleByte (String.utf8EncodeChar x) = false := by
  have := (encodeChar_length hx).1
  match he : String.utf8EncodeChar x with
  | [] => rfl
  | [b] => rw [he] at this; simp at this
  | _ :: _ :: _ => rfl

/-- Another character: unchanged, or its narrow form is read as a delimiter. -/
theorem typed_other (c : Converter) {x : Char} (hx : KanaUnit.Typable (.other x)) (st : RomajiStyle) {ps : List Str}
    (hp : ∀ p ∈ ps, IsPiece p) {y : Str} (hy : ∀ R, c.run ⟨[], R⟩ ps = .ok (R ++ y)) :
    ∃ qs, (∀ p ∈ qs, IsPiece p) ∧ qs.flatten = utf8Encode (KanaUnit.roman st (.other x)) ++ ps.flatten ∧
      ∀ L R, Pending L → c.run ⟨L, R⟩ qs = .ok (R ++ pend c L ++
        utf8Encode (KanaUnit.read (c.target == .katakana) c.flags.noProlongMark c.flags.removeSpaces st (.other x)) ++ y) := by
  obtain ⟨h1, h2, h3⟩ := hx
  have hr := other_roman (plainConverter false false) rfl x
  unfold otherOut at hr
  rw [if_pos (show (plainConverter false false).target = .romaji from rfl)] at hr
  have hroman : utf8Encode (KanaUnit.roman st (.other x)) = String.utf8EncodeChar (narrowMark x) := by
    simp [KanaUnit.roman, utf8Encode]
  have hpx : IsPiece (String.utf8EncodeChar x) := isPiece_char x h1 h2.2.1 h2.2.2
  cases hw : wideDelimFind (String.utf8EncodeChar x) with
  | none =>
    rw [hw] at hr
    simp only at hr
    have hsp : x ≠ '　' := by
      rintro rfl
      have : wideDelimFind (String.utf8EncodeChar '　') ≠ none := by decide
      exact this hw
    refine ⟨String.utf8EncodeChar x :: ps, ?_, ?_, ?_⟩
    · intro p hpm
      rcases List.mem_cons.mp hpm with rfl | h
      · exact hpx
      · exact hp p h
    · rw [hroman, ← hr]; simp
    · intro L R hL
      rw [run_cons c _ _ (piece_other hpx (wide_single h1)), step_other c (wide_single h1) (macron_none h3) hL]
      simp only [Res.bind]
      rw [hy]
      simp [KanaUnit.read, hsp, utf8Encode]
  | some n =>
    rw [hw] at hr
    simp only at hr
    obtain ⟨hn1, hn2, hn3, hn4⟩ := narrow_of_wide hw
    refine ⟨[n] :: ps, ?_, ?_, ?_⟩
    · intro q hqm
      rcases List.mem_cons.mp hqm with rfl | h
      · exact Or.inl ⟨n, (delim_not_letter n hn2).2.1, (delim_not_letter n hn2).2.2, rfl⟩
      · exact hp q h
    · rw [hroman, ← hr]; simp
    · intro L R hL
      rw [run_delim c _ _ hn2]
      simp only [end_pending c hL, Res.bind]
      have hspace : n = 0x20 ↔ x = '　' := by
        constructor
        · rintro rfl
          have h4 : narrowDelimAt 0x20 = .ok (String.utf8EncodeChar '　') := by decide
          rw [h4] at hn1
          simp only [Res.ok.injEq] at hn1
          exact (encodeChar_inj hn1).symm
        · rintro rfl
          have h4 : wideDelimFind (String.utf8EncodeChar '　') = some 0x20 := by decide
          rw [h4] at hw
          simp only [Option.some.injEq] at hw
          exact hw.symm
      have hd : c.delimOut n = .ok (utf8Encode (KanaUnit.read (c.target == .katakana) c.flags.noProlongMark
          c.flags.removeSpaces st (.other x))) := by
        unfold delimOut
        simp only [KanaUnit.read]
        by_cases hs : x = '　' ∧ c.flags.removeSpaces = true
        · rw [if_pos hs, if_neg]
          · rfl
          · rintro ⟨_, _, h | h⟩
            · rw [hs.2] at h; cases h
            · exact h (hspace.mpr hs.1)
        · rw [if_neg hs, if_pos, hn1]
          · simp [utf8Encode]
          · refine ⟨hn3, hn4, ?_⟩
            cases hf : c.flags.removeSpaces with
            | false => exact Or.inl rfl
            | true => exact Or.inr fun h => hs ⟨hspace.mp h, hf⟩
      rw [hd]
      simp only
      rw [show ({ } : ToState) = ⟨[], []⟩ from rfl, hy]
      simp

theorem typed_run (c : Converter) (ht : c.target ≠ .romaji) : ∀ us : List (KanaUnit × RomajiStyle),
    (∀ p ∈ us, p.1.Typable) →
    ∃ ps, (∀ p ∈ ps, IsPiece p) ∧ ps.flatten = utf8Encode (typedText us) ∧
      ∀ L R, Pending L → (L ≠ [] → typedBefore us = false) →
        c.run ⟨L, R⟩ ps = .ok (R ++ pend c L ++ utf8Encode (readText c us)) := by
  have enc_append : ∀ a b : List Char, utf8Encode (a ++ b) = utf8Encode a ++ utf8Encode b := by
    intro a b; simp [utf8Encode]
  have hn : kanaOut c kanaN = String.utf8EncodeChar (nn (c.target == .katakana)) := by
    rw [kanaOut_str ht rfl]
    cases hc : c.target with
    | romaji => exact absurd hc ht
    | hiragana => decide
    | katakana => decide
  intro us
  induction us with
  | nil =>
    intro _
    refine ⟨[], by simp, rfl, ?_⟩
    intro L R hL _
    simp only [run]
    rw [end_pending c hL]
    simp [readText, utf8Encode]
  | cons p us ih =>
    intro hu
    obtain ⟨u, st⟩ := p
    obtain ⟨ps, h5, h6, h7⟩ := ih fun p hp => hu p (List.mem_cons_of_mem _ hp)
    have hu' := hu (u, st) List.mem_cons_self
    have hread : readText c ((u, st) :: us) =
        u.read (c.target == .katakana) c.flags.noProlongMark c.flags.removeSpaces st ++ readText c us := by
      simp [readText]
    cases u with
    | syllable d s l =>
      obtain ⟨g1, g2, g3⟩ := feed_typed c ht hu'.1 st (d := d) (l := l) hu'.2
      refine ⟨typedPieces s st d l ++ ps, ?_, ?_, ?_⟩
      · intro p hp
        rcases List.mem_append.mp hp with h | h
        · exact (g1 p h).1
        · exact h5 p h
      · rw [List.flatten_append, g2, h6]
        simp [typedText, enc_append]
      · intro L R hL hj
        rw [run_append c _ _ (fun p hp => (g1 p hp).2), g3 L R hL hj]
        simp only [Res.bind]
        rw [h7 [] _ (Or.inl rfl) (by simp), hread, enc_append]
        simp [pend]
    | other x =>
      obtain ⟨qs, g1, g2, g3⟩ := typed_other c hu' st h5 (y := utf8Encode (readText c us)) (by
        intro R; rw [h7 [] R (Or.inl rfl) (by simp)]; simp [pend])
      refine ⟨qs, g1, ?_, ?_⟩
      · rw [g2, h6]; simp [typedText, enc_append]
      · intro L R hL _
        rw [g3 L R hL, hread, enc_append]
        simp
    | n =>
      have stepN : ∀ L R, Pending L → c.toKanaStep ⟨L, R⟩ [0x6e] = .ok ⟨[0x6e], R ++ pend c L⟩ := by
        intro L R hL
        rcases hL with rfl | rfl
        · rw [step_n_empty]; simp [pend]
        · rw [step_n_n]; simp [pend]
      have e1 : utf8Encode ['n'] = [0x6e] := by decide
      have e2 : utf8Encode ['\''] = [apostrophe] := by decide
      cases hb : typedBefore us with
      | true =>
        refine ⟨[0x6e] :: [apostrophe] :: ps, ?_, ?_, ?_⟩
        · intro q hqm
          rcases List.mem_cons.mp hqm with rfl | h
          · exact isPiece_letter (by decide)
          · rcases List.mem_cons.mp h with rfl | h
            · exact Or.inl ⟨_, by decide, by decide, rfl⟩
            · exact h5 q h
        · simp only [typedText, hb, KanaUnit.roman, enc_append, e1, e2, and_self, if_true]
          simp [h6]
        · intro L R hL _
          rw [run_cons c _ _ (letter_not_delim (by decide)), stepN L R hL]
          simp only [Res.bind]
          rw [run_delim c _ _ (by decide : apostrophe ∈ narrowDelimList)]
          simp only [end_pending c (Or.inr rfl), Res.bind]
          have : c.delimOut apostrophe = .ok [] := by
            unfold delimOut; rw [if_neg (by simp)]
          rw [this]
          simp only
          have h8 := h7 [] [] (Or.inl rfl) (by simp)
          rw [show ({ } : ToState) = ⟨[], []⟩ from rfl, h8, hread, enc_append]
          simp [pend, KanaUnit.read, hn, utf8Encode]
      | false =>
        refine ⟨[0x6e] :: ps, ?_, ?_, ?_⟩
        · intro q hqm
          rcases List.mem_cons.mp hqm with rfl | h
          · exact isPiece_letter (by decide)
          · exact h5 q h
        · simp only [typedText, hb, KanaUnit.roman, enc_append, e1]
          simp [h6, utf8Encode]
        · intro L R hL _
          rw [run_cons c _ _ (letter_not_delim (by decide)), stepN L R hL]
          simp only [Res.bind]
          rw [h7 [0x6e] _ (Or.inr rfl) (fun _ => hb), hread, enc_append]
          simp [pend, KanaUnit.read, hn, utf8Encode]

end Converter

/-! ## C206 -/

/-- Text typed in Rōmaji, each syllable by Hepburn, by Kunrei or by the program's own spelling, is read as the syllables that
are meant. -/
theorem C206_typed (c : Converter) (ht : c.target ≠ .romaji) (us : List (KanaUnit × RomajiStyle))
    (hu : ∀ p ∈ us, p.1.Typable) :
    c.convertFrom .romaji (utf8Encode (typedText us)) = .ok (utf8Encode (readText c us)) := by
  obtain ⟨ps, h1, h2, h3⟩ := Converter.typed_run c ht us hu
  rw [← h2, Converter.convert_run c h1 ht, show ({} : Converter.ToState) = ⟨[], []⟩ from rfl, h3 [] [] (Or.inl rfl) (by simp)]
  simp [Converter.pend]

/-- A text with syllables in different spellings. -/
example : typedText [(.syllable false ⟨'し', none, 's', 'i'⟩ false, .kunrei), (.n, .hepburn), (.syllable false ⟨'よ', none, 'y', 'o'⟩ true, .hepburn),
    (.other '、', .hepburn), (.syllable true ⟨'ち', 'ゃ', 't', 'a'⟩ false, .hepburn), (.n, .kunrei),
    (.syllable false ⟨'を', none, 'w', 'o'⟩ false, .hepburn), (.syllable false ⟨'を', none, 'w', 'o'⟩ false, .unique),
    (.syllable false ⟨'ぢ', none, 'd', 'i'⟩ false, .unique), (.syllable false ⟨'ぢ', none, 'd', 'i'⟩ false, .kunrei)] =
    "sin'yō,tchan'owodizi".toList := by decide +kernel

example : readText ⟨.hiragana, .none, true⟩ [(.syllable false ⟨'し', none, 's', 'i'⟩ false, .kunrei), (.n, .hepburn),
    (.syllable false ⟨'よ', none, 'y', 'o'⟩ true, .hepburn), (.other '、', .hepburn), (.syllable true ⟨'ち', 'ゃ', 't', 'a'⟩ false, .hepburn),
    (.n, .kunrei), (.syllable false ⟨'を', none, 'w', 'o'⟩ false, .hepburn), (.syllable false ⟨'を', none, 'w', 'o'⟩ false, .unique),
    (.syllable false ⟨'ぢ', none, 'd', 'i'⟩ false, .unique), (.syllable false ⟨'ぢ', none, 'd', 'i'⟩ false, .kunrei)] =
    "しんよー、っちゃんおをぢじ".toList := by decide +kernel

example : (⟨.hiragana, .none, true⟩ : Converter).convertFrom .romaji (u8!"sin'yō,tchan'owodizi") = .ok u8!"しんよー、っちゃんおをぢじ" := by
  decide +kernel

/-- With two vowels and without spaces. -/
example : (⟨.hiragana, { noProlongMark := true, removeSpaces := true }, true⟩ : Converter).convertFrom .romaji (u8!"rāmen o tabeta") =
    .ok u8!"らあめんおたべた" := by decide +kernel

/-- Without the apostrophe, as in `C205_violated`, the ん is lost. -/
example : (⟨.hiragana, .none, true⟩ : Converter).convertFrom .romaji (u8!"hono") = .ok u8!"ほの" ∧
    (⟨.hiragana, .none, true⟩ : Converter).convertFrom .romaji (u8!"hon'o") = .ok u8!"ほんお" := by decide +kernel

/-- Every Rōmaji text in one style is a case of this. -/
theorem C206_style (c : Converter) (ht : c.target ≠ .romaji) (st : RomajiStyle) (us : List KanaUnit)
    (hu : ∀ u ∈ us, u.Typable) :
    c.convertFrom .romaji (utf8Encode (romanize st us)) =
      .ok (utf8Encode (us.flatMap (KanaUnit.read (c.target == .katakana) c.flags.noProlongMark c.flags.removeSpaces st))) := by
  have h1 : romanize st us = typedText (us.map (·, st)) := by
    clear hu
    induction us with
    | nil => rfl
    | cons u us ih =>
      simp only [romanize, List.map_cons, typedText, ih]
      congr 3
      match us with
      | [] => rfl
      | .syllable false _ _ :: _ => rfl
      | .syllable true _ _ :: _ => rfl
      | .n :: _ => rfl
      | .other _ :: _ => rfl
  have h2 := C206_typed c ht (us.map (·, st)) (by
    intro p hp
    obtain ⟨u, hu', rfl⟩ := List.mem_map.mp hp
    exact hu u hu')
  rw [h1, h2]
  simp [readText, List.flatMap_map]

/-- There and back: text in standard kana, written in Rōmaji with any flags and read again, gives the same syllables except for
those that the style does not distinguish (none by default). -/
theorem C206_back (c d : Converter) (t : CharType) (ht : t ≠ .romaji) (hc : c.target = .romaji) (hd : d.target = t)
    (hf : d.flags.noProlongMark = false) (hr : d.flags.removeSpaces = false) (us : List KanaUnit)
    (hs : ∀ u ∈ us, u.Standard (t == .katakana)) (hu : ∀ u ∈ us, u.Typable)
    (hw : ∀ a s l b, us = a ++ .n :: .syllable false s l :: b → styleOf c.flags = .unique ∨ ¬ OldW s) :
    ∃ r, c.convertFrom t (utf8Encode (unitsText (t == .katakana) us)) = .ok r ∧
      d.convertFrom .romaji r = .ok (utf8Encode (us.flatMap (KanaUnit.read (t == .katakana) false false (styleOf c.flags)))) ∧
      (styleOf c.flags = .unique →
        us.flatMap (KanaUnit.read (t == .katakana) false false (styleOf c.flags)) = unitsText (t == .katakana) us) := by
  refine ⟨_, C205_standard_partial c t ht hc us hs hw, ?_, ?_⟩
  · have := C206_style d (by rw [hd]; exact ht) (styleOf c.flags) us hu
    rw [this, hd, hf, hr]
  · intro he
    rw [he]
    unfold unitsText
    congr 1
    funext u
    cases u <;> simp [KanaUnit.read, KanaUnit.text, Syllable.readAs]

end KT
