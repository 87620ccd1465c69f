import Verif.Props.Converter
import Verif.Spec.Romaji
/-!
# C105, C106: long vowels and incomplete syllables in Romaji

Specification: `Verif/Spec/Romaji.lean`.  Model: `Verif/Model/Converter.lean` (`processRomajiMacron`).
-/
namespace KT
open Spec Converter
namespace Converter

/-- A vowel with a macron is read as the vowel and its lengthening. -/
theorem step_long (c : Converter) {init : Str} {v : UInt8} (hv : isVowel v = true) {m : Str}
    (hm : (vowelTable.lookup v).map (fun p => String.utf8EncodeChar p.1) = some m) {st : ToState} {X : Str}
    (h : c.toKanaStep st [v] = .ok ⟨[], X⟩) : c.toKanaStep st m =
      .ok ⟨[], X ++ longWritten (c.target = .hiragana && c.flags.noProlongMark) (init ++ [v])⟩ := by
  have hms : isSingleByte m = false ∧ macrons.lookup m = some (v, longWritten true (init ++ [v])) := by
    simp only [isVowel, List.contains_eq_mem, decide_eq_true_eq, List.mem_cons, List.not_mem_nil, or_false] at hv
    have hl : ∀ v, longWritten true (init ++ [v]) =
        ((vowelTable.lookup v).map fun p => String.utf8EncodeChar p.2).getD [] := by
      intro v; simp [longWritten]
    rw [hl]
    rcases hv with rfl | rfl | rfl | rfl | rfl <;>
      (simp only [vowelTable, List.lookup] at hm; cases hm; refine ⟨by decide, ?_⟩; decide)
  obtain ⟨h1, h2⟩ := hms
  obtain ⟨l, R⟩ := st
  rw [step_letter c (vowel_ne hv) (vowel_letter hv)] at h
  unfold toKanaStep
  rw [if_neg (by simp [h1])]
  unfold processRomajiMacron
  rw [h2]
  simp only [h, Res.bind_ok, if_true]
  by_cases hf : c.target = .hiragana ∧ c.flags.noProlongMark = true
  · simp [hf.1, hf.2]
  · rw [if_neg hf]
    have : (decide (c.target = .hiragana) && c.flags.noProlongMark) = false := by
      simp only [Bool.and_eq_false_iff, decide_eq_false_iff_not]
      by_cases ht : c.target = .hiragana
      · right; cases hn : c.flags.noProlongMark with
        | false => rfl
        | true => exact absurd ⟨ht, hn⟩ hf
      · exact Or.inl ht
    rw [this]
    simp only [longWritten, Bool.false_eq_true, if_false]
    rfl

theorem macron_piece {v : UInt8} {m : Str}
    (hm : (vowelTable.lookup v).map (fun p => String.utf8EncodeChar p.1) = some m) : IsPiece m ∧ ¬ IsDelim m := by
  have : ∀ p ∈ vowelTable, IsPiece (String.utf8EncodeChar p.2.1) ∧ ¬ IsDelim (String.utf8EncodeChar p.2.1) := by
    intro p hp
    simp only [vowelTable, List.mem_cons, List.not_mem_nil, or_false] at hp
    rcases hp with rfl | rfl | rfl | rfl | rfl <;>
      exact ⟨isPiece_char _ (by decide) (by decide) (by decide), by decide⟩
  cases hl : vowelTable.lookup v with
  | none => rw [hl] at hm; cases hm
  | some p =>
    rw [hl] at hm; cases hm
    have hp : (v, p) ∈ vowelTable := by
      rw [List.lookup_eq_some_iff] at hl
      obtain ⟨l1, l2, hl, _⟩ := hl
      rw [hl]; simp
    exact this (v, p) hp

/-- A syllable, long or short, as pieces. -/
theorem syllable_pieces (c : Converter) {k : Kana} (hk : k ∈ allKana) (hN : k ≠ kanaN) (long : Bool) :
    ∃ ps, (∀ p ∈ ps, IsPiece p ∧ ¬ IsDelim p) ∧
      ps.flatten = (if long then withMacron k.romaji else k.romaji) ∧
      ∀ R, c.toKanaLoop ⟨[], R⟩ ps = .ok ⟨[], R ++ (kanaOut c k ++
        (if long then longWritten (c.target = .hiragana && c.flags.noProlongMark) k.romaji else []))⟩ := by
  have hflat : ∀ l : Str, (l.map ([·])).flatten = l := by
    intro l; induction l with
    | nil => rfl
    | cons b l ih => simp [ih]
  have hpieces : ∀ l : Str, (∀ b ∈ l, letterOk b = true) → ∀ p ∈ l.map ([·]), IsPiece p ∧ ¬ IsDelim p := by
    intro l hl p hp
    obtain ⟨b, hb, rfl⟩ := List.mem_map.mp hp
    exact ⟨isPiece_letter (hl b hb), letter_not_delim (hl b hb)⟩
  obtain ⟨hw, v, hlast, hv⟩ := word_letters hk hN
  have hfeed := fun R => feed c hk hN (Or.inl rfl : Pending []) (by simp) R
  cases long with
  | false =>
    refine ⟨k.romaji.map ([·]), hpieces _ hw, by rw [hflat]; simp, ?_⟩
    intro R; rw [hfeed R]; simp [pend]
  | true =>
    obtain ⟨init, hr⟩ : ∃ init, k.romaji = init ++ [v] := by
      rw [List.getLast?_eq_some_iff] at hlast; exact hlast
    rw [hr] at hw hfeed ⊢
    obtain ⟨m, hm⟩ : ∃ m, (vowelTable.lookup v).map (fun p => String.utf8EncodeChar p.1) = some m := by
      simp only [isVowel, List.contains_eq_mem, decide_eq_true_eq, List.mem_cons, List.not_mem_nil, or_false] at hv
      rcases hv with rfl | rfl | rfl | rfl | rfl <;> exact ⟨_, rfl⟩
    refine ⟨init.map ([·]) ++ [m], ?_, ?_, ?_⟩
    · intro p hp
      rcases List.mem_append.mp hp with hp | hp
      · exact hpieces init (fun b hb => hw b (by simp [hb])) p hp
      · simp at hp; subst hp; exact macron_piece hm
    · simp [withMacron, hm, hflat]
    · intro R
      have h := hfeed R
      rw [List.map_append, loop_append] at h
      rw [loop_append]
      cases hi : c.toKanaLoop ⟨[], R⟩ (init.map ([·])) with
      | throw e => rw [hi] at h; cases h
      | ub => rw [hi] at h; cases h
      | ok st =>
        rw [hi] at h
        simp only [Res.bind, List.map_cons, List.map_nil, loop1] at h ⊢
        rw [step_long c (init := init) hv hm h]
        simp [pend]

theorem syllables_pieces (c : Converter) (ws : List (Kana × Bool)) (h : ∀ w ∈ ws, w.1 ∈ allKana ∧ w.1 ≠ kanaN) :
    ∃ ps, (∀ p ∈ ps, IsPiece p ∧ ¬ IsDelim p) ∧
      ps.flatten = ws.flatMap (fun w => if w.2 then withMacron w.1.romaji else w.1.romaji) ∧
      ∀ R, c.toKanaLoop ⟨[], R⟩ ps = .ok ⟨[], R ++ ws.flatMap (fun w => kanaOut c w.1 ++
        (if w.2 then longWritten (c.target = .hiragana && c.flags.noProlongMark) w.1.romaji else []))⟩ := by
  induction ws with
  | nil => exact ⟨[], by simp, rfl, by simp [toKanaLoop]⟩
  | cons w ws ih =>
    obtain ⟨ps, h1, h2, h3⟩ := ih fun x hx => h x (List.mem_cons_of_mem _ hx)
    have hw := h w List.mem_cons_self
    obtain ⟨qs, g1, g2, g3⟩ := syllable_pieces c hw.1 hw.2 w.2
    refine ⟨qs ++ ps, ?_, by simp [g2, h2], ?_⟩
    · intro p hp
      rcases List.mem_append.mp hp with hp | hp
      · exact g1 p hp
      · exact h1 p hp
    · intro R
      rw [loop_append, g3 R]
      simp only [Res.bind]
      rw [h3]
      simp

end Converter

/-- Romaji syllables, some of them with a macron, become their kana, each followed by the kana of its
vowel (Hiragana with `NoProlongMark`) or by ー (anything else). -/
theorem C105_long_vowels (c : Converter) (hc : c.target ≠ .romaji) (ws : List (Kana × Bool))
    (h : ∀ w ∈ ws, w.1 ∈ allKana ∧ w.1 ≠ kanaN) :
    c.convertFrom .romaji (ws.flatMap fun w => if w.2 then withMacron w.1.romaji else w.1.romaji) =
      .ok (ws.flatMap fun w => (if c.target = .hiragana then w.1.hiragana else w.1.katakana) ++
        (if w.2 then longWritten (c.target = .hiragana && c.flags.noProlongMark) w.1.romaji else [])) := by
  obtain ⟨ps, h1, h2, h3⟩ := syllables_pieces c ws h
  rw [← h2, convert_run c (fun p hp => (h1 p hp).1) hc]
  have h4 := run_append c {} [] (fun p hp => (h1 p hp).2)
  rw [List.append_nil] at h4
  rw [h4, show ({} : ToState) = ⟨[], []⟩ from rfl, h3]
  simp only [Res.bind, run, List.nil_append]
  show Res.ok _ = _
  congr 1
  show List.flatMap _ ws = _
  congr 1
  funext w
  congr 1
  unfold kanaOut Kana.get
  cases ht : c.target with
  | romaji => exact absurd ht hc
  | hiragana => simp
  | katakana => simp

/-- Without macrons these are just the kana of the syllables. -/
theorem C105_short_vowels (c : Converter) (hc : c.target ≠ .romaji) (ws : List Kana)
    (h : ∀ k ∈ ws, k ∈ allKana ∧ k ≠ kanaN) :
    c.convertFrom .romaji (ws.flatMap Kana.romaji) =
      .ok (ws.flatMap fun k => if c.target = .hiragana then k.hiragana else k.katakana) := by
  have := C105_long_vowels c hc (ws.map fun k => (k, false)) (by
    intro w hw; obtain ⟨k, hk, rfl⟩ := List.mem_map.mp hw; exact h k hk)
  simpa [List.flatMap_map] using this

/-- "tōkyō" and "rāmen da" as in the documentation (KanaEnums.h:35, ConverterTest.cpp:150-156). -/
example : (⟨.hiragana, ⟨false, false, true, false⟩, true⟩ : Converter).convertFrom .romaji (u8!"tōkyō") =
      .ok u8!"とおきょお" ∧
    (⟨.katakana, ⟨false, false, true, false⟩, true⟩ : Converter).convertFrom .romaji (u8!"tōkyō") =
      .ok u8!"トーキョー" ∧
    (⟨.hiragana, .none, true⟩ : Converter).convertFrom .romaji (u8!"rāmen da") = .ok u8!"らーめん　だ" ∧
    withMacron (u8!"kyo") = u8!"kyō" ∧ longWritten true (u8!"kyo") = u8!"お" ∧
    longWritten false (u8!"kyo") = u8!"ー" := by
  decide +kernel

/-! ## C106: letters that are no syllables -/
namespace Converter

/-- Words without vowels in the table: only n. -/
theorem key_vowel : ∀ e ∈ allKana.flatMap (fun k => kanaKeys .romaji k), e = [0x6e] ∨ e.any isVowel = true := by
  decide +kernel

theorem consonant_facts {b : UInt8} (h : IsConsonant b) : letterOk b = true ∧ isVowel b = false := by
  have : ∀ n : Nat, n < 256 → IsConsonant (UInt8.ofNat n) →
      letterOk (UInt8.ofNat n) = true ∧ isVowel (UInt8.ofNat n) = false := by decide +kernel
  exact byte_cases (fun b => IsConsonant b → letterOk b = true ∧ isVowel b = false) this b h

theorem find_consonants {l : Str} (h : ∀ b ∈ l, IsConsonant b) (hn : l ≠ [0x6e]) : findKana .romaji l = none := by
  cases hf : findKana .romaji l with
  | none => rfl
  | some k =>
    exfalso
    have hm := findKana_mem hf
    rcases key_vowel l (List.mem_flatMap.mpr ⟨k, hm.1, hm.2⟩) with h1 | h1
    · exact hn h1
    · obtain ⟨b, hb, hv⟩ := List.any_eq_true.mp h1
      rw [(consonant_facts (h b hb)).2] at hv; cases hv

theorem consonant_repeats {x y : UInt8} (h : IsConsonant x) :
    (x = y ∨ x = 0x74 ∧ y = 0x63) ∧ x ∈ repeatingConsonants ↔ IsDoubled x y := by
  have : ∀ n : Nat, n < 256 → IsConsonant (UInt8.ofNat n) →
      (UInt8.ofNat n ∈ repeatingConsonants ↔ UInt8.ofNat n ∉ [0x6e, 0x6c, 0x78]) := by decide +kernel
  have := byte_cases (fun b => IsConsonant b → (b ∈ repeatingConsonants ↔ b ∉ [0x6e, 0x6c, 0x78])) this x h
  unfold IsDoubled
  rw [this]
  constructor
  · rintro ⟨h | h, h'⟩
    · exact Or.inl ⟨h, h'⟩
    · exact Or.inr h
  · rintro (h | h)
    · exact ⟨Or.inl h.1, h.2⟩
    · exact ⟨Or.inr h, by rw [h.1]; decide⟩

/-- Up to two letters wait, the second isn't n. -/
theorem consonant_loop (c : Converter) : ∀ (s L R : Str), (∀ b ∈ L ++ s, IsConsonant b) → L.length ≤ 2 →
    (∀ x y, L = [x, y] → y ≠ 0x6e) →
    ((c.toKanaLoop ⟨L, R⟩ (s.map ([·]))).bind fun st => c.toKanaEnd st.letters.length st) =
      .ok (R ++ withoutVowels (kanaOut c kanaN) (kanaOut c smallTsu) (L ++ s)) := by
  intro s
  induction s with
  | nil =>
    intro L R hL hlen h2
    simp only [List.map_nil, toKanaLoop, Res.bind, List.append_nil] at hL ⊢
    match L, hlen with
    | [], _ => simp [toKanaEnd, withoutVowels]
    | [x], _ =>
      by_cases hx : x = 0x6e
      · subst hx
        rw [end_pending c (Or.inr rfl)]
        simp [withoutVowels, pend]
      · have hn : isN [x] = false := by
          have : ∀ n : Nat, n < 256 → IsConsonant (UInt8.ofNat n) → UInt8.ofNat n ≠ 0x6e →
            isN [UInt8.ofNat n] = false := by decide +kernel
          exact byte_cases (fun b => IsConsonant b → b ≠ 0x6e → isN [b] = false) this x (hL x (by simp)) hx
        simp only [List.length_cons, List.length_nil, toKanaEnd, hn, if_false, Bool.false_eq_true]
        rw [romaji_short c (by simp), short_none c (by simp) romaji_nil]
        simp [toKanaEnd, withoutVowels, hx]
    | [x, y], _ =>
      have hy := h2 x y rfl
      have hn : ∀ z : UInt8, isN [x, z] = false := by intro z; simp [isN]
      have hn1 : isN [y] = false := by
          have : ∀ n : Nat, n < 256 → IsConsonant (UInt8.ofNat n) → UInt8.ofNat n ≠ 0x6e →
            isN [UInt8.ofNat n] = false := by decide +kernel
          exact byte_cases (fun b => IsConsonant b → b ≠ 0x6e → isN [b] = false) this y (hL y (by simp)) hy
      simp only [List.length_cons, List.length_nil, toKanaEnd, hn, if_false, Bool.false_eq_true]
      rw [romaji_short c (by simp), short_none c (by simp [(consonant_facts (hL y (by simp))).1])
        (find_consonants (by simp [hL y]) (by simpa using hy))]
      simp only [Res.bind_ok, toKanaEnd, hn1, if_false, Bool.false_eq_true]
      rw [romaji_short c (by simp), short_none c (by simp) romaji_nil]
      by_cases hx : x = 0x6e
      · simp [toKanaEnd, withoutVowels, hx, hy]
      · simp [toKanaEnd, withoutVowels, hx, hy]
  | cons b s ih =>
    intro L R hL hlen h2
    have hb : IsConsonant b := hL b (by simp)
    have hbl := (consonant_facts hb).1
    have hLl : ∀ x ∈ L, letterOk x = true := fun x hx => (consonant_facts (hL x (by simp [hx]))).1
    rw [List.map_cons, show L ++ b :: s = (L ++ [b]) ++ s by simp] at *
    by_cases hbn : b = 0x6e
    · subst hbn
      match L, hlen with
      | [], _ =>
        rw [loop_ok c (step_n_empty c R)]
        exact ih [0x6e] R hL (by simp) (by simp)
      | [x], _ =>
        by_cases hx : x = 0x6e
        · subst hx
          rw [loop_ok c (step_n_n c R), ih [0x6e] _ (fun y hy => hL y (by simp at hy ⊢; grind)) (by simp) (by simp)]
          cases s <;> simp [withoutVowels]
        · have hstep : c.toKanaStep ⟨[x], R⟩ [0x6e] = .ok ⟨[0x6e], R ++ [x]⟩ := by
            unfold toKanaStep
            have : isN [x] = false := by
              have : ∀ n : Nat, n < 256 → IsConsonant (UInt8.ofNat n) → UInt8.ofNat n ≠ 0x6e →
                isN [UInt8.ofNat n] = false := by decide +kernel
              exact byte_cases (fun b => IsConsonant b → b ≠ 0x6e → isN [b] = false) this x (hL x (by simp)) hx
            rw [if_pos (single (by decide))]
            simp [this, show isN [0x6e] = true from rfl]
          rw [loop_ok c hstep, ih [0x6e] _ (fun y hy => hL y (by simp at hy ⊢; grind)) (by simp) (by simp)]
          have hd : ¬ IsDoubled x 0x6e := by
            unfold IsDoubled; rintro (h | h)
            · exact hx h.1
            · exact absurd h.2 (by decide)
          cases s <;> simp [withoutVowels, hx, hd]
      | [x, y], _ =>
        have hy := h2 x y rfl
        have hstep : c.toKanaStep ⟨[x, y], R⟩ [0x6e] = .ok ⟨[0x6e], R ++ [x, y]⟩ := by
          unfold toKanaStep
          have : isN [x, y] = false := by simp [isN]
          rw [if_pos (single (by decide))]
          simp [this, show isN [0x6e] = true from rfl]
        rw [loop_ok c hstep, ih [0x6e] _ (fun y hy => hL y (by simp at hy ⊢; grind)) (by simp) (by simp)]
        have hd : ¬ IsDoubled y 0x6e := by
          unfold IsDoubled; rintro (h | h)
          · exact hy h.1
          · exact absurd h.2 (by decide)
        by_cases hx : x = 0x6e
        · cases s <;> simp [withoutVowels, hx, hy, hd]
        · cases s <;> simp [withoutVowels, hx, hy, hd]
    · have hstep := step_letter c hbn hbl L R
      match L, hlen with
      | [], _ =>
        rw [romaji_short c (by simp), short_none c (by simp [hbl]) (find_consonants (by simp [hb]) (by simpa using hbn))] at hstep
        rw [loop_ok c hstep]
        exact ih _ R hL (by simp) (by simp)
      | [x], _ =>
        rw [romaji_short c (by simp), short_none c (by simp [hbl, hLl x]) (find_consonants (by
          intro z hz; exact hL z (by simp at hz ⊢; grind)) (by simp))] at hstep
        rw [loop_ok c hstep]
        refine ih _ R hL (by simp) ?_
        intro x' y' h; simp at h; rw [← h.2]; exact hbn
      | [x, y], _ =>
        have hy := h2 x y rfl
        rw [show [x, y] ++ [b] = [x, y, b] from rfl, three_none c (by simp [hbl, hLl x, hLl y]) (find_consonants (by
          intro z hz; exact hL z (by simp at hz ⊢; grind)) (by simp)),
          short_none c (by simp [hbl, hLl y]) (find_consonants (by
          intro z hz; exact hL z (by simp at hz ⊢; grind)) (by simp))] at hstep
        rw [loop_ok c hstep, ih [y, b] _ (fun z hz => hL z (by simp at hz ⊢; grind)) (by simp) (by
          intro x' y' h; simp at h; rw [← h.2]; exact hbn)]
        have hfo : firstOut c x y = (if x = 0x6e then kanaOut c kanaN else if IsDoubled x y then kanaOut c smallTsu else [x]) := by
          unfold firstOut
          by_cases hx : x = 0x6e
          · simp [hx]
          · simp only [hx, if_false, consonant_repeats (y := y) (hL x (by simp))]
        rw [hfo]
        by_cases hx : x = 0x6e
        · simp [withoutVowels, hx, hbn]
        · simp [withoutVowels, hx, hbn]

end Converter

/-- After any syllables, a word without vowels is converted as described by `withoutVowels`: its
letters keep their places and none is lost. -/
theorem C106_consonants (c : Converter) (hc : c.target ≠ .romaji) (ws : List (Kana × Bool))
    (h : ∀ w ∈ ws, w.1 ∈ allKana ∧ w.1 ≠ kanaN) (s : Str) (hs : ∀ b ∈ s, IsConsonant b) :
    ∃ k, c.convertFrom .romaji (ws.flatMap fun w => if w.2 then withMacron w.1.romaji else w.1.romaji) = .ok k ∧
      c.convertFrom .romaji ((ws.flatMap fun w => if w.2 then withMacron w.1.romaji else w.1.romaji) ++ s) =
        .ok (k ++ withoutVowels (utf8Encode [nn (c.target == .katakana)])
          (utf8Encode [tsu (c.target == .katakana)]) s) := by
  obtain ⟨ps, h1, h2, h3⟩ := syllables_pieces c ws h
  have hsp : ∀ p ∈ s.map ([·]), IsPiece p ∧ ¬ IsDelim p := by
    intro p hp
    obtain ⟨b, hb, rfl⟩ := List.mem_map.mp hp
    have := (consonant_facts (hs b hb)).1
    exact ⟨isPiece_letter this, letter_not_delim this⟩
  have hflat : ∀ l : Str, (l.map ([·])).flatten = l := by
    intro l; induction l with
    | nil => rfl
    | cons b l ih => simp [ih]
  have hk : kanaOut c kanaN = utf8Encode [nn (c.target == .katakana)] ∧
      kanaOut c smallTsu = utf8Encode [tsu (c.target == .katakana)] := by
    unfold kanaOut Kana.get
    cases ht : c.target with
    | romaji => exact absurd ht hc
    | hiragana => simp only [Option.getD_some]; decide
    | katakana => simp only [Option.getD_some]; decide
  rw [← hk.1, ← hk.2]
  have run_all : ∀ qs : List Str, (∀ p ∈ qs, IsPiece p ∧ ¬ IsDelim p) →
      c.convertFrom .romaji qs.flatten =
        (c.toKanaLoop {} qs).bind fun st => c.toKanaEnd st.letters.length st := by
    intro qs hq
    rw [convert_run c (fun p hp => (hq p hp).1) hc]
    have h4 := run_append c {} [] (fun p hp => (hq p hp).2)
    rw [List.append_nil] at h4
    rw [h4]; rfl
  refine ⟨_, by rw [← h2, run_all ps h1, show ({} : ToState) = ⟨[], []⟩ from rfl, h3]; rfl, ?_⟩
  rw [← h2]
  have := run_all (ps ++ s.map ([·])) (by
    intro p hp
    rcases List.mem_append.mp hp with hp | hp
    · exact h1 p hp
    · exact hsp p hp)
  rw [List.flatten_append, hflat] at this
  rw [this, loop_append, show ({} : ToState) = ⟨[], []⟩ from rfl, h3]
  simp only [Res.bind]
  exact consonant_loop c s [] _ (by simpa using hs) (by simp) (by simp)

/-- Without n and doubled letters nothing changes. -/
theorem C106_kept (c : Converter) (hc : c.target ≠ .romaji) (s : Str) (hs : ∀ b ∈ s, IsConsonant b ∧ b ≠ 0x6e)
    (hd : ∀ a x y b, s = a ++ x :: y :: b → ¬ IsDoubled x y) : c.convertFrom .romaji s = .ok s := by
  obtain ⟨k, h1, h2⟩ := C106_consonants c hc [] (by simp) s (fun b hb => (hs b hb).1)
  have h0 : c.convertFrom .romaji [] = .ok [] := by
    have := C105_long_vowels c hc [] (by simp)
    simpa using this
  simp only [List.flatMap_nil, List.nil_append] at h1 h2
  rw [h0] at h1
  cases h1
  rw [h2, List.nil_append]
  congr 1
  clear h2 h0
  induction s with
  | nil => rfl
  | cons x s ih =>
    have ih := ih (fun b hb => hs b (List.mem_cons_of_mem _ hb)) (fun a x' y b he => hd (x :: a) x' y b (by simp [he]))
    have hx := (hs x List.mem_cons_self).2
    simp only [withoutVowels, hx, if_false, ih]
    match s with
    | [] => rfl
    | [_] => rfl
    | y :: z :: t => simp [hd [] x y (z :: t) rfl]

example : (⟨.hiragana, .none, true⟩ : Converter).convertFrom .romaji (u8!"kakttskn") = .ok u8!"かkっtskん" ∧
    withoutVowels (u8!"ん") (u8!"っ") (u8!"kttskn") = u8!"kっtskん" ∧
    withoutVowels (u8!"ん") (u8!"っ") (u8!"nkn") = u8!"nkん" ∧
    withoutVowels (u8!"ん") (u8!"っ") (u8!"nktc") = u8!"んktc" := by decide +kernel

end KT
