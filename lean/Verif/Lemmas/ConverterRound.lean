import Verif.Lemmas.ConverterRead
/-!
# Kana to Romaji and back
-/
namespace KT
open Spec
namespace Converter

theorem isPiece_letter {b : UInt8} (h : letterOk b = true) : IsPiece [b] := by
  have : ∀ n : Nat, n < 256 → letterOk (UInt8.ofNat n) = true →
      (UInt8.ofNat n).toNat < 128 ∧ UInt8.ofNat n ≠ 0 := by decide +kernel
  have := byte_cases (fun b => letterOk b = true → b.toNat < 128 ∧ b ≠ 0) this b h
  exact Or.inl ⟨b, this.1, this.2, rfl⟩

theorem letter_not_delim {b : UInt8} (h : letterOk b = true) : ¬ IsDelim [b] := by
  rintro ⟨x, hx, he⟩
  simp at he; subst he
  rw [(delim_not_letter b hx).1] at h; cases h

theorem isPiece_char (c : Char) (h : 128 ≤ c.toNat) (h1 : ¬ IsSelector c) (h2 : ¬ IsKanaMark c) :
    IsPiece (String.utf8EncodeChar c) := Or.inr ⟨c, h, h1, h2, Or.inl rfl⟩

theorem isPiece_macron {v : UInt8} {m : Str} (h : macronLetter v = some m) : IsPiece m ∧ ¬ IsDelim m := by
  unfold macronLetter at h
  split at h
  · cases h; exact ⟨isPiece_char 'ā' (by decide) (by decide) (by decide), by decide⟩
  split at h
  · cases h; exact ⟨isPiece_char 'ī' (by decide) (by decide) (by decide), by decide⟩
  split at h
  · cases h; exact ⟨isPiece_char 'ū' (by decide) (by decide) (by decide), by decide⟩
  split at h
  · cases h; exact ⟨isPiece_char 'ē' (by decide) (by decide) (by decide), by decide⟩
  split at h
  · cases h; exact ⟨isPiece_char 'ō' (by decide) (by decide) (by decide), by decide⟩
  · cases h

theorem macron_some {v : UInt8} (h : isVowel v = true) : ∃ m, macronLetter v = some m := by
  simp only [isVowel, List.contains_eq_mem, decide_eq_true_eq, List.mem_cons, List.not_mem_nil, or_false] at h
  rcases h with rfl | rfl | rfl | rfl | rfl <;> exact ⟨_, rfl⟩

theorem isPiece_prolong : IsPiece prolongMark :=
  isPiece_char 'ー' (by decide) (by decide) (by decide)

/-- Text for a possible prolong mark. -/
def mark (pr : Bool) : Str := if pr then prolongMark else []

/-- A word with a vowel at the end, possibly prolonged, as pieces. -/
theorem word_pieces (c1 c2 : Converter) (h1 : c1.target = .romaji) (h2 : c2.flags.noProlongMark = false)
    {w : Str} (hw : ∀ b ∈ w, letterOk b = true) {v : UInt8} (hv : w.getLast? = some v)
    (hvv : isVowel v = true) (pr : Bool) :
    ∃ ps, (∀ p ∈ ps, IsPiece p ∧ ¬ IsDelim p) ∧ ps.flatten = macronOut c1 pr w ∧
      ∀ L R X, c2.toKanaLoop ⟨L, R⟩ (w.map ([·])) = .ok ⟨[], X⟩ →
        c2.toKanaLoop ⟨L, R⟩ ps = .ok ⟨[], X ++ mark pr⟩ := by
  have hflat : ∀ l : Str, (l.map ([·])).flatten = l := by
    intro l; induction l with
    | nil => rfl
    | cons b l ih => simp [ih]
  have hpieces : ∀ l : Str, (∀ b ∈ l, letterOk b = true) → ∀ p ∈ l.map ([·]), IsPiece p ∧ ¬ IsDelim p := by
    intro l hl p hp
    obtain ⟨b, hb, rfl⟩ := List.mem_map.mp hp
    exact ⟨isPiece_letter (hl b hb), letter_not_delim (hl b hb)⟩
  cases pr with
  | false =>
    refine ⟨w.map ([·]), hpieces w hw, by rw [hflat]; simp [macronOut], ?_⟩
    intro L R X h; rw [h]; simp [mark]
  | true =>
    obtain ⟨init, rfl⟩ : ∃ init, w = init ++ [v] := by
      rw [List.getLast?_eq_some_iff] at hv; exact hv
    obtain ⟨m, hm⟩ := macron_some hvv
    refine ⟨init.map ([·]) ++ [m], ?_, ?_, ?_⟩
    · intro p hp
      rcases List.mem_append.mp hp with hp | hp
      · exact hpieces init (fun b hb => hw b (by simp [hb])) p hp
      · simp at hp; subst hp; exact isPiece_macron hm
    · simp [macronOut, h1, hm, hflat]
    · intro L R X h
      rw [List.map_append, loop_append] at h
      rw [loop_append]
      cases hi : c2.toKanaLoop ⟨L, R⟩ (init.map ([·])) with
      | throw e => rw [hi] at h; cases h
      | ub => rw [hi] at h; cases h
      | ok st =>
        rw [hi] at h
        simp only [Res.bind, List.map_cons, List.map_nil, loop1] at h ⊢
        rw [step_macron c2 h2 hm h]
        simp [mark]

/-- The Romaji used without flags. -/
structure Plain1 (c1 : Converter) : Prop where
  target : c1.target = .romaji
  flags : c1.flags = .none

theorem romaji_plain {c1 : Converter} (h : Plain1 c1) (k : Kana) : kanaOut c1 k = k.romaji := by
  simp [kanaOut, h.target, h.flags, Kana.get, Kana.getRomaji, ConvertFlags.none]

theorem sokuon_plain {c1 : Converter} (h : Plain1 c1) {k : Kana} {a : UInt8} {r : Str}
    (hr : k.romaji = a :: r) : sokuonOut c1 k = sokuonLetter a :: k.romaji := by
  simp [sokuonOut, h.flags, Kana.getSokuonRomaji, Kana.getRomaji, ConvertFlags.none, sokuonLetter, hr]

theorem word_letters {k : Kana} (hk : k ∈ allKana) (hN : k ≠ kanaN) :
    (∀ b ∈ k.romaji, letterOk b = true) ∧ ∃ v, k.romaji.getLast? = some v ∧ isVowel v = true := by
  rcases word_cases hk hN with ⟨a, hr, hv, _⟩ | ⟨a, b, hr, ha, hva, hvb⟩ | ⟨a, b, d, hr, ha, hva, hb, hbn, hvd⟩
  · rw [hr]; exact ⟨by simp [vowel_letter hv], a, rfl, hv⟩
  · rw [hr]; exact ⟨by simp [ha, vowel_letter hvb], b, rfl, hvb⟩
  · rw [hr]; exact ⟨by simp [ha, hb, vowel_letter hvd], d, rfl, hvd⟩

theorem not_joins {k j : Kana} (hk : k ∈ allKana) (hN : k ≠ kanaN) (hj : j ∈ allKana) (hm : j.mono = true)
    (hp : j.hiragana <+: k.hiragana) (ha : j.afterN = false) : ¬ Joins k.romaji := by
  have htake : k.hiragana.take 3 = j.hiragana := by
    obtain ⟨t, ht⟩ := hp
    have l := mono_length3 hj hm .hiragana
    rw [← ht]
    exact List.take_left' (by simpa [Kana.str] using l)
  intro ⟨b, hb, h⟩
  have := y_afterN k hk j hj ?_ htake
  · rw [this] at ha; cases ha
  · rcases h with h | rfl
    · right
      refine ⟨?_, hN⟩
      rcases word_cases hk hN with ⟨a, hr, _⟩ | ⟨a, b', hr, _, hva, _⟩ | ⟨a, b', d, hr, _, hva, _⟩
      · rw [hr]; rfl
      · rw [hr] at hb; simp at hb; subst hb; rw [hva] at h; cases h
      · rw [hr] at hb; simp at hb; subst hb; rw [hva] at h; cases h
    · left; exact hb

theorem kanaOut_str {c : Converter} {t : CharType} (ht : t ≠ .romaji) (h : c.target = t) (k : Kana) :
    kanaOut c k = k.str t := by
  subst h
  unfold kanaOut Kana.get Kana.str
  cases hc : c.target
  · rfl
  · rfl
  · exact absurd hc ht

theorem pend_nil (c : Converter) : pend c [] = [] := rfl

theorem piece_other {p : Str} (h : IsPiece p) (h1 : isSingleByte p = false) : ¬ IsDelim p := by
  rintro ⟨b, hb, rfl⟩
  have := (delim_not_letter b hb).2.1
  have : isSingleByte [b] = true := by
    simp only [isSingleByte, isSingleByteChar, List.isEmpty_nil, Bool.or_true, Bool.true_and, decide_eq_true_eq]
    exact UInt8.lt_iff_toNat_lt.mpr this
  rw [this] at h1; cases h1

/-- Reading back what was written for a list of items. -/
theorem round_items (c1 c2 : Converter) {t : CharType} (ht : t ≠ .romaji) (h1 : Plain1 c1)
    (h2 : c2.target = t) (h3 : c2.flags = .none) : ∀ (items : List Item), Valid t items →
    (∀ p ∈ items.flatMap (Item.src t), IsPiece p ∧ isSingleByte p = false ∧ macrons.lookup p = none ∧
      findIterationMark t p = none) →
    (∀ x s n, Bad t x s → .group [smallTsu, x, s] true n ∉ items) →
    ∃ ps, (∀ p ∈ ps, IsPiece p) ∧ ps.flatten = items.flatMap (itemOut c1 t) ∧
      ∀ L R, Pending L → (L ≠ [] → ∀ k, headLetter items = some k → k.afterN = false) →
        c2.run ⟨L, R⟩ ps = .ok (R ++ pend c2 L ++ (items.flatMap (Item.src t)).flatten) := by
  have h4 : c2.flags.noProlongMark = false := by rw [h3]; rfl
  have word : ∀ k, k ∈ allKana → k ≠ kanaN → ∀ pr, ∃ ps, (∀ p ∈ ps, IsPiece p ∧ ¬ IsDelim p) ∧
      ps.flatten = macronOut c1 pr (kanaOut c1 k) ∧ ∀ L R, Pending L → (L ≠ [] → ¬ Joins k.romaji) →
        c2.toKanaLoop ⟨L, R⟩ ps = .ok ⟨[], R ++ pend c2 L ++ (k.str t ++ mark pr)⟩ := by
    intro k hk hN pr
    obtain ⟨hl, v, hv, hvv⟩ := word_letters hk hN
    obtain ⟨ps, h5, h6, h7⟩ := word_pieces c1 c2 h1.target h4 hl hv hvv pr
    refine ⟨ps, h5, by rw [h6, romaji_plain h1], ?_⟩
    intro L R hL hj
    rw [h7 L R _ (feed c2 hk hN hL hj R), kanaOut_str ht h2]
    simp
  have other : ∀ p, isSingleByte p = false → macrons.lookup p = none → ∀ L R, Pending L →
      c2.toKanaLoop ⟨L, R⟩ [p] = .ok ⟨[], R ++ pend c2 L ++ p⟩ := by
    intro p h5 h6 L R hL
    rw [loop1, step_other c2 h5 h6 hL]
  intro items
  induction items with
  | nil =>
    intro _ _ _
    refine ⟨[], by simp, rfl, ?_⟩
    intro L R hL _
    simp only [run]
    rw [end_pending c2 hL]; simp
  | cons i items ih =>
    intro hv hp hb
    have hp' : ∀ p ∈ items.flatMap (Item.src t), _ := fun p hpm => hp p (by simp only [List.flatMap_cons, List.mem_append]; exact Or.inr hpm)
    have hb' : ∀ x s n, Bad t x s → .group [smallTsu, x, s] true n ∉ items :=
      fun x s n h hm => hb x s n h (List.mem_cons_of_mem _ hm)
    have hpi : ∀ p ∈ Item.src t i, _ := fun p hpm => hp p (by simp only [List.flatMap_cons, List.mem_append]; exact Or.inl hpm)
    -- items whose output is read completely
    have simple : Valid t items → ∀ xs : List Str, (∀ p ∈ xs, IsPiece p ∧ ¬ IsDelim p) → xs.flatten = itemOut c1 t i →
        (∀ L R, Pending L → (L ≠ [] → ∀ k, headLetter (i :: items) = some k → k.afterN = false) →
          c2.toKanaLoop ⟨L, R⟩ xs = .ok ⟨[], R ++ pend c2 L ++ (Item.src t i).flatten⟩) →
        ∃ ps, (∀ p ∈ ps, IsPiece p) ∧ ps.flatten = (i :: items).flatMap (itemOut c1 t) ∧
          ∀ L R, Pending L → (L ≠ [] → ∀ k, headLetter (i :: items) = some k → k.afterN = false) →
            c2.run ⟨L, R⟩ ps = .ok (R ++ pend c2 L ++ ((i :: items).flatMap (Item.src t)).flatten) := by
      intro hvi xs hx1 hx2 hx3
      obtain ⟨ps, h5, h6, h7⟩ := ih hvi hp' hb'
      refine ⟨xs ++ ps, ?_, by simp [hx2, h6], ?_⟩
      · intro p hpm
        rcases List.mem_append.mp hpm with h | h
        · exact (hx1 p h).1
        · exact h5 p h
      · intro L R hL hj
        rw [run_append c2 _ _ (fun p hp => (hx1 p hp).2), hx3 L R hL hj]
        simp only [Res.bind]
        rw [h7 [] _ (Or.inl rfl) (by simp)]
        simp [pend_nil]
    cases i with
    | prolong =>
      refine simple hv [prolongMark] ?_ (by simp [itemOut]) ?_
      · intro p hpm; simp at hpm; subst hpm
        exact ⟨isPiece_prolong, by decide⟩
      · intro L R hL _
        rw [other prolongMark (by decide) (by decide) L R hL]
        simp [Item.src]
    | mark p m prev =>
      have := (hpi p (by simp [Item.src])).2.2.2
      rw [hv.2.1] at this; cases this
    | other p =>
      obtain ⟨hq1, hq2, hq3, hq4⟩ := hpi p (by simp [Item.src])
      have hvi : Valid t items := hv.2.2.2
      cases hw : wideDelimFind p with
      | none =>
        refine simple hvi [p] ?_ (by simp [itemOut, h1.target, hw]) ?_
        · intro q hqm; simp at hqm; subst hqm
          exact ⟨hq1, piece_other hq1 hq2⟩
        · intro L R hL _
          rw [other p hq2 hq3 L R hL]
          simp [Item.src]
      | some n =>
        obtain ⟨hn1, hn2, hn3, hn4⟩ := narrow_of_wide hw
        obtain ⟨ps, h5, h6, h7⟩ := ih hvi hp' hb'
        refine ⟨[n] :: ps, ?_, by simp [itemOut, h1.target, hw, h6], ?_⟩
        · intro q hqm
          rcases List.mem_cons.mp hqm with rfl | h
          · exact Or.inl ⟨n, (delim_not_letter n hn2).2.1, (delim_not_letter n hn2).2.2, rfl⟩
          · exact h5 q h
        · intro L R hL _
          rw [run_delim c2 _ _ hn2]
          simp only [end_pending c2 hL, Res.bind]
          have : c2.delimOut n = .ok p := by
            unfold delimOut
            rw [if_pos ⟨hn3, hn4, Or.inl (by rw [h3]; rfl)⟩, hn1]
          rw [this]
          simp only
          have h8 := h7 [] [] (Or.inl rfl) (by simp)
          rw [show ({ } : ToState) = ⟨[], []⟩ from rfl, h8]
          simp [Item.src, pend_nil]
    | group g pr next =>
      obtain ⟨hg, hs, hl, hnext, hvi⟩ := hv
      have hhead : ∀ k, headLetter (.group g pr next :: items) = some k ↔ g.head? = some k := fun k => Iff.rfl
      have hsrc : ((Item.group g pr next).src t).flatten = chars t g ++ mark pr := by
        simp only [Item.src, List.flatten_append, chars, List.flatMap_def]
        cases pr <;> simp [mark]
      cases group_kind ht hg hs hl with
      | one k hk hN hst ho =>
        by_cases hkN : k = kanaN
        · have hgN := hN.mp hkN
          have hkO : kanaOut c1 k = [0x6e] := by rw [romaji_plain h1, hkN]; rfl
          have hkS : kanaOut c2 kanaN = chars t g := by rw [kanaOut_str ht h2, ← hkN, hst t ht]
          have stepN : ∀ L R, Pending L → c2.toKanaStep ⟨L, R⟩ [0x6e] = .ok ⟨[0x6e], R ++ pend c2 L⟩ := by
            intro L R hL
            rcases hL with rfl | rfl
            · rw [step_n_empty]; simp [pend]
            · rw [step_n_n]; simp [pend]
          cases pr with
          | true =>
            refine simple hvi [[0x6e], prolongMark] ?_ ?_ ?_
            · intro p hpm
              simp only [List.mem_cons, List.not_mem_nil, or_false] at hpm
              rcases hpm with rfl | rfl
              · exact ⟨isPiece_letter (by decide), letter_not_delim (by decide)⟩
              · exact ⟨isPiece_prolong, by decide⟩
            · simp only [if_true] at hnext
              simp [itemOut, ho, hkO, macronOut, h1.target, macronLetter, hnext]
            · intro L R hL _
              rw [loop_ok c2 (stepN L R hL), other prolongMark (by decide) (by decide) _ _ (Or.inr rfl), hsrc]
              simp [pend, hkS, mark]
          | false =>
            simp only [Bool.false_eq_true, if_false] at hnext
            obtain ⟨ps, h5, h6, h7⟩ := ih hvi hp' hb'
            have hgo : groupOut c1 t [kanaN] false = [0x6e] := by rw [← hgN, ho, hkO]; simp [macronOut]
            by_cases hap : ∃ k, next = some k ∧ k.afterN = true
            · refine ⟨[0x6e] :: [apostrophe] :: ps, ?_, ?_, ?_⟩
              · intro q hqm
                rcases List.mem_cons.mp hqm with rfl | h
                · exact isPiece_letter (by decide)
                · rcases List.mem_cons.mp h with rfl | h
                  · exact Or.inl ⟨_, by decide, by decide, rfl⟩
                  · exact h5 q h
              · simp only [List.flatMap_cons, itemOut, h1.target, hgN, hap, hgo]
                simp [h6]
              · intro L R hL _
                rw [run_cons c2 _ _ (letter_not_delim (by decide)), stepN L R hL]
                simp only [Res.bind]
                rw [run_delim c2 _ _ (by decide : apostrophe ∈ narrowDelimList)]
                simp only [end_pending c2 (Or.inr rfl), Res.bind]
                have : c2.delimOut apostrophe = .ok [] := by
                  unfold delimOut; rw [if_neg (by simp)]
                rw [this]
                simp only
                have h8 := h7 [] [] (Or.inl rfl) (by simp)
                rw [show ({ } : ToState) = ⟨[], []⟩ from rfl, h8]
                simp only [List.flatMap_cons, List.flatten_append, hsrc]
                simp [pend, hkS, mark]
            · refine ⟨[0x6e] :: ps, ?_, ?_, ?_⟩
              · intro q hqm
                rcases List.mem_cons.mp hqm with rfl | h
                · exact isPiece_letter (by decide)
                · exact h5 q h
              · simp only [List.flatMap_cons, itemOut, h1.target, hgN, hap, hgo]
                simp [h6]
              · intro L R hL _
                rw [run_cons c2 _ _ (letter_not_delim (by decide)), stepN L R hL]
                simp only [Res.bind]
                rw [h7 [0x6e] _ (Or.inr rfl)]
                · simp only [List.flatMap_cons, List.flatten_append, hsrc]
                  simp [pend, hkS, mark]
                · intro _ j hj
                  rw [← hnext] at hj
                  cases ha : j.afterN with
                  | false => rfl
                  | true => exact absurd ⟨j, hj, ha⟩ hap
        · obtain ⟨ps, hp1, hp2, hp3⟩ := word k hk hkN pr
          have hgN : g ≠ [kanaN] := fun h => hkN (hN.mpr h)
          refine simple hvi ps hp1 (by rw [hp2]; simp [itemOut, ho, hgN]) ?_
          intro L R hL hj
          rw [hp3 L R hL ?_, hsrc, hst t ht]
          intro hLn
          cases g with
          | nil => exact absurd rfl hg
          | cons j g' =>
            have hj' := hl j (by simp)
            refine not_joins hk hkN hj'.1 hj'.2 ?_ (hj hLn j rfl)
            have := hst .hiragana (by decide)
            simp only [chars, List.flatMap_cons, Kana.str, if_true] at this
            exact ⟨_, this⟩
      | two x k hx hk hxN hkN hkt hd hlen hh hst ho =>
        have hgN : g ≠ [kanaN] := by rintro rfl; simp at hlen
        by_cases hc : x = smallTsu ∧ Doubles k
        · obtain ⟨hl', v, hv, hvv⟩ := word_letters hk hkN
          obtain ⟨a, r, hr, _⟩ := feed_sokuon c2 hk hkN hc.2 (Or.inl rfl) []
          have hs := hc.2
          obtain ⟨a', ha', hrep⟩ := hs
          rw [hr] at ha'; simp at ha'; subst ha'
          rw [rep_iff] at hrep
          have hsl := sokuon_letter hrep
          obtain ⟨ps, h5, h6, h7⟩ := word_pieces c1 c2 h1.target h4 (w := sokuonLetter a :: k.romaji)
            (by intro b hb; rcases List.mem_cons.mp hb with rfl | hb
                · exact hsl.2.2.1
                · exact hl' b hb) (v := v) (by
                  rw [hr] at hv ⊢; simpa using hv) hvv pr
          refine simple hvi ps h5 ?_ ?_
          · rw [h6]
            simp [itemOut, ho, hgN, h1.target, hc, sokuon_plain h1 hr]
          · intro L R hL _
            obtain ⟨a2, r2, hr2, hf⟩ := feed_sokuon c2 hk hkN hc.2 hL R
            rw [hr] at hr2
            have haa : a2 = a := by simpa using (List.cons.inj hr2).1.symm
            subst haa
            rw [h7 L R _ hf, hsrc, hst t ht, kanaOut_str ht h2, kanaOut_str ht h2, hc.1]
            simp
        · obtain ⟨ps, hp1, hp2, hp3⟩ := word x hx.1 hxN false
          obtain ⟨qs, hq1, hq2, hq3⟩ := word k hk hkN pr
          refine simple hvi (ps ++ qs) ?_ ?_ ?_
          · intro p hpm
            rcases List.mem_append.mp hpm with h | h
            · exact hp1 p h
            · exact hq1 p h
          · simp only [List.flatten_append, hp2, hq2, itemOut, ho, hgN, h1.target]
            rw [if_neg (by simpa using hc)]
            simp [macronOut]
          · intro L R hL hj
            rw [loop_append, hp3 L R hL ?_]
            · simp only [Res.bind]
              rw [hq3 [] _ (Or.inl rfl) (by simp), hsrc, hst t ht]
              simp [pend_nil, mark]
            · intro hLn
              exact not_joins hx.1 hxN hx.1 hx.2 (List.prefix_refl _) (hj hLn x hh)
      | bad x s hbad hgg ho =>
        subst hgg
        cases pr with
        | true => exact absurd List.mem_cons_self (hb x s next hbad)
        | false =>
          have hx := hpi (x.str t) (by simp [Item.src])
          have hs' := hpi (s.str t) (by simp [Item.src])
          obtain ⟨ps, hp1, hp2, hp3⟩ := word smallTsu smallTsu_mem (by decide) false
          refine simple hvi (ps ++ ([x.str t] ++ [s.str t])) ?_ ?_ ?_
          · intro p hpm
            rcases List.mem_append.mp hpm with h | h
            · exact hp1 p h
            · simp only [List.cons_append, List.nil_append, List.mem_cons, List.not_mem_nil, or_false] at h
              rcases h with rfl | rfl
              · exact ⟨hx.1, piece_other hx.1 hx.2.1⟩
              · exact ⟨hs'.1, piece_other hs'.1 hs'.2.1⟩
          · simp [hp2, itemOut, ho, macronOut]
          · intro L R hL hj
            rw [loop_append, hp3 L R hL ?_]
            · simp only [Res.bind]
              rw [loop_append, other _ hx.2.1 hx.2.2.1 [] _ (Or.inl rfl)]
              simp only [Res.bind]
              rw [other _ hs'.2.1 hs'.2.2.1 [] _ (Or.inl rfl), hsrc]
              simp [pend_nil, mark, chars]
            · intro hLn ⟨b, hb1, hb2⟩
              have : b = 0x6c := by
                have : smallTsu.romaji.head? = some 0x6c := by decide
                rw [this] at hb1; simpa using hb1.symm
              subst this
              revert hb2; decide

end Converter
end KT
