import Verif.Lemmas.UcdTexts
/-! Numbers of dictionaries, marks and links in the records for scripts/parseUcdAllFlat.sh. -/
namespace KT
open Spec

theorem spaced_cons (w : Str) (ws : List Str) :
    ∃ t, spaced (w :: ws) = w ++ t ∧ (t = [] ∨ t.head? = some 0x20) ∧ ∀ w', spaced (w' :: ws) = w' ++ t := by
  cases ws with
  | nil => exact ⟨[], by simp [spaced], .inl rfl, fun w' => by simp [spaced]⟩
  | cons x ws =>
    exact ⟨0x20 :: spaced (x :: ws), by simp [spaced, List.intercalate], .inr rfl,
      fun w' => by simp [spaced, List.intercalate]⟩

/-! ### Morohashi -/

/-- An apostrophe is written as `P`. -/
def primeByte (b : UInt8) : UInt8 := if b = 0x27 then 0x50 else b

theorem map_spaced (f : UInt8 → UInt8) (hf : f 0x20 = 0x20) (ws : List Str) :
    (spaced ws).map f = spaced (ws.map (List.map f)) := by
  induction ws with
  | nil => rfl
  | cons w ws ih =>
    cases ws with
    | nil => simp [spaced]
    | cons x ws =>
      have e : ∀ (a b : Str) (l : List Str), spaced (a :: b :: l) = a ++ 0x20 :: spaced (b :: l) := by
        intro a b l; simp [spaced, List.intercalate]
      rw [e, List.map_append, List.map_cons, ih, hf]
      simp only [List.map_cons]
      rw [e]

theorem primeByte_word (w : Str) (h : IsWord w) : IsWord (w.map primeByte) := by
  refine ⟨by simpa using h.1, ?_⟩
  intro b hb
  obtain ⟨a, ha, rfl⟩ := List.mem_map.mp hb
  unfold primeByte
  split
  · decide
  · exact h.2 a ha

theorem morohashi_word (r : MorohashiRef) (h : r.Fits) : IsWord r.text := by
  obtain ⟨h1, -, h2, h3⟩ := h
  refine ⟨by simp [MorohashiRef.text, h1], ?_⟩
  intro b hb
  unfold MorohashiRef.text at hb
  rcases List.mem_append.mp hb with hb | hb
  · rcases List.mem_append.mp hb with hb | hb
    · rcases List.mem_append.mp hb with hb | hb
      · rw [(List.mem_replicate.mp hb).2]; decide
      · exact ⟨(h2 b hb).1, (h2 b hb).2.1⟩
    · rw [(List.mem_replicate.mp hb).2]; decide
  · cases hs : r.selector with
    | none => rw [hs] at hb; simp at hb
    | some s =>
      rw [hs] at hb
      rcases List.mem_append.mp hb with hb | hb
      · simp at hb; subst hb; decide
      · exact h3 s hs b hb

theorem dropWhile_replicate (n : Nat) (c : UInt8) (y : Str) (hy : y.head? ≠ some c) :
    (List.replicate n c ++ y).dropWhile (· == c) = y := by
  rw [List.dropWhile_append_of_pos (by intro a ha; rw [(List.mem_replicate.mp ha).2]; simp)]
  cases y with
  | nil => rfl
  | cons b y =>
    have : b ≠ c := by rintro rfl; simp at hy
    simp [this]

theorem primeByte_other (s : Str) (h : ∀ b ∈ s, b ≠ 0x27) : s.map primeByte = s := by
  conv => rhs; rw [← List.map_id s]
  exact List.map_congr_left fun b hb => by simp [primeByte, h b hb]

/-- The first number, as it is stored. -/
theorem scriptMorohashi_refs (rs : List MorohashiRef) (h : ∀ r ∈ rs, r.Fits) :
    scriptMorohashi (spaced (rs.map MorohashiRef.text)) = (rs.head?.map MorohashiRef.plain).getD [] := by
  cases rs with
  | nil => rfl
  | cons r rs =>
    have hw : ∀ x ∈ (r :: rs).map MorohashiRef.text, IsWord x := by
      intro x hx
      obtain ⟨y, hy, rfl⟩ := List.mem_map.mp hx
      exact morohashi_word y (h y hy)
    have hr := h r (by simp)
    have hr0 : ({ r with zeros := 0 } : MorohashiRef).Fits := hr
    have hw0 : ∀ x ∈ ({ r with zeros := 0 } : MorohashiRef).text :: rs.map MorohashiRef.text, IsWord x := by
      intro x hx
      rcases List.mem_cons.mp hx with rfl | hx
      · exact morohashi_word _ hr0
      · exact hw x (by simp only [List.map_cons]; exact List.mem_cons_of_mem _ hx)
    unfold scriptMorohashi
    dsimp only
    rw [shWords_spaced _ hw]
    have e1 : ((u8!" ").intercalate ((r :: rs).map MorohashiRef.text)).dropWhile (· == 0x30) =
        spaced (({ r with zeros := 0 } : MorohashiRef).text :: rs.map MorohashiRef.text) := by
      obtain ⟨t, ht, -, ht'⟩ := spaced_cons r.text (rs.map MorohashiRef.text)
      rw [ht' _]
      show (spaced (r.text :: rs.map MorohashiRef.text)).dropWhile _ = _
      rw [ht]
      have : r.text = List.replicate r.zeros 0x30 ++ ({ r with zeros := 0 } : MorohashiRef).text := by
        simp [MorohashiRef.text]
      rw [this, List.append_assoc, dropWhile_replicate]
      obtain ⟨h1, h2, -, -⟩ := hr
      cases hb : r.body with
      | nil => exact absurd hb h1
      | cons b y => rw [hb] at h2; simp [MorohashiRef.text, hb]; simpa using h2
    rw [e1]
    show ((u8!" ").intercalate (shWords ((spaced _).map primeByte))).takeWhile _ = _
    rw [map_spaced _ (by decide), shWords_spaced]
    · obtain ⟨t, ht, ht1, -⟩ := spaced_cons (({ r with zeros := 0 } : MorohashiRef).text.map primeByte)
        ((rs.map MorohashiRef.text).map (List.map primeByte))
      show (spaced _).takeWhile _ = _
      rw [List.map_cons, ht]
      obtain ⟨h1, h2, h3, h4⟩ := hr
      have e2 : ∃ u, ({ r with zeros := 0 } : MorohashiRef).text.map primeByte ++ t = r.plain ++ u ∧
          (u = [] ∨ u.head? = some 0x20 ∨ u.head? = some 0x3a) := by
        unfold MorohashiRef.text MorohashiRef.plain
        cases r.selector with
        | none =>
          refine ⟨t, ?_, ht1.imp_right .inl⟩
          simp only [List.replicate_zero, List.nil_append, List.append_nil, List.map_append, List.map_replicate]
          rw [primeByte_other _ (fun b hb => (h3 b hb).2.2.1)]
          rfl
        | some s =>
          refine ⟨0x3a :: (s.map primeByte ++ t), ?_, .inr (.inr rfl)⟩
          simp only [List.replicate_zero, List.nil_append, List.map_append, List.map_replicate]
          rw [primeByte_other _ (fun b hb => (h3 b hb).2.2.1)]
          simp [primeByte]
      obtain ⟨u, hu, hu'⟩ := e2
      rw [hu, List.takeWhile_append_of_pos]
      · have : u.takeWhile (fun b => b != 0x20 && b != 0x3a) = [] := by
          cases u with
          | nil => rfl
          | cons b u =>
            simp at hu'
            rcases hu' with rfl | rfl <;> simp
        rw [this]
        simp
      · intro b hb
        unfold MorohashiRef.plain at hb
        rcases List.mem_append.mp hb with hb | hb
        · simp [(h3 b hb).1, (h3 b hb).2.2.2]
        · rw [(List.mem_replicate.mp hb).2]; decide
    · intro x hx
      obtain ⟨y, hy, rfl⟩ := List.mem_map.mp hx
      exact primeByte_word y (hw0 y hy)

theorem plain_ne_nil (r : MorohashiRef) (h : r.Fits) : r.plain ≠ [] := by
  simp [MorohashiRef.plain, h.1]

/-! ### Nelson and Pinyin -/

theorem nelson_words (ps : List (Nat × Str)) (h : ∀ p ∈ ps, IsWord p.2 ∧ p.2.head? ≠ some 0x30) :
    (shWords (spaced (ps.map fun p => List.replicate p.1 0x30 ++ p.2))).map (fun w => w.dropWhile (· == 0x30)) =
      ps.map (·.2) := by
  rw [shWords_spaced]
  · rw [List.map_map]
    exact List.map_congr_left fun p hp => dropWhile_replicate _ _ _ (h p hp).2
  · intro x hx
    obtain ⟨p, hp, rfl⟩ := List.mem_map.mp hx
    have := (h p hp).1
    refine ⟨by simp [this.1], ?_⟩
    intro b hb
    rcases List.mem_append.mp hb with hb | hb
    · rw [(List.mem_replicate.mp hb).2]; decide
    · exact this.2 b hb

theorem mandarin_first (ws : List Str) (h : ∀ w ∈ ws, IsWord w) : beforeFirst 0x20 (spaced ws) = ws.headD [] := by
  cases ws with
  | nil => rfl
  | cons w ws => exact beforeFirst_spaced w ws (h w (by simp))

/-! ### Joyo, Jinmei and variants -/

theorem contains_false {s : Str} {c : UInt8} (h : c ∉ s) : s.contains c = false := by
  cases hc : s.contains c
  · rfl
  · exact absurd (by simpa using hc) h

theorem joyo_marks (e : UcdEntry) :
    (e.text .joyo ≠ [] ↔ e.joyo ≠ none) ∧
    ((e.text .joyo).contains 0x55 = true ↔ ∃ c, e.joyo = some (.replaced c)) := by
  unfold UcdEntry.text
  cases hj : e.joyo with
  | none => simp
  | some j =>
    cases j with
    | listed y =>
      refine ⟨by simp [JoyoMark.text, toDec_ne_nil], ?_⟩
      dsimp only [JoyoMark.text]
      rw [contains_false (toDec_without y 0x55 (by decide))]
      simp
    | replaced c => exact ⟨by simp [JoyoMark.text], by simp [JoyoMark.text]⟩

theorem jinmei_marks (e : UcdEntry) :
    (e.text .jinmei ≠ [] ↔ e.jinmei ≠ none) ∧
    ((e.text .jinmei).contains 0x55 = true ↔ ∃ y c, e.jinmei = some (y, some c)) ∧
    ∀ y c, e.jinmei = some (y, some c) → afterFirst 0x2b (e.text .jinmei) = c := by
  unfold UcdEntry.text
  cases hj : e.jinmei with
  | none => simp
  | some j =>
    obtain ⟨y, l⟩ := j
    cases l with
    | none =>
      refine ⟨by simp [toDec_ne_nil], ?_, by simp⟩
      dsimp only
      rw [contains_false (toDec_without y 0x55 (by decide))]
      simp
    | some c =>
      refine ⟨by simp, ⟨fun _ => ⟨y, c, rfl⟩, fun _ => by simp⟩, ?_⟩
      rintro y' c' h
      cases h
      dsimp only
      have e : toDec y ++ (u8!":U+") ++ c = (toDec y ++ (u8!":U")) ++ 0x2b :: c := by simp
      rw [e]
      apply afterFirst_stop
      intro h
      rcases List.mem_append.mp h with h | h
      · exact toDec_without _ _ (by decide) h
      · revert h; decide

/-- The codes with the readings of a record. -/
theorem readingCodes_entry (e : UcdEntry) (h : e.Fits) (v : UcdVars) (h1 : v .cp = e.cp) (h2 : v .joyo = e.text .joyo)
    (h3 : v .jinmei = e.text .jinmei) : readingCodes v = e.readingFor := by
  unfold readingCodes UcdEntry.readingFor
  rw [h1, h2, h3]
  obtain ⟨j1, j2⟩ := joyo_marks e
  obtain ⟨m1, m2, m3⟩ := jinmei_marks e
  cases hj : e.joyo with
  | some j =>
    rw [if_pos (j1.mpr (by simp [hj]))]
    cases j with
    | listed y => rw [if_neg (by rw [j2]; simp [hj])]
    | replaced c =>
      rw [if_pos (j2.mpr ⟨c, hj⟩)]
      have hc := h.joyo c hj
      have e1 : e.text .joyo = u8!"U+" ++ c := by simp [UcdEntry.text, hj, JoyoMark.text]
      rw [e1, if_pos (by simp [List.isPrefixOf])]
      have e2 : (u8!"U+" ++ c).drop 2 = c := by simp
      rw [e2, shWords_word c (fun b hb => notBlank b ((code_isWord hc).2 b hb)) hc.1]
  | none =>
    rw [if_neg (by rw [j1]; simp [hj])]
    cases hm : e.jinmei with
    | none => rw [if_neg (by rw [m2]; simp [hm])]
    | some m =>
      obtain ⟨y, l⟩ := m
      cases l with
      | none => rw [if_neg (by rw [m2]; simp [hm])]
      | some c => rw [if_pos (m2.mpr ⟨y, c, hm⟩), m3 y c hm]

theorem compatibility_marks (e : UcdEntry) :
    ((e.text .compatibility).contains 0x55 = true ↔ ∃ c, e.compatibility = some c) ∧
    ∀ c, e.compatibility = some c → afterFirst 0x2b (e.text .compatibility) = c := by
  unfold UcdEntry.text
  cases hj : e.compatibility with
  | none => simp
  | some c =>
    refine ⟨by simp, ?_⟩
    rintro c' h
    cases h
    exact afterFirst_code c

theorem semantic_codes (e : UcdEntry) (h : e.Fits) :
    ((shWords (e.text .semantic)).map fun s => beforeFirst 0x26 (afterFirst 0x2b s)) = e.semantic.map (·.1) := by
  unfold UcdEntry.text
  dsimp only
  rw [shWords_spaced]
  · rw [List.map_map]
    refine List.map_congr_left fun p hp => ?_
    obtain ⟨h1, h2, h3⟩ := h.semantic p hp
    show beforeFirst 0x26 (afterFirst 0x2b (u8!"U+" ++ p.1 ++ p.2)) = p.1
    rw [List.append_assoc, afterFirst_code]
    exact beforeFirst_more _ _ _ (fun hb => (hexChar_apart _ (h1.2 _ hb)).2.2.2.2.1 rfl) h2
  · intro x hx
    obtain ⟨p, hp, rfl⟩ := List.mem_map.mp hx
    obtain ⟨h1, h2, h3⟩ := h.semantic p hp
    refine ⟨by simp, ?_⟩
    intro b hb
    rcases List.mem_append.mp hb with hb | hb
    · exact (code_word h1).2 b hb
    · exact h3 b hb

end KT
