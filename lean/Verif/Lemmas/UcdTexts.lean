import Verif.Spec.UcdEntry
import Verif.Lemmas.UcdScript
import Verif.Lemmas.WidthScript
import Verif.Lemmas.Decimal
/-! The texts of records, taken apart by the functions of scripts/parseUcdAllFlat.sh. -/
namespace KT
open Spec

theorem notBlank (b : UInt8) (h : b ≠ 0x20 ∧ b ≠ 0x09) : isShBlank b = false := by
  simp [isShBlank, h.1, h.2]

theorem shWordsLoop_spaced (w : Str) (ws : List Str) (hw : IsWord w) (h : ∀ x ∈ ws, IsWord x) :
    shWordsLoop (spaced (w :: ws)) [] = w :: ws := by
  induction ws generalizing w with
  | nil =>
    have := shWords_word w (fun b hb => notBlank b (hw.2 b hb)) hw.1
    simpa [spaced, shWords] using this
  | cons x ws ih =>
    have e : spaced (w :: x :: ws) = w ++ (0x20 :: spaced (x :: ws)) := by
      simp [spaced, List.intercalate]
    rw [e, shWordsLoop_word _ _ _ (fun b hb => notBlank b (hw.2 b hb)), List.nil_append, shWordsLoop]
    rw [if_pos (by decide), if_neg hw.1, ih x (h x (by simp)) (fun y hy => h y (by simp [hy]))]

/-- The words of a text are the words that were put together. -/
theorem shWords_spaced (ws : List Str) (h : ∀ x ∈ ws, IsWord x) : shWords (spaced ws) = ws := by
  cases ws with
  | nil => rfl
  | cons w ws => exact shWordsLoop_spaced w ws (h w (by simp)) (fun x hx => h x (by simp [hx]))

theorem beforeFirst_stop (x y : Str) (c : UInt8) (hx : c ∉ x) : beforeFirst c (x ++ c :: y) = x := takeWhile_stop x y c hx

theorem beforeFirst_whole (x : Str) (c : UInt8) (hx : c ∉ x) : beforeFirst c x = x := takeWhile_whole x c hx

theorem beforeFirst_more (x y : Str) (c : UInt8) (hx : c ∉ x) (hy : y = [] ∨ y.head? = some c) :
    beforeFirst c (x ++ y) = x := by
  rcases hy with rfl | hy
  · rw [List.append_nil]; exact beforeFirst_whole x c hx
  · cases y with
    | nil => simp at hy
    | cons b y => simp at hy; subst hy; exact beforeFirst_stop x y b hx

theorem afterFirst_stop (x y : Str) (c : UInt8) (hx : c ∉ x) : afterFirst c (x ++ c :: y) = y := by
  unfold afterFirst
  rw [if_pos (by simp)]
  rw [List.dropWhile_append_of_pos (by intro a ha; simp; rintro rfl; exact hx ha)]
  simp

theorem afterFirst_code (c : Str) : afterFirst 0x2b (u8!"U+" ++ c) = c := by
  have := afterFirst_stop (u8!"U") c 0x2b (by decide)
  simpa using this

theorem hexChar_apart (b : UInt8) (h : isHexChar b = true) :
    b ≠ 0x20 ∧ b ≠ 0x09 ∧ b ≠ 0x2b ∧ b ≠ 0x55 ∧ b ≠ 0x26 ∧ b ≠ 0x2c ∧ b ≠ 0x2e := by
  refine ⟨?_, ?_, ?_, ?_, ?_, ?_, ?_⟩ <;> (rintro rfl; revert h; decide)

theorem code_word {c : Str} (h : UcdCode c) : IsWord (u8!"U+" ++ c) := by
  refine ⟨by simp, ?_⟩
  intro b hb
  rcases List.mem_append.mp hb with hb | hb
  · simp at hb; rcases hb with rfl | rfl <;> decide
  · have := hexChar_apart b (h.2 b hb); exact ⟨this.1, this.2.1⟩

theorem code_isWord {c : Str} (h : UcdCode c) : IsWord c :=
  ⟨h.1, fun b hb => ⟨(hexChar_apart b (h.2 b hb)).1, (hexChar_apart b (h.2 b hb)).2.1⟩⟩

/-- The codes of a list of links. -/
theorem codes_spaced (cs : List Str) (h : ∀ c ∈ cs, UcdCode c) :
    (shWords (spaced (cs.map fun c => u8!"U+" ++ c))).map (afterFirst 0x2b) = cs := by
  rw [shWords_spaced]
  · rw [List.map_map]
    conv => rhs; rw [← List.map_id cs]
    exact List.map_congr_left fun c _ => afterFirst_code c
  · intro x hx
    obtain ⟨c, hc, rfl⟩ := List.mem_map.mp hx
    exact code_word (h c hc)

theorem toDec_digit (n : Nat) (b : UInt8) (h : b ∈ toDec n) : isDigitChar b = true :=
  List.all_eq_true.mp (toDec_digits n) b h

theorem digit_apart (b : UInt8) (h : isDigitChar b = true) :
    b ≠ 0x20 ∧ b ≠ 0x09 ∧ b ≠ 0x2b ∧ b ≠ 0x55 ∧ b ≠ 0x26 ∧ b ≠ 0x2c ∧ b ≠ 0x2e ∧ b ≠ 0x27 ∧ b ≠ 0x3a := by
  refine ⟨?_, ?_, ?_, ?_, ?_, ?_, ?_, ?_, ?_⟩ <;> (rintro rfl; revert h; decide)

theorem toDec_without (n : Nat) (c : UInt8) (hc : isDigitChar c = false) : c ∉ toDec n := by
  intro h
  rw [toDec_digit n c h] at hc
  cases hc

/-! ### Radical and strokes -/

theorem replicate_dot (k : Nat) (y : Str) :
    ∃ c z, List.replicate k (0x27 : UInt8) ++ (0x2e :: y) = c :: z ∧ (c = 0x27 ↔ k ≠ 0) ∧ (c = 0x2e ∨ c = 0x27) := by
  cases k with
  | zero => exact ⟨0x2e, y, rfl, by decide, .inl rfl⟩
  | succ k => exact ⟨0x27, List.replicate k 0x27 ++ 0x2e :: y, by simp [List.replicate_succ], by simp, .inr rfl⟩

theorem rsUnicode_parts (e : UcdEntry) :
    scriptRadical (e.text .rsUnicode) = e.radical ∧ (isSimplifiedRadical (e.text .rsUnicode) = true ↔ e.marks ≠ 0) := by
  obtain ⟨c, z, hz, hc, hc'⟩ := replicate_dot e.marks (toDec e.rest ++ e.more)
  have et : e.text .rsUnicode = toDec e.radical ++ c :: z := by
    rw [← hz]; simp [UcdEntry.text]
  rw [et]
  constructor
  · unfold scriptRadical
    rw [List.takeWhile_append_of_pos (by
      intro a ha
      have := digit_apart a (toDec_digit _ a ha)
      simp [this.2.2.2.2.2.2.1, this.2.2.2.2.2.2.2.1])]
    have : ((c :: z).takeWhile fun b => b != 0x2e && b != 0x27) = [] := by
      rcases hc' with rfl | rfl <;> simp
    rw [this, List.append_nil, toDec_value]
  · unfold isSimplifiedRadical
    rw [List.dropWhile_append_of_pos (fun a ha => toDec_digit _ a ha)]
    have : (c :: z).dropWhile isDigitChar = c :: z := by
      rcases hc' with rfl | rfl <;> rfl
    rw [this]
    simp [hc]

theorem keepsRecord_entry (e : UcdEntry) : keepsRecord (e.text .rsUnicode) = e.kept := by
  obtain ⟨h1, h2⟩ := rsUnicode_parts e
  unfold keepsRecord UcdEntry.kept
  rw [h1]
  congr 1
  cases h : isSimplifiedRadical (e.text .rsUnicode)
  · rw [h] at h2; simp at h2; simp [h2]
  · have := h2.mp h; simp [this]

theorem total_entry (e : UcdEntry) (h : e.Fits) : decimalValue (beforeFirst 0x20 (e.text .totalStrokes)) = e.totalStrokes := by
  rw [UcdEntry.text, beforeFirst_more _ _ _ (toDec_without _ _ (by decide)) h.moreStrokes, toDec_value]

theorem adobe_tail (r : AdobeRef) :
    afterLast 0x2b r.text = toDec r.radical ++ 0x2e :: (toDec r.radicalStrokes ++ 0x2e :: toDec r.rest) := by
  have e : r.text = (r.kind :: u8!"+" ++ toDec r.cid) ++ 0x2b :: (toDec r.radical ++ 0x2e :: (toDec r.radicalStrokes ++
      0x2e :: toDec r.rest)) := by simp [AdobeRef.text]
  rw [e]
  apply afterLast_stop
  intro h
  rcases List.mem_append.mp h with h | h
  · exact toDec_without _ _ (by decide) h
  · rcases List.mem_cons.mp h with h | h
    · cases h
    rcases List.mem_append.mp h with h | h
    · exact toDec_without _ _ (by decide) h
    · rcases List.mem_cons.mp h with h | h
      · cases h
      · exact toDec_without _ _ (by decide) h

theorem adobe_parts (r : AdobeRef) :
    decimalValue (beforeFirst 0x2e (afterLast 0x2b r.text)) = r.radical ∧
    adobeStrokesText r.text = toDec r.radicalStrokes ++ 0x2e :: toDec r.rest ∧
    adobeSum (adobeStrokesText r.text) = r.strokes ∧ afterFirst 0x2e (adobeStrokesText r.text) = toDec r.rest := by
  have h : adobeStrokesText r.text = toDec r.radicalStrokes ++ 0x2e :: toDec r.rest := by
    rw [adobeStrokesText, adobe_tail, afterFirst_stop _ _ _ (toDec_without _ _ (by decide))]
  have h2 : afterFirst 0x2e (adobeStrokesText r.text) = toDec r.rest := by
    rw [h, afterFirst_stop _ _ _ (toDec_without _ _ (by decide))]
  refine ⟨?_, h, ?_, h2⟩
  · rw [adobe_tail, beforeFirst_stop _ _ _ (toDec_without _ _ (by decide)), toDec_value]
  · rw [adobeSum, h2, h, beforeFirst_stop _ _ _ (toDec_without _ _ (by decide)), toDec_value, toDec_value]
    rfl

theorem adobe_word (r : AdobeRef) (h : r.kind = 0x43 ∨ r.kind = 0x56) : IsWord r.text := by
  refine ⟨by simp [AdobeRef.text], ?_⟩
  intro b hb
  have hd : ∀ n, b ∈ toDec n → b ≠ 0x20 ∧ b ≠ 0x09 := fun n hn =>
    ⟨(digit_apart b (toDec_digit n b hn)).1, (digit_apart b (toDec_digit n b hn)).2.1⟩
  simp only [AdobeRef.text, List.mem_append, List.mem_cons] at hb
  rcases hb with ((((((((hb | hb | hb) | hb) | hb | hb) | hb) | hb | hb) | hb) | hb | hb) | hb)
  all_goals first
    | exact hd _ hb
    | (subst hb; rcases h with h | h <;> rw [h] <;> decide)
    | (subst hb; decide)
    | (cases hb)

/-- `kRSUnicode` is `x.z` only for a plain radical without further values. -/
theorem rsUnicode_equal (e : UcdEntry) (h : e.Fits) (r : AdobeRef) :
    e.text .rsUnicode = toDec r.radical ++ u8!"." ++ toDec r.rest ↔
      e.marks = 0 ∧ e.more = [] ∧ e.radical = r.radical ∧ e.rest = r.rest := by
  constructor
  · intro he
    obtain ⟨h1, h2⟩ := rsUnicode_parts e
    have p := rsUnicode_parts { e with radical := r.radical, marks := 0, rest := r.rest, more := [] }
    have ep : ({ e with radical := r.radical, marks := 0, rest := r.rest, more := [] } : UcdEntry).text .rsUnicode =
        e.text .rsUnicode := by rw [he]; simp [UcdEntry.text]
    rw [ep] at p
    have hm : e.marks = 0 := by
      by_cases hz : e.marks = 0
      · exact hz
      · have := p.2.mp (h2.mpr hz); exact absurd rfl this
    have hr : e.radical = r.radical := by rw [← h1, p.1]
    have het : toDec e.rest ++ e.more = toDec r.rest := by
      rw [UcdEntry.text, hm, hr] at he
      simpa using he
    have hmore : e.more = [] := by
      rcases h.more with h | h
      · exact h
      · exfalso
        have : (0x20 : UInt8) ∈ toDec r.rest := by
          rw [← het]
          cases hx : e.more with
          | nil => rw [hx] at h; simp at h
          | cons b y => rw [hx] at h; simp at h; simp [h]
        exact toDec_without _ _ (by decide) this
    rw [hmore, List.append_nil] at het
    exact ⟨hm, hmore, hr, toDec_injective het⟩
  · rintro ⟨h1, h2, h3, h4⟩
    simp [UcdEntry.text, h1, h2, h3, h4]

theorem adobeLoop_entry (e : UcdEntry) (h : e.Fits) (total : Str) (ht : decimalValue total = e.totalStrokes) (n : Nat)
    (rs : List AdobeRef) (second : Bool) :
    adobeLoop (e.text .rsUnicode) total n (rs.map AdobeRef.text) second =
      match rs.find? fun s => s.strokes != n with
      | none => (n, 0)
      | some s => if (second = true ∧ rs.head? = some s) ∧ e.marks = 0 ∧ e.more = [] ∧ e.radical = s.radical ∧
          e.rest = s.rest ∧ e.totalStrokes = s.strokes then (s.strokes, n) else (n, s.strokes) := by
  induction rs generalizing second with
  | nil => rfl
  | cons r rs ih =>
    obtain ⟨p1, -, p3, p4⟩ := adobe_parts r
    rw [List.map_cons, adobeLoop]
    rw [p1, p3, p4, ht]
    by_cases hn : n = r.strokes
    · rw [if_neg (by simpa using hn), ih]
      have : (r :: rs).find? (fun s => s.strokes != n) = rs.find? (fun s => s.strokes != n) := by
        rw [List.find?_cons_of_neg]; simp [hn]
      rw [this]
      cases hf : rs.find? (fun s => s.strokes != n) with
      | none => rfl
      | some s =>
        have hs := List.find?_some hf
        dsimp only
        rw [if_neg (by simp), if_neg]
        rintro ⟨⟨-, hx⟩, -⟩
        simp at hx
        subst hx
        simp [hn] at hs
    · rw [if_pos hn]
      have : (r :: rs).find? (fun s => s.strokes != n) = some r := by
        rw [List.find?_cons_of_pos]; simp; exact fun h => hn h.symm
      rw [this]
      dsimp only
      simp only [rsUnicode_equal e h r, List.head?_cons, and_true, and_assoc]

theorem beforeFirst_spaced (w : Str) (ws : List Str) (hw : IsWord w) : beforeFirst 0x20 (spaced (w :: ws)) = w := by
  have h : (0x20 : UInt8) ∉ w := fun hb => (hw.2 _ hb).1 rfl
  cases ws with
  | nil => simpa [spaced] using beforeFirst_whole w 0x20 h
  | cons x ws =>
    have e : spaced (w :: x :: ws) = w ++ (0x20 :: spaced (x :: ws)) := by simp [spaced, List.intercalate]
    rw [e]; exact beforeFirst_stop _ _ _ h

theorem scriptStrokes_entry (e : UcdEntry) (h : e.Fits) (v : UcdVars)
    (h1 : v .totalStrokes = e.text .totalStrokes) (h2 : v .rsAdobe = e.text .rsAdobe)
    (h3 : v .rsUnicode = e.text .rsUnicode) : scriptStrokes v = entryStrokes e := by
  unfold scriptStrokes entryStrokes
  rw [h1, h2, h3]
  dsimp only
  cases ha : e.adobe with
  | nil =>
    rw [if_pos (by simp [UcdEntry.text, ha, spaced]), total_entry e h]
  | cons r rs =>
    have hw : IsWord r.text := adobe_word r (h.adobe r (by simp [ha]))
    have et : e.text .rsAdobe = spaced (r.text :: rs.map AdobeRef.text) := by simp [UcdEntry.text, ha]
    have hb : (0x20 : UInt8) ∉ r.text := fun hb => (hw.2 _ hb).1 rfl
    rw [et]
    cases rs with
    | nil =>
      have es : spaced (r.text :: ([] : List AdobeRef).map AdobeRef.text) = r.text := by simp [spaced]
      rw [es, if_neg hw.1, if_neg (by simpa using hb), beforeFirst_whole _ _ hb, (adobe_parts r).2.2.1]
      rfl
    | cons s rs =>
      have es : spaced (r.text :: (s :: rs).map AdobeRef.text) = r.text ++ 0x20 :: spaced ((s :: rs).map AdobeRef.text) := by
        simp [spaced, List.intercalate]
      rw [if_neg (by rw [es]; simp), if_pos (by rw [es]; simp), beforeFirst_spaced _ _ hw, (adobe_parts r).2.2.1, es,
        afterFirst_stop _ _ _ hb, shWords_spaced, adobeLoop_entry e h _ (total_entry e h)]
      · dsimp only
        cases ((s :: rs).find? fun x => x.strokes != r.strokes) with
        | none => rfl
        | some x => simp only [true_and]
      · intro x hx
        obtain ⟨a, ha', rfl⟩ := List.mem_map.mp hx
        exact adobe_word a (h.adobe a (by rw [ha]; exact List.mem_cons_of_mem _ ha'))

end KT
