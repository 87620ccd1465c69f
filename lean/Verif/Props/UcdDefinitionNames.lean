import Verif.Props.UcdDefinition
import Verif.Lemmas.UcdLoad
/-!
# C197: kanji named in definitions
-/
namespace KT
open Spec

/-- A word of the list, what may be between, and a text behind it that ends there. -/
structure Announced (d w pre fill text post : Str) : Prop where
  eq : d = pre ++ w ++ fill ++ text ++ post
  word : w ∈ linkWords
  /-- In one of the first three parts. -/
  part : pre.count 0x29 ≤ 2
  between : ∀ b ∈ fill, isBetween b = true
  /-- As in `same as` and `variant, …`. -/
  blank : fill.head? = some 0x20 ∨ fill.head? = some 0x2c

/-- Kanji written behind the word: `cs`, which are not ASCII and end with an ASCII character. -/
def Named (d w pre fill : Str) (cs : List Char) (post : Str) : Prop :=
  Announced d w pre fill (cs.flatMap String.utf8EncodeChar) post ∧ (∀ c ∈ cs, 128 ≤ c.toNat) ∧
    post.head?.any isOther = false

/-- The code of a character. -/
def charCode (c : Char) : Str := toUnicode c.toNat

/-- As the comment in the script says: a definition with a word like "same" and a kanji behind it has a link when
the kanji has readings. -/
def C197_statement : Prop :=
  ∀ (first all : List UcdXml) (es fs : List UcdEntry), AllRecords first es → AllRecords all fs →
    (fs.map UcdEntry.cp).Nodup → (∀ e ∈ fs, 0x22 ∉ e.definition) → ∀ e ∈ fs, e.marks = 0 →
    ∀ (w pre fill : Str) (cs : List Char) (post : Str), Named e.definition w pre fill cs post →
    (∃ c ∈ cs, (readingOf es (charCode c)).isSome = true) →
    (scriptArrays first (definitionFound all)).readingLink e.cp ≠ []

/-! ## Parts and words -/

theorem part_at (pre s : Str) : ∃ l, (definitionParts (pre ++ s))[pre.count 0x29]? = some (l ++ s.takeWhile (· != 0x29)) := by
  induction pre with
  | nil =>
    refine ⟨[], ?_⟩
    rw [List.nil_append, List.count_nil, List.nil_append]
    induction s with
    | nil => rfl
    | cons b s ih =>
      by_cases hb : b = 0x29
      · subst hb; simp [definitionParts]
      · rw [definitionParts, if_neg hb, List.takeWhile_cons, if_pos (by simpa using hb)]
        cases hd : definitionParts s with
        | nil => rw [hd] at ih; cases ih
        | cons p ps =>
          rw [hd] at ih
          simp only [List.getElem?_cons_zero, Option.some.injEq] at ih ⊢
          rw [ih]
  | cons b pre ih =>
    obtain ⟨l, ih⟩ := ih
    rw [List.cons_append, definitionParts]
    by_cases hb : b = 0x29
    · subst hb
      rw [if_pos rfl, List.count_cons_self]
      exact ⟨l, by simpa using ih⟩
    · rw [if_neg hb, List.count_cons_of_ne hb]
      cases hd : definitionParts (pre ++ s) with
      | nil => rw [hd] at ih; cases ih
      | cons p ps =>
        rw [hd] at ih
        cases hc : pre.count 0x29 with
        | zero =>
          rw [hc] at ih
          simp only [List.getElem?_cons_zero, Option.some.injEq] at ih
          exact ⟨b :: l, by simp [ih]⟩
        | succ k =>
          rw [hc] at ih
          exact ⟨l, by simpa using ih⟩

theorem behind_nil (w s : Str) (h : ¬ w <:+: s) : behind w s = [] := by
  induction s with
  | nil => rfl
  | cons b s ih =>
    rw [behind, ih fun hi => h (hi.trans (List.suffix_cons b s).isInfix), if_neg]
    · rfl
    · intro hp
      exact h (List.isPrefixOf_iff_prefix.mp hp).isInfix

theorem behind_append (w l s : Str) : ∃ m, behind w (l ++ s) = behind w s ++ m := by
  induction l with
  | nil => exact ⟨[], by simp⟩
  | cons b l ih =>
    obtain ⟨m, hm⟩ := ih
    exact ⟨m ++ if w.isPrefixOf (b :: (l ++ s)) then [(b :: (l ++ s)).drop w.length] else [], by
      rw [List.cons_append, behind, hm, List.append_assoc]⟩

/-- No word of the list ends with a start of itself. -/
theorem linkWords_border : ∀ w ∈ linkWords, ∀ k ∈ List.range w.length, k = 0 ∨ (w.drop k).isPrefixOf w = false := by decide

theorem behind_word (w r : Str) (hw : w ∈ linkWords) (h : ¬ w <:+: r) : behind w (w ++ r) = [r] := by
  obtain ⟨hw0, -⟩ := linkWords_plain w hw
  cases hc : w with
  | nil => exact absurd hc hw0
  | cons b t =>
    rw [List.cons_append, behind, ← List.cons_append, ← hc]
    rw [if_pos (List.isPrefixOf_iff_prefix.mpr (List.prefix_append w r)), List.drop_left]
    rw [behind_nil w (t ++ r)]
    · rfl
    · rintro ⟨x, y, hxy⟩
      rw [List.append_assoc] at hxy
      by_cases hl : t.length ≤ x.length
      · apply h
        have : r = x.drop t.length ++ (w ++ y) := by
          have := congrArg (List.drop t.length) hxy
          rw [List.drop_left, List.drop_append_of_le_length hl] at this
          exact this.symm
        exact ⟨x.drop t.length, y, by rw [this, List.append_assoc]⟩
      · have hlt : x.length < t.length := by omega
        have e : w.drop (x.length + 1) ++ r = w ++ y := by
          rw [hc, List.drop_succ_cons]
          have := congrArg (List.drop x.length) hxy
          rw [List.drop_left, List.drop_append_of_le_length (by omega), hc] at this
          exact this.symm
        have hp : w.drop (x.length + 1) <+: w := by
          refine List.prefix_of_prefix_length_le (l₃ := w ++ y) ⟨r, e⟩ (List.prefix_append w y) ?_
          rw [List.length_drop]; omega
        rcases linkWords_border w hw (x.length + 1) (by rw [List.mem_range, hc, List.length_cons]; omega) with h | h
        · omega
        · rw [List.isPrefixOf_iff_prefix.mpr hp] at h; cases h

theorem behind_last (w l r : Str) (hw : w ∈ linkWords) (h : ¬ w <:+: r) : (behind w (l ++ (w ++ r))).head? = some r := by
  obtain ⟨m, hm⟩ := behind_append w l (w ++ r)
  rw [hm, behind_word w r hw h]; rfl

theorem mem_behind (w l r : Str) (hw : w ≠ []) : r ∈ behind w (l ++ (w ++ r)) := by
  obtain ⟨m, hm⟩ := behind_append w l (w ++ r)
  rw [hm]
  apply List.mem_append_left
  cases w with
  | nil => exact absurd rfl hw
  | cons b t =>
    rw [List.cons_append, behind, ← List.cons_append,
      if_pos (List.isPrefixOf_iff_prefix.mpr (List.prefix_append (b :: t) r)), List.drop_left]
    exact List.mem_append_right _ List.mem_cons_self

theorem mem_definitionCodes {d w part : Str} {n : Nat} (hw : w ∈ linkWords) (hn : n ≤ 2)
    (hp : (definitionParts d)[n]? = some part) : ∀ c ∈ partCodes w part, c ∈ definitionCodes d := by
  intro c hc
  unfold definitionCodes
  refine List.mem_flatMap.mpr ⟨w, hw, List.mem_flatMap.mpr ⟨part, ?_, hc⟩⟩
  rw [List.mem_iff_getElem?]
  exact ⟨n, by rw [List.getElem?_take, if_pos (by omega), hp]⟩

theorem Announced.announces {d w pre fill text post : Str} (h : Announced d w pre fill text post) : announces d = true := by
  have := mem_behind w pre (fill ++ (text ++ post)) (linkWords_plain w h.word).1
  unfold Spec.announces
  rw [List.any_eq_true]
  refine ⟨w, h.word, ?_⟩
  rw [List.any_eq_true]
  refine ⟨_, by rw [h.eq]; simpa [List.append_assoc] using this, ?_⟩
  have hb := h.blank
  cases hf : fill with
  | nil => rw [hf] at hb; simp at hb
  | cons b t => rw [hf] at hb; simpa using hb

/-- The code of one part is in the definition, so there is a link. -/
theorem link_of_code (first all : List UcdXml) (es fs : List UcdEntry) (h1 : AllRecords first es) (h2 : AllRecords all fs)
    (hn : (fs.map UcdEntry.cp).Nodup) (hq : ∀ e ∈ fs, 0x22 ∉ e.definition) (e : UcdEntry) (he : e ∈ fs) (hs : e.searched = true)
    (c : Str) (hc : c ∈ definitionCodes e.definition) (hr : (readingOf es c).isSome = true) :
    (scriptArrays first (definitionFound all)).readingLink e.cp ≠ [] := by
  rw [scriptArrays_readingLink first es _ h1 e.cp (allRecords_fits all fs h2 e he).cp.1]
  have hne : ∀ d, definitionLink es (definitionFound all) e.cp = some d → d ≠ [] := fun d hd =>
    definitionLink_ne_nil first es _ h1 e.cp d hd
  cases hl : definitionLink es (definitionFound all) e.cp with
  | some d => exact hne d hl
  | none =>
    unfold definitionLink at hl
    cases hm : manualLinks.lookup e.cp with
    | some d => rw [hm] at hl; cases hl
    | none =>
      rw [hm] at hl
      simp only [] at hl
      rw [C197_codes all fs h2 hn hq e he, hs, if_pos rfl, List.find?_eq_none] at hl
      exact absurd hr (hl c hc)

theorem high_other (b : UInt8) (h : 0x80 ≤ b.toNat) : isOther b = true := by
  unfold isOther
  simp [UInt8.le_iff_toNat_le]
  omega

theorem takeWhile_until (p : UInt8 → Bool) (a s : Str) (ha : ∀ b ∈ a, p b = true) (hs : s.head?.any p = false) :
    (a ++ s).takeWhile p = a := by
  rw [List.takeWhile_append_of_pos ha]
  cases s with
  | nil => simp
  | cons b s =>
    have : p b = false := by simpa using hs
    rw [List.takeWhile_cons, this]; simp

theorem dropWhile_until (p : UInt8 → Bool) (a s : Str) (ha : ∀ b ∈ a, p b = true) (hs : s.head?.any p = false) :
    (a ++ s).dropWhile p = s := by
  rw [List.dropWhile_append_of_pos ha]
  cases s with
  | nil => simp
  | cons b s =>
    have : p b = false := by simpa using hs
    rw [List.dropWhile_cons, this]; simp

theorem head_takeWhile (p q : UInt8 → Bool) (s : Str) (h : s.head?.any p = false) : (s.takeWhile q).head?.any p = false := by
  cases s with
  | nil => rfl
  | cons b s =>
    rw [List.takeWhile_cons]
    cases q b with
    | true => exact h
    | false => rfl

/-- The part with the word ends at the next closing bracket. -/
theorem Announced.part_eq {d w pre fill text post : Str} (h : Announced d w pre fill text post) (ht : 0x29 ∉ text) :
    ∃ l, (definitionParts d)[pre.count 0x29]? = some (l ++ (w ++ (fill ++ (text ++ post.takeWhile (· != 0x29))))) := by
  obtain ⟨l, hl⟩ := part_at pre (w ++ (fill ++ (text ++ post)))
  refine ⟨l, ?_⟩
  rw [h.eq]
  simp only [List.append_assoc]
  rw [hl]
  congr 2
  have hne : ∀ s : Str, 0x29 ∉ s → ∀ b ∈ s, (b != 0x29) = true := by
    intro s hs b hb
    rw [bne_iff_ne]
    rintro rfl
    exact hs hb
  rw [List.takeWhile_append_of_pos, List.takeWhile_append_of_pos, List.takeWhile_append_of_pos]
  · exact hne text ht
  · intro b hb
    have := h.between b hb
    rw [bne_iff_ne]
    rintro rfl
    exact absurd this (by decide)
  · intro b hb
    have := (linkWords_plain w h.word).2 b hb
    rw [bne_iff_ne]
    rintro rfl
    exact absurd this (by decide)

/-! ## The property -/

/-- With a kanji that has readings behind the word there is a link, if the word isn't repeated in front of the next
closing bracket. -/
theorem C197_named_partial (first all : List UcdXml) (es fs : List UcdEntry) (h1 : AllRecords first es)
    (h2 : AllRecords all fs) (hn : (fs.map UcdEntry.cp).Nodup) (hq : ∀ e ∈ fs, 0x22 ∉ e.definition)
    (e : UcdEntry) (he : e ∈ fs) (hm : e.marks = 0) (w pre fill : Str) (cs : List Char) (post : Str)
    (h : Named e.definition w pre fill cs post) (hc : ∃ c ∈ cs, (readingOf es (charCode c)).isSome = true)
    (ho : ¬ w <:+: fill ++ (cs.flatMap String.utf8EncodeChar ++ post.takeWhile (· != 0x29))) :
    (scriptArrays first (definitionFound all)).readingLink e.cp ≠ [] := by
  obtain ⟨ha, h128, hp⟩ := h
  obtain ⟨c, hcm, hr⟩ := hc
  have htext : cs.flatMap String.utf8EncodeChar = (cs.map Char.toNat).flatMap enc := by
    rw [List.flatMap_map]
    exact flatMap_on fun c _ => utf8EncodeChar_eq_enc c
  have hhigh : ∀ b ∈ cs.flatMap String.utf8EncodeChar, isOther b = true := by
    intro b hb
    obtain ⟨x, hx, hb⟩ := List.mem_flatMap.mp hb
    rw [utf8EncodeChar_eq_enc] at hb
    exact high_other b (enc_high x.toNat (by have := h128 x hx; omega) b hb)
  have h29 : 0x29 ∉ cs.flatMap String.utf8EncodeChar := fun hb => absurd (hhigh _ hb) (by decide)
  obtain ⟨l, hl⟩ := ha.part_eq h29
  have hs : e.searched = true := by
    unfold UcdEntry.searched
    rw [ha.announces, hm]; rfl
  refine link_of_code first all es fs h1 h2 hn hq e he hs (charCode c) (mem_definitionCodes ha.word ha.part hl _ ?_) hr
  have hfirst : (cs.flatMap String.utf8EncodeChar ++ post.takeWhile (· != 0x29)).head?.any isBetween = false ∧
      (cs.flatMap String.utf8EncodeChar ++ post.takeWhile (· != 0x29)).head?.any isOther = true := by
    cases hx : cs.flatMap String.utf8EncodeChar with
    | nil =>
      exfalso
      rw [List.flatMap_eq_nil_iff] at hx
      have := hx c hcm
      rw [utf8EncodeChar_eq_enc] at this
      exact enc_ne_nil _ this
    | cons b t =>
      rw [hx] at hhigh
      have hb := hhigh b List.mem_cons_self
      refine ⟨?_, by simpa using hb⟩
      simp only [List.cons_append, List.head?_cons, Option.any_some]
      unfold isOther at hb
      unfold isBetween
      simp [UInt8.le_iff_toNat_le, ← UInt8.toNat_inj] at hb ⊢
      omega
  have haf : afterFill (fill ++ (cs.flatMap String.utf8EncodeChar ++ post.takeWhile (· != 0x29))) =
      cs.flatMap String.utf8EncodeChar ++ post.takeWhile (· != 0x29) :=
    dropWhile_until _ _ _ ha.between hfirst.1
  unfold partCodes namedCharacters
  rw [if_pos (List.any_eq_true.mpr ⟨_, mem_behind w l _ (linkWords_plain w ha.word).1, by rw [haf]; exact hfirst.2⟩),
    behind_last w l _ ha.word ho, Option.map_some, haf,
    takeWhile_until _ _ _ hhigh (head_takeWhile isOther _ post hp), htext]
  apply List.mem_append_left
  simp only []
  rw [fromUtf8_decode, decode_of_decodes (flatMap_enc_no_zero fun c hc => by
      obtain ⟨x, hx, rfl⟩ := List.mem_map.mp hc
      have := h128 x hx
      omega)
    (decodes_flatMap fun c hc => by
      obtain ⟨x, hx, rfl⟩ := List.mem_map.mp hc
      exact char_isScalar x)]
  exact List.mem_map.mpr ⟨c.toNat, List.mem_map_of_mem hcm, rfl⟩

/-- The same for a code like U+9DB4. -/
theorem C197_unicode_partial (first all : List UcdXml) (es fs : List UcdEntry) (h1 : AllRecords first es)
    (h2 : AllRecords all fs) (hn : (fs.map UcdEntry.cp).Nodup) (hq : ∀ e ∈ fs, 0x22 ∉ e.definition)
    (e : UcdEntry) (he : e ∈ fs) (hm : e.marks = 0) (w pre fill code post : Str)
    (h : Announced e.definition w pre fill (u8!"U+" ++ code) post) (hd : ∀ b ∈ code, isCodeDigit b = true)
    (hp : post.head?.any isCodeDigit = false) (hr : (readingOf es code).isSome = true)
    (ho : ¬ w <:+: fill ++ (u8!"U+" ++ code ++ post.takeWhile (· != 0x29))) :
    (scriptArrays first (definitionFound all)).readingLink e.cp ≠ [] := by
  have h29 : 0x29 ∉ u8!"U+" ++ code := by
    intro hb
    rcases List.mem_append.mp hb with hb | hb
    · exact absurd hb (by decide)
    · exact absurd (hd _ hb) (by decide)
  obtain ⟨l, hl⟩ := h.part_eq h29
  have hs : e.searched = true := by
    unfold UcdEntry.searched
    rw [h.announces, hm]; rfl
  refine link_of_code first all es fs h1 h2 hn hq e he hs code (mem_definitionCodes h.word h.part hl _ ?_) hr
  have haf : afterFill (fill ++ (u8!"U+" ++ code ++ post.takeWhile (· != 0x29))) =
      u8!"U+" ++ (code ++ post.takeWhile (· != 0x29)) := by
    rw [List.append_assoc]
    exact dropWhile_until _ _ _ h.between (by simp only [List.cons_append, List.head?_cons, Option.any_some]; decide)
  obtain ⟨m, hmb⟩ := behind_append w l (w ++ (fill ++ (u8!"U+" ++ code ++ post.takeWhile (· != 0x29))))
  unfold partCodes namedCode
  apply List.mem_append_right
  rw [hmb, behind_word w _ h.word ho, List.singleton_append, List.find?_cons, haf]
  have : (u8!"U+").isPrefixOf (u8!"U+" ++ (code ++ post.takeWhile (· != 0x29))) = true :=
    List.isPrefixOf_iff_prefix.mpr (List.prefix_append _ _)
  rw [this]
  simp only [Option.map_some, Option.toList_some, List.mem_singleton]
  rw [haf]
  exact (takeWhile_until _ _ _ hd (head_takeWhile _ _ _ hp)).symm

end KT
