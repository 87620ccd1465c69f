import Verif.Lemmas.Utf8CharText
/-!
# C33, C64, C69, C70: iterating over the characters of a string

Specification: `Verif/Spec/Kana.lean`.  Model: `Verif/Model/Utf8Char.lean`.
-/
namespace KT
open Spec

/-! ## C33: iteration -/

/-- Every byte string has exactly one reading as tokens. -/
theorem C33_reading (s : Str) : ∃ ts, Tokens s ts ∧ ∀ ts', Tokens s ts' → ts' = ts := by
  obtain ⟨ts, h⟩ := tokens_exists s
  exact ⟨ts, h, fun ts' h' => tokens_unique h' h⟩

/-- Iterating over any byte string ends, never reads outside of the buffer, and delivers exactly the
pieces of its reading; the three counters are exact. -/
theorem C33_iteration (s : Str) (onlyMB : Bool) (ts : List Token) (h : Tokens s ts) :
    ∃ st', utf8Chars s onlyMB = some (pieces onlyMB ts, st') ∧
      st'.errors = (counts ts).errors ∧ st'.variants = (counts ts).variants ∧
      st'.combiningMarks = (counts ts).marks := utf8Chars_tokens onlyMB h

/-- At any point of an iteration `peek` shows what `next` will return (for any state whose location
is in a buffer, without changing it: `peek` has no resulting state). -/
theorem C33_peek (st : Utf8CharState) (s : Str) (hl : st.loc = s ++ [0]) (onlyMB : Bool) :
    ∃ r st', st.next onlyMB = some (r, st') ∧ st.peek onlyMB = some r := by
  obtain ⟨ts, h⟩ := tokens_exists s
  obtain ⟨r, st', h1, _⟩ := nextLoop_tokens onlyMB h st.loc.length st.errors st.variants
    st.combiningMarks (by rw [hl]; simp)
  rw [← hl] at h1
  exact ⟨r, st', h1, peekLoop_eq onlyMB _ _ _ _ h1⟩

/-- The pieces of well-formed text, put together, are the text (its multi-byte characters if `onlyMB`
is set) after merging combining marks. -/
theorem C33_partition (cs : List Char) (h0 : ∀ c ∈ cs, c.toNat ≠ 0) (onlyMB : Bool) :
    ∃ ps st', utf8Chars (utf8Encode cs) onlyMB = some (ps, st') ∧
      ps.flatten =
        utf8Encode ((merge cs).filter (shown onlyMB)) := by
  obtain ⟨st', h, _⟩ := utf8Chars_tokens onlyMB (tokens_utf8Encode cs h0)
  exact ⟨_, st', h, pieces_flatten onlyMB cs⟩

/-- Without marks and stray selectors the pieces are the text itself, nothing is an error. -/
theorem C33_partition_plain (cs : List Char) (h0 : ∀ c ∈ cs, c.toNat ≠ 0) (hp : Plain cs) :
    ∃ ps st', utf8Chars (utf8Encode cs) false = some (ps, st') ∧ ps.flatten = utf8Encode cs ∧
      st'.errors = 0 := by
  obtain ⟨st', h, he, _⟩ := utf8Chars_tokens false (tokens_utf8Encode cs h0)
  refine ⟨_, st', h, ?_, ?_⟩
  · rw [show (cs.map fun c => if c.toNat < 128 then Token.ascii (UInt8.ofNat c.toNat) else .char c) =
      textTokens cs from rfl, pieces_flatten false cs, merge_plain cs hp, List.filter_eq_self.mpr (by simp [shown])]
  · rw [he]; exact counts_plain cs hp

/-- Each piece is one character, or one multi-byte character with a variation selector. -/
theorem C33_pieces (s : Str) (onlyMB : Bool) (ps : List Str) (st' : Utf8CharState)
    (h : utf8Chars s onlyMB = some (ps, st')) :
    ∀ p ∈ ps, (∃ b : UInt8, b.toNat < 128 ∧ b ≠ 0 ∧ p = [b] ∧ onlyMB = false) ∨
      (∃ c : Char, 128 ≤ c.toNat ∧ ¬ IsSelector c ∧ ¬ IsKanaMark c ∧
        (p = String.utf8EncodeChar c ∨
          ∃ v : Char, IsSelector v ∧ p = String.utf8EncodeChar c ++ String.utf8EncodeChar v)) := by
  obtain ⟨ts, ht⟩ := tokens_exists s
  obtain ⟨st2, h2, _⟩ := utf8Chars_tokens onlyMB ht
  rw [h2] at h
  simp only [Option.some.injEq, Prod.mk.injEq] at h
  rw [← h.1]
  exact pieces_shape onlyMB ht

-- は + U+3099 is ば; a Kanji keeps its selector; ゝ + U+3099 loses the mark
example : (utf8Chars [0xe3, 0x81, 0xaf, 0xe3, 0x82, 0x99, 0x61, 0xe9, 0x80, 0xa3, 0xef, 0xb8, 0x80]
      false).map (·.1) =
    some [[0xe3, 0x81, 0xb0], [0x61], [0xe9, 0x80, 0xa3, 0xef, 0xb8, 0x80]] := by decide +kernel
example : merge ['は', Char.ofNat 0x3099, 'ゝ', Char.ofNat 0x3099, 'a'] = ['ば', 'ゝ', 'a'] := by
  decide +kernel
example : Plain ['大', Char.ofNat 0xfe00, 'a', 'か'] := by simp [Plain, IsSelector, IsKanaMark]
/-- Malformed bytes are skipped one by one and counted. -/
example : (utf8Chars [0xff, 0xe3, 0x81, 0x61] false).map (fun r => (r.1, r.2.errors)) =
    some ([[0x61]], 3) := by decide +kernel

/-! ## C64: variation selectors -/

/-- The documented meaning: one multi-byte character followed by a variation selector. -/
def CharWithSelector (s : Str) : Prop :=
  ∃ c v : Char, 128 ≤ c.toNat ∧ IsSelector v ∧
    s = String.utf8EncodeChar c ++ String.utf8EncodeChar v

def C64_statement : Prop :=
  ∀ s : Str, isCharWithVariationSelector s = some true ↔ CharWithSelector s

/-- Two Ascii letters followed by a selector are accepted as well. -/
theorem C64_violated : ¬ C64_statement := by
  intro h
  obtain ⟨c, v, hc, hv, he⟩ := (h [0x61, 0x61, 0xef, 0xb8, 0x80]).mp (by decide)
  obtain ⟨b, t, hbt, hb, _⟩ := encodeChar_first hc
  rw [hbt] at he
  simp only [List.cons_append, List.cons.injEq] at he
  rw [← he.1] at hb
  exact absurd hb (by decide)

/-- What the function decides, on every string: 2 to 4 bytes of any kind, then a variation selector. -/
theorem C64_decides (s : Str) :
    (∃ b, isCharWithVariationSelector s = some b) ∧
    (isCharWithVariationSelector s = some true ↔
      ∃ (p : Str) (v : Char), IsSelector v ∧ 2 ≤ p.length ∧ p.length ≤ 4 ∧
        s = p ++ String.utf8EncodeChar v) := ⟨isCharWith_total s, isCharWith_iff s⟩

/-- The statement holds for the pieces that an iteration delivers (the strings it is called with when
reading text), and a character with a selector is always recognised. -/
theorem C64_pieces_partial (s : Str) (onlyMB : Bool) (ps : List Str) (st' : Utf8CharState)
    (h : utf8Chars s onlyMB = some (ps, st')) :
    (∀ p ∈ ps, isCharWithVariationSelector p = some true ↔ CharWithSelector p) ∧
    (∀ t, CharWithSelector t → isCharWithVariationSelector t = some true) := by
  have hall : ∀ t, CharWithSelector t → isCharWithVariationSelector t = some true := by
    rintro t ⟨c, v, hc, hv, rfl⟩
    exact (isCharWith_iff _).mpr ⟨_, v, hv, (encodeChar_length hc).1, (encodeChar_length hc).2, rfl⟩
  refine ⟨?_, hall⟩
  intro p hp
  refine ⟨?_, hall p⟩
  intro hw
  obtain ⟨q, v, hv, hq1, hq2, he⟩ := (isCharWith_iff _).mp hw
  have hl := congrArg List.length he
  rw [List.length_append, selector_length hv] at hl
  rcases C33_pieces s onlyMB ps st' h p hp with ⟨b, _, _, hb, _⟩ | ⟨c, hc, hs, hk, rfl | ⟨w, hw', hpw⟩⟩
  · rw [hb] at hl; simp only [List.length_cons, List.length_nil] at hl; omega
  · have := (encodeChar_length hc).2; omega
  · exact ⟨c, w, hc, hw', hpw⟩

/-- `noVariationSelector` removes exactly the selector. -/
theorem C64_remove (c v : Char) (hc : 128 ≤ c.toNat) (hv : IsSelector v) :
    noVariationSelector (String.utf8EncodeChar c ++ String.utf8EncodeChar v) =
      some (String.utf8EncodeChar c) ∧
    noVariationSelector (String.utf8EncodeChar c) = some (String.utf8EncodeChar c) := by
  have h1 : isCharWithVariationSelector (String.utf8EncodeChar c ++ String.utf8EncodeChar v) =
      some true :=
    (isCharWith_iff _).mpr ⟨_, v, hv, (encodeChar_length hc).1, (encodeChar_length hc).2, rfl⟩
  have h2 : isCharWithVariationSelector (String.utf8EncodeChar c) = some false := by
    unfold isCharWithVariationSelector varSelectorSize minMBSize
    rw [if_neg (by have := (encodeChar_length hc).2; omega)]
  constructor
  · simp only [noVariationSelector, h1, Option.bind_eq_bind, Option.bind_some, if_true,
      List.length_append, selector_length hv, varSelectorSize]
    rw [show (String.utf8EncodeChar c).length + 3 - 3 = (String.utf8EncodeChar c).length by omega,
      List.take_left]
  · simp only [noVariationSelector, h2, Option.bind_eq_bind, Option.bind_some, Bool.false_eq_true,
      if_false]

example : CharWithSelector [0xe9, 0x80, 0xa3, 0xef, 0xb8, 0x80] :=
  ⟨'連', Char.ofNat 0xfe00, by decide, by decide, by decide⟩

/-! ## C69: first character -/

/-- The documented result: the character at the start (with its selector), or nothing if the string
doesn't start with a multi-byte character. -/
def C69_statement : Prop :=
  ∀ (c : Char) (s : Str), 128 > c.toNat → c.toNat ≠ 0 →
    getFirst (String.utf8EncodeChar c ++ s) = some []

/-- Leading Ascii is skipped instead. -/
theorem C69_violated : ¬ C69_statement := by
  intro h
  exact absurd (h 'a' [0xe5, 0xa4, 0xa7] (by decide) (by decide)) (by decide +kernel)

/-- The result is the first multi-byte piece of the string, wherever it is. -/
theorem C69_first_piece (s : Str) (ts : List Token) (h : Tokens s ts) :
    getFirst s = some ((pieces true ts).head?.getD []) := by
  obtain ⟨r, st', h1, s', ts', _, _, _, h5, _⟩ :=
    nextLoop_tokens true h (s ++ [0]).length 0 0 0 (by simp)
  have : (Utf8CharState.init s).next = some (r, st') := h1
  unfold getFirst
  rw [this]
  cases r with
  | none => rw [h5.1]; rfl
  | some x => rw [h5.1]; rfl

/-- For text that starts with a multi-byte character other than a mark the statement holds. -/
theorem C69_first_partial (c : Char) (cs : List Char) (hc : 128 ≤ c.toNat) (hs : ¬ IsSelector c)
    (hk : ¬ IsKanaMark c) (h0 : ∀ x ∈ cs, x.toNat ≠ 0) :
    getFirst (utf8Encode (c :: cs)) = some (match cs with
      | v :: _ =>
        if IsSelector v then String.utf8EncodeChar c ++ String.utf8EncodeChar v
        else match compose c.toNat v.toNat with
          | some d => String.utf8EncodeChar (Char.ofNat d)
          | none => String.utf8EncodeChar c
      | [] => String.utf8EncodeChar c) := by
  have hm : ¬ (IsSelector c ∨ IsKanaMark c) := fun h => h.elim hs hk
  rw [C69_first_piece _ _ (tokens_utf8Encode (c :: cs) (by
    intro x hx
    simp only [List.mem_cons] at hx
    rcases hx with rfl | hx
    · omega
    · exact h0 x hx))]
  rw [show ((c :: cs).map fun c => if c.toNat < 128 then Token.ascii (UInt8.ofNat c.toNat) else .char c)
    = textTokens (c :: cs) from rfl, textTokens_char hc]
  rcases char_cases cs with ⟨v, cs', rfl, hv⟩ | ⟨v, cs', rfl, hv⟩ | h
  · rw [textTokens_char (selector_ge hv), pieces.eq_4]
    simp [hm, hv]
  · have hsv : ¬ IsSelector v := fun h => selector_not_mark h hv
    rw [textTokens_char (mark_ge hv), pieces.eq_4]
    simp [hm, hsv, hv]
    rfl
  · rw [pieces_other true hm (by
      intro v ts' he
      obtain ⟨cs', hcs, _⟩ := textTokens_next he
      exact h v cs' hcs)]
    cases cs with
    | nil => rfl
    | cons v cs =>
      obtain ⟨h1, h2⟩ := h v cs rfl
      have hn : compose c.toNat v.toNat = none := by
        unfold IsKanaMark at h2
        unfold compose
        rw [if_neg (by omega), if_neg (by omega)]
      simp [h1, hn]

/-! ## C70: size -/

/-- For well-formed text `size` is the number of characters that are neither variation selectors nor
combining marks, which is the number of pieces that iterating delivers. -/
theorem C70_size (cs : List Char) (h0 : ∀ c ∈ cs, c.toNat ≠ 0) (onlyMB : Bool) :
    utf8Size (utf8Encode cs) onlyMB =
      some (cs.filter (counted onlyMB)).length ∧
    ∃ ps st', utf8Chars (utf8Encode cs) onlyMB = some (ps, st') ∧
      utf8Size (utf8Encode cs) onlyMB = some ps.length := by
  have h : utf8Size (utf8Encode cs) onlyMB =
      some (cs.filter (counted onlyMB)).length := by
    have := sizeLoop_text onlyMB [] cs h0 ((utf8Encode cs).length + 1) 0 (by omega)
    rw [Nat.zero_add] at this
    exact this
  refine ⟨h, ?_⟩
  obtain ⟨st', h', _⟩ := utf8Chars_tokens onlyMB (tokens_utf8Encode cs h0)
  exact ⟨_, st', h', by rw [h]; exact congrArg some (pieces_length onlyMB cs).symm⟩

/-- `size` ends and stays in the buffer for every string, well-formed or not. -/
theorem C70_size_safe (s : Str) (onlyMB : Bool) : ∃ n, utf8Size s onlyMB = some n ∧ n ≤ s.length :=
  utf8Size_safe s onlyMB

example : utf8Size (utf8Encode ['大', 'a', 'か', Char.ofNat 0x3099]) = some 2 ∧
    utf8Size (utf8Encode ['大', 'a', 'か', Char.ofNat 0x3099]) false = some 3 := by decide +kernel
/-- Malformed text: `size` counts start bytes, iterating drops them. -/
example : utf8Size [0xc1, 0xc1] = some 2 ∧ (utf8Chars [0xc1, 0xc1]).map (·.1) = some [] := by
  decide +kernel

end KT
