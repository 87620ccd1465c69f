import Verif.Props.Jukugo
import Verif.Props.Stats
import Verif.Props.QuizScreen
import Verif.Props.KanaConvert
import Verif.Props.KanaChart
import Verif.Props.Choices
import Verif.Props.Converter
/-!
# More about searching in lines (C51, C62), the order of counts (C49), sources (C85) and letters (C110, C111)

Models: `Verif/Model/Stats.lean`, `Jukugo.lean`, `KanaConvert.lean`, `KanaChart.lean`, `QuizScreen.lean`, `Choice.lean`.
-/
namespace KT
open Spec

/-! ## Searching -/

theorem strFind_first (p : Str) (hp : p ≠ []) (s : Str) :
    (∀ i, strFind p s = some i → p <+: s.drop i ∧ ∀ j, j < i → ¬ p <+: s.drop j) ∧
    (strFind p s = none → ∀ j, ¬ p <+: s.drop j) := by
  have hnil : ∀ j : Nat, ¬ p <+: ([] : Str).drop j := by
    intro j h
    rw [List.drop_nil] at h
    exact hp (List.prefix_nil.1 h)
  induction s with
  | nil =>
    have : p.isPrefixOf [] = false := by cases p with | nil => exact absurd rfl hp | cons => rfl
    rw [strFind, this]
    exact ⟨(by intro i h; cases h), fun _ => hnil⟩
  | cons b s ih =>
    rw [strFind]
    cases hpre : p.isPrefixOf (b :: s) with
    | true =>
      refine ⟨?_, by intro h; cases h⟩
      intro i h
      cases h
      exact ⟨List.isPrefixOf_iff_prefix.1 hpre, by intro j hj; omega⟩
    | false =>
      have h0 : ¬ p <+: b :: s := fun h => by rw [List.isPrefixOf_iff_prefix.2 h] at hpre; cases hpre
      simp only [Bool.false_eq_true, if_false, Option.map_eq_some_iff, Option.map_eq_none_iff]
      refine ⟨?_, ?_⟩
      · rintro i ⟨k, hk, rfl⟩
        obtain ⟨h1, h2⟩ := ih.1 k hk
        refine ⟨h1, ?_⟩
        intro j hj
        cases j with
        | zero => exact h0
        | succ j => exact h2 j (by omega)
      · intro h j
        cases j with
        | zero => exact h0
        | succ j => exact ih.2 h j

theorem strRFind_last (p : Str) (hp : p ≠ []) (s : Str) :
    (∀ i, strRFind p s = some i → p <+: s.drop i ∧ ∀ j, i < j → ¬ p <+: s.drop j) ∧
    (strRFind p s = none → ∀ j, ¬ p <+: s.drop j) := by
  have hnil : ∀ j : Nat, ¬ p <+: ([] : Str).drop j := by
    intro j h
    rw [List.drop_nil] at h
    exact hp (List.prefix_nil.1 h)
  induction s with
  | nil =>
    have : p.isPrefixOf [] = false := by cases p with | nil => exact absurd rfl hp | cons => rfl
    rw [strRFind, this]
    exact ⟨(by intro i h; cases h), fun _ => hnil⟩
  | cons b s ih =>
    rw [strRFind]
    cases hr : strRFind p s with
    | some k =>
      refine ⟨?_, by intro h; cases h⟩
      intro i h
      cases h
      obtain ⟨h1, h2⟩ := ih.1 k hr
      refine ⟨h1, ?_⟩
      intro j hj
      cases j with
      | zero => omega
      | succ j => exact h2 j (by omega)
    | none =>
      have hn := ih.2 hr
      cases hpre : p.isPrefixOf (b :: s) with
      | true =>
        refine ⟨?_, by intro h; cases h⟩
        intro i h
        cases h
        refine ⟨List.isPrefixOf_iff_prefix.1 hpre, ?_⟩
        intro j hj
        cases j with
        | zero => omega
        | succ j => exact hn j
      | false =>
        refine ⟨(by intro i h; cases h), ?_⟩
        intro _ j
        cases j with
        | zero =>
          intro h
          have : p.isPrefixOf (b :: s) = true := List.isPrefixOf_iff_prefix.2 h
          rw [this] at hpre; cases hpre
        | succ j => exact hn j

theorem infix_iff_drop (p s : Str) : p <:+: s ↔ ∃ j, p <+: s.drop j := by
  constructor
  · rintro ⟨a, b, rfl⟩
    exact ⟨a.length, b, by simp [List.append_assoc]⟩
  · rintro ⟨j, b, hb⟩
    exact ⟨s.take j, b, by rw [List.append_assoc, hb, List.take_append_drop]⟩

/-! ## C51: when a line has an unclosed bracket -/

/-- A line has unclosed brackets exactly if there is an open bracket that isn't followed by a closing one. -/
theorem C51_unclosed (line : Str) :
    hasUnclosedBrackets line = true ↔ ∃ a b, line = a ++ u8!"（" ++ b ∧ ¬ u8!"）" <:+: b := by
  have ho := strRFind_last openWideBracket (by decide) line
  have hc := strRFind_last closeWideBracket (by decide) line
  have hlen : openWideBracket.length = 3 := rfl
  -- brackets don't overlap
  have hover : ∀ i j, openWideBracket <+: line.drop i → closeWideBracket <+: line.drop j → j < i ∨ i + 3 ≤ j := by
    intro i j ⟨x, hx⟩ ⟨y, hy⟩
    have h0 : line[i]? = some 0xef ∧ line[i + 1]? = some 0xbc ∧ line[i + 2]? = some 0x88 := by
      have e : ∀ k, (openWideBracket ++ x)[k]? = line[i + k]? := by intro k; rw [hx, List.getElem?_drop]
      exact ⟨(e 0).symm, (e 1).symm, (e 2).symm⟩
    have h1 : line[j]? = some 0xef ∧ line[j + 1]? = some 0xbc ∧ line[j + 2]? = some 0x89 := by
      have e : ∀ k, (closeWideBracket ++ y)[k]? = line[j + k]? := by intro k; rw [hy, List.getElem?_drop]
      exact ⟨(e 0).symm, (e 1).symm, (e 2).symm⟩
    apply Classical.byContradiction
    intro hn
    have : j = i ∨ j = i + 1 ∨ j = i + 2 := by omega
    rcases this with rfl | rfl | rfl
    · rw [h0.2.2] at h1; exact absurd h1.2.2 (by decide)
    · rw [h0.2.1] at h1; exact absurd h1.1 (by decide)
    · rw [h0.2.2] at h1; exact absurd h1.1 (by decide)
  unfold hasUnclosedBrackets
  constructor
  · intro h
    cases hro : strRFind openWideBracket line with
    | none => rw [hro] at h; cases h
    | some o =>
      rw [hro] at h
      obtain ⟨b, hb⟩ := (ho.1 o hro).1
      refine ⟨line.take o, b, ?_, ?_⟩
      · rw [List.append_assoc]
        show line = line.take o ++ (openWideBracket ++ b)
        rw [hb, List.take_append_drop]
      · intro hin
        obtain ⟨j, hj⟩ := (infix_iff_drop _ _).1 hin
        have hb' : b = line.drop (o + 3) := by
          rw [← List.drop_drop, ← hb]
          rfl
        rw [hb', List.drop_drop] at hj
        cases hrc : strRFind closeWideBracket line with
        | none => exact hc.2 hrc _ hj
        | some c =>
          rw [hrc] at h
          have hco : c < o := by simpa using h
          exact (hc.1 c hrc).2 _ (by omega) hj
  · rintro ⟨a, b, rfl, hnb⟩
    have hpos : openWideBracket <+: (a ++ u8!"（" ++ b).drop a.length := by
      rw [List.append_assoc, List.drop_left]; exact ⟨b, rfl⟩
    cases hro : strRFind openWideBracket (a ++ u8!"（" ++ b) with
    | none => exact absurd hpos (ho.2 hro _)
    | some o =>
      have hoa : a.length ≤ o := by
        apply Classical.byContradiction
        intro hlt
        exact (ho.1 o hro).2 a.length (by omega) hpos
      cases hrc : strRFind closeWideBracket (a ++ u8!"（" ++ b) with
      | none => rfl
      | some c =>
        have hcp := (hc.1 c hrc).1
        rcases hover _ _ hpos hcp with h | h
        · simp; omega
        · exfalso
          apply hnb
          rw [infix_iff_drop]
          refine ⟨c - (a.length + 3), ?_⟩
          have e : (a ++ u8!"（" ++ b).drop c = b.drop (c - (a.length + 3)) := by
            rw [List.drop_append, List.drop_eq_nil_of_le (by simp; omega)]
            simp
          rw [e] at hcp
          exact hcp

example : hasUnclosedBrackets (u8!"先生（せん") = true := by decide +kernel
example : hasUnclosedBrackets (u8!"先生（せんせい）だ") = false := by decide +kernel

/-! ## C62: lines of the file of other entries -/

/-- A line of the file of other entries has to have three dots; the entries start after the first three dots and one
more character. -/
theorem C62_dots (line : Str) :
    (¬ u8!"..." <:+: line → otherEntries line = .throw .domain) ∧
    (∀ a c b, line = a ++ u8!"..." ++ c :: b → (∀ j, j < a.length → ¬ u8!"..." <+: line.drop j) →
      otherEntries line = .ok (fields 0x20 b)) := by
  obtain ⟨h1, h2⟩ := strFind_first (u8!"...") (by decide) line
  refine ⟨?_, ?_⟩
  · intro hn
    cases hf : strFind (u8!"...") line with
    | none => unfold otherEntries; rw [hf]
    | some i => exact absurd ((infix_iff_drop _ _).2 ⟨i, (h1 i hf).1⟩) hn
  · intro a c b he hfirst
    have hat : u8!"..." <+: line.drop a.length := by
      rw [he, List.append_assoc, List.drop_left]; exact ⟨c :: b, rfl⟩
    have hf : strFind (u8!"...") line = some a.length := by
      cases hf : strFind (u8!"...") line with
      | none => exact absurd hat (h2 hf _)
      | some i =>
        obtain ⟨g1, g2⟩ := h1 i hf
        rcases Nat.lt_trichotomy i a.length with h | h | h
        · exact absurd g1 (hfirst i h)
        · rw [h]
        · exact absurd hat (g2 _ h)
    unfold otherEntries substrFrom
    rw [hf]
    have hl : ¬ a.length + 3 + 1 > line.length := by rw [he]; simp; omega
    simp only [if_neg hl, Res.bind]
    have : line.drop (a.length + 3 + 1) = b := by
      rw [he, List.append_assoc, List.drop_append, List.drop_eq_nil_of_le (by omega)]
      have : a.length + 3 + 1 - a.length = 4 := by omega
      rw [this]
      rfl
    rw [this]

example : otherEntries (u8!"山 ... 山(やま)") = .ok [u8!"山(やま)"] := by decide +kernel

/-! ## C49: where kanji that aren't known are put -/

/-- With equal counts a kanji that is loaded comes before one that isn't. -/
theorem C49_known (m : UInt16) (hm : m.toNat < 65535) (a x : StatCount) (hc : a.count = x.count) (k : Kanji)
    (ha : a.entry = some k) (hk : k.frequency.toNat ≤ m.toNat) (hx : x.entry = none) :
    a.lt m x = true ∧ x.lt m a = false := by
  have hs : (m + 1).toNat = m.toNat + 1 := u16_succ m (by omega)
  have hfa : (a.frequency m).toNat ≤ m.toNat := by
    unfold StatCount.frequency
    rw [ha]
    show (if k.frequency ≠ 0 then k.frequency else m).toNat ≤ _
    split
    · exact hk
    · exact Nat.le_refl _
  have hfx : (x.frequency m).toNat = m.toNat + 1 := by unfold StatCount.frequency; rw [hx]; exact hs
  have hlt : a.frequency m < x.frequency m := by rw [UInt16.lt_iff_toNat_lt]; omega
  have hnlt : ¬ x.frequency m < a.frequency m := by rw [UInt16.lt_iff_toNat_lt]; omega
  have hne : x.frequency m ≠ a.frequency m := by intro h; rw [h] at hfx; omega
  have ht : x.type ≠ a.type := by
    unfold StatCount.type
    rw [ha, hx]
    show kanjiTypeRank none ≠ kanjiTypeRank (some k.type)
    generalize k.type = t
    cases t <;> decide
  refine ⟨by simp [StatCount.lt, hc, hlt], ?_⟩
  simp [StatCount.lt, hc, hnlt, hne, ht]

/-- With equal counts a kanji with a frequency comes before one of the same kind of entry that has none, if the
frequency is lower than the maximum. -/
theorem C49_ranked (m : UInt16) (a x : StatCount) (hc : a.count = x.count) (k j : Kanji)
    (ha : a.entry = some k) (hk : k.frequency ≠ 0) (hkm : k.frequency.toNat < m.toNat)
    (hx : x.entry = some j) (hj : j.frequency = 0) : a.lt m x = true := by
  have hlt : a.frequency m < x.frequency m := by
    unfold StatCount.frequency
    rw [ha, hx]
    show (if k.frequency ≠ 0 then k.frequency else m) < (if j.frequency ≠ 0 then j.frequency else m)
    rw [if_pos hk, if_neg (by simpa using hj), UInt16.lt_iff_toNat_lt]
    exact hkm
  simp [StatCount.lt, hc, hlt]

/-- Types are ordered as they are declared, with kanji that aren't loaded last. -/
theorem C49_types : [some KanjiType.jouyou, some .jinmei, some .linkedJinmei, some .linkedOld, some .frequency,
    some .extra, some .kentei, some .ucd, none].map kanjiTypeRank = List.range 9 := by decide

/-! ## C85: a given source -/

/-- With a given source only text of that script is converted: text without its letters is unchanged, even if it is
kana of the other script. -/
theorem C85_source (st : ConvState) (t : CharType) (hs : st.source = some t) (ht : t ≠ .romaji) (cs : List Char)
    (h : ∀ x ∈ cs, Simple x ∧ ¬ IsLetter (t == .katakana) x ∧ ¬ IsIterationMark (t == .katakana) x ∧
      (st.converter.target = .romaji → wideDelimFind (String.utf8EncodeChar x) = none)) :
    st.convert (utf8Encode cs) = .ok (utf8Encode cs) := by
  unfold ConvState.convert
  rw [hs]
  exact C28_unchanged st.converter t ht cs h

example : ({ source := some .hiragana, converter := { target := .romaji } } : ConvState).convert (u8!"カあ") =
    .ok (u8!"カa") := by decide +kernel

/-! ## C99: the footer on the terminal -/

/-- The titles of the footer are aligned to the right, with no blank before the longest one. -/
theorem C99_titles : [u8!"Monographs", u8!"Digraphs", u8!"All Kana", u8!"Types"].map (footerTitle false) =
    [u8!"Monographs: ", u8!"  Digraphs: ", u8!"  All Kana: ", u8!"     Types: "] := by decide

/-! ## C34: the quit option -/

/-- The quit option has to be a printable Ascii character. -/
theorem C34_quit (c : UInt8) (d : Str) :
    Choice.setQuit c d = if 32 ≤ c.toNat ∧ c.toNat ≤ 126 then .ok (some (c, d)) else .throw .domain := by
  have h : isPrintable c = true ↔ 32 ≤ c.toNat ∧ c.toNat ≤ 126 := by
    simp only [isPrintable, Bool.not_eq_true', Bool.or_eq_false_iff, decide_eq_false_iff_not, UInt8.not_lt, gt_iff_lt,
      UInt8.le_iff_toNat_le]
    rfl
  unfold Choice.setQuit checkPrintable
  by_cases hc : 32 ≤ c.toNat ∧ c.toNat ≤ 126
  · rw [if_pos hc, h.2 hc]; rfl
  · rw [if_neg hc, if_neg (fun e => hc (h.1 e))]; rfl

/-! ## C110, C111: pattern groups and letters -/

/-- A choice of pattern groups asks the groups of that part of the list that have enough members, whatever the order of
questions is. -/
theorem C110_pattern (t : MemberType) (fromBeginning : Bool) (segs : List (List QuizGroup)) (h6 : segs.length = 6)
    (hstart : ∀ (j : Nat) (p : Str) (s : List QuizGroup), patternGroups[j]? = some p → segs[j + 1]? = some s →
      ∃ g r, s = g :: r ∧ containsStr p g.name = true)
    (hfirst : ∀ (j : Nat) (p : Str) (i : Nat) (s : List QuizGroup), patternGroups[j]? = some p → i ≤ j → segs[i]? = some s →
      ∀ g ∈ s, containsStr p g.name = false) (k : Nat) (hk : k < 6) :
    groupsAsked t (some k) fromBeginning segs.flatten = .ok ((segs[k]).filter (enoughMembers t)) :=
  C80_buckets t segs h6 hstart hfirst k hk

/-- In a quiz the letters shown are the ones that can be chosen, in order, and for up to 26 members each one selects the
member of its line; in a review there are none. -/
theorem C111_letters (n : Nat) :
    (List.range n).map (lineLetter true) = lettersFor true n ∧
    (∀ (readings : List QuizMember) (i : Nat) (h : i < readings.length), readings.length ≤ 26 →
      selectedMember readings (lineLetter true i) = .ok readings[i]) ∧
    (∀ i, lineLetter false i = 0x20) := by
  refine ⟨rfl, ?_, fun _ => rfl⟩
  intro readings i h h26
  rw [show lineLetter true i = groupLetter i from rfl, C53_select_partial readings (by omega) i h, if_pos (by omega)]

end KT
