import Verif.Props.StatsReport
import Verif.Props.Furigana
/-!
# The statistics report, headers and totals: C119-C121
-/
namespace KT
open Spec

/-! ## C119: header -/

/-- The counters are shown on a line of their own whenever one of them isn't 0. -/
def C119_statement : Prop :=
  ∀ (file : Str) (files directories : Nat) (st : CountState), 0x0a ∉ file →
    st.replacements ≠ 0 ∨ st.combiningMarks ≠ 0 ∨ st.variants ≠ 0 ∨ st.errors ≠ 0 →
    (headerInfo file files directories st).count 0x0a = 2

/-- Errors only are added to the first line. -/
theorem C119_violated : ¬ C119_statement := by
  intro h
  have := h (u8!"a.txt") 1 0 { errors := 3 } (by decide) (by decide)
  exact absurd this (by decide)

example : headerInfo (u8!"a.txt") 1 0 { errors := 3 } =
    u8!">>> Stats for: 'a.txt' - showing top 5 Kanji per type, Errors: 3\n" := by decide

set_option maxRecDepth 2000 in
/-- The header in all cases: the number of files and directories is shown if greater than 1; the first three counters
are shown if one of them isn't 0, errors are shown if there are any. -/
theorem C119_partial (file : Str) (files directories : Nat) (st : CountState) :
    headerInfo file files directories st =
      u8!">>> Stats for: '" ++ file ++ u8!"'" ++
      (if files ≤ 1 then []
       else if directories ≤ 1 then u8!" (" ++ toDec files ++ u8!" files)"
       else u8!" (" ++ toDec files ++ u8!" files from " ++ toDec directories ++ u8!" directories)") ++
      u8!" - showing top 5 Kanji per type" ++
      (if st.replacements = 0 ∧ st.combiningMarks = 0 ∧ st.variants = 0 then []
       else u8!"\n>>> Furigana Removed: " ++ toDec st.replacements ++ u8!", Combining Marks Replaced: " ++
        toDec st.combiningMarks ++ u8!", Variation Selectors: " ++ toDec st.variants) ++
      (if st.errors = 0 then [] else u8!", Errors: " ++ toDec st.errors) ++ u8!"\n" := by
  have e5 : toDec maxExamples = [0x35] := by decide
  have e1 : files ≤ 1 ↔ ¬ files > 1 := by omega
  have e2 : directories ≤ 1 ↔ ¬ directories > 1 := by omega
  have e3 : (st.replacements ≠ 0 ∨ st.combiningMarks ≠ 0 ∨ st.variants ≠ 0) ↔
      ¬ (st.replacements = 0 ∧ st.combiningMarks = 0 ∧ st.variants = 0) := by omega
  unfold headerInfo
  simp only [e1, e2, e3, e5]
  by_cases hc : st.replacements = 0 ∧ st.combiningMarks = 0 ∧ st.variants = 0
  · rw [if_neg (not_not_intro hc), if_pos hc]
    by_cases hf : files > 1 <;> by_cases hd : directories > 1 <;> by_cases he : st.errors = 0 <;> simp [hf, hd, he]
  · rw [if_pos hc, if_neg hc]
    by_cases hf : files > 1 <;> by_cases hd : directories > 1 <;> by_cases he : st.errors = 0 <;> simp [hf, hd, he]

/-! ## C120: totals -/

/-- The last line: the total of the first five categories and the shares of Hiragana, Katakana (if there are any) and
Kanji (the three categories of kanji together). -/
theorem C120_text (percent : Nat → Nat → Nat → Str) (h k c r n p s l u : Nat) :
    totalLine percent (predNames.zip [h, k, c, r, n, p, s, l, u]) =
      let kanji := c + r + n
      let total := h + k + kanji
      u8!">>> Total Kana+Kanji: " ++ toDec total ++
      (if total = 0 then []
       else u8!" (" ++ (if h = 0 then [] else u8!"Hiragana: " ++ percent 1 h total ++ u8!"%, ") ++
         (if k = 0 then [] else u8!"Katakana: " ++ percent 1 k total ++ u8!"%, ") ++
         u8!"Kanji: " ++ percent 1 kanji total ++ u8!"%)") ++ u8!"\n" := by
  have i1 : predIsKanji (u8!"Hiragana") = false := by decide
  have i2 : predIsKanji (u8!"Katakana") = false := by decide
  have i3 : predIsKanji (u8!"Common Kanji") = true := by decide
  have i4 : predIsKanji (u8!"Rare Kanji") = true := by decide
  have i5 : predIsKanji (u8!"Non-UCD Kanji") = true := by decide
  have e : h + k + c + r + n = h + k + (c + r + n) := by omega
  simp only [totalLine, predNames, includeInTotals, List.zip_cons_cons, List.take_succ_cons, List.take_zero,
    List.foldl_cons, List.foldl_nil, i1, i2, i3, i4, i5, Nat.zero_add, e]
  generalize h + k + (c + r + n) = total
  by_cases ht : total = 0
  · simp [ht]
  · by_cases hh : h = 0 <;> by_cases hk : k = 0 <;> simp [ht, hh, hk]

/-- A character is in exactly one of the first five categories if it is Hiragana, Katakana or Kanji, in none of them
otherwise. -/
theorem C120_once (ucd : Str → Bool) (x : Str) :
    ((statCategories ucd x).take 5).count true = if isHiragana x || isKatakana x || isKanji x then 1 else 0 := by
  simp only [statCategories, List.take_succ_cons, List.take_zero]
  unfold isHiragana isKatakana isCommonKanji isRareKanji isKanji
  simp only [inWCharRange_wcharOf]
  cases wcharOf x with
  | none => rfl
  | some a =>
    have key : ∀ p q r s u : Bool, [p, q, r, s].count true ≤ 1 →
        [p || false, q || false, (r || false) && u, (s || false) && u, (r || (s || false)) && !u].count true =
          if (p || false) || (q || false) || (r || (s || false)) then 1 else 0 := by decide
    have h := blocks_disjoint a
    refine key _ _ _ _ (ucd x) (Nat.le_trans ?_ h)
    simp only [List.count_cons, List.count_nil]
    omega

/-- What is counted by one of the categories in a text without Furigana. -/
def categoryTotal (calls : List (Str × Option Str)) (allow : Str → Bool) : Nat :=
  match CountState.addAll none allow {} calls with
  | some (st, _) => predTotal st.map
  | none => 0

theorem categoryTotal_eq (calls : List (Str × Option Str)) (allow : Str → Bool) :
    categoryTotal calls allow = (calls.flatMap fun c => charsOf none c.1).countP allow := by
  obtain ⟨st, h1, h2, -⟩ := C50_counts none allow calls
  rw [categoryTotal, h1]
  show predTotal st.map = _
  rw [predTotal, foldl_add_sum, Nat.zero_add, h2, countedChars]
  clear h1 h2
  induction calls with
  | nil => rfl
  | cons c calls ih =>
    rw [List.flatMap_cons, List.length_append, ih, List.flatMap_cons, List.countP_append]
    simp [List.countP_eq_length_filter]

/-- The total shown is the number of characters that are Hiragana, Katakana or Kanji. -/
theorem C120_total (ucd : Str → Bool) (calls : List (Str × Option Str)) :
    categoryTotal calls isHiragana + categoryTotal calls isKatakana +
      categoryTotal calls (fun x => isCommonKanji x && ucd x) + categoryTotal calls (fun x => isRareKanji x && ucd x) +
      categoryTotal calls (fun x => isKanji x && !ucd x) =
    (calls.flatMap fun c => charsOf none c.1).countP fun x => isHiragana x || isKatakana x || isKanji x := by
  simp only [categoryTotal_eq]
  generalize (calls.flatMap fun c => charsOf none c.1) = l
  induction l with
  | nil => rfl
  | cons x l ih =>
    have := C120_once ucd x
    simp only [statCategories, List.take_succ_cons, List.take_zero, List.count_cons, List.count_nil, beq_iff_eq] at this
    simp only [List.countP_cons]
    omega

/-! ## C121: files shown for characters -/

/-- The file shown is the first one with the highest count. -/
theorem C121_highest (tags : List (Str × Nat)) (h : ∃ t ∈ tags, 0 < t.2) :
    ∃ before n after, tags = before ++ (highestTag tags, n) :: after ∧ 0 < n ∧
      (∀ t ∈ before, t.2 < n) ∧ (∀ t ∈ after, t.2 ≤ n) := by
  have key : ∀ (tags : List (Str × Nat)) (b : Nat × Str),
      let r := tags.foldl (fun (best : Nat × Str) j => if j.2 > best.1 then (j.2, j.1) else best) b
      (r = b ∧ ∀ t ∈ tags, t.2 ≤ b.1) ∨
      ∃ before after, tags = before ++ (r.2, r.1) :: after ∧ b.1 < r.1 ∧
        (∀ t ∈ before, t.2 < r.1) ∧ (∀ t ∈ after, t.2 ≤ r.1) := by
    intro tags
    induction tags with
    | nil => intro b; exact .inl ⟨rfl, by simp⟩
    | cons t tags ih =>
      intro b
      rw [List.foldl_cons]
      by_cases hb : t.2 > b.1
      · rw [if_pos hb]
        rcases ih (t.2, t.1) with ⟨h1, h2⟩ | ⟨before, after, h1, h2, h3, h4⟩
        · exact .inr ⟨[], tags, by rw [h1]; rfl, by rw [h1]; exact hb, by simp, by rw [h1]; exact h2⟩
        · refine .inr ⟨t :: before, after, congrArg (List.cons t) h1, by simp only at h2; omega, ?_, h4⟩
          intro x hx
          rcases List.mem_cons.mp hx with rfl | hx
          · exact h2
          · exact h3 x hx
      · rw [if_neg hb]
        rcases ih b with ⟨h1, h2⟩ | ⟨before, after, h1, h2, h3, h4⟩
        · refine .inl ⟨h1, ?_⟩
          intro x hx
          rcases List.mem_cons.mp hx with rfl | hx
          · omega
          · exact h2 x hx
        · refine .inr ⟨t :: before, after, congrArg (List.cons t) h1, h2, ?_, h4⟩
          intro x hx
          rcases List.mem_cons.mp hx with rfl | hx
          · omega
          · exact h3 x hx
  rcases key tags (0, []) with ⟨_, h2⟩ | ⟨before, after, h1, h2, h3, h4⟩
  · obtain ⟨t, ht, hp⟩ := h
    have := h2 t ht
    simp only at this
    omega
  · exact ⟨before, _, after, h1, h2, h3, h4⟩

/-- Nothing is shown for a category without characters; otherwise the first line has the total and the number of
different characters. -/
theorem C121_shown (percent : Nat → Nat → Nat → Str) (name : Str) (b : Bool) (tags : Str → Option (List (Str × Nat)))
    (l : List StatCount) :
    predText percent name b tags 0 l = [] ∧
    ∀ total, total ≠ 0 → totalAndUnique name total l.length <+: predText percent name b tags total l := by
  refine ⟨by simp [predText], ?_⟩
  intro total ht
  simp only [predText, if_neg ht, List.append_assoc]
  exact List.prefix_append _ _

/-- The breakdown has one line for each character in the order of the set, with ranks from 1. -/
theorem C121_ranks (b : Bool) (tags : Str → Option (List (Str × Nat))) (l : List StatCount) :
    (breakdownLines b tags l).length = l.length ∧
    ∀ (i : Nat) (h : i < l.length),
      (breakdownLines b tags l)[i]? = some (breakdownLine b tags (i + 1) l[i]) := by
  refine ⟨by simp [breakdownLines], ?_⟩
  intro i h
  simp [breakdownLines, h, Nat.add_comm]

/-! Examples of tests/stats/StatsTest.cpp (ShowBreakdown) with the percentages shown there. -/

def testPercent (_ amount total : Nat) : Str :=
  match amount, total with
  | 6, 7 => u8!"85.71"
  | 1, 7 => u8!"14.29"
  | 2, 12 => u8!"16.7"
  | 1, 12 => u8!"8.3"
  | 9, 12 => u8!"75.0"
  | _, _ => u8!"100.0"

def testCounts : List StatCount :=
  let k (type : KanjiType) (s : Str) (f : UInt16) (l : JlptLevel) : Option Kanji :=
    some { witnessKanji type s f with level := some l }
  [⟨3, u8!"南", k .jouyou (u8!"南") 341 .n5⟩, ⟨2, u8!"西", k .jouyou (u8!"西") 259 .n5⟩,
   ⟨1, u8!"東", k .jouyou (u8!"東") 37 .n5⟩, ⟨1, u8!"巽", k .jinmei (u8!"巽") 2061 .n1⟩]

example : predText testPercent (u8!"Hiragana") true (fun _ => none) 2 [⟨2, u8!"あ", none⟩] =
    u8!">>>         Hiragana:      2, unique:    1\n" := by decide +kernel

example : totalAndUnique (u8!"Common Kanji") 7 4 = u8!">>>     Common Kanji:      7, unique:    4" := by decide +kernel

example : typeLines testPercent 7 testCounts =
    [u8!">>>        [Jouyou] :      6, unique:    3,  85.71%  (南 3, 西 2, 東 1)\n",
     u8!">>>        [Jinmei] :      1, unique:    1,  14.29%  (巽 1)\n"] := by decide +kernel

example : breakdownHeading (u8!"Common Kanji") true =
    u8!">>> Showing Breakdown for 'Common Kanji':\n  Rank  [Val Num] Freq, LV, Type\n" := by decide +kernel

example : breakdownLines true (fun _ => none) testCounts =
    [u8!"  1     [南    3]  341, N5, Jouyou\n",
     u8!"  2     [西    2]  259, N5, Jouyou\n",
     u8!"  3     [東    1]   37, N5, Jouyou\n",
     u8!"  4     [巽    1] 2061, N1, Jinmei\n"] := by decide +kernel

example : rareExamples [⟨1, u8!"𫞉", some (witnessKanji .ucd (u8!"𫞉"))⟩] = u8!"           (𫞉 1)\n" := by decide +kernel

example : breakdownLines true (fun _ => none) [⟨1, u8!"𫞉", some (witnessKanji .ucd (u8!"𫞉"))⟩] =
    [u8!"  1     [𫞉    1]    0, --, Ucd\n"] := by decide +kernel

example : breakdownHeading (u8!"Non-UCD Kanji") true =
    u8!">>> Showing Breakdown for 'Non-UCD Kanji':\n  Rank  [Val Num], Unicode, Highest Count File\n" := by
  decide +kernel

example : breakdownLines true (fun _ => some [(u8!"test.txt", 1)]) [⟨1, u8!"䌶", none⟩] =
    [u8!"  1     [䌶    1],  U+4336, test.txt\n"] := by decide +kernel

example : totalLine testPercent (predNames.zip [2, 1, 7, 1, 1, 0, 0, 0, 0]) =
    u8!">>> Total Kana+Kanji: 12 (Hiragana: 16.7%, Katakana: 8.3%, Kanji: 75.0%)\n" := by decide +kernel

example : totalLine testPercent (predNames.zip [0, 0, 0, 0, 2, 0, 0, 0, 0]) =
    u8!">>> Total Kana+Kanji: 2 (Kanji: 100.0%)\n" := by decide +kernel

example : headerInfo (u8!"sample-data") 5 3 { replacements := 3397 } =
    u8!">>> Stats for: 'sample-data' (5 files from 3 directories) - showing top 5 Kanji per type" ++
    u8!"\n>>> Furigana Removed: 3397, Combining Marks Replaced: 0, Variation Selectors: 0\n" := by decide +kernel

end KT
