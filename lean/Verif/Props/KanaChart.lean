import Verif.Model.KanaChart
import Verif.Spec.KanaChartDoc
import Verif.Spec.Digits
import Verif.Props.Kana
import Verif.Props.Table
/-!
# C99: the Kana chart

Model: `Verif/Model/KanaChart.lean`.  The claims are those of the notes that the program writes before the
chart (KanaConvert.cpp:42-63).
-/
namespace KT
open Spec

/-! ## Order -/

theorem kanaInsert_perm (k : Kana) (l : List Kana) : (kanaInsert k l).Perm (k :: l) := by
  induction l with
  | nil => exact .refl _
  | cons j r ih =>
    unfold kanaInsert
    split
    · exact .refl _
    · exact (ih.cons j).trans (.swap k j r)

theorem foldl_kanaInsert (l m : List Kana) : (l.foldl (fun m k => kanaInsert k m) m).Perm (l ++ m) := by
  induction l generalizing m with
  | nil => exact .refl _
  | cons k r ih => exact (ih _).trans (((kanaInsert_perm k m).append_left r).trans List.perm_middle)

/-- The chart lists every kana once, "sorted by Hiragana": by the code points of the letters. -/
theorem C99_order : kanaByHiragana.Perm allKana ∧
    kanaByHiragana.Pairwise (fun a b => decode a.hiragana < decode b.hiragana) := by
  refine ⟨by simpa [kanaByHiragana] using foldl_kanaInsert allKana [], ?_⟩
  decide +kernel

/-! ## Cells -/

/-- What the notes say about a value `x` of the columns 'Hepb' and 'Kunr': the cell is only populated when
`x` differs from the Rōmaji of the kana, and it is in parentheses when typing `x` leads to a different
kana (`x` always leads to some kana). -/
inductive ReadingCell (k : Kana) (x : Str) : Str → Prop where
  | same : x = k.romaji → ReadingCell k x []
  | typed : x ≠ k.romaji → findKana .romaji x = some k → ReadingCell k x x
  | outputOnly (j : Kana) : x ≠ k.romaji → findKana .romaji x = some j → j ≠ k →
      ReadingCell k x (u8!"(" ++ x ++ u8!")")

def readingCellOk (k : Kana) (x : Str) (brackets : Bool) : Bool :=
  x == k.romaji || match findKana .romaji x with
    | some j => brackets == !(j == k)
    | none => false

theorem chart_readings : ∀ k ∈ allKana,
    (∃ x, k.getRomaji { hepburn := true } = some x ∧ readingCellOk k x true = true) ∧
    (∃ x, k.getRomaji { kunrei := true } = some x ∧ readingCellOk k x (!k.rec'.kunreiVariant) = true) := by
  have h : allKana.all (fun k =>
      (match k.getRomaji { hepburn := true } with | some x => readingCellOk k x true | none => false) &&
      (match k.getRomaji { kunrei := true } with
        | some x => readingCellOk k x (!k.rec'.kunreiVariant) | none => false)) = true := by
    decide +kernel
  intro k hk
  have h := List.all_eq_true.mp h k hk
  simp only [Bool.and_eq_true] at h
  obtain ⟨h1, h2⟩ := h
  constructor
  · cases e : k.getRomaji { hepburn := true } with
    | none => rw [e] at h1; cases h1
    | some x => rw [e] at h1; exact ⟨x, rfl, h1⟩
  · cases e : k.getRomaji { kunrei := true } with
    | none => rw [e] at h2; cases h2
    | some x => rw [e] at h2; exact ⟨x, rfl, h2⟩

theorem readingCell_of {k : Kana} {x : Str} {b : Bool} (h : readingCellOk k x b = true) :
    ReadingCell k x (if k.romaji = x then [] else if b then addBrackets x .round else x) := by
  by_cases e : k.romaji = x
  · rw [if_pos e]; exact .same e.symm
  · rw [if_neg e]
    have e' : x ≠ k.romaji := fun h => e h.symm
    simp only [readingCellOk, beq_eq_false_iff_ne.mpr e', Bool.false_or] at h
    cases hf : findKana .romaji x with
    | none => rw [hf] at h; cases h
    | some j =>
      rw [hf] at h
      cases b with
      | true =>
        refine .outputOnly j e' hf ?_
        simpa using h
      | false =>
        have : j = k := by simpa using h
        subst this
        exact .typed e' hf

theorem chartVariants_eq (l : List Str) (vars : Str) (hl : ∀ x ∈ l, x ≠ []) :
    chartVariants l vars = match l with
      | [] => vars
      | x :: r => r.foldl (fun a y => a ++ u8!", " ++ y) ((if vars = [] then [] else vars ++ u8!", ") ++ x) := by
  induction l generalizing vars with
  | nil => rfl
  | cons x r ih =>
    unfold chartVariants
    rw [ih _ (fun y hy => hl y (List.mem_cons_of_mem _ hy))]
    have hx := hl x List.mem_cons_self
    cases r with
    | nil => by_cases e : vars = [] <;> simp [e]
    | cons y r =>
      have hne : ¬ ((if vars = [] then vars else vars ++ u8!", ") ++ x = []) := by
        intro h; exact hx (List.append_eq_nil_iff.mp h).2
      simp only [if_neg hne, List.foldl_cons]
      by_cases e : vars = [] <;> simp [e]

/-- Texts separated by `", "`. -/
def commaList : List Str → Str
  | [] => []
  | [x] => x
  | x :: y :: r => x ++ u8!", " ++ commaList (y :: r)

theorem foldl_commaList (x : Str) (r : List Str) :
    r.foldl (fun a y => a ++ u8!", " ++ y) x = commaList (x :: r) := by
  induction r generalizing x with
  | nil => rfl
  | cons y r ih =>
    rw [List.foldl_cons, ih]
    cases r <;> simp [commaList]

/-- The columns 'HUni' and 'KUni': the code point in hexadecimal for one letter, empty otherwise. -/
def UnicodeCell (letters : List Nat) (cell : Str) : Prop :=
  match letters with
  | [c] => cell.length = 4 ∧ readNumber 16 cell = some c ∧ NoLowerDigits cell
  | _ => cell = []

def unicodeCellOk (letters : List Nat) (cell : Str) : Bool :=
  match letters with
  | [c] => cell.length == 4 && readNumber 16 cell == some c && cell.all (fun b => decide (b.toNat < 0x61))
  | _ => cell.isEmpty

theorem unicodeCell_of {l : List Nat} {cell : Str} (h : unicodeCellOk l cell = true) : UnicodeCell l cell := by
  unfold unicodeCellOk at h
  unfold UnicodeCell
  split at h
  · simp only [Bool.and_eq_true, beq_iff_eq, List.all_eq_true, decide_eq_true_eq] at h
    exact ⟨h.1.1, h.1.2, h.2⟩
  · simpa using h

/-- One row per kana: the type tells voiced and semi-voiced kana by their first letter, Unicode values are
shown for single letters only, the Hepburn and Kunrei cells are as described above, and every variant
leads to the same kana. -/
theorem C99_row (k : Kana) (hk : k ∈ allKana) :
    ∃ type hUni kUni hepburn kunrei variants h' k',
      chartRow k = some [type, k.rec'.romaji, k.rec'.hiragana, k.rec'.katakana, hUni, kUni, hepburn, kunrei, variants] ∧
      (type = if ((kstRow ++ hRow).map (· + 1) ++ [0x3094]).contains (code3 (k.hiragana.take 3)) then u8!"D"
        else if (hRow.map (· + 2)).contains (code3 (k.hiragana.take 3)) then u8!"H" else u8!"P") ∧
      UnicodeCell (decode k.hiragana) hUni ∧ UnicodeCell (decode k.katakana) kUni ∧
      k.getRomaji { hepburn := true } = some h' ∧ ReadingCell k h' hepburn ∧
      k.getRomaji { kunrei := true } = some k' ∧ ReadingCell k k' kunrei ∧
      variants = commaList k.rec'.variants ∧ ∀ v ∈ k.rec'.variants, v ≠ [] ∧ findKana .romaji v = some k := by
  obtain ⟨⟨h', e1, c1⟩, ⟨k', e2, c2⟩⟩ := chart_readings k hk
  obtain ⟨d1, d2⟩ := C65_classified k hk
  have hv : ∀ v ∈ k.rec'.variants, v ≠ [] ∧ findKana .romaji v = some k := by
    have h : allKana.all (fun k => k.rec'.variants.all fun v => !v.isEmpty) = true := by decide +kernel
    have h := List.all_eq_true.mp (List.all_eq_true.mp h k hk)
    intro v hv
    refine ⟨?_, (C25_keys v k).1.mpr ⟨hk, .inr hv⟩⟩
    intro e
    have := h v hv
    rw [e] at this
    cases this
  have hu : unicodeCellOk (decode k.hiragana) (chartUnicode k k.hiragana) = true ∧
      unicodeCellOk (decode k.katakana) (chartUnicode k k.katakana) = true := by
    have h : allKana.all (fun k => unicodeCellOk (decode k.hiragana) (chartUnicode k k.hiragana) &&
      unicodeCellOk (decode k.katakana) (chartUnicode k k.katakana)) = true := by
      decide +kernel
    simpa using List.all_eq_true.mp h k hk
  refine ⟨chartType k, chartUnicode k k.hiragana, chartUnicode k k.katakana,
    (if k.romaji = h' then [] else addBrackets h' .round),
    (if k.romaji = k' then [] else if k.rec'.kunreiVariant then k' else addBrackets k' .round),
    chartVariants k.rec'.variants [], h', k', ?_, ?_, unicodeCell_of hu.1, unicodeCell_of hu.2, e1, ?_, e2, ?_, ?_, hv⟩
  · simp only [chartRow, chartHepburn, chartKunrei, e1, e2, Option.map_some, Option.bind_some]
    rfl
  · rw [chartType, d1, d2]
  · exact readingCell_of c1
  · have := readingCell_of c2
    cases hkv : k.rec'.kunreiVariant <;> simpa [hkv] using this
  · have hne : ∀ v ∈ k.rec'.variants, v ≠ [] := fun v h => (hv v h).1
    revert hne
    generalize k.rec'.variants = l
    intro hne
    rw [chartVariants_eq _ _ hne]
    cases l with
    | nil => rfl
    | cons x r => simpa using foldl_commaList x r

/-! ## The whole chart -/

/-- The rows are numbered from 1. -/
def numbered (rows : List Row) : List Row := rows.mapIdx fun i r => toDec (i + 1) :: r

/-- Rows without numbers for the marks that aren't kana. -/
def specialRows : List Row :=
  [[u8!"N", u8!"/", [], u8!"・", [], u8!"30FB"], [u8!"N", [], [], u8!"ー", [], u8!"30FC"],
   [u8!"N", [], u8!"ゝ", u8!"ヽ", u8!"309D", u8!"30FD"], [u8!"N", [], u8!"ゞ", u8!"ヾ", u8!"309E", u8!"30FE"]]

/-- First Hiragana letters of the groups ぁ か さ た な は ま ゃ ら ゎ. -/
def groupLetters : List Nat :=
  [0x3041, 0x304b, 0x3055, 0x305f, 0x306a, 0x306f, 0x307e, 0x3083, 0x3089, 0x308e]

/-- Group of a kana: how many groups start with a letter up to its first letter. -/
def groupOf (k : Kana) : Nat := (groupLetters.filter fun l => decide (l ≤ code3 (k.hiragana.take 3))).length

/-- Numbers of the rows whose group differs from the group of the row before (`g` for the first). -/
def groupStarts (i g : Nat) : List Kana → List Nat
  | [] => []
  | k :: r => (if groupOf k ≠ g then [i] else []) ++ groupStarts (i + 1) (groupOf k) r

/-- Number of kana with a property, in the chart. -/
def kanaCount (p : Kana → Bool) : Nat := (allKana.filter p).length

/-- The chart has a numbered row for each kana in order and then the four marks. -/
theorem C99_chart : ∃ c, kanaChart = .ok c ∧ c.table.title = chartTitle ∧
    c.table.rows = numbered (kanaByHiragana.filterMap chartRow ++ specialRows) ∧
    (kanaByHiragana.filterMap chartRow).length = allKana.length ∧
    c.table.sections.reverse = groupStarts 0 0 kanaByHiragana ++ [allKana.length] ∧
    c.romajiVariants = (allKana.map fun k => k.rec'.variants.length).sum ∧
    c.monographs.small.toNat = kanaCount (fun k => k.isSmall) ∧ c.digraphs.small = 0 ∧
    c.monographs.plain.toNat = kanaCount (fun k => k.isMonograph && chartType k == u8!"P" && !k.isSmall) ∧
    c.monographs.dakuten.toNat = kanaCount (fun k => k.isMonograph && chartType k == u8!"D") ∧
    c.monographs.hanDakuten.toNat = kanaCount (fun k => k.isMonograph && chartType k == u8!"H") ∧
    c.digraphs.plain.toNat = kanaCount (fun k => k.isDigraph && chartType k == u8!"P") ∧
    c.digraphs.dakuten.toNat = kanaCount (fun k => k.isDigraph && chartType k == u8!"D") ∧
    c.digraphs.hanDakuten.toNat = kanaCount (fun k => k.isDigraph && chartType k == u8!"H") ∧
    c.monographs.total + c.digraphs.total = allKana.length := by
  have h : (match kanaChart with
    | .ok c => decide (c.table.title = chartTitle ∧
        c.table.rows = numbered (kanaByHiragana.filterMap chartRow ++ specialRows) ∧
        (kanaByHiragana.filterMap chartRow).length = allKana.length ∧
        c.table.sections.reverse = groupStarts 0 0 kanaByHiragana ++ [allKana.length] ∧
        c.romajiVariants = (allKana.map fun k => k.rec'.variants.length).sum ∧
        c.monographs.small.toNat = kanaCount (fun k => k.isSmall) ∧ c.digraphs.small = 0 ∧
        c.monographs.plain.toNat = kanaCount (fun k => k.isMonograph && chartType k == u8!"P" && !k.isSmall) ∧
        c.monographs.dakuten.toNat = kanaCount (fun k => k.isMonograph && chartType k == u8!"D") ∧
        c.monographs.hanDakuten.toNat = kanaCount (fun k => k.isMonograph && chartType k == u8!"H") ∧
        c.digraphs.plain.toNat = kanaCount (fun k => k.isDigraph && chartType k == u8!"P") ∧
        c.digraphs.dakuten.toNat = kanaCount (fun k => k.isDigraph && chartType k == u8!"D") ∧
        c.digraphs.hanDakuten.toNat = kanaCount (fun k => k.isDigraph && chartType k == u8!"H") ∧
        c.monographs.total + c.digraphs.total = allKana.length)
    | _ => false) = true := by decide +kernel
  cases e : kanaChart with
  | ok c => rw [e] at h; exact ⟨c, rfl, of_decide_eq_true h⟩
  | throw _ => rw [e] at h; cases h
  | ub => rw [e] at h; cases h

def markdownRowList (n : Nat) (sections : List Nat) : Nat → List Row → List Str
  | _, [] => []
  | i, row :: rows => markdownRow (if sections.contains i then .section_ else .normal) n row ::
      markdownRowList n sections (i + 1) rows

theorem markdownRows_flatten (n : Nat) (sections : List Nat) (i : Nat) (rows : List Row) :
    markdownRows n sections i rows = (markdownRowList n sections i rows).flatten := by
  induction rows generalizing i with
  | nil => rfl
  | cons r rows ih => simp [markdownRows, markdownRowList, ih]

/-- With option `-m` the program writes the chart and the totals of the repository's own document. -/
theorem C99_document : printKanaChart true = .ok (documentedChart.flatMap fun l => l ++ [0x0a]) := by
  have h : (match kanaChart with
    | .ok c => decide (c.table.maxColumns ≠ 0 ∧
        (markdownRow .normal c.table.maxColumns c.table.title :: markdownRow .header c.table.maxColumns [] ::
          markdownRowList c.table.maxColumns c.table.sections 0 c.table.rows =
            (documentedChart.take 210).map fun l => l ++ [0x0a]) ∧
        printChartFooter true c.romajiVariants c.monographs c.digraphs =
          ((documentedChart.drop 210).map fun l => l ++ [0x0a]).flatten)
    | _ => false) = true := by decide +kernel
  unfold printKanaChart
  cases e : kanaChart with
  | ok c =>
    rw [e] at h
    obtain ⟨h1, h2, h3⟩ := of_decide_eq_true h
    simp only [Res.bind, if_true, Table.printMarkdown, if_neg h1]
    have e2 : markdownRow .normal c.table.maxColumns c.table.title ++ markdownRow .header c.table.maxColumns [] ++
        markdownRows c.table.maxColumns c.table.sections 0 c.table.rows =
        ((documentedChart.take 210).map fun l => l ++ [0x0a]).flatten := by
      rw [← h2, markdownRows_flatten]; simp
    rw [e2, h3, ← List.flatten_append, ← List.map_append, List.take_append_drop, List.flatMap]
  | throw _ => rw [e] at h; cases h
  | ub => rw [e] at h; cases h

/-- With option `-p` it writes the same table as text with lines of one display width, and the totals. -/
theorem C99_terminal : ∃ c lines n, kanaChart = .ok c ∧
    printKanaChart false = .ok (textOf lines ++ printChartFooter false c.romajiVariants c.monographs c.digraphs) ∧
    c.table.print = .ok (textOf lines) ∧ ∀ l ∈ lines, (0x0a : UInt8) ∉ l ∧ displaySize l = n := by
  have h : (match kanaChart with
    | .ok c => c.table.cells.all fun s => decide (s.length < 100) && s.all fun b => b != 0 && b != 0x0a
    | _ => false) = true := by decide +kernel
  cases e : kanaChart with
  | ok c =>
    rw [e] at h
    have h := List.all_eq_true.mp h
    simp only [Bool.and_eq_true, decide_eq_true_eq, List.all_eq_true, bne_iff_ne] at h
    have h1 : ∀ s ∈ c.table.cells, s.length < 2 ^ 30 - 1 := fun s hs =>
      Nat.lt_trans (h s hs).1 (by decide)
    obtain ⟨lines, hp, hl⟩ := C36_partial c.table h1
      (fun s hs h0 => ((h s hs).2 0 h0).1 rfl) (fun s hs h0 => ((h s hs).2 0x0a h0).2 rfl)
    refine ⟨c, lines, _, rfl, ?_, hp, hl⟩
    simp only [printKanaChart, e, Res.bind, Bool.false_eq_true, if_false, hp]
  | throw _ => rw [e] at h; cases h
  | ub => rw [e] at h; cases h

/-- The Rōmaji, Hiragana and Katakana of different rows differ. -/
theorem C99_unique : (allKana.map Kana.romaji).Nodup ∧ (allKana.map Kana.hiragana).Nodup ∧
    (allKana.map Kana.katakana).Nodup := by
  have inj : ∀ (f : Kana → Str) (t : CharType), (∀ k ∈ allKana, findKana t (f k) = some k) → (allKana.map f).Nodup := by
    intro f t h
    rw [List.nodup_iff_pairwise_ne, List.pairwise_map]
    refine C25_entries_unique.imp_of_mem ?_
    intro a b ha hb hne e
    have h1 := h a ha
    rw [e, h b hb] at h1
    exact hne (Option.some.inj h1).symm
  exact ⟨inj _ .romaji fun k hk => (C25_keys _ k).1.mpr ⟨hk, .inl rfl⟩,
    inj _ .hiragana fun k hk => (C25_keys _ k).2.1.mpr ⟨hk, rfl⟩,
    inj _ .katakana fun k hk => (C25_keys _ k).2.2.mpr ⟨hk, rfl⟩⟩

/-- "Katakana 'dakuten w' aren't supported". -/
example : [u8!"ヷ", u8!"ヸ", u8!"ヹ", u8!"ヺ"].all (fun s => (findKana .katakana s).isNone) = true := by decide +kernel

end KT
