import Verif.Props.DataTables
import Verif.Props.ListFileText
import Verif.Props.LoadedProgram
/-!
# C180: loading from a directory

Loading the data from the files of a directory is loading (`Model/LoadData.lean`) the rows and texts of these files.
-/
namespace KT
open Spec

/-! ## Rows -/

theorem TableText.perm {a b : List Str} (h : a.Perm b) (text : Str) : TableText a text ↔ TableText b text :=
  ⟨fun t => ⟨t.header.trans h, by rw [← h.length_eq]; exact t.rows⟩,
   fun t => ⟨t.header.trans h.symm, by rw [h.length_eq]; exact t.rows⟩⟩

theorem readUcdRow_eq {cols : List Column} {cf : ColumnFile} {cell : Str → Str}
    (h : ∀ n ∈ ucdColumns, cf.cell cols n = .ok (cell n)) : readUcdRow cols cf = .ok (ucdRowOf cell) := by
  unfold readUcdRow
  rw [h (u8!"Code") (by decide), h (u8!"Name") (by decide), h (u8!"Block") (by decide), h (u8!"Version") (by decide),
    h (u8!"Radical") (by decide), h (u8!"Strokes") (by decide), h (u8!"VStrokes") (by decide), h (u8!"Pinyin") (by decide),
    h (u8!"MorohashiId") (by decide), h (u8!"NelsonIds") (by decide), h (u8!"Sources") (by decide),
    h (u8!"JSource") (by decide), h (u8!"Joyo") (by decide), h (u8!"Jinmei") (by decide), h (u8!"LinkCodes") (by decide),
    h (u8!"LinkNames") (by decide), h (u8!"LinkType") (by decide), h (u8!"Meaning") (by decide), h (u8!"On") (by decide),
    h (u8!"Kun") (by decide)]
  rfl

theorem readJouyouRow_eq {cols : List Column} {cf : ColumnFile} {cell : Str → Str}
    (h : ∀ n ∈ numberedColumns ++ jouyouRequired, cf.cell cols n = .ok (cell n)) :
    readJouyouRow cols cf = .ok (jouyouRowOf cell) := by
  unfold readJouyouRow
  rw [h (u8!"Number") (by decide), h (u8!"Name") (by decide), h (u8!"Radical") (by decide), h (u8!"Reading") (by decide),
    h (u8!"OldNames") (by decide), h (u8!"Year") (by decide), h (u8!"Strokes") (by decide), h (u8!"Grade") (by decide),
    h (u8!"Meaning") (by decide)]
  rfl

theorem readJinmeiRow_eq {cols : List Column} {cf : ColumnFile} {cell : Str → Str}
    (h : ∀ n ∈ numberedColumns ++ jinmeiRequired, cf.cell cols n = .ok (cell n)) :
    readJinmeiRow cols cf = .ok (jinmeiRowOf cell) := by
  unfold readJinmeiRow
  rw [h (u8!"Number") (by decide), h (u8!"Name") (by decide), h (u8!"Radical") (by decide), h (u8!"Reading") (by decide),
    h (u8!"OldNames") (by decide), h (u8!"Year") (by decide), h (u8!"Reason") (by decide)]
  rfl

theorem readExtraRow_eq {cols : List Column} {cf : ColumnFile} {cell : Str → Str}
    (h : ∀ n ∈ numberedColumns ++ extraRequired, cf.cell cols n = .ok (cell n)) :
    readExtraRow cols cf = .ok (extraRowOf cell) := by
  unfold readExtraRow
  rw [h (u8!"Number") (by decide), h (u8!"Name") (by decide), h (u8!"Radical") (by decide), h (u8!"Reading") (by decide),
    h (u8!"Strokes") (by decide), h (u8!"Meaning") (by decide)]
  rfl

theorem readGroupRow_eq {cols : List Column} {cf : ColumnFile} {cell : Str → Str}
    (h : ∀ n ∈ groupColumns, cf.cell cols n = .ok (cell n)) : readGroupRow cols cf = .ok (groupRowOf cell) := by
  unfold readGroupRow
  rw [h (u8!"Number") (by decide), h (u8!"Name") (by decide), h (u8!"Members") (by decide)]
  rfl

/-- All cells of the columns of a table. -/
theorem AtRow.cells {header : List Str} {cols : List Column} {n : Nat} {line : Str} {cf : ColumnFile} {names : List Str}
    (hp : header.Perm (cols.map Column.name)) (hn : cols.map Column.name = names) (h : AtRow header cols n line cf) :
    ∀ x ∈ names, cf.cell cols x = .ok (cellOf header line x) :=
  fun _ hx => h.cell hp (hn ▸ hx)

/-! ## 'ucd.txt' -/

theorem foldRows_ucd (n : Nat) (rows : List (Str → Str)) (d : UcdData) :
    foldRows (fun _ r (d : UcdData) => d.loadRow (ucdRowOf r)) n rows d = UcdData.load (rows.map ucdRowOf) d := by
  induction rows generalizing n d with
  | nil => rfl
  | cons r rs ih =>
    simp only [foldRows, List.map_cons, UcdData.load]
    congr 1
    funext d
    exact ih _ _

/-- **C180**: 'ucd.txt'. -/
theorem C180_ucd (reg : List Str) (hreg : reg.Nodup) (text : Str) (u : UcdData) :
    loadUcdText reg text = .ok u ↔
      TableText ucdHeader text ∧ UcdData.load ((tableRows text).map ucdRowOf) {} = .ok u := by
  unfold loadUcdText
  rw [C180_read reg ucdColumns hreg (by decide) (by decide) _ (fun _ r (d : UcdData) => d.loadRow (ucdRowOf r)) ?_ text,
    foldRows_ucd]
  · rfl
  · intro header cols n line cf d hp hn h
    rw [readUcdRow_eq (h.cells hp hn)]
    rfl

/-! ## 'radicals.txt' -/

/-- What is done with a row of 'radicals.txt'. -/
def radicalStep (n : Nat) (row : Str × Str × Str × Str) (d : RadicalData) : Res RadicalData :=
  (processU64 row.1 255).bind fun number =>
    if number ≠ n then .throw .domain
    else
      let names := radicalNames (fields 0x20 row.2.1) [] []
      .ok ⟨d.radicals ++ [⟨number, names.1, names.2, row.2.2.1, row.2.2.2⟩], mapSet d.map names.1 (number - 1)⟩

theorem loadLoop_table (cols : RadicalCols) (fuel : Nat) (cf : ColumnFile) (d : RadicalData) :
    RadicalData.loadLoop cols fuel cf d = tableLoop (RadicalData.addRow cols) fuel cf d := by
  induction fuel generalizing cf d with
  | zero => rfl
  | succ fuel ih =>
    simp only [RadicalData.loadLoop, tableLoop]
    rcases cf.nextRow with ⟨cf', r⟩
    cases r with
    | ok b => cases b <;> simp only [ih]
    | throw e => rfl
    | ub => rfl

theorem addRow_step {header : List Str} {cols : List Column} {n : Nat} {line : Str} {cf : ColumnFile}
    (h : ∀ x ∈ radicalColumns, cf.cell cols x = .ok (cellOf header line x)) (hr : cf.currentRow = n) (d : RadicalData) :
    RadicalData.addRow (radicalCols cols) cf d = radicalStep n (radicalRowOf (cellOf header line)) d := by
  have h1 : cf.get (radicalCols cols).number = _ := h (u8!"Number") (by decide)
  have h2 : cf.get (radicalCols cols).name = _ := h (u8!"Name") (by decide)
  have h3 : cf.get (radicalCols cols).longName = _ := h (u8!"LongName") (by decide)
  have h4 : cf.get (radicalCols cols).reading = _ := h (u8!"Reading") (by decide)
  unfold RadicalData.addRow radicalStep ColumnFile.getU64
  rw [h1, h2, h3, h4, hr]
  rfl

/-- **C180**: 'radicals.txt'. -/
theorem C180_radicals (reg : List Str) (hreg : reg.Nodup) (text : Str) (d : RadicalData) :
    loadRadicalText reg text = .ok d ↔ TableText radicalHeader text ∧
      foldRows (fun n r => radicalStep n (radicalRowOf r)) 1 (tableRows text) {} = .ok d := by
  have e : loadRadicalText reg text =
      readTable reg radicalColumns (fun cols => RadicalData.addRow (radicalCols cols)) text {} := by
    simp only [loadRadicalText, readTable, RadicalData.load, loadLoop_table]
  rw [e, C180_read reg radicalColumns hreg (by decide) (by decide) _ (fun n r => radicalStep n (radicalRowOf r)) ?_ text]
  · rfl
  · intro header cols n line cf d hp hn h
    exact addRow_step (h.cells hp hn) h.row d

theorem radicalTable_load (text : Str) (h : TableText radicalHeader text) (d : RadicalData) :
    RadicalData.load (radicalTable text).1 (radicalTable text).2 = .ok d ↔ loadRadicalText [] text = .ok d := by
  have key : ∃ t, openTable [] radicalHeader text = .ok t := by
    obtain ⟨_, _, hr, hm⟩ := runColumns_spec [] radicalHeader (by simp)
    unfold openTable
    simp only [makeColumns_eq, textLines_eq]
    have hp := h.header
    unfold tableHeader at hp
    cases ht : textLines text with
    | nil => rw [ht] at hp; exact absurd hp.symm.eq_nil (by decide)
    | cons a rest =>
      rw [ht] at hp
      obtain ⟨h1, _⟩ := C20_open_iff (runColumns [] radicalHeader).2 a rest (runColumns [] radicalHeader).1 0x09 hr
      obtain ⟨cf, hcf⟩ := h1 ⟨by intro e; rw [e] at hm; exact absurd hm.symm (by decide), by rw [hm]; decide, by rw [hm]; exact hp⟩
      exact ⟨_, by rw [hcf]; rfl⟩
  obtain ⟨t, ht⟩ := key
  unfold loadRadicalText
  rw [show radicalColumns = radicalHeader from rfl, ht]
  unfold radicalTable
  rw [ht]
  rfl

/-! ## 'frequency-readings.txt' -/

theorem foldRows_readings (n : Nat) (rows : List (Str → Str)) (m : List (Str × Str)) :
    foldRows (fun _ r m => match mapEmplace m (readingRowOf r).1 (readingRowOf r).2 with
      | (m, true) => .ok m
      | (_, false) => .throw .domain) n rows m = loadFrequencyReadings (rows.map readingRowOf) m := by
  induction rows generalizing n m with
  | nil => rfl
  | cons r rs ih =>
    simp only [foldRows, List.map_cons]
    rw [show readingRowOf r = ((readingRowOf r).1, (readingRowOf r).2) from rfl, loadFrequencyReadings]
    rcases mapEmplace m (readingRowOf r).1 (readingRowOf r).2 with ⟨m', b⟩
    cases b
    · rfl
    · exact ih _ _

/-- **C180**: 'frequency-readings.txt'. -/
theorem C180_readings (reg : List Str) (hreg : reg.Nodup) (text : Str) (m : List (Str × Str)) :
    loadReadingText reg text = .ok m ↔
      TableText readingHeader text ∧ loadFrequencyReadings ((tableRows text).map readingRowOf) [] = .ok m := by
  unfold loadReadingText
  rw [C180_read reg readingColumns hreg (by decide) (by decide) _
    (fun _ r m => match mapEmplace m (readingRowOf r).1 (readingRowOf r).2 with
      | (m, true) => .ok m
      | (_, false) => .throw .domain) ?_ text, foldRows_readings]
  · rfl
  · intro header cols n line cf d hp hn h
    have hc := h.cells hp hn
    rw [hc (u8!"Name") (by decide), hc (u8!"Reading") (by decide)]
    rfl

/-! ## 'jouyou.txt', 'jinmei.txt' and 'extra.txt' -/

theorem foldRows_from {β : Type} (row : (Str → Str) → CellRow) (make : CellRow → Res β) (n : Nat) (rows : List (Str → Str))
    (ks : List β) :
    foldRows (fun _ r ks => (make (row r)).bind fun k => .ok (ks ++ [k])) n rows ks =
      (fromRows make (rows.map row)).bind fun r => .ok (ks ++ r) := by
  induction rows generalizing n ks with
  | nil => simp [foldRows, fromRows, Res.bind]
  | cons r rs ih =>
    simp only [foldRows, List.map_cons, fromRows]
    cases make (row r) with
    | throw e => rfl
    | ub => rfl
    | ok k =>
      refine (ih (n + 1) (ks ++ [k])).trans ?_
      simp only [Res.bind]
      cases fromRows make (rs.map row) with
      | throw e => rfl
      | ub => rfl
      | ok l => simp

/-- **C180**: the files with one kanji per row. -/
theorem C180_kanji {β : Type} (reg : List Str) (hreg : reg.Nodup) (required : List Str)
    (hnd : (numberedColumns ++ required).Nodup) (read : List Column → ColumnFile → Res CellRow)
    (row : (Str → Str) → CellRow)
    (hread : ∀ cols cf cell, (∀ n ∈ numberedColumns ++ required, cf.cell cols n = .ok (cell n)) →
      read cols cf = .ok (row cell))
    (make : CellRow → Res β) (text : Str) (ks : List β) :
    fromText reg required read make text = .ok ks ↔
      TableText (numberedColumns ++ required) text ∧ fromRows make ((tableRows text).map row) = .ok ks := by
  unfold fromText
  rw [C180_read reg (numberedColumns ++ required) hreg hnd (by simp [numberedColumns]) _
    (fun _ r ks => (make (row r)).bind fun k => .ok (ks ++ [k])) ?_ text, foldRows_from]
  · cases fromRows make ((tableRows text).map row) <;> simp [Res.bind]
  · intro header cols n line cf d hp hn h
    rw [hread cols cf _ (h.cells hp hn)]
    rfl

/-! ## Groups -/

theorem foldRows_meaning (find : Str → Option KanjiRec) (n : Nat) (rows : List (Str → Str)) (d : MeaningGroups) :
    foldRows (fun _ r (d : MeaningGroups) => (readGroup find .meaning (groupRowOf r)).bind fun g => .ok (d.add g)) n rows d =
      loadMeaning find (rows.map groupRowOf) d := by
  induction rows generalizing n d with
  | nil => rfl
  | cons r rs ih =>
    simp only [foldRows, List.map_cons, loadMeaning]
    cases readGroup find .meaning (groupRowOf r) with
    | throw e => rfl
    | ub => rfl
    | ok g => exact ih _ _

theorem foldRows_pattern (find : Str → Option KanjiRec) (n : Nat) (rows : List (Str → Str)) (d : PatternGroups) :
    foldRows (fun _ r (d : PatternGroups) => (readGroup find .pattern (groupRowOf r)).bind fun g => .ok (d.add g)) n rows d =
      loadPattern find (rows.map groupRowOf) d := by
  induction rows generalizing n d with
  | nil => rfl
  | cons r rs ih =>
    simp only [foldRows, List.map_cons, loadPattern]
    cases readGroup find .pattern (groupRowOf r) with
    | throw e => rfl
    | ub => rfl
    | ok g => exact ih _ _

/-- **C180**: the files with groups. -/
theorem C180_groups (reg : List Str) (hreg : reg.Nodup) (find : Str → Option KanjiRec) (text : Str) :
    (∀ m, loadMeaningText reg find text = .ok m ↔
      TableText groupTableHeader text ∧ loadMeaning find ((tableRows text).map groupRowOf) {} = .ok m) ∧
    (∀ p, loadPatternText reg find text = .ok p ↔
      TableText groupTableHeader text ∧ loadPattern find ((tableRows text).map groupRowOf) {} = .ok p) := by
  constructor
  · intro m
    unfold loadMeaningText
    rw [C180_read reg groupColumns hreg (by decide) (by decide) _
      (fun _ r (d : MeaningGroups) => (readGroup find .meaning (groupRowOf r)).bind fun g => .ok (d.add g)) ?_ text,
      foldRows_meaning]
    · rfl
    · intro header cols n line cf d hp hn h
      rw [readGroupRow_eq (h.cells hp hn)]
      rfl
  · intro m
    unfold loadPatternText
    rw [C180_read reg groupColumns hreg (by decide) (by decide) _
      (fun _ r (d : PatternGroups) => (readGroup find .pattern (groupRowOf r)).bind fun g => .ok (d.add g)) ?_ text,
      foldRows_pattern]
    · rfl
    · intro header cols n line cf d hp hn h
      rw [readGroupRow_eq (h.cells hp hn)]
      rfl

end KT
