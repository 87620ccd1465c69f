import Verif.Model.DataTexts
import Verif.Spec.DataTexts
import Verif.Props.ColumnFile
/-!
# C180: tables are read by the names of their columns

The loops over the rows of a file see the fields of each line by the names in the first line, whatever the order of the
columns and whichever columns other files have.
-/
namespace KT
open Spec

theorem makeColumns_eq (reg names : List Str) : makeColumns reg names = runColumns reg names := by
  induction names generalizing reg with
  | nil => rfl
  | cons n ns ih => simp only [makeColumns, runColumns, ih]

theorem columnNamed_mem {cols : List Column} {name : Str} (h : name ∈ cols.map Column.name) :
    columnNamed cols name ∈ cols ∧ (columnNamed cols name).name = name := by
  unfold columnNamed
  cases hf : cols.find? (·.name == name) with
  | none =>
    rw [List.find?_eq_none] at hf
    obtain ⟨c, hc, he⟩ := List.mem_map.mp h
    exact absurd he (by simpa using hf c hc)
  | some c =>
    exact ⟨List.mem_of_find?_eq_some hf, by simpa using List.find?_some hf⟩

/-- What is done for the rows of a table: `f` is given the number of the row and its cells. -/
def foldRows {α : Type} (f : Nat → (Str → Str) → α → Res α) : Nat → List (Str → Str) → α → Res α
  | _, [], a => .ok a
  | n, r :: rs, a => (f n r a).bind (foldRows f (n + 1) rs)

/-- The same for the lines of a file: a line that doesn't have the right number of fields is an error. -/
def foldLines {α : Type} (header : List Str) (f : Nat → (Str → Str) → α → Res α) : Nat → List Str → α → Res α
  | _, [], a => .ok a
  | n, l :: ls, a =>
    if RowFits header.length l then (f n (cellOf header l) a).bind (foldLines header f (n + 1) ls) else .throw .domain

/-- The state of a file after reading a row. -/
structure AtRow (header : List Str) (cols : List Column) (n : Nat) (line : Str) (cf : ColumnFile) : Prop where
  row : cf.currentRow = n
  pos : n ≠ 0
  values : cf.rowValues = (split 0x09 line).take header.length
  fits : RowFits header.length line
  columns : ∀ j c, c ∈ cols → header[j]? = some c.name → cf.columnToPosition[c.number]? = some (some j)

theorem AtRow.get {header : List Str} {cols : List Column} {n : Nat} {line : Str} {cf : ColumnFile}
    (h : AtRow header cols n line cf) {c : Column} (hc : c ∈ cols) (hm : c.name ∈ header) :
    cf.get c = .ok (cellOf header line c.name) := by
  have hi := List.idxOf_lt_length_of_mem hm
  have hg : header[header.idxOf c.name]? = some c.name := by
    rw [List.getElem?_eq_getElem hi, List.getElem_idxOf]
  have hp := h.columns _ c hc hg
  have hlen : header.length ≤ (split 0x09 line).length := by
    rcases h.fits with e | ⟨e, _⟩ <;> omega
  have hlt : c.number < cf.columnToPosition.length := (List.getElem?_eq_some_iff.mp hp).1
  simp only [ColumnFile.get]
  rw [if_neg (by rw [h.row]; exact h.pos), if_neg (by omega), hp]
  simp only [h.values]
  have e : (List.take header.length (split 9 line))[List.idxOf c.name header]? = (split 9 line)[List.idxOf c.name header]? := by
    rw [List.getElem?_take, if_pos hi]
  rw [e, cellOf, List.getElem?_eq_getElem (by omega)]
  rfl

/-- The cell of a named column. -/
theorem AtRow.cell {header : List Str} {cols : List Column} {n : Nat} {line : Str} {cf : ColumnFile}
    (h : AtRow header cols n line cf) (hperm : header.Perm (cols.map Column.name)) {name : Str}
    (hm : name ∈ cols.map Column.name) : cf.cell cols name = .ok (cellOf header line name) := by
  obtain ⟨h1, h2⟩ := columnNamed_mem hm
  have := h.get h1 (by rw [h2]; exact hperm.symm.subset hm)
  rw [h2] at this
  exact this

theorem tableLoop_eq {α : Type} (header : List Str) (cols : List Column) (c2p : List (Option Nat))
    (body : ColumnFile → α → Res α) (f : Nat → (Str → Str) → α → Res α) (hn : header ≠ [])
    (hcols : ∀ j c, c ∈ cols → header[j]? = some c.name → c2p[c.number]? = some (some j))
    (hb : ∀ n line cf a, AtRow header cols n line cf → body cf a = f n (cellOf header line) a)
    (lines : List Str) (fuel r : Nat) (rv : List Str) (a : α) (hf : lines.length < fuel)
    (hrv : rv.length = header.length) :
    tableLoop body fuel ⟨0x09, r, rv, c2p, lines⟩ a = foldLines header f (r + 1) lines a := by
  induction lines generalizing fuel r rv a with
  | nil =>
    cases fuel with
    | zero => simp at hf
    | succ fuel => rfl
  | cons line rest ih =>
    cases fuel with
    | zero => simp at hf
    | succ fuel =>
      have hrv' : rv ≠ [] := by
        intro e; rw [e] at hrv; exact hn (List.length_eq_zero_iff.mp hrv.symm)
      simp only [tableLoop, foldLines]
      rcases nextRow_cases ⟨0x09, r, rv, c2p, line :: rest⟩ line rest rfl hrv' with ⟨hok, hv⟩ | ⟨hok, rv', _, hv⟩
      · simp only [hrv] at hok hv
        replace hok : RowFits header.length line := hok
        rw [hv, if_pos hok]
        have hat : AtRow header cols (r + 1) line
            ⟨0x09, r + 1, (split 0x09 line).take header.length, c2p, rest⟩ := ⟨rfl, by omega, rfl, hok, hcols⟩
        simp only
        rw [hb _ _ _ a hat]
        congr 1
        funext a'
        refine ih fuel (r + 1) _ a' (by simp only [List.length_cons] at hf; omega) ?_
        rw [List.length_take]
        rcases hok with e | ⟨e, _⟩ <;> omega
      · simp only [hrv] at hok
        replace hok : ¬ RowFits header.length line := hok
        rw [hv, if_neg hok]

theorem foldLines_ok {α : Type} (header : List Str) (f : Nat → (Str → Str) → α → Res α) (n : Nat) (lines : List Str)
    (a b : α) : foldLines header f n lines a = .ok b ↔
      (∀ l ∈ lines, RowFits header.length l) ∧ foldRows f n (lines.map (cellOf header)) a = .ok b := by
  induction lines generalizing n a with
  | nil => simp [foldLines, foldRows]
  | cons l ls ih =>
    simp only [foldLines, List.map_cons, foldRows, List.forall_mem_cons]
    by_cases hl : RowFits header.length l
    · rw [if_pos hl]
      cases hf : f n (cellOf header l) a with
      | ok a' => simp only [Res.bind, ih, hl, true_and]
      | throw e => simp [Res.bind]
      | ub => simp [Res.bind]
    · rw [if_neg hl]
      simp [hl]

theorem textLines_eq (text : Str) : fields 0x0a text = textLines text := fields_eq _ _

/-- **C180** (tables): reading the text of a file with given columns is an error unless the first line has the names of the
columns in some order; otherwise the rows are processed one after the other, each by its cells below the names, until a line
doesn't have the right number of fields.  Columns made before make no difference. -/
theorem C180_table {α : Type} (reg names : List Str) (hreg : reg.Nodup) (hnames : names.Nodup) (hne : names ≠ [])
    (body : List Column → ColumnFile → α → Res α) (f : Nat → (Str → Str) → α → Res α)
    (hb : ∀ header cols n line cf a, header.Perm (cols.map Column.name) → cols.map Column.name = names →
      AtRow header cols n line cf → body cols cf a = f n (cellOf header line) a) (text : Str) (a : α) :
    readTable reg names body text a =
      if (tableHeader text).Perm names then foldLines (tableHeader text) f 1 (tableLines text) a else .throw .domain := by
  obtain ⟨_, _, hr, hm⟩ := runColumns_spec reg names hreg
  unfold readTable openTable
  simp only [makeColumns_eq, textLines_eq]
  generalize hc : (runColumns reg names).1 = cols at *
  generalize (runColumns reg names).2 = reg' at *
  have hcne : cols ≠ [] := by
    intro e; rw [e] at hm; exact hne hm.symm
  unfold tableHeader tableLines
  cases ht : textLines text with
  | nil =>
    have hp : ¬ ([] : List Str).Perm names := fun h => hne (h.symm.eq_nil)
    simp only [openColumnFile, List.isEmpty_iff, hcne, if_false, Res.bind, if_neg hp]
  | cons h rest =>
    simp only [List.tail_cons]
    rcases open_cases reg' h rest cols 0x09 hr with ⟨h1, h2⟩ | ⟨c2p, h1, _, _, h4, _, h6, _⟩
    · rw [h1]
      rw [hm, fields_eq] at h2
      rw [if_neg (fun hp => h2 ⟨hcne, hnames, hp⟩)]
      rfl
    · rw [h1]
      have h4' := h4
      rw [hm, fields_eq] at h4
      rw [if_pos h4]
      simp only [Res.bind]
      have hl := h4.length_eq
      refine tableLoop_eq _ cols c2p (body cols) f ?_ ?_ ?_ rest _ 0 _ a (by omega) ?_
      · intro e; rw [e] at h4; exact hne h4.symm.eq_nil
      · intro j c hc' hj
        exact h6 j c hc' (by rw [fields_eq]; exact hj)
      · intro n line cf a hat
        exact hb _ _ n line cf a (by rw [hm]; exact h4) hm hat
      · rw [List.length_replicate, hl, ← hm, List.length_map]

/-- **C180** (success): reading succeeds exactly for a table with these columns whose rows are all processed without error. -/
theorem C180_read {α : Type} (reg names : List Str) (hreg : reg.Nodup) (hnames : names.Nodup) (hne : names ≠ [])
    (body : List Column → ColumnFile → α → Res α) (f : Nat → (Str → Str) → α → Res α)
    (hb : ∀ header cols n line cf a, header.Perm (cols.map Column.name) → cols.map Column.name = names →
      AtRow header cols n line cf → body cols cf a = f n (cellOf header line) a) (text : Str) (a b : α) :
    readTable reg names body text a = .ok b ↔ TableText names text ∧ foldRows f 1 (tableRows text) a = .ok b := by
  rw [C180_table reg names hreg hnames hne body f hb]
  by_cases hp : (tableHeader text).Perm names
  · rw [if_pos hp, foldLines_ok, hp.length_eq]
    exact ⟨fun h => ⟨⟨hp, h.1⟩, h.2⟩, fun h => ⟨h.1.rows, h.2⟩⟩
  · rw [if_neg hp]
    exact ⟨fun h => by simp at h, fun h => absurd h.1.header hp⟩

end KT
