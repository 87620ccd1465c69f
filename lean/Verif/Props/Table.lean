import Verif.Model.Table
import Verif.Spec.Table
import Verif.Props.DisplaySize
import Verif.Lemmas.Decimal
/-!
# C36: tables

Specification: `Verif/Spec/Table.lean` (with the display width of C32).  Model:
`Verif/Model/Table.lean`.
-/
namespace KT
open Spec

/-! ## Widths -/

theorem displaySize_ascii (b : UInt8) (s : Str) (hb : 0x20 ≤ b) (hb' : b < 0x7f) (h0 : (0 : UInt8) ∉ s) :
    displaySize (b :: s) = 1 + displaySize s := by
  have hn : b.toNat < 128 := by rw [UInt8.lt_iff_toNat_lt] at hb'; exact Nat.lt_trans hb' (by decide)
  have he : enc b.toNat = [b] := by
    unfold enc
    rw [if_pos (by omega)]
    simp
  have hs : IsScalar b.toNat := by unfold IsScalar; omega
  have hd := decodes_decode s
  rw [cStr_of_no_zero h0] at hd
  have := decodes_enc hs hd
  rw [he] at this
  have hz : (0 : UInt8) ∉ [b] ++ s := by
    simp only [List.cons_append, List.nil_append, List.mem_cons, not_or]
    refine ⟨?_, h0⟩
    rintro rfl
    exact absurd hb (by decide)
  have e := decode_of_decodes hz this
  rw [C32_sum, C32_sum]
  rw [show b :: s = [b] ++ s from rfl, e, List.map_cons, List.sum_cons]
  rw [(C32_kanji_kana_ascii b.toNat).2.2.2 (by rw [UInt8.le_iff_toNat_le] at hb; exact hb)
    (by rw [UInt8.lt_iff_toNat_lt] at hb'; exact hb')]

/-- Every cell of the row has a column at least as wide. -/
def Fits : List Nat → Row → Prop
  | _, [] => True
  | [], _ :: _ => False
  | w :: ws, c :: r => displaySize c ≤ w ∧ Fits ws r

@[simp] theorem fits_nil (ws : List Nat) : Fits ws [] := by cases ws <;> trivial

theorem Fits.mono : ∀ {ws : List Nat} {row : Row}, Fits ws row → ∀ (r : Row), Fits (mergeWidths ws r) row
  | _, [], _, _ => fits_nil _
  | [], _ :: _, h, _ => h.elim
  | w :: ws, c :: row, h, [] => h
  | w :: ws, c :: row, ⟨h1, h2⟩, x :: r => by
    unfold mergeWidths
    refine ⟨?_, h2.mono r⟩
    split <;> omega

theorem fits_merge : ∀ (ws : List Nat) (row : Row), Fits (mergeWidths ws row) row
  | _, [] => fits_nil _
  | [], c :: r => by unfold mergeWidths; exact ⟨Nat.le_refl _, fits_merge [] r⟩
  | w :: ws, c :: r => by
    unfold mergeWidths
    refine ⟨?_, fits_merge ws r⟩
    split <;> omega

theorem fits_map : ∀ (row : Row), Fits (row.map displaySize) row
  | [] => trivial
  | _ :: r => ⟨Nat.le_refl _, fits_map r⟩

theorem fits_fold : ∀ (rows : List Row) (ws : List Nat) (row : Row), (Fits ws row ∨ row ∈ rows) →
    Fits (rows.foldl mergeWidths ws) row := by
  intro rows
  induction rows with
  | nil => rintro ws row (h | h); exact h; cases h
  | cons r rows ih =>
    rintro ws row (h | h)
    · exact ih _ _ (.inl (h.mono r))
    · rcases List.mem_cons.mp h with rfl | h
      · exact ih _ _ (.inl (fits_merge _ _))
      · exact ih _ _ (.inr h)

/-- Every column is as wide as its widest cell. -/
theorem C36_fits (t : Table) : Fits t.widths t.title ∧ ∀ r ∈ t.rows, Fits t.widths r :=
  ⟨fits_fold _ _ _ (.inl (fits_map _)), fun _ h => fits_fold _ _ _ (.inr h)⟩

theorem merge_cell : ∀ (ws : List Nat) (row : Row) (n w : Nat), (mergeWidths ws row)[n]? = some w →
    ws[n]? = some w ∨ ∃ c, row[n]? = some c ∧ displaySize c = w
  | _, [], _, _, h => .inl (by simpa [mergeWidths] using h)
  | [], c :: r, 0, w, h => by
    simp [mergeWidths] at h; exact .inr ⟨c, rfl, h⟩
  | [], c :: r, n + 1, w, h => by
    simp only [mergeWidths, List.getElem?_cons_succ] at h
    rcases merge_cell [] r n w h with h | h
    · cases h
    · exact .inr (by simpa using h)
  | x :: ws, c :: r, 0, w, h => by
    simp only [mergeWidths, List.getElem?_cons_zero, Option.some.injEq] at h
    split at h
    · exact .inr ⟨c, rfl, h⟩
    · exact .inl (by simpa using h)
  | x :: ws, c :: r, n + 1, w, h => by
    simp only [mergeWidths, List.getElem?_cons_succ] at h
    rcases merge_cell ws r n w h with h | h
    · exact .inl (by simpa using h)
    · exact .inr (by simpa using h)

theorem fold_cell : ∀ (rows : List Row) (ws : List Nat) (n w : Nat), (rows.foldl mergeWidths ws)[n]? = some w →
    ws[n]? = some w ∨ ∃ row ∈ rows, ∃ c, row[n]? = some c ∧ displaySize c = w := by
  intro rows
  induction rows with
  | nil => intro ws n w h; exact .inl h
  | cons r rows ih =>
    intro ws n w h
    rcases ih _ n w h with h | ⟨row, hr, h⟩
    · rcases merge_cell ws r n w h with h | h
      · exact .inl h
      · exact .inr ⟨r, List.mem_cons_self, h⟩
    · exact .inr ⟨row, List.mem_cons_of_mem _ hr, h⟩

/-- No column is wider than needed: its width is that of one of its cells. -/
theorem C36_tight (t : Table) (n w : Nat) (h : t.widths[n]? = some w) :
    ∃ row ∈ t.title :: t.rows, ∃ c, row[n]? = some c ∧ displaySize c = w := by
  rcases fold_cell _ _ _ _ h with h | ⟨row, hr, h⟩
  · rw [List.getElem?_map] at h
    obtain ⟨c, hc, e⟩ := Option.map_eq_some_iff.mp h
    exact ⟨t.title, List.mem_cons_self, c, hc, e⟩
  · exact ⟨row, List.mem_cons_of_mem _ hr, h⟩

/-! ## Lines -/

/-- What a line of a table looks like: every cell is preceded by a delimiter and a fill character and
filled up to its column's width and one more. -/
def rowLine (fill delim : UInt8) : List Nat → Row → Str
  | [], _ => [delim]
  | w :: ws, row =>
    delim :: fill :: row.headD [] ++ List.replicate (w - displaySize (row.headD []) + 1) fill ++
      rowLine fill delim ws row.tail

theorem toInt32_small {n : Nat} (h : n < 2 ^ 31) : toInt32 n = n := by
  unfold toInt32
  simp only
  rw [Nat.mod_eq_of_lt (by omega), if_pos h]

theorem tableCell_ok (fill delim : UInt8) (w : Nat) (s : Str) (h : w + 1 < 2 ^ 31) (hs : s.length ≤ w) :
    tableCell fill delim w s = .ok (delim :: fill :: s ++ List.replicate (w + 1 - s.length) fill) := by
  unfold tableCell setwFill
  rw [toInt32_small (by omega), if_neg (by omega)]
  rw [show ((w : Int) + 1 - s.length).toNat = w + 1 - s.length by omega]
  rfl

theorem printRow_ok (fill delim : UInt8) : ∀ (ws : List Nat) (row : Row), Fits ws row →
    (∀ w ∈ ws, w < 2 ^ 30 - 1) → (∀ c ∈ row, c.length < 2 ^ 30) →
    printRow fill delim ws row = .ok (rowLine fill delim ws row ++ [0x0a])
  | [], row, _, _, _ => by simp [printRow, rowLine]
  | w :: ws, [], _, hw, _ => by
    have ih := printRow_ok fill delim ws [] (fits_nil _) (fun x h => hw x (List.mem_cons_of_mem _ h)) (by simp)
    have hw0 := hw w List.mem_cons_self
    rw [printRow, tableCell_ok _ _ _ _ (by omega) (by simp), ih]
    have : displaySize [] = 0 := by decide
    simp [rowLine, this]
  | w :: ws, c :: r, ⟨h1, h2⟩, hw, hc => by
    have ih := printRow_ok fill delim ws r h2 (fun x h => hw x (List.mem_cons_of_mem _ h))
      (fun x h => hc x (List.mem_cons_of_mem _ h))
    have hw0 := hw w List.mem_cons_self
    have hc0 := hc c List.mem_cons_self
    have hb := C32_bounded c
    have e : (w + c.length + 2 ^ 64 - displaySize c) % 2 ^ 64 = w + c.length - displaySize c := by
      rw [show w + c.length + 2 ^ 64 - displaySize c = (w + c.length - displaySize c) + 2 ^ 64 by omega,
        Nat.add_mod_right, Nat.mod_eq_of_lt (by omega)]
    rw [printRow, e, tableCell_ok _ _ _ _ (by omega) (by omega), ih]
    simp only [Res.bind_ok, rowLine, List.headD_cons, List.tail_cons]
    rw [show w + c.length - displaySize c + 1 - c.length = w - displaySize c + 1 by omega]
    simp

/-- The width of a whole line. -/
def lineWidth (ws : List Nat) : Nat := (ws.map (· + 3)).sum + 1

theorem displaySize_fill (fill : UInt8) (hf : 0x20 ≤ fill) (hf' : fill < 0x7f) (n : Nat) :
    displaySize (List.replicate n fill) = n := by
  induction n with
  | zero => exact (show displaySize [] = 0 by decide)
  | succ n ih =>
    rw [List.replicate_succ, displaySize_ascii _ _ hf hf' ?_, ih]; omega
    intro h
    have := (List.mem_replicate.mp h).2
    rw [← this] at hf
    exact absurd hf (by decide)

theorem rowLine_no_zero (fill delim : UInt8) (hf : fill ≠ 0) (hd : delim ≠ 0) (x : UInt8)
    (hx : x ≠ fill) (hx' : x ≠ delim) : ∀ (ws : List Nat) (row : Row),
    (∀ c ∈ row, x ∉ c) → x ∉ rowLine fill delim ws row
  | [], _, _ => by simp [rowLine, hx']
  | w :: ws, row, hc => by
    have ih := rowLine_no_zero fill delim hf hd x hx hx' ws row.tail
      fun c h => hc c (List.mem_of_mem_tail h)
    have hh : x ∉ row.headD [] := by
      cases row with
      | nil => simp
      | cons c r => exact hc c List.mem_cons_self
    simp only [rowLine, List.mem_append, List.mem_cons, List.mem_replicate, not_or]
    exact ⟨⟨⟨hx', hx, hh⟩, fun h => hx h.2⟩, ih⟩

theorem rowLine_head (fill delim : UInt8) (ws : List Nat) (row : Row) :
    ∃ y, rowLine fill delim ws row = delim :: y := by
  cases ws <;> exact ⟨_, rfl⟩

/-- The display width of a line depends only on the columns. -/
theorem rowLine_width (fill delim : UInt8) (hf : 0x20 ≤ fill) (hf' : fill < 0x7f) (hd : 0x20 ≤ delim)
    (hd' : delim < 0x7f) : ∀ (ws : List Nat) (row : Row), Fits ws row → (∀ c ∈ row, (0 : UInt8) ∉ c) →
    displaySize (rowLine fill delim ws row) = lineWidth ws := by
  have hf0 : fill ≠ 0 := by rintro rfl; exact absurd hf (by decide)
  have hd0 : delim ≠ 0 := by rintro rfl; exact absurd hd (by decide)
  have hnc : ¬ IsContinuation fill := by
    have : fill.toNat < 128 := by rw [UInt8.lt_iff_toNat_lt] at hf'; exact Nat.lt_trans hf' (by decide)
    unfold IsContinuation; omega
  have hnd : ¬ IsContinuation delim := by
    have : delim.toNat < 128 := by rw [UInt8.lt_iff_toNat_lt] at hd'; exact Nat.lt_trans hd' (by decide)
    unfold IsContinuation; omega
  intro ws
  induction ws with
  | nil =>
    intro row _ _
    rw [rowLine, displaySize_ascii _ _ hd hd' (by simp)]
    have : displaySize [] = 0 := by decide
    simp [lineWidth, this]
  | cons w ws ih =>
    intro row hfit hz
    have hfit' : Fits ws row.tail ∧ displaySize (row.headD []) ≤ w := by
      cases row with
      | nil => exact ⟨fits_nil _, by rw [List.headD_nil, show displaySize [] = 0 by decide]; exact Nat.zero_le _⟩
      | cons c r => exact ⟨hfit.2, hfit.1⟩
    have hz' : ∀ c ∈ row.tail, (0 : UInt8) ∉ c := fun c h => hz c (List.mem_of_mem_tail h)
    have hh : (0 : UInt8) ∉ row.headD [] := by
      cases row with
      | nil => simp
      | cons c r => exact hz c List.mem_cons_self
    have hfill : ∀ n, (0 : UInt8) ∉ List.replicate n fill := by
      intro n h; exact hf0 ((List.mem_replicate.mp h).2.symm)
    have hrest : (0 : UInt8) ∉ rowLine fill delim ws row.tail :=
      rowLine_no_zero fill delim hf0 hd0 0 (Ne.symm hf0) (Ne.symm hd0) ws row.tail hz'
    have hcell : (0 : UInt8) ∉ row.headD [] ++ List.replicate (w - displaySize (row.headD []) + 1) fill := by
      simp only [List.mem_append, not_or]; exact ⟨hh, hfill _⟩
    obtain ⟨y, hy⟩ := rowLine_head fill delim ws row.tail
    rw [rowLine]
    rw [C32_additive _ _ ?_ hrest ?_]
    · rw [List.cons_append, displaySize_ascii _ _ hd hd' ?_, List.cons_append,
        displaySize_ascii _ _ hf hf' hcell, C32_additive _ _ hh (hfill _) ?_, displaySize_fill _ hf hf',
        ih _ hfit'.1 hz']
      · simp only [lineWidth, List.map_cons, List.sum_cons]; omega
      · intro x y h
        rw [List.replicate_succ] at h
        cases h; exact hnc
      · simp only [List.cons_append, List.mem_cons, not_or]
        exact ⟨Ne.symm hf0, hcell⟩
    · simp only [List.cons_append, List.mem_cons, not_or]
      exact ⟨Ne.symm hd0, Ne.symm hf0, hcell⟩
    · intro x z h
      rw [hy] at h
      cases h; exact hnd

/-! ## C36: the printed table -/

/-- The lines for the rows from number `i` on. -/
def bodyLines (ws : List Nat) (sections : List Nat) : Nat → List Row → List Str
  | _, [] => []
  | i, row :: rows =>
    (if sections.contains i then [rowLine 0x2d 0x2b ws []] else []) ++
      rowLine 0x20 0x7c ws row :: bodyLines ws sections (i + 1) rows

/-- All lines: a border, the title, the rows with a border before each section, and a border. -/
def tableLines (t : Table) : List Str :=
  if t.widths = [] then []
  else [rowLine 0x2d 0x2b t.widths []] ++
    (if t.title = [] then [] else [rowLine 0x20 0x7c t.widths t.title]) ++
    bodyLines t.widths t.sections 0 t.rows ++ [rowLine 0x2d 0x2b t.widths []]

/-- All cells of a table. -/
def Table.cells (t : Table) : List Str := (t.title :: t.rows).flatten

theorem widths_small (t : Table) (h : ∀ c ∈ t.cells, c.length < 2 ^ 30 - 1) : ∀ w ∈ t.widths, w < 2 ^ 30 - 1 := by
  intro w hw
  obtain ⟨n, hn⟩ := List.getElem?_of_mem hw
  obtain ⟨row, hr, c, hc, e⟩ := C36_tight t n w hn
  have := h c (List.mem_flatten.mpr ⟨row, hr, List.mem_of_getElem? hc⟩)
  have := C32_bounded c
  omega

theorem printRows_ok (ws sections : List Nat) (hw : ∀ w ∈ ws, w < 2 ^ 30 - 1) : ∀ (rows : List Row) (i : Nat),
    (∀ r ∈ rows, Fits ws r ∧ ∀ c ∈ r, c.length < 2 ^ 30) →
    printRows ws sections i rows = .ok (textOf (bodyLines ws sections i rows)) := by
  intro rows
  induction rows with
  | nil => intro i _; rfl
  | cons r rows ih =>
    intro i h
    obtain ⟨h1, h2⟩ := h r List.mem_cons_self
    rw [printRows, printRow_ok _ _ _ _ h1 hw h2, ih (i + 1) fun r hr => h r (List.mem_cons_of_mem _ hr)]
    unfold printBorder
    rw [printRow_ok _ _ ws [] (fits_nil _) hw (by simp)]
    split
    · rename_i hs
      simp only [Res.bind_ok, bodyLines, if_pos hs, textOf]; simp
    · rename_i hs
      simp only [Res.bind_ok, bodyLines, if_neg hs, textOf]; simp

/-- What is printed, for cells shorter than a gigabyte. -/
theorem C36_text (t : Table) (h : ∀ c ∈ t.cells, c.length < 2 ^ 30 - 1) :
    t.print = .ok (textOf (tableLines t)) := by
  have hw := widths_small t h
  obtain ⟨h1, h2⟩ := C36_fits t
  have hc : ∀ r ∈ t.title :: t.rows, ∀ c ∈ r, c.length < 2 ^ 30 := by
    intro r hr c hc
    have := h c (List.mem_flatten.mpr ⟨r, hr, hc⟩); omega
  unfold Table.print tableLines
  split
  · rfl
  · unfold printBorder
    rw [printRow_ok _ _ t.widths [] (fits_nil _) hw (by simp),
      printRow_ok _ _ _ _ h1 hw (hc _ List.mem_cons_self),
      printRows_ok _ _ hw _ _ fun r hr => ⟨h2 r hr, hc r (List.mem_cons_of_mem _ hr)⟩]
    split
    · simp only [Res.bind_ok, textOf]; simp
    · simp only [Res.bind_ok, textOf]; simp

theorem body_forall {P : Str → Prop} (ws sections : List Nat) (hb : P (rowLine 0x2d 0x2b ws [])) :
    ∀ (rows : List Row) (i : Nat), (∀ r ∈ rows, P (rowLine 0x20 0x7c ws r)) →
    ∀ l ∈ bodyLines ws sections i rows, P l := by
  intro rows
  induction rows with
  | nil => intro i _ l hl; cases hl
  | cons r rows ih =>
    intro i h l hl
    rw [bodyLines, List.mem_append, List.mem_cons] at hl
    rcases hl with hl | rfl | hl
    · split at hl
      · rw [List.mem_singleton] at hl; subst hl; exact hb
      · cases hl
    · exact h r List.mem_cons_self
    · exact ih _ (fun r hr => h r (List.mem_cons_of_mem _ hr)) l hl

theorem table_forall {P : Str → Prop} (t : Table) (hb : P (rowLine 0x2d 0x2b t.widths []))
    (hr : ∀ r ∈ t.title :: t.rows, P (rowLine 0x20 0x7c t.widths r)) : ∀ l ∈ tableLines t, P l := by
  intro l hl
  unfold tableLines at hl
  split at hl
  · cases hl
  · simp only [List.mem_append, List.mem_singleton] at hl
    rcases hl with ((rfl | hl) | hl) | rfl
    · exact hb
    · split at hl
      · cases hl
      · rw [List.mem_singleton] at hl; subst hl; exact hr _ List.mem_cons_self
    · exact body_forall _ _ hb _ _ (fun r h => hr r (List.mem_cons_of_mem _ h)) l hl
    · exact hb

/-- The property. -/
def C36_statement : Prop := ∀ t : Table, ∀ out, t.print = .ok out →
  ∃ n, ∀ l ∈ (split 0x0a out).dropLast, displaySize l = n

/-- C36: all lines are equally wide, for any number of rows and columns and any cells (well-formed or
not) without NUL and newline and shorter than a gigabyte. -/
theorem C36_partial (t : Table) (h : ∀ c ∈ t.cells, c.length < 2 ^ 30 - 1)
    (h0 : ∀ c ∈ t.cells, (0 : UInt8) ∉ c) (hn : ∀ c ∈ t.cells, (0x0a : UInt8) ∉ c) :
    ∃ lines, t.print = .ok (textOf lines) ∧
      ∀ l ∈ lines, (0x0a : UInt8) ∉ l ∧ displaySize l = lineWidth t.widths := by
  refine ⟨_, C36_text t h, ?_⟩
  obtain ⟨h1, h2⟩ := C36_fits t
  have hm : ∀ r ∈ t.title :: t.rows, ∀ c ∈ r, c ∈ t.cells :=
    fun r hr c hc => List.mem_flatten.mpr ⟨r, hr, hc⟩
  apply table_forall
  · exact ⟨rowLine_no_zero _ _ (by decide) (by decide) _ (by decide) (by decide) _ _ (by simp),
      rowLine_width _ _ (by decide) (by decide) (by decide) (by decide) _ _ (fits_nil _) (by simp)⟩
  · intro r hr
    refine ⟨rowLine_no_zero _ _ (by decide) (by decide) _ (by decide) (by decide) _ _
        fun c hc => hn c (hm r hr c hc),
      rowLine_width _ _ (by decide) (by decide) (by decide) (by decide) _ _ ?_
        fun c hc => h0 c (hm r hr c hc)⟩
    rcases List.mem_cons.mp hr with rfl | hr
    · exact h1
    · exact h2 r hr

/-- C36 fails for a cell with a newline. -/
theorem C36_violated : ¬ C36_statement := by
  intro h
  obtain ⟨n, hn⟩ := h { title := [u8!"a\nbc"] } (u8!"+------+\n| a\nbc |\n+------+\n") (by decide +kernel)
  have h1 := hn (u8!"+------+") (by decide)
  have h2 := hn (u8!"| a") (by decide)
  rw [show displaySize (u8!"+------+") = 8 by decide +kernel] at h1
  rw [show displaySize (u8!"| a") = 3 by decide +kernel] at h2
  omega

example : Table.print { title := [u8!"Kanji", u8!"n"], rows := [[u8!"漢字かな"], [u8!"x", u8!"10"]], sections := [1] } =
    .ok (u8!"+----------+----+\n| Kanji    | n  |\n| 漢字かな |    |\n+----------+----+\n| x        | 10 |\n+----------+----+\n") := by
  decide +kernel

/-! ## Markdown -/

/-- The last byte, or `p` if there is none. -/
def lastOf (p : UInt8) : Str → UInt8
  | [] => p
  | x :: r => lastOf x r

theorem lastOf_append (p : UInt8) (a : Str) (x : UInt8) : lastOf p (a ++ [x]) = x := by
  induction a generalizing p with
  | nil => rfl
  | cons y a ih => exact ih y

theorem separators_append (p : UInt8) (a b : Str) :
    separators p (a ++ b) = separators p a + separators (lastOf p a) b := by
  induction a generalizing p with
  | nil => simp [separators, lastOf]
  | cons x a ih =>
    rw [List.cons_append, separators, ih, separators, lastOf]; omega

theorem separators_escape (p : UInt8) (s : Str) : separators p (escapePipes s) = 0 := by
  induction s generalizing p with
  | nil => rfl
  | cons c s ih =>
    unfold escapePipes
    split
    · simp [separators, ih]
    · rename_i hc
      simp [separators, ih, hc]

theorem unescape_cons {b : UInt8} {r : Str} (h : ∀ c r', r = c :: r' → c ≠ 0x7c) :
    unescape (b :: r) = b :: unescape r := by
  cases r with
  | nil => rfl
  | cons c r =>
    rw [unescape, if_neg (fun hh => h c r rfl hh.2)]

theorem escape_head (s : Str) : ∀ c r, escapePipes s = c :: r → c ≠ 0x7c := by
  intro c r h
  cases s with
  | nil => cases h
  | cons x s =>
    unfold escapePipes at h
    split at h
    · cases h; decide
    · rename_i hx; cases h; exact hx

/-- The text of a cell can be read back from Markdown. -/
theorem C36_markdown_unescape (s : Str) : unescape (escapePipes s) = s := by
  induction s with
  | nil => rfl
  | cons c s ih =>
    unfold escapePipes
    split
    · rename_i hc
      subst hc
      simp only [List.cons_append, List.nil_append, unescape, and_self, if_true, ih]
    · rw [List.cons_append, List.nil_append, unescape_cons (escape_head s), ih]

/-- The text of a cell in a Markdown table. -/
def markdownCell (ty : RowType) (empty : Bool) (row : Row) : Str :=
  (if ty = .header ∧ empty = true then u8!"---" else []) ++
      (match row with
        | [] => []
        | s :: _ =>
          let out := escapePipes s
          if out = [] ∨ ty ≠ .section_ then out else u8!"**" ++ out ++ u8!"**")

theorem markdownCells_succ (ty : RowType) (e : Bool) (n : Nat) (row : Row) :
    markdownCells ty e (n + 1) row = u8!"| " ++ markdownCell ty e row ++ u8!" " ++ markdownCells ty e n row.tail := by
  cases row with
  | nil => simp [markdownCells, markdownCell]
  | cons s r => simp only [markdownCells, markdownCell, List.append_assoc]

theorem markdownCell_sep (p : UInt8) (ty : RowType) (e : Bool) (row : Row) : separators p (markdownCell ty e row) = 0 := by
  unfold markdownCell
  have h1 : ∀ p, separators p (if ty = .header ∧ e = true then u8!"---" else []) = 0 := by
    intro p; split
    · simp [separators]
    · rfl
  rw [separators_append, h1]
  cases row with
  | nil => simp [separators]
  | cons s r =>
    simp only [Nat.zero_add]
    by_cases hc : escapePipes s = [] ∨ ty ≠ .section_
    · rw [if_pos hc]; exact separators_escape _ _
    · rw [if_neg hc, separators_append, separators_append, separators_escape]
      simp [separators]

theorem markdownCells_sep (ty : RowType) (e : Bool) : ∀ (n : Nat) (row : Row) (p : UInt8), p ≠ 0x5c →
    separators p (markdownCells ty e n row) = n + 1 := by
  intro n
  induction n with
  | zero => intro row p hp; simp [markdownCells, separators, hp]
  | succ n ih =>
    intro row p hp
    rw [markdownCells_succ, separators_append, separators_append, separators_append, markdownCell_sep,
      ih _ _ (by rw [show u8!" " = [0x20] from rfl, lastOf_append]; decide)]
    simp [separators, hp]; omega

theorem markdownCells_lines (ty : RowType) (e : Bool) : ∀ (n : Nat) (row : Row), (∀ c ∈ row, (0x0a : UInt8) ∉ c) →
    ∃ l, markdownCells ty e n row = l ++ [0x0a] ∧ (0x0a : UInt8) ∉ l := by
  have hesc : ∀ s : Str, (0x0a : UInt8) ∉ s → (0x0a : UInt8) ∉ escapePipes s := by
    intro s
    induction s with
    | nil => intro h; exact h
    | cons c s ih =>
      intro h
      simp only [List.mem_cons, not_or] at h
      unfold escapePipes
      split
      · simp only [List.mem_append, List.mem_cons, List.not_mem_nil, or_false, not_or]
        exact ⟨⟨by decide, by decide⟩, ih h.2⟩
      · simp only [List.mem_append, List.mem_cons, List.not_mem_nil, or_false, not_or]
        exact ⟨h.1, ih h.2⟩
  intro n
  induction n with
  | zero => intro row _; exact ⟨u8!"|", rfl, by decide⟩
  | succ n ih =>
    intro row h
    obtain ⟨l, h1, h2⟩ := ih row.tail fun c hc => h c (List.mem_of_mem_tail hc)
    refine ⟨u8!"| " ++ markdownCell ty e row ++ u8!" " ++ l, ?_, ?_⟩
    · rw [markdownCells_succ, h1]; simp
    · have hc : (0x0a : UInt8) ∉ markdownCell ty e row := by
        unfold markdownCell
        rw [List.mem_append, not_or]
        constructor
        · split <;> decide
        · cases row with
          | nil => simp
          | cons s r =>
            have := hesc s (h s List.mem_cons_self)
            simp only
            split
            · exact this
            · simp [this]
      simp [hc, h2]

/-- The lines of the Markdown form. -/
theorem markdownRows_lines (n : Nat) (sections : List Nat) : ∀ (rows : List Row) (i : Nat),
    (∀ r ∈ rows, ∀ c ∈ r, (0x0a : UInt8) ∉ c) →
    ∃ lines, markdownRows n sections i rows = textOf lines ∧ lines.length = rows.length ∧
      ∀ l ∈ lines, (0x0a : UInt8) ∉ l ∧ separators 0 l = n + 1 := by
  intro rows
  induction rows with
  | nil => intro i _; exact ⟨[], rfl, rfl, by simp⟩
  | cons r rows ih =>
    intro i h
    obtain ⟨lines, h1, h2, h3⟩ := ih (i + 1) fun r hr => h r (List.mem_cons_of_mem _ hr)
    unfold markdownRows markdownRow
    generalize (if sections.contains i = true then RowType.section_ else RowType.normal) = ty
    obtain ⟨l, h4, h5⟩ := markdownCells_lines ty (decide (r = [])) n r (h r List.mem_cons_self)
    refine ⟨l :: lines, by rw [h1, h4]; simp [textOf], by simp [h2], ?_⟩
    intro x hx
    rcases List.mem_cons.mp hx with rfl | hx
    · refine ⟨h5, ?_⟩
      have := markdownCells_sep ty (decide (r = [])) n r 0 (by decide)
      rw [h4, separators_append] at this
      simpa [separators] using this
    · exact h3 x hx

/-- C36: every line of the Markdown form has the same number of columns, and there is a line for the
title, the header line and each row. -/
theorem C36_markdown_partial (t : Table) (hn : ∀ c ∈ t.cells, (0x0a : UInt8) ∉ c) :
    ∃ lines, t.printMarkdown = textOf lines ∧
      (lines = [] ↔ t.maxColumns = 0) ∧ (t.maxColumns ≠ 0 → lines.length = t.rows.length + 2) ∧
      ∀ l ∈ lines, (0x0a : UInt8) ∉ l ∧ separators 0 l = t.maxColumns + 1 := by
  unfold Table.printMarkdown
  split
  · rename_i h; exact ⟨[], rfl, by simp [h], fun h' => absurd h h', by simp⟩
  · rename_i h
    obtain ⟨lines, h1, h2, h3⟩ := markdownRows_lines t.maxColumns t.sections t.rows 0 fun r hr c hc =>
      hn c (List.mem_flatten.mpr ⟨r, List.mem_cons_of_mem _ hr, hc⟩)
    unfold markdownRow
    obtain ⟨l1, h4, h5⟩ := markdownCells_lines .normal (decide (t.title = [])) t.maxColumns t.title
      fun c hc => hn c (List.mem_flatten.mpr ⟨_, List.mem_cons_self, hc⟩)
    obtain ⟨l2, h6, h7⟩ := markdownCells_lines .header (decide (([] : Row) = [])) t.maxColumns [] (by simp)
    refine ⟨l1 :: l2 :: lines, by rw [h1, h4, h6]; simp [textOf], by simp [h], by simp [h2], ?_⟩
    intro x hx
    rcases List.mem_cons.mp hx with rfl | hx
    · refine ⟨h5, ?_⟩
      have := markdownCells_sep .normal (decide (t.title = [])) t.maxColumns t.title 0 (by decide)
      rw [h4, separators_append] at this
      simpa [separators] using this
    · rcases List.mem_cons.mp hx with rfl | hx
      · refine ⟨h7, ?_⟩
        have := markdownCells_sep .header (decide (([] : Row) = [])) t.maxColumns [] 0 (by decide)
        rw [h6, separators_append] at this
        simpa [separators] using this
      · exact h3 x hx

theorem foldl_max : ∀ (rows : List Row) (m : Nat), m ≤ rows.foldl (fun m r => max m r.length) m ∧
    ∀ r ∈ rows, r.length ≤ rows.foldl (fun m r => max m r.length) m := by
  intro rows
  induction rows with
  | nil => intro m; exact ⟨Nat.le_refl _, by simp⟩
  | cons r rows ih =>
    intro m
    obtain ⟨h1, h2⟩ := ih (max m r.length)
    simp only [List.foldl_cons]
    refine ⟨by omega, ?_⟩
    intro x hx
    rcases List.mem_cons.mp hx with rfl | hx
    · omega
    · exact h2 x hx

/-- No cell is lost. -/
theorem C36_markdown_columns (t : Table) : ∀ r ∈ t.title :: t.rows, r.length ≤ t.maxColumns := by
  intro r hr
  rcases List.mem_cons.mp hr with rfl | hr
  · exact (foldl_max _ _).1
  · exact (foldl_max _ _).2 r hr

example : Table.printMarkdown { title := [u8!"a|b"], rows := [[u8!"x", u8!"\\|"]], sections := [0] } =
    u8!"| a\\|b |  |\n| --- | --- |\n| **x** | **\\\\|** |\n" := by decide

/-! ## Adding rows -/

/-- The table after adding rows in order. -/
def Table.addAll (t : Table) : List (Row × Bool) → Table
  | [] => t
  | (r, b) :: rs => (t.add r b).addAll rs

theorem addAll_rows (t : Table) (rs : List (Row × Bool)) :
    (t.addAll rs).rows = t.rows ++ rs.zipIdx.map fun (r, i) =>
      if t.countInFirstColumn then toDec (t.rows.length + i + 1) :: r.1 else r.1 := by
  have key : ∀ (rs : List (Row × Bool)) (t : Table) (k : Nat), (t.addAll rs).rows = t.rows ++ (rs.zipIdx k).map fun (r, i) =>
      if t.countInFirstColumn then toDec (t.rows.length + (i - k) + 1) :: r.1 else r.1 := by
    intro rs
    induction rs with
    | nil => intro t k; simp [Table.addAll]
    | cons r rs ih =>
      intro t k
      obtain ⟨r, b⟩ := r
      rw [Table.addAll, ih (t.add r b) (k + 1)]
      simp only [Table.add, List.zipIdx_cons, List.map_cons, Nat.sub_self, Nat.add_zero, List.length_append,
        List.length_singleton, List.append_assoc, List.singleton_append]
      congr 2
      apply List.map_congr_left
      rintro ⟨x, i⟩ hx
      have := (List.mem_zipIdx hx).1
      simp only
      rw [show t.rows.length + 1 + (i - (k + 1)) + 1 = t.rows.length + (i - k) + 1 by omega]
  simpa using key rs t 0

theorem addAll_sections : ∀ (rs : List (Row × Bool)) (t : Table) (n : Nat), n ∈ (t.addAll rs).sections ↔
    n ∈ t.sections ∨ ∃ i r, rs[i]? = some (r, true) ∧ n = t.rows.length + i := by
  intro rs
  induction rs with
  | nil => intro t n; simp [Table.addAll]
  | cons r rs ih =>
    intro t n
    obtain ⟨r, b⟩ := r
    rw [Table.addAll, ih (t.add r b) n]
    simp only [Table.add, List.length_append, List.length_singleton]
    constructor
    · rintro (h | ⟨i, r', h1, h2⟩)
      · split at h
        · rename_i hb
          subst hb
          rcases List.mem_cons.mp h with rfl | h
          · exact .inr ⟨0, r, rfl, rfl⟩
          · exact .inl h
        · exact .inl h
      · exact .inr ⟨i + 1, r', by simpa using h1, by omega⟩
    · rintro (h | ⟨i, r', h1, h2⟩)
      · left; split
        · exact List.mem_cons_of_mem _ h
        · exact h
      · cases i with
        | zero =>
          simp only [List.getElem?_cons_zero, Option.some.injEq, Prod.mk.injEq] at h1
          left
          rw [if_pos h1.2]
          rw [h2]; exact List.mem_cons_self
        | succ i => exact .inr ⟨i, r', by simpa using h1, by omega⟩

/-- C36: the rows of a table are the added ones in order (with their number in front if that was
asked for), and a section starts exactly at the rows added as such. -/
theorem C36_rows (title : Row) (count : Bool) (rs : List (Row × Bool)) :
    let t := ({ title := title, countInFirstColumn := count } : Table).addAll rs
    (t.rows.length = rs.length) ∧
    (∀ i r b, rs[i]? = some (r, b) →
      t.rows[i]? = some (if count then toDec (i + 1) :: r else r) ∧ (t.sections.contains i = b)) := by
  intro t
  have hr : t.rows = _ := addAll_rows _ _
  refine ⟨by rw [hr]; simp, ?_⟩
  intro i r b h
  constructor
  · rw [hr]
    simp [h]
  · have := addAll_sections rs { title := title, countInFirstColumn := count } i
    cases b with
    | true => exact List.contains_iff_mem.mpr (this.mpr (.inr ⟨i, r, h, by simp⟩))
    | false =>
      cases hc : t.sections.contains i with
      | false => rfl
      | true =>
        rcases this.mp (List.contains_iff_mem.mp hc) with hm | ⟨j, r', h1, h2⟩
        · cases hm
        · simp only [List.length_nil, Nat.zero_add] at h2
          subst h2
          rw [h] at h1
          cases h1

end KT
