import Verif.Lemmas.ColumnFile
/-!
# C20 - C23: files with columns

Specification: `Verif/Spec/Text.lean`, `Verif/Spec/Digits.lean`.
Model: `Verif/Model/ColumnFile.lean`.
-/
namespace KT
open Spec

/-! ## C23: column numbers identify names -/

/-- Construct columns one after the other, threading the global registry. -/
def runColumns : List Str → List Str → List Column × List Str
  | reg, [] => ([], reg)
  | reg, name :: names =>
    let (c, reg') := mkColumn reg name
    let (cs, reg'') := runColumns reg' names
    (c :: cs, reg'')

/-- The columns were constructed while the registry had (at least) these names. -/
def Registered (reg : List Str) (cols : List Column) : Prop :=
  ∀ c ∈ cols, reg[c.number]? = some c.name

theorem mkColumn_spec (reg : List Str) (name : Str) (hnd : reg.Nodup) :
    reg <+: (mkColumn reg name).2 ∧ (mkColumn reg name).2.Nodup ∧
    (mkColumn reg name).1.name = name ∧
    (mkColumn reg name).2[(mkColumn reg name).1.number]? = some name := by
  unfold mkColumn getColumnNumber
  cases h : reg.findIdx? (· == name) with
  | none =>
    rw [List.findIdx?_eq_none_iff] at h
    refine ⟨⟨_, rfl⟩, ?_, rfl, by simp⟩
    rw [List.nodup_append]
    refine ⟨hnd, by simp, ?_⟩
    intro a ha b hb
    simp only [List.mem_singleton] at hb
    subst hb
    simpa using h a ha
  | some i =>
    refine ⟨List.prefix_refl _, hnd, rfl, ?_⟩
    rw [List.findIdx?_eq_some_iff_getElem] at h
    obtain ⟨hi, he, _⟩ := h
    simp only
    rw [List.getElem?_eq_getElem hi]
    congr 1
    simpa using he

theorem runColumns_spec (reg names : List Str) (hnd : reg.Nodup) :
    reg <+: (runColumns reg names).2 ∧ (runColumns reg names).2.Nodup ∧
    Registered (runColumns reg names).2 (runColumns reg names).1 ∧
    (runColumns reg names).1.map Column.name = names := by
  induction names generalizing reg with
  | nil => exact ⟨List.prefix_refl _, hnd, by simp [Registered, runColumns], rfl⟩
  | cons name names ih =>
    obtain ⟨h1, h2, h3, h4⟩ := mkColumn_spec reg name hnd
    obtain ⟨g1, g2, g3, g4⟩ := ih (mkColumn reg name).2 h2
    simp only [runColumns]
    refine ⟨h1.trans g1, g2, ?_, ?_⟩
    · intro c hc
      rcases List.mem_cons.mp hc with rfl | hc
      · rw [h3]
        obtain ⟨t, ht⟩ := g1
        rw [← ht, List.getElem?_append_left]
        · exact h4
        · exact (List.getElem?_eq_some_iff.mp h4).1
      · exact g3 c hc
    · simp [h3, g4]

/-- For every history of column constructions (starting with no column): every column has a
number below the size of the registry, and two columns have the same number exactly when they have
the same name. -/
theorem C23_numbers (names : List Str) (c d : Column)
    (hc : c ∈ (runColumns [] names).1) (hd : d ∈ (runColumns [] names).1) :
    (c.number = d.number ↔ c.name = d.name) ∧ c.number < (runColumns [] names).2.length := by
  obtain ⟨_, h2, h3, _⟩ := runColumns_spec [] names (by simp)
  have e1 := h3 c hc
  have e2 := h3 d hd
  refine ⟨⟨fun h => ?_, fun h => ?_⟩, (List.getElem?_eq_some_iff.mp e1).1⟩
  · rw [h, e2] at e1; simpa using e1.symm
  · rw [← h] at e2
    obtain ⟨l1, v1⟩ := List.getElem?_eq_some_iff.mp e1
    obtain ⟨l2, v2⟩ := List.getElem?_eq_some_iff.mp e2
    exact (List.getElem_inj h2).mp (by rw [v1, v2])

/-- Numbers stay valid when more columns are constructed later. -/
theorem C23_stable (names more : List Str) :
    Registered (runColumns (runColumns [] names).2 more).2 (runColumns [] names).1 := by
  obtain ⟨_, h2, h3, _⟩ := runColumns_spec [] names (by simp)
  obtain ⟨⟨t, ht⟩, _⟩ := runColumns_spec (runColumns [] names).2 more h2
  intro c hc
  rw [← ht, List.getElem?_append_left]
  · exact h3 c hc
  · exact (List.getElem?_eq_some_iff.mp (h3 c hc)).1

example : (runColumns [] [u8!"A", u8!"B", u8!"A"]).1 =
    [⟨u8!"A", 0⟩, ⟨u8!"B", 1⟩, ⟨u8!"A", 0⟩] := by decide

/-! ## C20: lookups return the field under the matching header -/

/-- Any number of `nextRow` calls, whatever their outcome. -/
inductive Reach (cf : ColumnFile) : ColumnFile → Prop where
  | refl : Reach cf cf
  | step {cf'} : Reach cf cf' → Reach cf cf'.nextRow.1

theorem map_snd_nodup {reg : List Str} {cols : List Column} (hr : Registered reg cols)
    (hn : (cols.map Column.name).Nodup) : (cols.map Column.number).Nodup := by
  induction cols with
  | nil => simp
  | cons c cs ih =>
    rw [List.map_cons, List.nodup_cons] at hn ⊢
    refine ⟨?_, ih (fun x hx => hr x (by simp [hx])) hn.2⟩
    intro hm
    obtain ⟨x, hx, hxe⟩ := List.mem_map.mp hm
    apply hn.1
    refine List.mem_map.mpr ⟨x, hx, ?_⟩
    have e1 := hr x (by simp [hx])
    have e2 := hr c (by simp)
    rw [hxe, e2] at e1
    simpa using e1.symm

/-- Everything about opening a file. -/
theorem open_cases (reg : List Str) (header : Str) (rest : List Str) (cols : List Column)
    (d : UInt8) (hreg : Registered reg cols) :
    (openColumnFile reg (header :: rest) cols d = .throw .domain ∧
      ¬ (cols ≠ [] ∧ (cols.map Column.name).Nodup ∧
        (fields d header).Perm (cols.map Column.name))) ∨
    ∃ c2p, openColumnFile reg (header :: rest) cols d =
        .ok ⟨d, 0, List.replicate cols.length [], c2p, rest⟩ ∧
      cols ≠ [] ∧ (cols.map Column.name).Nodup ∧
      (fields d header).Perm (cols.map Column.name) ∧ c2p.length = reg.length ∧
      (∀ j c, c ∈ cols → (fields d header)[j]? = some c.name → c2p[c.number]? = some (some j)) ∧
      (∀ n < reg.length, (∀ c ∈ cols, c.number ≠ n) → c2p[n]? = some none) := by
  unfold openColumnFile
  cases hce : cols with
  | nil => left; exact ⟨rfl, by simp⟩
  | cons c0 cs0 =>
    rw [← hce]
    have hne : cols ≠ [] := by rw [hce]; simp
    have hie : cols.isEmpty = false := by rw [hce]; rfl
    rw [hie]
    simp only [Bool.false_eq_true, if_false]
    by_cases hnd : (cols.map Column.name).Nodup
    · rw [collectColNames_total cols [] (by simpa using hnd), List.nil_append, Res.bind_ok]
      have hfst : (cols.map (fun c => (c.name, c.number))).map Prod.fst = cols.map Column.name := by
        simp [Function.comp_def]
      have hsnd : (cols.map (fun c => (c.name, c.number))).map Prod.snd =
          cols.map Column.number := by simp [Function.comp_def]
      rcases headerLoop_cases (fields d header) 0 [] (List.replicate reg.length none)
        (cols.map (fun c => (c.name, c.number))) (by rw [hfst]; exact hnd)
        (by rw [hsnd]; exact map_snd_nodup hreg hnd)
        (by
          intro x hx
          obtain ⟨c, hc, rfl⟩ := List.mem_map.mp hx
          simpa using (List.getElem?_eq_some_iff.mp (hreg c hc)).1)
        (by simp) with ⟨h1, h2⟩ | ⟨c2p, h1, h2, h3, h4, h5, h6⟩
      · left
        rw [h1]
        refine ⟨rfl, ?_⟩
        rintro ⟨_, _, hp⟩
        apply h2
        rw [hfst]
        exact ⟨hp.nodup_iff.mpr hnd, fun h hh => hp.subset hh⟩
      · rw [h1, Res.bind_ok]
        simp only
        rw [hfst] at h3
        have hsub : ∀ h ∈ fields d header, h ∈ cols.map Column.name := h3
        have hleft : (cols.map (fun c => (c.name, c.number))).filter
            (fun x => decide (x.1 ∉ fields d header)) = [] ↔
            ∀ c ∈ cols, c.name ∈ fields d header := by
          rw [List.filter_eq_nil_iff]
          constructor
          · intro h c hc
            have := h (c.name, c.number) (List.mem_map.mpr ⟨c, hc, rfl⟩)
            simpa using this
          · rintro h x hx
            obtain ⟨c, hc, rfl⟩ := List.mem_map.mp hx
            simpa using h c hc
        by_cases hl : (cols.map (fun c => (c.name, c.number))).filter
            (fun x => decide (x.1 ∉ fields d header)) = []
        · right
          rw [if_neg (by rw [hl]; simp)]
          have hall := hleft.mp hl
          refine ⟨c2p, rfl, hne, hnd, ?_, by simpa using h4, ?_, ?_⟩
          · have key : ∀ (a b : List Str), a.Nodup → b.Nodup → (∀ x, x ∈ a ↔ x ∈ b) →
                a.Perm b := by
              intro a b ha hb hab
              exact (List.perm_ext_iff_of_nodup ha hb).mpr hab
            apply key _ _ h2 hnd
            intro x
            refine ⟨hsub x, fun hx => ?_⟩
            obtain ⟨c, hc, rfl⟩ := List.mem_map.mp hx
            exact hall c hc
          · intro j c hc hj
            have := h5 j c.name c.number hj (List.mem_map.mpr ⟨c, hc, rfl⟩)
            simpa using this
          · intro n hn hno
            rw [h6 n]
            · rw [List.getElem?_replicate, if_pos hn]
            · intro x hx _
              obtain ⟨c, hc, rfl⟩ := List.mem_map.mp hx
              exact hno c hc
        · left
          rw [if_pos]
          · refine ⟨rfl, ?_⟩
            rintro ⟨_, _, hp⟩
            apply hl
            rw [hleft]
            intro c hc
            exact hp.symm.subset (List.mem_map.mpr ⟨c, hc, rfl⟩)
          · have := List.length_pos_iff.mpr hl
            omega
    · left
      rcases collectColNames_throw cols [] with ⟨r, hr⟩ | hr
      · exfalso
        have := collectColNames_ok cols [] r hr (by simp)
        apply hnd
        have h2 := this.2
        rw [this.1] at h2
        simpa [Function.comp_def] using h2
      · rw [hr]
        exact ⟨rfl, fun h => hnd h.2.1⟩

/-- A file can be opened exactly when at least one column is requested, no name is requested twice
and the header (ignoring one trailing delimiter) is a permutation of the requested names; otherwise a
`DomainError` is thrown, and nothing is ever written outside of the position table. -/
theorem C20_open_iff (reg : List Str) (header : Str) (rest : List Str) (cols : List Column)
    (d : UInt8) (hreg : Registered reg cols) :
    let ok := cols ≠ [] ∧ (cols.map Column.name).Nodup ∧
      (dropEmptyLast (split d header)).Perm (cols.map Column.name)
    (ok → ∃ cf, openColumnFile reg (header :: rest) cols d = .ok cf) ∧
    (¬ ok → openColumnFile reg (header :: rest) cols d = .throw .domain) := by
  intro ok
  rcases open_cases reg header rest cols d hreg with ⟨h1, h2⟩ | ⟨c2p, h1, h2, h3, h4, _⟩
  · rw [fields_eq] at h2
    exact ⟨fun h => absurd h h2, fun _ => h1⟩
  · rw [fields_eq] at h4
    exact ⟨fun _ => ⟨_, h1⟩, fun h => absurd ⟨h2, h3, h4⟩ h⟩

theorem reach_inv {cf cf' : ColumnFile} (h : Reach cf cf') (hn : cf.rowValues ≠ []) :
    cf'.delimiter = cf.delimiter ∧ cf'.columnToPosition = cf.columnToPosition ∧
    cf'.rowValues.length = cf.rowValues.length := by
  induction h with
  | refl => exact ⟨rfl, rfl, rfl⟩
  | @step m _ ih =>
    obtain ⟨h1, h2, h3⟩ := ih
    cases hl : m.lines with
    | nil =>
      have : m.nextRow = (m, .ok false) := by unfold ColumnFile.nextRow; rw [hl]
      rw [this]; exact ⟨h1, h2, h3⟩
    | cons line rest =>
      have hm : m.rowValues ≠ [] := by
        rw [← List.length_pos_iff, h3]; exact List.length_pos_iff.mpr hn
      rcases nextRow_cases m line rest hl hm with ⟨hc, hv⟩ | ⟨hc, rv, hl', hv⟩
      · rw [hv]
        refine ⟨h1, h2, ?_⟩
        simp only [List.length_take]
        rcases hc with hc | hc <;> omega
      · rw [hv]
        exact ⟨h1, h2, by rw [hl', h3]⟩

/-- After opening a file and any history of `nextRow` calls (including ones that threw), if the next
call accepts `line`, then for every requested column `get` returns the field of `line` at the
position of the column's name in the header. -/
theorem C20_get (reg : List Str) (header : Str) (rest : List Str) (cols : List Column) (d : UInt8)
    (hreg : Registered reg cols) (cf cf' : ColumnFile)
    (hopen : openColumnFile reg (header :: rest) cols d = .ok cf) (hreach : Reach cf cf')
    (line : Str) (more : List Str) (hline : cf'.lines = line :: more)
    (hacc : cf'.nextRow.2 = .ok true) (c : Column) (hc : c ∈ cols) :
    ∃ (pos : Nat) (value : Str), (split d header)[pos]? = some c.name ∧ (split d line)[pos]? = some value ∧
      cf'.nextRow.1.get c = .ok value := by
  rcases open_cases reg header rest cols d hreg with ⟨h1, _⟩ | ⟨c2p, h1, h2, h3, h4, h5, h6, _⟩
  · rw [h1] at hopen; simp at hopen
  · rw [h1] at hopen
    have hopen : cf = ⟨d, 0, List.replicate cols.length [], c2p, rest⟩ := by
      injection hopen with h; exact h.symm
    have hrv : cf.rowValues ≠ [] := by
      rw [hopen]; simp [h2]
    obtain ⟨i1, i2, i3⟩ := reach_inv hreach hrv
    have hm : cf'.rowValues ≠ [] := by
      rw [← List.length_pos_iff, i3]; exact List.length_pos_iff.mpr hrv
    have hlen : cf'.rowValues.length = cols.length := by rw [i3, hopen]; simp
    have hd : cf'.delimiter = d := by rw [i1, hopen]
    have hcp : cf'.columnToPosition = c2p := by rw [i2, hopen]
    obtain ⟨pos, hpos⟩ : ∃ pos : Nat, (fields d header)[pos]? = some c.name := by
      have : c.name ∈ fields d header := h4.symm.subset (List.mem_map.mpr ⟨c, hc, rfl⟩)
      obtain ⟨i, hi, hv⟩ := List.getElem_of_mem this
      exact ⟨i, by rw [List.getElem?_eq_getElem hi, hv]⟩
    have hplt : pos < cols.length := by
      have := (List.getElem?_eq_some_iff.mp hpos).1
      rw [h4.length_eq] at this
      simpa using this
    have hnum : c.number < c2p.length := by
      rw [h5]; exact (List.getElem?_eq_some_iff.mp (hreg c hc)).1
    have hc2 := h6 pos c hc hpos
    rcases nextRow_cases cf' line more hline hm with ⟨hok, hv⟩ | ⟨_, rv, _, hv⟩
    · rw [hd, hlen] at hok
      have hSlen : cols.length ≤ (split d line).length := by
        rcases hok with h | h <;> omega
      have hplt' : pos < (split d line).length := by omega
      refine ⟨pos, (split d line)[pos], ?_, List.getElem?_eq_getElem hplt', ?_⟩
      · rw [fields_eq, dropEmptyLast] at hpos
        split at hpos
        · rw [List.getElem?_dropLast] at hpos
          split at hpos
          · exact hpos
          · simp at hpos
        · exact hpos
      · rw [hv]
        simp only [ColumnFile.get, hd, hcp, hlen]
        rw [if_neg (by omega), if_neg (by omega), hc2]
        simp only
        rw [List.getElem?_take_of_lt hplt, List.getElem?_eq_getElem hplt']
    · rw [hv] at hacc; simp at hacc

/-- Columns that were not requested for this file are rejected whatever their number is. -/
theorem C20_other_columns (reg : List Str) (header : Str) (rest : List Str) (cols : List Column)
    (d : UInt8) (hreg : Registered reg cols) (cf cf' : ColumnFile)
    (hopen : openColumnFile reg (header :: rest) cols d = .ok cf) (hreach : Reach cf cf')
    (c : Column) (hc : ∀ x ∈ cols, x.number ≠ c.number) : cf'.get c = .throw .domain := by
  rcases open_cases reg header rest cols d hreg with ⟨h1, _⟩ | ⟨c2p, h1, h2, _, _, h5, _, h7⟩
  · rw [h1] at hopen; simp at hopen
  · rw [h1] at hopen
    have hopen : cf = ⟨d, 0, List.replicate cols.length [], c2p, rest⟩ := by
      injection hopen with h; exact h.symm
    have hrv : cf.rowValues ≠ [] := by
      rw [hopen]; simp [h2]
    obtain ⟨_, i2, _⟩ := reach_inv hreach hrv
    have hcp : cf'.columnToPosition = c2p := by rw [i2, hopen]
    unfold ColumnFile.get
    split
    · rfl
    · rw [hcp]
      split
      · rfl
      · rename_i hlt
        rw [h7 c.number (by omega) hc]

/-- Header in another order than the columns, an unrelated column in between in the registry. -/
example :
    let cols := [⟨u8!"A", 0⟩, ⟨u8!"B", 2⟩]
    let reg := [u8!"A", u8!"X", u8!"B"]
    ∃ cf, openColumnFile reg [u8!"B	A", u8!"1	2"] cols = .ok cf ∧ cf.nextRow.2 = .ok true ∧
      cf.nextRow.1.get ⟨u8!"A", 0⟩ = .ok u8!"2" ∧ cf.nextRow.1.get ⟨u8!"X", 1⟩ = .throw .domain :=
  ⟨⟨0x09, 0, [[], []], [some 1, none, some 0], [u8!"1	2"]⟩, by decide⟩

/-! ## C21: rows with the wrong number of fields

The full property does not hold: one trailing delimiter too many is accepted. -/

/-- The full property: a row is accepted exactly when it has as many fields as there are columns,
and then these fields are stored. -/
def C21_statement : Prop :=
  ∀ (cf : ColumnFile) (line : Str) (rest : List Str), cf.lines = line :: rest →
    cf.rowValues ≠ [] →
    (cf.nextRow.2 = .ok true ↔ (split cf.delimiter line).length = cf.rowValues.length)

/-- "1<tab>2<tab>" has three fields but is accepted by a file with two columns. -/
theorem C21_violated : ¬ C21_statement := by
  intro h
  have := h ⟨0x09, 0, [[], []], [some 0, some 1], [u8!"1	2	"]⟩ u8!"1	2	" [] rfl (by simp)
  revert this; decide

/-- Exactly which rows are accepted and what is stored (missing from the full property: a row with
one more field than columns is also accepted when that last field is empty). All other rows throw a
`DomainError`. -/
theorem C21_partial (cf : ColumnFile) (line : Str) (rest : List Str)
    (hl : cf.lines = line :: rest) (hn : cf.rowValues ≠ []) :
    let S := split cf.delimiter line
    let n := cf.rowValues.length
    let ok := S.length = n ∨ (S.length = n + 1 ∧ S.getLast? = some [])
    (ok → cf.nextRow.2 = .ok true ∧ cf.nextRow.1.rowValues = S.take n) ∧
    (¬ ok → cf.nextRow.2 = .throw .domain) := by
  intro S n ok
  rcases nextRow_cases cf line rest hl hn with ⟨h1, h2⟩ | ⟨h1, rv, _, h2⟩
  · exact ⟨fun _ => by rw [h2]; exact ⟨rfl, rfl⟩, fun h => absurd h1 h⟩
  · exact ⟨fun h => absurd h h1, fun _ => by rw [h2]⟩

example : ((⟨0x09, 0, [[], []], [], [u8!"	"]⟩ : ColumnFile).nextRow.2 = .ok true) ∧
    ((⟨0x09, 0, [[], []], [], [u8!"a"]⟩ : ColumnFile).nextRow.2 = .throw .domain) ∧
    ((⟨0x09, 0, [[], []], [], [u8!"a	b	c"]⟩ : ColumnFile).nextRow.2 = .throw .domain) := by
  decide

/-! ## C22: numeric columns

The full property does not hold: blanks and a sign in front of the number and any text after it are
accepted. -/

/-- The full property: exactly the decimal numbers up to the limit are accepted. -/
def C22_statement : Prop :=
  ∀ (s : Str) (max v : Nat), max < 2 ^ 64 →
    (processU64 s max = .ok v ↔
      readNumber 10 s = some v ∧ v < 2 ^ 64 ∧ (max = 0 ∨ v ≤ max))

/-- "12abc", " 12" and even "-1" (as 2^64 - 1) are accepted. -/
theorem C22_violated : ¬ C22_statement := by
  intro h
  have := (h u8!"12abc" 0 12 (by decide)).mp (by decide)
  revert this; decide

theorem C22_negative_accepted :
    processU64 u8!"-1" 0 = .ok (2 ^ 64 - 1) ∧ processU64 u8!" 12" 255 = .ok 12 := by decide

theorem isSpaceChar_iff (b : UInt8) : isSpaceChar b = true ↔ Blank b := by
  have : ∀ n : Nat, n < 256 → (isSpaceChar (UInt8.ofNat n) = true ↔ Blank (UInt8.ofNat n)) := by decide +kernel
  have h := this b.toNat (UInt8.toNat_lt b)
  rwa [UInt8.ofNat_toNat] at h

theorem all_space {ws : Str} (h : ∀ b ∈ ws, Blank b) : ws.all isSpaceChar = true :=
  List.all_eq_true.mpr fun b hb => (isSpaceChar_iff b).mpr (h b hb)

/-- For a cell `blanks sign digits rest`, the value used is that of the digits (negated modulo 2^64
after a minus sign). Missing from the full property: blanks, sign and rest should be rejected. -/
theorem C22_partial (ws sg ds rest : Str) (max n : Nat) (hws : ∀ b ∈ ws, Blank b)
    (hsg : sg = [] ∨ sg = u8!"+" ∨ sg = u8!"-") (hn : readNumber 10 ds = some n)
    (hrest : ∀ b r, rest = b :: r → isDigitChar b = false) :
    let v := if sg = u8!"-" then (2 ^ 64 - n) % 2 ^ 64 else n
    processU64 (ws ++ sg ++ ds ++ rest) max =
      if n < 2 ^ 64 ∧ (max = 0 ∨ v ≤ max) then .ok v else .throw .domain := by
  intro v
  replace hws := all_space hws
  have hne : ds ≠ [] := by rintro rfl; simp [readNumber] at hn
  have hn' : readFrom 10 0 ds = some n := by
    rw [readNumber] at hn; split at hn
    · simp at hn
    · exact hn
  have hall := read_all_digits ds 0 n hn'
  have hval : decimalValue ds = n := by
    have := decimal_read ds 0 hall
    rw [hn'] at this
    simpa [decimalValue] using this.symm
  obtain ⟨b, bs, hb⟩ := List.exists_cons_of_ne_nil hne
  have hbd : isDigitChar b = true := by
    rw [hb, List.all_cons, Bool.and_eq_true] at hall; exact hall.1
  obtain ⟨n1, n2, n3⟩ := digit_not_special b hbd
  have hdrop : (ws ++ sg ++ ds ++ rest).dropWhile isSpaceChar = sg ++ ds ++ rest := by
    rw [List.append_assoc, List.append_assoc]
    rw [dropWhile_append_stop ws _ hws, List.append_assoc]
    intro x y hxy
    rcases hsg with rfl | rfl | rfl
    · rw [hb] at hxy; simp at hxy; rw [← hxy.1]; exact n1
    · simp at hxy; rw [← hxy.1]; decide
    · simp at hxy; rw [← hxy.1]; decide
  have htake : (ds ++ rest).takeWhile isDigitChar = ds := takeWhile_append_stop ds rest hall hrest
  have hie : ds.isEmpty = false := by rw [hb]; rfl
  have hst : stoul (ws ++ sg ++ ds ++ rest) =
      if n ≥ 2 ^ 64 then none else some v := by
    unfold stoul
    simp only [hdrop]
    rcases hsg with hsg | hsg | hsg
    · subst hsg
      have h1 : ((([] ++ ds ++ rest : Str)).head? == some 0x2d) = false := by
        rw [hb]; simpa using n2
      have h2 : ((([] ++ ds ++ rest : Str)).head? == some 0x2b) = false := by
        rw [hb]; simpa using n3
      rw [h1, h2]
      simp only [Bool.or_false, Bool.false_eq_true, if_false, List.nil_append, htake, hie, hval]
      rfl
    · subst hsg
      have h1 : ((u8!"+" ++ ds ++ rest : Str).head? == some 0x2d) = false := rfl
      have h2 : ((u8!"+" ++ ds ++ rest : Str).head? == some 0x2b) = true := rfl
      have h3 : (u8!"+" ++ ds ++ rest : Str).tail = ds ++ rest := rfl
      rw [h1, h2, h3]
      simp only [Bool.or_true, if_true, Bool.false_eq_true, if_false, htake, hie, hval]
      rfl
    · subst hsg
      have h1 : ((u8!"-" ++ ds ++ rest : Str).head? == some 0x2d) = true := rfl
      have h3 : (u8!"-" ++ ds ++ rest : Str).tail = ds ++ rest := rfl
      rw [h1, h3]
      simp only [Bool.true_or, if_true, Bool.false_eq_true, if_false, htake, hie, hval]
      rfl
  unfold processU64
  rw [hst]
  by_cases h1 : n ≥ 2 ^ 64
  · rw [if_pos h1, if_neg (by omega)]
  · rw [if_neg h1]
    simp only
    by_cases h2 : max ≠ 0 ∧ max < v
    · rw [if_pos h2, if_neg (by omega)]
    · rw [if_neg h2, if_pos (by omega)]

/-- A cell without digits after the optional blanks and sign is rejected. -/
theorem C22_no_digits_partial (ws sg rest : Str) (max : Nat) (hws : ∀ b ∈ ws, Blank b)
    (hsg : sg = [] ∨ sg = u8!"+" ∨ sg = u8!"-")
    (hrest : ∀ b r, rest = b :: r → isDigitChar b = false ∧
      (sg = [] → ¬ Blank b ∧ b ≠ 0x2d ∧ b ≠ 0x2b)) :
    processU64 (ws ++ sg ++ rest) max = .throw .domain := by
  replace hws := all_space hws
  have hst : stoul (ws ++ sg ++ rest) = none := by
    have hdrop : (ws ++ sg ++ rest).dropWhile isSpaceChar = sg ++ rest := by
      rw [List.append_assoc, dropWhile_append_stop ws _ hws]
      intro x y hxy
      rcases hsg with rfl | rfl | rfl
      · have := ((hrest x y (by simpa using hxy)).2 rfl).1
        rw [← isSpaceChar_iff] at this
        simpa using this
      · simp at hxy; rw [← hxy.1]; decide
      · simp at hxy; rw [← hxy.1]; decide
    have htake : rest.takeWhile isDigitChar = [] := by
      cases rest with
      | nil => rfl
      | cons b r => simp [(hrest b r rfl).1]
    unfold stoul
    simp only [hdrop]
    rcases hsg with hsg | hsg | hsg
    · subst hsg
      cases rest with
      | nil => rfl
      | cons b r =>
        have := (hrest b r rfl).2 rfl
        have h1 : ((([] ++ b :: r : Str)).head? == some 0x2d) = false := by simpa using this.2.1
        have h2 : ((([] ++ b :: r : Str)).head? == some 0x2b) = false := by simpa using this.2.2
        rw [h1, h2]
        simp only [Bool.or_false, Bool.false_eq_true, if_false, List.nil_append, htake]
        rfl
    · subst hsg
      have h1 : ((u8!"+" ++ rest : Str).head? == some 0x2d) = false := rfl
      have h2 : ((u8!"+" ++ rest : Str).head? == some 0x2b) = true := rfl
      have h3 : (u8!"+" ++ rest : Str).tail = rest := rfl
      rw [h1, h2, h3]
      simp only [Bool.or_true, if_true, htake]
      rfl
    · subst hsg
      have h1 : ((u8!"-" ++ rest : Str).head? == some 0x2d) = true := rfl
      have h3 : (u8!"-" ++ rest : Str).tail = rest := rfl
      rw [h1, h3]
      simp only [Bool.true_or, if_true, htake]
      rfl
  unfold processU64
  rw [hst]

example : processU64 u8!"255" 255 = .ok 255 ∧ processU64 u8!"256" 255 = .throw .domain ∧
    processU64 u8!"18446744073709551616" 0 = .throw .domain ∧
    processU64 u8!"x1" 0 = .throw .domain := by decide

/-! ## C88: Boolean, optional and limited cells -/

/-- `Y` and `T` are true, `N`, `F` and an empty cell are false, everything else is a `DomainError`. -/
theorem C88_bool (s : Str) :
    (processBool s = .ok true ↔ s = u8!"Y" ∨ s = u8!"T") ∧
    (processBool s = .ok false ↔ s = u8!"N" ∨ s = u8!"F" ∨ s = []) ∧
    (processBool s = .throw .domain ↔
      s ≠ u8!"Y" ∧ s ≠ u8!"T" ∧ s ≠ u8!"N" ∧ s ≠ u8!"F" ∧ s ≠ []) := by
  unfold processBool
  by_cases h1 : s = u8!"Y" ∨ s = u8!"T"
  · rw [if_pos h1]
    rcases h1 with rfl | rfl <;> decide
  rw [if_neg h1]
  by_cases h2 : s = u8!"N" ∨ s = u8!"F"
  · rw [if_pos h2]
    rcases h2 with rfl | rfl <;> decide
  rw [if_neg h2]
  by_cases h3 : s = []
  · subst h3; decide
  · rw [if_pos h3]
    simp only [not_or] at h1 h2
    simp [h1, h2, h3]

/-- An optional number is missing exactly when the cell is empty; otherwise it is read like a number. -/
theorem C88_optional (cf : ColumnFile) (c : Column) (max : Nat) :
    (cf.getOptU64 c max = .ok none ↔ cf.get c = .ok []) ∧
    (∀ v, cf.getOptU64 c max = .ok (some v) ↔ cf.get c ≠ .ok [] ∧ cf.getU64 c max = .ok v) := by
  unfold ColumnFile.getOptU64 ColumnFile.getU64
  cases hg : cf.get c with
  | throw e => simp
  | ub => simp
  | ok s =>
    simp only [Res.bind_ok, Res.ok.injEq]
    cases s with
    | nil => simp
    | cons b r =>
      simp only [List.isEmpty_cons, Bool.false_eq_true, if_false]
      cases processU64 (b :: r) max <;> simp

theorem stoul_lt (s : Str) (n : Nat) (h : stoul s = some n) : n < 2 ^ 64 := by
  unfold stoul at h
  simp only at h
  generalize (List.takeWhile isDigitChar _) = ds at h
  generalize (_ == some (0x2d : UInt8)) = neg at h
  by_cases h1 : ds.isEmpty = true
  · rw [if_pos h1] at h; cases h
  rw [if_neg h1] at h
  by_cases h2 : decimalValue ds ≥ 2 ^ 64
  · rw [if_pos h2] at h; cases h
  rw [if_neg h2] at h
  cases neg
  · simp only [Bool.false_eq_true, if_false, Option.some.injEq] at h; omega
  · simp only [if_true, Option.some.injEq] at h; omega

/-- A number read for an unsigned type (`max` is its largest value) is in the range of the type, so the
conversion to the type keeps the value; the only error is a `DomainError`. -/
theorem C88_limit (s : Str) (max : Nat) :
    processU64 s max = .throw .domain ∨
    ∃ v, processU64 s max = .ok v ∧ v < 2 ^ 64 ∧ (max ≠ 0 → v ≤ max) := by
  unfold processU64
  cases h : stoul s with
  | none => exact .inl rfl
  | some n =>
    simp only
    by_cases h1 : max ≠ 0 ∧ max < n
    · rw [if_pos h1]; exact .inl rfl
    · rw [if_neg h1]
      exact .inr ⟨n, rfl, stoul_lt s n h, fun h0 => by omega⟩

example : processBool u8!"Y" = .ok true ∧ processBool u8!"y" = .throw .domain ∧ processBool u8!"YY" = .throw .domain := by
  decide

end KT
