import Verif.Model.ColumnText
import Verif.Props.ColumnFile
import Verif.Lemmas.Decimal
/-!
# C157: messages for errors in files with columns

Model: `Verif/Model/ColumnText.lean`.
-/
namespace KT
open Spec

def eraseE {α : Type} : Except Str α → Res α
  | .ok a => .ok a
  | .error _ => .throw .domain

theorem collectColText_erase (file : Str) : ∀ (cs : List Column) (acc : List (Str × Nat)),
    eraseE (collectColText file cs acc) = collectColNames cs acc
  | [], acc => rfl
  | c :: cs, acc => by
    unfold collectColText collectColNames
    split
    · rfl
    · exact collectColText_erase file cs _

theorem headerText_erase (file : Str) : ∀ (hs : List Str) (pos : Nat) (found : List Str) (c2p : List (Option Nat))
    (names : List (Str × Nat)),
    eraseMsg (headerText file hs pos found c2p names) = headerLoop hs pos found c2p names
  | [], _, _, _, _ => rfl
  | h :: hs, pos, found, c2p, names => by
    unfold headerText headerLoop
    split
    · rfl
    · cases names.find? (·.1 == h) with
      | none => rfl
      | some x =>
        simp only
        split
        · exact headerText_erase file hs _ _ _ _
        · rfl

theorem insertName_perm (n : Str) : ∀ l, (insertName n l).Perm (n :: l)
  | [] => List.Perm.refl _
  | a :: l => by
    unfold insertName
    split
    · exact List.Perm.refl _
    · exact ((insertName_perm n l).cons a).trans (List.Perm.swap n a l)

theorem sortNames_perm : ∀ l, (sortNames l).Perm l
  | [] => List.Perm.refl _
  | n :: l => (insertName_perm n _).trans ((sortNames_perm l).cons n)

theorem missingColumnsText_none (names : List Str) : missingColumnsText names = none ↔ names = [] := by
  have hl : (sortNames names).length = names.length := (sortNames_perm names).length_eq
  unfold missingColumnsText
  split
  · rename_i h
    rw [h] at hl
    simp only [List.length_nil] at hl
    simp [List.length_eq_zero_iff.mp hl.symm]
  · rename_i h
    rw [h] at hl
    constructor
    · simp
    · rintro rfl; simp at hl
  · rename_i h _
    constructor
    · simp
    · rintro rfl; simp [sortNames] at h

/-- Without the messages these are the functions of `Verif/Model/ColumnFile.lean`: there is a message exactly if there
is a `DomainError`.  A path that isn't a regular file is always an error. -/
theorem C157_open (reg : List Str) (file : Str) (lines : List Str) (cols : List Column) (d : UInt8) :
    eraseMsg (openColumnText reg file .regular lines cols d) = openColumnFile reg lines cols d ∧
    (cols ≠ [] → openColumnText reg file .missing lines cols d = .ok (.error (u8!"doesn't exist - file: " ++ file)) ∧
      openColumnText reg file .other lines cols d = .ok (.error (u8!"not regular file - file: " ++ file)) ∧
      openColumnText reg file .regular [] cols d = .ok (.error (u8!"missing header row - file: " ++ file))) ∧
    (∀ kind, openColumnText reg file kind lines [] d =
      .ok (.error (u8!"must specify at least one column - file: " ++ file))) := by
  refine ⟨?_, ?_, ?_⟩
  · unfold openColumnText openColumnFile
    split
    · rfl
    · simp only
      cases lines with
      | nil => rfl
      | cons header rest =>
        simp only
        have hc := collectColText_erase file cols []
        cases hcc : collectColText file cols [] with
        | error e =>
          rw [hcc] at hc
          rw [← hc]
          rfl
        | ok names =>
          rw [hcc] at hc
          rw [← hc]
          simp only [eraseE, Res.bind_ok]
          have hh := headerText_erase file (fields d header) 0 [] (List.replicate reg.length none) names
          cases hht : headerText file (fields d header) 0 [] (List.replicate reg.length none) names with
          | throw e => rw [hht] at hh; rw [← hh]; rfl
          | ub => rw [hht] at hh; rw [← hh]; rfl
          | ok r =>
            cases r with
            | error e => rw [hht] at hh; rw [← hh]; rfl
            | ok p =>
              rw [hht] at hh
              rw [← hh]
              obtain ⟨c2p, left⟩ := p
              simp only [eraseMsg, Res.bind, Res.bind_ok]
              have hm := missingColumnsText_none (left.map (·.1))
              cases left with
              | nil => simp [show missingColumnsText [] = none from (missingColumnsText_none []).mpr rfl]
              | cons x l =>
                have : missingColumnsText ((x :: l).map (·.1)) ≠ none := fun h => by simpa using hm.mp h
                cases hmt : missingColumnsText ((x :: l).map (·.1)) with
                | none => exact absurd hmt this
                | some m => simp
  · intro hc
    have : cols.isEmpty = false := by cases cols with
      | nil => exact absurd rfl hc
      | cons => rfl
    simp only [openColumnText, this, cfMsg]
    simp
  · intro kind
    simp [openColumnText, cfMsg]

/-! ## The header -/

theorem collectColText_dup (file n : Str) (post : List Column) (c : Column) (hn : c.name = n) :
    ∀ (pre : List Column) (acc : List (Str × Nat)), (acc.map (·.1) ++ pre.map Column.name).Nodup →
    n ∈ acc.map (·.1) ++ pre.map Column.name →
    collectColText file (pre ++ c :: post) acc = .error (cfMsg file 0 (u8!"duplicate column '" ++ n ++ u8!"'"))
  | [], acc, _, hm => by
    simp only [List.map_nil, List.append_nil, List.mem_map] at hm
    obtain ⟨x, hx, hxe⟩ := hm
    rw [List.nil_append, collectColText, if_pos (by rw [List.any_eq_true]; exact ⟨x, hx, by simp [hn, hxe]⟩), hn]
  | p :: pre, acc, hnd, hm => by
    have hno : acc.any (·.1 == p.name) = false := by
      rw [List.any_eq_false]
      intro x hx he
      rw [List.nodup_append] at hnd
      exact hnd.2.2 x.1 (List.mem_map.mpr ⟨x, hx, rfl⟩) p.name (by simp) (by simpa using he)
    rw [List.cons_append, collectColText, hno]
    simp only [Bool.false_eq_true, if_false]
    exact collectColText_dup file n post c hn pre _ (by simpa using hnd) (by simpa using hm)

/-- The loop over a good beginning of the header. -/
theorem headerText_prefix (file : Str) (reg : List Str) (rest : List Str) : ∀ (pre : List Str) (pos : Nat) (found : List Str)
    (c2p : List (Option Nat)) (names : List (Str × Nat)), pre.Nodup → (∀ h ∈ pre, h ∉ found) →
    (∀ h ∈ pre, h ∈ names.map (·.1)) → (∀ x ∈ names, x.2 < c2p.length) →
    ∃ pos' c2p', headerText file (pre ++ rest) pos found c2p names =
      headerText file rest pos' (pre.reverse ++ found) c2p' (names.filter (fun x => x.1 ∉ pre)) ∧
      c2p'.length = c2p.length
  | [], pos, found, c2p, names, _, _, _, _ => ⟨pos, c2p, by
      simp only [List.nil_append, List.reverse_nil]
      congr 1
      rw [eq_comm, List.filter_eq_self]
      simp, rfl⟩
  | h :: pre, pos, found, c2p, names, hnd, hf, hn, hb => by
    rw [List.nodup_cons] at hnd
    have h1 : found.contains h = false := by simpa using hf h (by simp)
    obtain ⟨x, hx, hxe⟩ := List.mem_map.mp (hn h (by simp))
    have h2 : ∃ y, names.find? (·.1 == h) = some y := by
      cases hq : names.find? (·.1 == h) with
      | some y => exact ⟨y, rfl⟩
      | none => exact absurd (List.find?_eq_none.mp hq x hx) (by simp [hxe])
    obtain ⟨⟨yn, number⟩, hy⟩ := h2
    obtain ⟨hym, hyh⟩ := mem_of_find hy
    have hlt : number < c2p.length := hb _ hym
    obtain ⟨pos', c2p', ih, hl⟩ := headerText_prefix file reg rest pre (pos + 1) (h :: found) (c2p.set number (some pos))
      (names.filter (·.1 != h)) hnd.2
      (by
        intro k hk
        simp only [List.mem_cons, not_or]
        exact ⟨fun e => hnd.1 (e ▸ hk), hf k (by simp [hk])⟩)
      (by
        intro k hk
        obtain ⟨z, hz, hze⟩ := List.mem_map.mp (hn k (by simp [hk]))
        refine List.mem_map.mpr ⟨z, List.mem_filter.mpr ⟨hz, ?_⟩, hze⟩
        simp only [hze, bne_iff_ne]
        exact fun e => hnd.1 (e ▸ hk))
      (by
        intro z hz
        simp only [List.length_set]
        exact hb z (List.mem_filter.mp hz).1)
    refine ⟨pos', c2p', ?_, by simpa using hl⟩
    rw [List.cons_append, headerText, h1]
    simp only [Bool.false_eq_true, if_false, hy, hlt, if_true]
    rw [ih]
    congr 1
    · simp
    · rw [List.filter_filter]
      congr 1
      funext z
      simp only [List.mem_cons, not_or]
      grind

theorem quotedNames_eq : ∀ (l : List Str) (msg : Str), msg ≠ [] →
    quotedNames msg l = msg ++ (l.map fun n => u8!", '" ++ n ++ u8!"'").flatten
  | [], msg, _ => by simp [quotedNames]
  | n :: l, msg, h => by
    have : msg.isEmpty = false := by cases msg with
      | nil => exact absurd rfl h
      | cons => rfl
    rw [quotedNames, this, quotedNames_eq l _ (by simp)]
    simp

/-- `'a', 'b'`. -/
def quotedList (l : List Str) : Str := (l.map fun n => u8!"'" ++ n ++ u8!"'").intersperse (u8!", ") |>.flatten

theorem intersperse_flatten (sep : Str) (f : Str → Str) (a : Str) : ∀ l : List Str,
    (((a :: l).map f).intersperse sep).flatten = f a ++ (l.map fun n => sep ++ f n).flatten
  | [] => by simp
  | b :: l => by
    have := intersperse_flatten sep f b l
    simp only [List.map_cons] at this ⊢
    rw [List.intersperse_cons_cons]
    simp only [List.flatten_cons, this, List.append_assoc]

theorem quotedNames_list (l : List Str) (h : l ≠ []) : quotedNames [] l = u8!" " ++ quotedList l := by
  cases l with
  | nil => exact absurd rfl h
  | cons a l =>
    rw [quotedNames, quotedNames_eq _ _ (by simp), quotedList, intersperse_flatten]
    simp

theorem insertName_sorted (n : Str) : ∀ l : List Str, l.Pairwise (· ≤ ·) → (insertName n l).Pairwise (· ≤ ·)
  | [], _ => by simp [insertName]
  | a :: l, h => by
    unfold insertName
    rw [List.pairwise_cons] at h
    split
    · rename_i hle
      rw [List.pairwise_cons, List.pairwise_cons]
      refine ⟨?_, h⟩
      intro b hb
      rcases List.mem_cons.mp hb with rfl | hb
      · exact hle
      · exact List.le_trans hle (h.1 b hb)
    · rename_i hle
      rw [List.pairwise_cons]
      refine ⟨?_, insertName_sorted n l h.2⟩
      intro b hb
      rcases List.mem_cons.mp ((insertName_perm n l).mem_iff.mp hb) with rfl | hb
      · exact (List.le_total a b).resolve_right hle
      · exact h.1 b hb

theorem sortNames_sorted : ∀ l : List Str, (sortNames l).Pairwise (· ≤ ·)
  | [] => by simp [sortNames]
  | n :: l => insertName_sorted n _ (sortNames_sorted l)

/-- What the message is about in a file with a header row.  Columns that are asked for twice come first, then the first
field of the header that was there before or isn't the name of a column, then the columns that aren't in the header,
all of them sorted by name. -/
theorem C157_header (reg : List Str) (file header : Str) (rest : List Str) (cols : List Column) (d : UInt8)
    (hreg : Registered reg cols) :
    let result := openColumnText reg file .regular (header :: rest) cols d
    let error := fun msg : Str => Res.ok (Except.error (ε := Str) (α := ColumnFile) (msg ++ u8!" - file: " ++ file))
    let names := cols.map Column.name
    let hs := fields d header
    let missing := names.filter (· ∉ hs)
    (∀ pre n post, names = pre ++ n :: post → pre.Nodup → n ∈ pre →
      result = error (u8!"duplicate column '" ++ n ++ u8!"'")) ∧
    (cols ≠ [] → names.Nodup →
      (∀ pre h post, hs = pre ++ h :: post → pre.Nodup → (∀ x ∈ pre, x ∈ names) →
        (h ∈ pre → result = error (u8!"duplicate header '" ++ h ++ u8!"'")) ∧
        (h ∉ names → result = error (u8!"unrecognized header '" ++ h ++ u8!"'"))) ∧
      (hs.Nodup → (∀ x ∈ hs, x ∈ names) →
        (∀ n, missing = [n] → result = error (u8!"column '" ++ n ++ u8!"' not found")) ∧
        (2 ≤ missing.length → ∃ l, l.Perm missing ∧ l.Pairwise (· ≤ ·) ∧
          result = error (toDec missing.length ++ u8!" columns not found: " ++ quotedList l)))) := by
  intro result error names hs missing
  refine ⟨?_, ?_⟩
  · intro pre n post hnames hnd hm
    have hne : cols.isEmpty = false := by
      cases hc : cols with
      | nil => simp [names, hc] at hnames
      | cons => rfl
    obtain ⟨preC, c, postC, hcols, hpre, hcn⟩ : ∃ preC c postC, cols = preC ++ c :: postC ∧ preC.map Column.name = pre ∧
        c.name = n := by
      obtain ⟨l1, l2, h1, h2, h3⟩ := List.map_eq_append_iff.mp hnames
      obtain ⟨c, l3, h4, h5, h6⟩ := List.map_eq_cons_iff.mp h3
      exact ⟨l1, c, l3, by rw [h1, h4], h2, h5⟩
    show openColumnText _ _ _ _ _ _ = _
    unfold openColumnText
    rw [hne]
    simp only [Bool.false_eq_true, if_false]
    rw [hcols, collectColText_dup file n postC c hcn preC [] (by simpa [hpre] using hnd) (by simpa [hpre] using hm)]
    simp [cfMsg, error]
  · intro hne hnd
    have hne' : cols.isEmpty = false := by
      cases hc : cols with
      | nil => exact absurd hc hne
      | cons => rfl
    have hcol : collectColText file cols [] = .ok (cols.map fun c => (c.name, c.number)) := by
      have h1 := collectColText_erase file cols []
      rw [collectColNames_total cols [] (by simpa using hnd)] at h1
      cases h2 : collectColText file cols [] with
      | error e => rw [h2] at h1; simp [eraseE] at h1
      | ok r => rw [h2] at h1; simpa [eraseE] using h1
    have hfst : (cols.map fun c => (c.name, c.number)).map (·.1) = names := by simp [names, Function.comp_def]
    have hb : ∀ x ∈ (cols.map fun c => (c.name, c.number)), x.2 < (List.replicate reg.length (none : Option Nat)).length := by
      intro x hx
      obtain ⟨c, hc, rfl⟩ := List.mem_map.mp hx
      simpa using (List.getElem?_eq_some_iff.mp (hreg c hc)).1
    refine ⟨?_, ?_⟩
    · intro pre h post hsplit hpnd hpn
      obtain ⟨pos', c2p', hp, _⟩ := headerText_prefix file reg (h :: post) pre 0 [] (List.replicate reg.length none) _
        hpnd (by simp) (by rw [hfst]; exact hpn) hb
      refine ⟨fun hmem => ?_, fun hmem => ?_⟩
      · show openColumnText _ _ _ _ _ _ = _
        unfold openColumnText
        rw [hne']
        simp only [Bool.false_eq_true, if_false, hcol]
        have hhs : fields d header = pre ++ h :: post := hsplit
        rw [hhs, hp, headerText, if_pos (by simpa using hmem)]
        simp [Res.bind, cfMsg, error]
      · have hmem' : h ∉ pre := fun hm => hmem (hpn h hm)
        have hfind : ((cols.map fun c => (c.name, c.number)).filter (fun x => x.1 ∉ pre)).find? (·.1 == h) = none := by
          rw [List.find?_eq_none]
          intro x hx he
          have hx1 := (List.mem_filter.mp hx).1
          apply hmem
          rw [← hfst]
          exact List.mem_map.mpr ⟨x, hx1, by simpa using he⟩
        show openColumnText _ _ _ _ _ _ = _
        unfold openColumnText
        rw [hne']
        simp only [Bool.false_eq_true, if_false, hcol]
        have hhs : fields d header = pre ++ h :: post := hsplit
        rw [hhs, hp, headerText, if_neg (by simpa using hmem'), hfind]
        simp [Res.bind, cfMsg, error]
    · intro hhnd hhn
      obtain ⟨pos', c2p', hp, _⟩ := headerText_prefix file reg [] hs 0 [] (List.replicate reg.length none) _
        hhnd (by simp) (by rw [hfst]; exact hhn) hb
      rw [List.append_nil] at hp
      have hleft : ((cols.map fun c => (c.name, c.number)).filter (fun x => x.1 ∉ hs)).map (·.1) = missing := by
        show _ = (cols.map Column.name).filter (· ∉ hs)
        rw [List.filter_map, List.filter_map, List.map_map]
        rfl
      have hres : result = match missingColumnsText missing with
          | some msg => .ok (.error (cfMsg file 0 msg))
          | none => .ok (.ok ⟨d, 0, List.replicate cols.length [], c2p', rest⟩) := by
        show openColumnText _ _ _ _ _ _ = _
        unfold openColumnText
        rw [hne']
        simp only [Bool.false_eq_true, if_false, hcol]
        have hp' := hp
        simp only [hs] at hp'
        rw [hp']
        simp only [headerText, Res.bind]
        simp only [hs] at hleft
        rw [hleft]
        cases missingColumnsText missing <;> rfl
      rw [hres]
      refine ⟨?_, ?_⟩
      · intro n hn
        rw [hn]
        have : sortNames [n] = [n] := rfl
        simp [missingColumnsText, this, cfMsg, error]
      · intro h2
        have hperm : (sortNames missing).Perm missing := sortNames_perm _
        refine ⟨sortNames missing, hperm, sortNames_sorted _, ?_⟩
        have hl := hperm.length_eq
        have : missingColumnsText missing = some (toDec missing.length ++ u8!" columns not found:" ++
            quotedNames [] (sortNames missing)) := by
          unfold missingColumnsText
          split
          · rename_i h; rw [h] at hl; simp at hl; omega
          · rename_i h; rw [h] at hl; simp at hl; omega
          · rfl
        rw [this]
        have hne2 : sortNames missing ≠ [] := by
          intro h; rw [h] at hl; simp at hl; omega
        rw [quotedNames_list _ hne2]
        simp [cfMsg, error]

/-! ## Rows -/

theorem rowText_erase (file : Str) (row : Nat) : ∀ (fs : List Str) (i : Nat) (rv : List Str),
    ((rowText file row fs i rv).1, eraseE (rowText file row fs i rv).2) = rowLoop fs i rv
  | [], i, rv => rfl
  | f :: fs, i, rv => by
    unfold rowText rowLoop
    split
    · rfl
    · exact rowText_erase file row fs _ _

theorem rowText_error (file : Str) (row : Nat) : ∀ (fs : List Str) (i : Nat) (rv : List Str) (e : Str),
    (rowText file row fs i rv).2 = .error e → e = cfMsg file row (u8!"too many columns")
  | [], _, _, e, h => by simp [rowText] at h
  | f :: fs, i, rv, e, h => by
    unfold rowText at h
    split at h
    · simpa using h.symm
    · exact rowText_error file row fs _ _ e h

/-- Without the message it is `nextRow`.  The message for a row tells whether there are too many or not enough fields,
with the number of the row. -/
theorem C157_row (file : Str) (cf : ColumnFile) :
    ((cf.nextRowText file).1, eraseE (cf.nextRowText file).2) = cf.nextRow ∧
    ∀ line rest, cf.lines = line :: rest → cf.rowValues ≠ [] →
      let S := split cf.delimiter line
      let n := cf.rowValues.length
      let place := u8!" - file: " ++ file ++ u8!", row: " ++ toDec (cf.currentRow + 1)
      (S.length < n → (cf.nextRowText file).2 = .error (u8!"not enough columns" ++ place)) ∧
      (n < S.length → ¬ (S.length = n + 1 ∧ S.getLast? = some []) →
        (cf.nextRowText file).2 = .error (u8!"too many columns" ++ place)) := by
  have agrees : ((cf.nextRowText file).1, eraseE (cf.nextRowText file).2) = cf.nextRow := by
    unfold ColumnFile.nextRowText ColumnFile.nextRow
    cases hl : cf.lines with
    | nil => rfl
    | cons line rest =>
      have h := rowText_erase file (cf.currentRow + 1) (fields cf.delimiter line) 0 cf.rowValues
      simp only
      rw [← h]
      generalize rowText file (cf.currentRow + 1) (fields cf.delimiter line) 0 cf.rowValues = r
      obtain ⟨rv, e | i⟩ := r
      · rfl
      · simp only [eraseE]
        by_cases h1 : i = cf.rowValues.length - 1 ∧ (if i ≠ 0 then line.getLast? = some cf.delimiter else line = [])
        · rw [if_pos h1, if_pos h1]
        · rw [if_neg h1, if_neg h1]
          split <;> rfl
  refine ⟨agrees, ?_⟩
  intro line rest hl hn S n place
  have hS : S ≠ [] := split_ne_nil _ _
  have hF : fields cf.delimiter line = dropEmptyLast S := fields_eq _ _
  have hlen : (fields cf.delimiter line).length = if S.getLast? = some [] then S.length - 1 else S.length := by
    rw [hF, dropEmptyLast]
    split <;> simp
  have he := rowText_erase file (cf.currentRow + 1) (fields cf.delimiter line) 0 cf.rowValues
  refine ⟨fun hlt => ?_, fun hgt hno => ?_⟩
  · have hle : (fields cf.delimiter line).length ≤ S.length := by rw [hlen]; split <;> omega
    rw [rowLoop_ok _ 0 _ (show 0 + (fields cf.delimiter line).length ≤ cf.rowValues.length from by omega)] at he
    have hthrow : cf.nextRow.2 = .throw .domain := by
      refine (C21_partial cf line rest hl hn).2 ?_
      rintro (h | h)
      · exact absurd h (by show ¬ (S.length = n); omega)
      · exact absurd h.1 (by show ¬ (S.length = n + 1); omega)
    have hE : eraseE (cf.nextRowText file).2 = .throw .domain := by rw [← hthrow, ← agrees]
    revert hE
    unfold ColumnFile.nextRowText
    rw [hl]
    simp only
    revert he
    generalize rowText file (cf.currentRow + 1) (fields cf.delimiter line) 0 cf.rowValues = r
    obtain ⟨rv, e | i⟩ := r
    · intro he; simp [eraseE] at he
    · intro _ hE
      simp only at hE ⊢
      by_cases h1 : i = cf.rowValues.length - 1 ∧ (if i ≠ 0 then line.getLast? = some cf.delimiter else line = [])
      · rw [if_pos h1] at hE
        simp [eraseE] at hE
      · rw [if_neg h1] at hE ⊢
        split at hE
        · rename_i h2
          rw [if_pos h2]
          simp [cfMsg, place]
        · simp [eraseE] at hE
  · have hge : cf.rowValues.length < 0 + (fields cf.delimiter line).length := by
      rw [hlen]
      split
      · rename_i hlast
        have : S.length ≠ n + 1 := fun h => hno ⟨h, hlast⟩
        show n < _
        omega
      · show n < _
        omega
    obtain ⟨rv', h1, _⟩ := rowLoop_throw (fields cf.delimiter line) 0 cf.rowValues (by omega) hge
    rw [h1] at he
    unfold ColumnFile.nextRowText
    rw [hl]
    simp only
    have herr := rowText_error file (cf.currentRow + 1) (fields cf.delimiter line) 0 cf.rowValues
    revert he herr
    generalize rowText file (cf.currentRow + 1) (fields cf.delimiter line) 0 cf.rowValues = r
    obtain ⟨rv, e | i⟩ := r
    · intro _ herr
      simp only
      rw [herr e rfl]
      simp [cfMsg, place]
    · intro he; simp [eraseE] at he

/-- Different rows have different messages. -/
theorem C157_row_number (file msg : Str) (r r' : Nat) (h : cfMsg file r msg = cfMsg file r' msg) : r = r' := by
  unfold cfMsg at h
  have h := List.append_cancel_left h
  by_cases h1 : r = 0 <;> by_cases h2 : r' = 0
  · omega
  · simp [h1, h2] at h
  · simp [h1, h2] at h
  · simp only [ne_eq, h1, h2, not_false_eq_true, if_true] at h
    exact toDec_injective (List.append_cancel_left h)

/-! ## Cells -/

/-- `get` without the message, and the message for a column that isn't in this file. -/
theorem C157_get (file : Str) (cf : ColumnFile) (c : Column) :
    eraseMsg (cf.getText file c) = cf.get c ∧
    (cf.currentRow = 0 → cf.getText file c = .ok (.error (u8!"'nextRow' must be called before calling 'get' - file: " ++ file))) ∧
    (cf.currentRow ≠ 0 →
      let place := u8!" - file: " ++ file ++ u8!", row: " ++ toDec cf.currentRow
      (cf.columnToPosition.length ≤ c.number →
        cf.getText file c = .ok (.error (u8!"unrecognized column '" ++ c.name ++ u8!"'" ++ place))) ∧
      (cf.columnToPosition[c.number]? = some none →
        cf.getText file c = .ok (.error (u8!"invalid column '" ++ c.name ++ u8!"'" ++ place)))) := by
  refine ⟨?_, ?_, ?_⟩
  · unfold ColumnFile.getText ColumnFile.get
    split
    · rfl
    · split
      · rfl
      · cases cf.columnToPosition[c.number]? with
        | none => rfl
        | some p =>
          cases p with
          | none => rfl
          | some pos =>
            simp only
            cases cf.rowValues[pos]? <;> rfl
  · intro h
    simp [ColumnFile.getText, h, cfMsg]
  · intro h place
    refine ⟨fun hc => ?_, fun hc => ?_⟩
    · simp [ColumnFile.getText, h, hc, cfMsg, place]
    · have : ¬ cf.columnToPosition.length ≤ c.number := by
        have := (List.getElem?_eq_some_iff.mp hc).1
        omega
      simp [ColumnFile.getText, h, this, hc, cfMsg, place]

/-- The messages for values that can't be converted have the row, the column and the value.  Which of them it is
depends on the value only. -/
theorem C157_value (file : Str) (row : Nat) (hr : row ≠ 0) (column s : Str) (max : Nat) :
    let error := fun {α : Type} (msg : Str) => Except.error (ε := Str) (α := α) (msg ++ u8!" - file: " ++ file ++
      u8!", row: " ++ toDec row ++ u8!", column: '" ++ column ++ u8!"', value: '" ++ s ++ u8!"'")
    eraseE (u64Text file row column s max) = processU64 s max ∧
    eraseE (boolText file row column s) = processBool s ∧
    eraseE (char32Text file row column s) = getChar32 s ∧
    (u64Text file row column s max = match stoul s with
      | none => error (u8!"failed to convert to unsigned number")
      | some i => if max ≠ 0 ∧ max < i then error (u8!"exceeded max value of " ++ toDec max) else .ok i) ∧
    (boolText file row column s = match processBool s with
      | .ok b => .ok b
      | _ => error (u8!"failed to convert to bool")) ∧
    (char32Text file row column s = if s.length = 4 ∨ s.length = 5 then
        match getChar32 s with
        | .ok c => .ok c
        | _ => error (u8!"failed to convert to Code, invalid hex")
      else error (u8!"failed to convert to Code, size must be 4 or 5")) := by
  intro error
  have hmsg : ∀ (α : Type) (msg : Str), Except.error (ε := Str) (α := α) (cfCellMsg file row msg column s) = error msg := by
    intro α msg
    simp [cfCellMsg, cfMsg, hr, error]
  refine ⟨?_, ?_, ?_, ?_, ?_, ?_⟩
  · unfold u64Text processU64
    cases stoul s with
    | none => rfl
    | some i =>
      simp only
      split <;> rfl
  · unfold boolText processBool
    split
    · rfl
    · split
      · rfl
      · split <;> rfl
  · unfold char32Text getChar32
    split
    · rfl
    · split <;> rfl
  · unfold u64Text
    cases stoul s with
    | none => exact hmsg _ _
    | some i =>
      simp only
      split
      · exact hmsg _ _
      · rfl
  · unfold boolText processBool
    simp only [hmsg]
    split
    · rfl
    · split
      · rfl
      · split <;> rfl
  · unfold char32Text getChar32
    simp only [hmsg]
    by_cases h : s.length < 4 ∨ s.length > 5
    · rw [if_pos h, if_neg (by omega)]
    · have h' : s.length = 4 ∨ s.length = 5 := by omega
      simp only [h, h', if_true, if_false]
      cases s.any invalidHex <;> rfl

/-! The repository's tests (tests/utils/ColumnFileTest.cpp:84-245). -/

def openMsg (lines : List Str) (cols : List Str) (kind : PathKind := .regular) : Option Str :=
  match openColumnText ([u8!"Col1", u8!"Col2", u8!"Col3", u8!"Col4", u8!"Col"]) (u8!"testFile.txt") kind lines
      (cols.map fun n => ⟨n, ([u8!"Col1", u8!"Col2", u8!"Col3", u8!"Col4", u8!"Col"]).findIdx (· == n)⟩) with
  | .ok (.error e) => some e
  | _ => none

example : openMsg [] [] = some (u8!"must specify at least one column - file: testFile.txt") := by decide +kernel
example : openMsg [u8!"A"] [u8!"Col"] = some (u8!"unrecognized header 'A' - file: testFile.txt") := by decide +kernel
example : openMsg [u8!"Col\tCol"] [u8!"Col"] = some (u8!"duplicate header 'Col' - file: testFile.txt") := by decide +kernel
example : openMsg [[]] [u8!"Col1", u8!"Col1"] = some (u8!"duplicate column 'Col1' - file: testFile.txt") := by decide +kernel
example : openMsg [u8!"Col1"] [u8!"Col1", u8!"Col2"] = some (u8!"column 'Col2' not found - file: testFile.txt") := by decide +kernel
example : openMsg [] [u8!"Col"] .missing = some (u8!"doesn't exist - file: testFile.txt") := by decide +kernel
example : openMsg [] [u8!"Col"] = some (u8!"missing header row - file: testFile.txt") := by decide +kernel
example : openMsg [u8!"Col"] [u8!"Col"] = none := by decide +kernel
example : openMsg [u8!"Col1\tCol3"] [u8!"Col4", u8!"Col1", u8!"Col3", u8!"Col2"] =
    some (u8!"2 columns not found: 'Col2', 'Col4' - file: testFile.txt") := by decide +kernel
example : (match u64Text (u8!"testFile.txt") 1 (u8!"Col") (u8!"256") 255 with | .error e => e | _ => []) =
    u8!"exceeded max value of 255 - file: testFile.txt, row: 1, column: 'Col', value: '256'" := by decide +kernel

end KT
