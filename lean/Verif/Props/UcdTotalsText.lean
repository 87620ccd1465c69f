import Verif.Props.UcdTotals
import Verif.Props.UcdScriptSample
/-!
# C198: the text of the summary
-/
namespace KT
open Spec

/-- The summary has the counts of the rows of the file. -/
def C198_statement : Prop :=
  ∀ (first second : List UcdXml) (es fs : List UcdEntry) (found : List (Str × List Str)),
    AllRecords first es → AllRecords second fs → (∀ e ∈ fs, ∀ p ∈ e.nelson, 0x2c ∉ p.2) →
    (ucdScript first second found).2 = true →
    (ucdTotals first second found).summary =
      (countsOf es ((ucdScript first second found).1.map ScriptRow.row)).text

theorem entryRow_parts {es : List UcdEntry} {found : List (Str × List Str)} {e : UcdEntry} {r : UcdRow}
    (h : ucdEntryRow es found e = some r) :
    ∃ q, entryReadings es found e = some q ∧ r.code = e.cp ∧
      r.joyo = (match e.joyo with | some (.listed _) => u8!"Y" | _ => []) ∧
      r.jinmei = (if e.jinmei.isSome then u8!"Y" else []) ∧ r.linkCodes = commas (linksOf es found e).2.1 ∧
      r.linkType = (linksOf es found e).1 ++ (if q.2 then u8!"*" else []) ∧ r.on = q.1.2.1 ∧ r.kun = q.1.2.2 := by
  unfold ucdEntryRow at h
  cases hq : entryReadings es found e with
  | none => rw [hq] at h; cases h
  | some q =>
    rw [hq] at h
    cases h
    exact ⟨q, rfl, rfl, rfl, rfl, rfl, rfl, rfl, rfl⟩

theorem commas_nil (ws : List Str) (h : ∀ w ∈ ws, w ≠ []) : commas ws = [] ↔ ws = [] := by
  cases ws with
  | nil => simp [commas]
  | cons w ws =>
    have := h w List.mem_cons_self
    constructor
    · intro hc
      exfalso
      cases ws with
      | nil => apply this; simpa [commas, List.intercalate] using hc
      | cons x ws => simp [commas, List.intercalate] at hc
    · intro hc; cases hc

theorem readings_of_own {es : List UcdEntry} {found : List (Str × List Str)} {e : UcdEntry} {r : UcdRow}
    (h : ucdEntryRow es found e = some r) (hs : (readingOf es e.cp).isSome = true) : hasReadings r = true ∧
      ∃ q, entryReadings es found e = some (q, false) := by
  obtain ⟨q, hq, -, -, -, -, -, ho, hk⟩ := entryRow_parts h
  unfold entryReadings at hq
  rw [if_pos hs] at hq
  have hqq := Option.some.inj hq
  refine ⟨?_, readingsOf es e.cp, by unfold entryReadings; rw [if_pos hs]⟩
  have hn : ¬ readingOf es e.cp = none := by intro hx; rw [hx] at hs; cases hs
  rw [← readingsOf_empty es e.cp] at hn
  unfold hasReadings
  rw [ho, hk, ← hqq]
  simp only [Bool.or_eq_true, bne_iff_ne]
  apply Classical.byContradiction
  intro hx
  rw [not_or, Classical.not_not, Classical.not_not] at hx
  exact hn (by rw [hx.1, hx.2]; rfl)

set_option maxRecDepth 4000 in
/-- The summary is right if Joyo and Jinmei kanji have rows, none is both, and no row has readings of another kanji that
are empty. -/
theorem C198_summary_partial (first second : List UcdXml) (es fs : List UcdEntry) (found : List (Str × List Str))
    (h1 : AllRecords first es) (h2 : AllRecords second fs) (hc : ∀ e ∈ fs, ∀ p ∈ e.nelson, 0x2c ∉ p.2)
    (hx : (ucdScript first second found).2 = true)
    (hm : ∀ e ∈ fs, e.kept = true → e.joyo ≠ none ∨ e.jinmei ≠ none → (ucdEntryRow es found e).isSome = true)
    (hb : ∀ e ∈ fs, e.joyo = none ∨ e.jinmei = none)
    (hr : ∀ r ∈ (ucdScript first second found).1.map ScriptRow.row, borrows r = true → hasReadings r = true) :
    (ucdTotals first second found).summary =
      (countsOf es ((ucdScript first second found).1.map ScriptRow.row)).text := by
  obtain ⟨t1, t2, t3, t4, t5, t6, t7, t8, t9, t10, t11, -⟩ := C198_totals first second es fs found h1 h2 hc hx
  obtain ⟨r1, r2⟩ := C193_rows first second es fs found h1 h2
  have hmiss := r2.mp hx
  have hp : ucdPrinted es found fs = fs.filter UcdEntry.kept := by
    unfold ucdPrinted
    apply takeWhile_every
    intro e he
    obtain ⟨h3, h4⟩ := List.mem_filter.mp he
    simpa using hmiss e h3 h4
  rw [hp] at r1
  have hmem : ∀ r ∈ (ucdScript first second found).1.map ScriptRow.row,
      ∃ e ∈ fs, e.kept = true ∧ ucdEntryRow es found e = some r := by
    intro r h
    rw [r1] at h
    obtain ⟨e, he, h⟩ := List.mem_filterMap.mp h
    obtain ⟨h3, h4⟩ := List.mem_filter.mp he
    exact ⟨e, h3, h4, h⟩
  have hfits := allRecords_fits second fs h2
  -- Joyo and Jinmei
  have c1 : (ucdTotals first second found).joyo =
      ((ucdScript first second found).1.map ScriptRow.row).countP fun r => r.joyo == u8!"Y" := by
    rw [t1, r1, List.countP_filterMap]
    apply List.countP_congr
    intro e he
    obtain ⟨h3, h4⟩ := List.mem_filter.mp he
    unfold isListed
    cases hrow : ucdEntryRow es found e with
    | none =>
      have : e.joyo = none := by
        apply Classical.byContradiction
        intro hj
        have := hm e h3 h4 (.inl hj)
        rw [hrow] at this; cases this
      simp [this]
    | some r =>
      obtain ⟨q, -, -, hj, -⟩ := entryRow_parts hrow
      simp only [Option.map_some, Option.getD_some, hj]
      cases e.joyo with
      | none => simp
      | some j => cases j <;> simp
  have c2 : (ucdTotals first second found).jinmei =
      ((ucdScript first second found).1.map ScriptRow.row).countP
        fun r => r.jinmei == u8!"Y" && r.joyo == [] && r.linkCodes == [] := by
    rw [t2, r1, List.countP_filterMap]
    apply List.countP_congr
    intro e he
    obtain ⟨h3, h4⟩ := List.mem_filter.mp he
    unfold standsAlone
    cases hrow : ucdEntryRow es found e with
    | none =>
      have : e.jinmei = none := by
        apply Classical.byContradiction
        intro hj
        have := hm e h3 h4 (.inr hj)
        rw [hrow] at this; cases this
      simp [this]
    | some r =>
      obtain ⟨q, -, -, hj, hi, hl, -⟩ := entryRow_parts hrow
      have hcn := commas_nil _ (linksOf_facts first es found h1 e (hfits e h3)).1
      simp only [Option.map_some, Option.getD_some, hj, hi, hl]
      rcases hb e h3 with hbe | hbe
      · simp only [hbe]
        cases e.jinmei with
        | none => simp
        | some j =>
          simp [hcn]
      · simp [hbe]
  have c7 : (ucdTotals first second found).direct =
      ((ucdScript first second found).1.map ScriptRow.row).countP fun r => hasReadings r && (readingOf es r.code).isSome := by
    rw [t7]
    apply List.countP_congr
    intro r hrm
    obtain ⟨e, h3, h4, h5⟩ := hmem r hrm
    obtain ⟨q, -, hcode, -⟩ := entryRow_parts h5
    rw [hcode]
    constructor
    · intro hs; rw [(readings_of_own h5 hs).1, hs]; rfl
    · intro hs; rw [Bool.and_eq_true] at hs; exact hs.2
  have c8 : (ucdTotals first second found).linked =
      ((ucdScript first second found).1.map ScriptRow.row).countP fun r => hasReadings r && borrows r := by
    rw [t8]
    apply List.countP_congr
    intro r hrm
    constructor
    · intro hs; rw [hr r hrm hs, hs]; rfl
    · intro hs; rw [Bool.and_eq_true] at hs; exact hs.2
  have c9 : (ucdTotals first second found).reading =
      ((ucdScript first second found).1.map ScriptRow.row).countP (fun r => hasReadings r && (readingOf es r.code).isSome) +
      ((ucdScript first second found).1.map ScriptRow.row).countP (fun r => hasReadings r && borrows r) +
      ((ucdScript first second found).1.map ScriptRow.row).countP
        (fun r => hasReadings r && !(readingOf es r.code).isSome && !borrows r) := by
    rw [t6]
    have hdis : ∀ r ∈ (ucdScript first second found).1.map ScriptRow.row, (readingOf es r.code).isSome = true → borrows r = false := by
      intro r hrm hs
      obtain ⟨e, h3, h4, h5⟩ := hmem r hrm
      obtain ⟨q, hq, hcode, -, -, -, ht, -⟩ := entryRow_parts h5
      rw [hcode] at hs
      obtain ⟨q', hq'⟩ := (readings_of_own h5 hs).2
      rw [hq] at hq'
      cases hq'
      unfold borrows
      rw [ht]
      refine borrows_is _ false ?_
      rcases (linksOf_facts first es found h1 e (hfits e h3)).2.1 with x | x
      · exact .inl x.1
      · exact .inr x.1
    revert hdis
    generalize (ucdScript first second found).1.map ScriptRow.row = rows
    intro hdis
    induction rows with
    | nil => rfl
    | cons r rows ih =>
      have ih := ih fun s hs => hdis s (List.mem_cons_of_mem _ hs)
      have hd := hdis r List.mem_cons_self
      simp only [List.countP_cons]
      rw [ih]
      cases h6 : hasReadings r <;> cases h7 : (readingOf es r.code).isSome <;> cases h8 : borrows r <;>
        simp_all <;> omega
  unfold ScriptTotals.summary UcdCounts.text countsOf
  have l1 := t3 (u8!"Jinmei") (by decide)
  have l2 := t3 (u8!"Traditional") (by decide)
  have l3 := t3 (u8!"Simplified") (by decide)
  have l4 := t3 (u8!"Compatibility") (by decide)
  have l5 := t3 (u8!"Definition") (by decide)
  have l6 := t3 (u8!"Semantic") (by decide)
  have hint : ∀ a b c : Nat, bashInt (((a + b + c : Nat) : Int) - a - b) = toDec c := by
    intro a b c
    have : (((a + b + c : Nat) : Int) - a - b) = (c : Int) := by omega
    rw [this]
    unfold bashInt
    rw [if_neg (by omega)]; rfl
  have hline : ∀ name n m, checkTotal name n m = expectedLine name n m := by
    intro name n m
    unfold checkTotal expectedLine
    by_cases hh : n = m <;> simp [hh]
  have hman : bashInt (((ucdTotals first second found).reading : Int) - (ucdTotals first second found).direct -
      (ucdTotals first second found).linked) = toDec (((ucdScript first second found).1.map ScriptRow.row).countP
        (fun r => hasReadings r && !(readingOf es r.code).isSome && !borrows r)) := by
    rw [c9, c7, c8]; exact hint _ _ _
  rw [hman, l1, l2, l3, l4, l5, l6, c1, c2, c7, c8, t4, t5, t6, t9, t10, t11]
  simp only [hline, List.intercalate, List.map_cons, List.map_nil, List.intersperse, List.flatten_cons, List.flatten_nil,
    List.flatMap_cons, List.flatMap_nil, List.append_assoc, List.cons_append, List.nil_append, List.append_nil]

end KT
