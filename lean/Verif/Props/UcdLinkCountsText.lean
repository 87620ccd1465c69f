import Verif.Props.UcdLinkCounts
import Verif.Props.UcdTotals
/-! # C199: the table -/
namespace KT
open Spec

theorem maxLength (order : List Str) (h : order.Perm linkWords) : (order.map List.length).foldl max 0 + 4 = 19 := by
  have : (order.map List.length).foldl max 0 = (linkWords.map List.length).foldl max 0 :=
    (h.map List.length).foldl_eq' (fun x _ y _ z => by omega) 0
  rw [this]; decide

/-- `fmt2` when the table is right. -/
def passFmt : List FmtPiece := [.text (u8!"  "), .left 11, .left 11, .left 11, .text (u8!"\n")]

/-- A line of the table. -/
def countLine (r : Str × List (Nat × Nat)) : Str :=
  bashPrintf (countFmt 19 ++ [.text (u8!" "), .right 4] ++ passFmt)
    ((u8!"  '" ++ r.1 ++ u8!"'") :: toDec (r.2.map fun c => c.1 + c.2).sum :: r.2.map passText)

theorem countLines_rest (rows : List (Str × List (Nat × Nat))) (t : CountTable) (ht : t.total ≠ 0) (hf : t.fmt2 = passFmt) :
    countLines 19 8 rows t = (rows.flatMap countLine, t.total + (rows.map fun r => (r.2.map fun c => c.1 + c.2).sum).sum) := by
  induction rows generalizing t with
  | nil => rfl
  | cons r rows ih =>
    have he : t.extend r.2.length = t := by unfold CountTable.extend; rw [if_neg ht]
    rw [countLines, he]
    rw [ih { t with total := t.total + (r.2.map fun c => c.1 + c.2).sum } (show t.total + _ ≠ 0 by omega) hf, if_neg ht, hf]
    simp only [List.nil_append, List.flatMap_cons, List.map_cons, List.sum_cons, Prod.mk.injEq]
    exact ⟨rfl, by omega⟩

theorem countLines_first (r : Str × List (Nat × Nat)) (rows : List (Str × List (Nat × Nat))) (h3 : r.2.length = 3)
    (hn : (r.2.map fun c => c.1 + c.2).sum ≠ 0) :
    countLines 19 8 (r :: rows) {} =
      (u8!"  Types: 8           Total   utf uni    utf uni    utf uni   \n" ++ (r :: rows).flatMap countLine,
       ((r :: rows).map fun r => (r.2.map fun c => c.1 + c.2).sum).sum) := by
  have he : ({} : CountTable).extend r.2.length =
      { fmt2 := passFmt, headers := [u8!" utf uni", u8!" utf uni", u8!" utf uni"] } := by
    rw [h3]; rfl
  rw [countLines, he]
  simp only []
  rw [countLines_rest rows _ (show 0 + _ ≠ 0 by omega) rfl]
  simp only [if_true, List.flatMap_cons, List.map_cons, List.sum_cons, Prod.mk.injEq]
  refine ⟨?_, by omega⟩
  rw [List.append_assoc]
  congr 1

theorem countLine_word (es fs : List UcdEntry) (w : Str) :
    countLine (w, [0, 1, 2].map fun n => (foundAt es fs (w, n, false), foundAt es fs (w, n, true))) = wordLine es fs w := by
  unfold countLine wordLine
  simp only [List.map_cons, List.map_nil, List.sum_cons, List.sum_nil, Nat.add_zero, Nat.add_assoc, countFmt, passFmt,
    List.cons_append, List.nil_append, bashPrintf, List.headD_cons, List.tail_cons, passText, List.flatMap_cons, List.flatMap_nil,
    List.append_nil, List.append_assoc]
  rfl

theorem lookup_word {β : Type} (g : Str → β) (w : Str) : ∀ ws : List Str, w ∈ ws → (ws.map fun w => (w, g w)).lookup w = some (g w)
  | x :: ws, h => by
    rw [List.map_cons, List.lookup_cons]
    by_cases hx : w = x
    · subst hx; simp
    · rw [show (w == x) = false by simpa using hx]
      exact lookup_word g w ws (by rcases List.mem_cons.mp h with h | h; exact absurd h hx; exact h)

theorem bashInt_nat (n : Nat) : bashInt (n : Int) = toDec n := by
  unfold bashInt
  rw [if_neg (by omega), Int.natAbs_natCast]

theorem place_part {es : List UcdEntry} {d w : Str} {k : Nat} {b : Bool} (h : firstPlace es d = some (w, k, b)) :
    k = 0 ∨ k = 1 ∨ k = 2 := by
  have := List.mem_of_find?_eq_some h
  unfold linkPlaces at this
  simp only [List.mem_flatMap, List.mem_cons, List.not_mem_nil, or_false, Prod.mk.injEq] at this
  obtain ⟨x, _, n, hn, hx⟩ := this
  rcases hx with ⟨_, rfl, _⟩ | ⟨_, rfl, _⟩ <;> exact hn

/-- The report is right if there is a link for the word in the first line. -/
theorem C199_report_partial (first all : List UcdXml) (es fs : List UcdEntry) (order : List Str) (h1 : AllRecords first es)
    (h2 : AllRecords all fs) (hn : (fs.map UcdEntry.cp).Nodup) (hq : ∀ e ∈ fs, 0x22 ∉ e.definition)
    (ho : order.Perm linkWords)
    (hf : ∃ e ∈ fs, e.searched = true ∧ ∃ w k b, order.head? = some w ∧ firstPlace es e.definition = some (w, k, b)) :
    definitionLog first all order = linkReport es fs order := by
  obtain ⟨c1, c2, c3, c4⟩ := C199_counts first all es fs h1 h2 hn hq
  unfold definitionLog
  rw [show ((populateArrays first (fun _ => []) {}).1, ([] : List Str)) = searchStart first from rfl]
  simp only []
  rw [c4, c1]
  unfold linkCountTable
  simp only []
  rw [maxLength order ho, show order.length = 8 from ho.length_eq]
  have hrows : (order.map fun s => (s, ((linkWords.map fun w => (w, [0, 1, 2].map fun n =>
      (foundAt es fs (w, n, false), foundAt es fs (w, n, true)))).lookup s).getD [])) =
      order.map fun w => (w, [0, 1, 2].map fun n => (foundAt es fs (w, n, false), foundAt es fs (w, n, true))) := by
    apply List.map_congr_left
    intro w hw
    rw [lookup_word (fun w => [0, 1, 2].map fun n => (foundAt es fs (w, n, false), foundAt es fs (w, n, true))) w linkWords
      (ho.mem_iff.mp hw)]
    rfl
  rw [hrows]
  have hsum : ((order.map fun w => (w, [0, 1, 2].map fun n => (foundAt es fs (w, n, false), foundAt es fs (w, n, true)))).map
      fun r => (r.2.map fun c => c.1 + c.2).sum).sum = linkedEntries es fs := by
    rw [← c3, c1]
    exact ((ho.map _).map _).sum_nat
  obtain ⟨e, he, hs, w, k, b, hw, hp⟩ := hf
  cases order with
  | nil => cases hw
  | cons x ws =>
    cases hw
    have hpos : 0 < foundAt es fs (w, k, b) := by
      unfold foundAt
      rw [List.countP_pos_iff]
      exact ⟨e, he, by rw [hs, hp]; simp⟩
    rw [List.map_cons] at hsum ⊢
    rw [countLines_first _ _ rfl ?_]
    · rw [hsum]
      simp only []
      have hi : ((linkedEntries es fs + manualOnly es fs : Nat) : Int) - (linkedEntries es fs : Nat) = (manualOnly es fs : Nat) := by
        omega
      rw [hi, bashInt_nat, ← List.map_cons (f := fun w => (w, [0, 1, 2].map fun n => (foundAt es fs (w, n, false), foundAt es fs (w, n, true)))),
        List.flatMap_map]
      rw [show (fun w => countLine (w, [0, 1, 2].map fun n => (foundAt es fs (w, n, false), foundAt es fs (w, n, true)))) =
        wordLine es fs from funext (countLine_word es fs)]
      unfold linkReport
      simp only [List.append_assoc]
      rfl
    · simp only [List.map_cons, List.map_nil, List.sum_cons, List.sum_nil]
      rcases place_part hp with rfl | rfl | rfl <;> cases b <;> omega

end KT
