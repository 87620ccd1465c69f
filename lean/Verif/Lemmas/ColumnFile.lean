import Verif.Lemmas.Str
import Verif.Model.ColumnFile
import Verif.Spec.Text
/-! # Helper lemmas about column files -/
namespace KT
open Spec

theorem invalidHex_iff (b : UInt8) : invalidHex b = false ↔
    b.toNat < 0x61 ∧ ∃ d < 16, digitValue b = some d ∧
      (if b < 0x41 then b.toNat - 0x30 else b.toNat - 0x41 + 10) = d := by
  have h : ∀ n < 256, (invalidHex (UInt8.ofNat n) = false ↔
    (UInt8.ofNat n).toNat < 0x61 ∧ ∃ d < 16, digitValue (UInt8.ofNat n) = some d ∧
      (if (UInt8.ofNat n) < 0x41 then (UInt8.ofNat n).toNat - 0x30
       else (UInt8.ofNat n).toNat - 0x41 + 10) = d) := by decide +kernel
  have := h b.toNat b.toNat_lt
  rwa [byte_ofNat_toNat] at this

theorem stoi16_read (s : Str) (a : Nat) (h : s.any invalidHex = false) :
    NoLowerDigits s ∧ readFrom 16 a s = some (s.foldl (fun a b => a * 16 +
      (if b < 0x41 then b.toNat - 0x30 else b.toNat - 0x41 + 10)) a) := by
  induction s generalizing a with
  | nil => exact ⟨by simp [NoLowerDigits], rfl⟩
  | cons b s ih =>
    simp only [List.any_cons, Bool.or_eq_false_iff] at h
    obtain ⟨h1, d, hd, hv, he⟩ := (invalidHex_iff b).mp h.1
    obtain ⟨h2, h3⟩ := ih (a * 16 + d) h.2
    refine ⟨?_, ?_⟩
    · intro x hx; rcases List.mem_cons.mp hx with rfl | hx
      · exact h1
      · exact h2 x hx
    · simp only [readFrom, hv, hd, if_true, List.foldl_cons]
      rw [h3, he]

theorem read_stoi16 (s : Str) (a c : Nat) (hn : NoLowerDigits s) (h : readFrom 16 a s = some c) :
    s.any invalidHex = false := by
  induction s generalizing a with
  | nil => rfl
  | cons b s ih =>
    simp only [readFrom] at h
    split at h
    · simp at h
    · rename_i d hd
      split at h
      · rename_i hlt
        rw [List.any_cons, ih _ (fun x hx => hn x (by simp [hx])) h, Bool.or_false,
          invalidHex_iff]
        have hb := hn b (by simp)
        refine ⟨hb, d, hlt, hd, ?_⟩
        unfold digitValue at hd
        split at hd
        · rw [if_pos (by rw [UInt8.lt_iff_toNat_lt]; simp; omega)]; simpa using hd
        · split at hd
          · rw [if_neg (by rw [UInt8.lt_iff_toNat_lt]; simp; omega)]; simpa using hd
          · split at hd
            · omega
            · simp at hd
      · simp at h

/-! ## Fields of a line -/

theorem split_ne_nil (d : UInt8) (s : Str) : split d s ≠ [] := by
  cases s with
  | nil => simp [split]
  | cons b r =>
    unfold split
    split
    · simp
    · split <;> simp

theorem dropEmptyLast_cons (f : Str) (fs : List Str) (h : fs ≠ []) :
    dropEmptyLast (f :: fs) = f :: dropEmptyLast fs := by
  cases fs with
  | nil => exact absurd rfl h
  | cons g gs =>
    unfold dropEmptyLast
    rw [List.getLast?_cons_cons]
    split <;> simp

theorem getlines_eq (d : UInt8) (s : Str) :
    getlines d s none = dropEmptyLast (split d s) ∧
    ∀ f fs cur, split d s = f :: fs → cur ≠ [] →
      getlines d s (some cur) = dropEmptyLast ((cur ++ f) :: fs) := by
  induction s with
  | nil =>
    refine ⟨rfl, ?_⟩
    intro f fs cur h hc
    simp only [split, List.cons.injEq] at h
    obtain ⟨rfl, rfl⟩ := h
    simp [getlines, dropEmptyLast, hc]
  | cons b r ih =>
    have hne := split_ne_nil d r
    constructor
    · simp only [getlines, split]
      split
      · rw [dropEmptyLast_cons _ _ hne, ih.1]
      · cases hs : split d r with
        | nil => exact absurd hs hne
        | cons f fs => simpa using ih.2 f fs [b] hs (by simp)
    · intro f fs cur h hc
      simp only [split] at h
      simp only [getlines]
      split
      · rename_i hb
        rw [if_pos hb] at h
        simp only [List.cons.injEq] at h
        obtain ⟨rfl, rfl⟩ := h
        rw [dropEmptyLast_cons _ _ hne, ih.1, List.append_nil]
      · rename_i hb
        rw [if_neg hb] at h
        cases hs : split d r with
        | nil => exact absurd hs hne
        | cons g gs =>
          rw [hs] at h
          simp only [List.cons.injEq] at h
          obtain ⟨rfl, rfl⟩ := h
          rw [ih.2 g gs (cur ++ [b]) hs (by simp)]
          simp

theorem fields_eq (d : UInt8) (s : Str) : fields d s = dropEmptyLast (split d s) :=
  (getlines_eq d s).1

theorem split_eq_nil_cons (d : UInt8) (s : Str) (h : split d s = [[]]) : s = [] := by
  cases s with
  | nil => rfl
  | cons b r =>
    simp only [split] at h
    have hne := split_ne_nil d r
    cases hs : split d r with
    | nil => exact absurd hs hne
    | cons f fs =>
      rw [hs] at h
      split at h <;> simp at h

theorem split_last_empty (d : UInt8) (s : Str) :
    (split d s).getLast? = some [] ↔ s = [] ∨ s.getLast? = some d := by
  induction s with
  | nil => simp [split]
  | cons b r ih =>
    have hne := split_ne_nil d r
    simp only [split]
    cases hs : split d r with
    | nil => exact absurd hs hne
    | cons f fs =>
      rw [hs] at ih
      by_cases hb : b = d
      · rw [if_pos hb, List.getLast?_cons_cons, ih]
        cases r with
        | nil => simp [hb]
        | cons x r => simp [List.getLast?_cons_cons]
      · rw [if_neg hb]
        cases fs with
        | nil =>
          cases r with
          | nil => simp [hb]
          | cons x r =>
            have hf : f ≠ [] := by
              rintro rfl
              have := split_eq_nil_cons d _ hs
              simp at this
            simp only [List.getLast?_singleton, Option.some.injEq] at ih ⊢
            rw [List.getLast?_cons_cons]
            simp only [reduceCtorEq, false_or, false_iff] at ih ⊢
            rw [← ih]; exact hf
        | cons g gs =>
          rw [List.getLast?_cons_cons] at ih ⊢
          rw [ih]
          cases r with
          | nil => simp [split] at hs
          | cons x r => simp [List.getLast?_cons_cons]

/-! ## Rows -/

theorem rowLoop_ok (fs : List Str) (i : Nat) (rv : List Str) (h : i + fs.length ≤ rv.length) :
    rowLoop fs i rv = (rv.take i ++ fs ++ rv.drop (i + fs.length), .ok (i + fs.length)) := by
  induction fs generalizing i rv with
  | nil => simp [rowLoop]
  | cons f fs ih =>
    simp only [List.length_cons] at h
    rw [rowLoop, if_neg (by omega), ih (i + 1) _ (by simp; omega)]
    have hi : i < rv.length := by omega
    have e1 : (rv.set i f).take (i + 1) = rv.take i ++ [f] := by
      rw [List.take_set, List.take_add_one, List.getElem?_eq_getElem hi]
      rw [List.set_append_right _ _ (by simp; omega)]
      simp [Nat.min_eq_left (Nat.le_of_lt hi)]
    have e2 : (rv.set i f).drop (i + 1 + fs.length) = rv.drop (i + (fs.length + 1)) := by
      rw [List.drop_set_of_lt (by omega)]; congr 1; omega
    rw [e1, e2]
    simp; omega

theorem rowLoop_throw (fs : List Str) (i : Nat) (rv : List Str) (hi : i ≤ rv.length)
    (h : rv.length < i + fs.length) :
    ∃ rv', rowLoop fs i rv = (rv', .throw .domain) ∧ rv'.length = rv.length := by
  induction fs generalizing i rv with
  | nil => simp at h; omega
  | cons f fs ih =>
    simp only [List.length_cons] at h
    rw [rowLoop]
    split
    · exact ⟨rv, rfl, rfl⟩
    · obtain ⟨rv', h1, h2⟩ := ih (i + 1) (rv.set i f) (by simp; omega) (by simp; omega)
      exact ⟨rv', h1, by simpa using h2⟩

/-- Everything `nextRow` does with a line. -/
theorem nextRow_cases (cf : ColumnFile) (line : Str) (rest : List Str)
    (hl : cf.lines = line :: rest) (hn : cf.rowValues ≠ []) :
    let S := split cf.delimiter line
    let n := cf.rowValues.length
    (((S.length = n ∨ (S.length = n + 1 ∧ S.getLast? = some [])) ∧
      cf.nextRow = (⟨cf.delimiter, cf.currentRow + 1, S.take n, cf.columnToPosition, rest⟩,
        .ok true)) ∨
     (¬ (S.length = n ∨ (S.length = n + 1 ∧ S.getLast? = some [])) ∧
      ∃ rv, rv.length = n ∧ cf.nextRow =
        (⟨cf.delimiter, cf.currentRow + 1, rv, cf.columnToPosition, rest⟩, .throw .domain))) := by
  intro S n
  have hS : S ≠ [] := split_ne_nil _ _
  have hn' : 0 < n := List.length_pos_iff.mpr hn
  have hSl : 0 < S.length := List.length_pos_iff.mpr hS
  have hlast := split_last_empty cf.delimiter line
  have hF : fields cf.delimiter line = dropEmptyLast S := fields_eq _ _
  unfold ColumnFile.nextRow
  rw [hl]
  simp only [hF]
  by_cases he : S.getLast? = some []
  · have hD : dropEmptyLast S = S.dropLast := by rw [dropEmptyLast, if_pos he]
    have hSplit : S = S.dropLast ++ [[]] := by
      have := List.dropLast_concat_getLast hS
      rw [List.getLast?_eq_some_getLast hS] at he
      cases he'' : S.getLast hS with
      | nil => rw [he''] at this; exact this.symm
      | cons a b => rw [he''] at he; simp at he
    have hlen : S.length = S.dropLast.length + 1 := by
      rw [List.length_dropLast]; omega
    rw [hD]
    by_cases h1 : S.dropLast.length ≤ n
    · have hr := rowLoop_ok S.dropLast 0 cf.rowValues (by omega)
      rw [hr]
      simp only [Nat.zero_add, List.take_zero, List.nil_append]
      by_cases h2 : S.dropLast.length = n - 1
      · left
        refine ⟨Or.inl (by omega), ?_⟩
        rw [if_pos]
        · congr 2
          show (S.dropLast ++ List.drop S.dropLast.length cf.rowValues).set (n - 1) [] = _
          rw [List.take_of_length_le (by omega), ← h2,
            List.set_append_right _ _ (Nat.le_refl _), Nat.sub_self]
          have : ∃ x, List.drop S.dropLast.length cf.rowValues = [x] := by
            rw [← List.length_eq_one_iff, List.length_drop]
            show n - _ = 1
            omega
          obtain ⟨x, hx⟩ := this
          rw [hx]; exact hSplit.symm
        · refine ⟨h2, ?_⟩
          have hle := hlast.mp he
          split
          · rename_i h3
            rcases hle with h4 | h4
            · exfalso
              have : S = [[]] := by
                show split _ _ = _
                rw [h4]; rfl
              rw [this] at h3; simp at h3
            · exact h4
          · rename_i h3
            have : S = [[]] := by
              rw [hSplit]
              have : S.dropLast = [] := List.length_eq_zero_iff.mp (by omega)
              rw [this]; rfl
            exact split_eq_nil_cons _ _ this
      · have h3 : ¬ (S.dropLast.length = cf.rowValues.length - 1 ∧
            (if S.dropLast.length ≠ 0 then line.getLast? = some cf.delimiter else line = [])) :=
          fun h => h2 h.1
        rw [if_neg h3]
        by_cases h4 : S.dropLast.length < n
        · right
          refine ⟨by omega, _, ?_, by rw [if_pos h4]⟩
          simp only [List.length_append, List.length_drop]
          show _ + (n - _) = n
          omega
        · left
          refine ⟨Or.inr ⟨by omega, he⟩, ?_⟩
          rw [if_neg h4]
          congr 2
          have h5 : S.dropLast.length = n := by omega
          rw [List.drop_of_length_le (show cf.rowValues.length ≤ _ from by
            rw [h5]; exact Nat.le_refl _), List.append_nil, List.dropLast_eq_take]
          congr 1; omega
    · right
      obtain ⟨rv, h2, h3⟩ := rowLoop_throw S.dropLast 0 cf.rowValues (by omega) (by omega)
      exact ⟨by omega, rv, h3, by rw [h2]⟩
  · have hD : dropEmptyLast S = S := by rw [dropEmptyLast, if_neg he]
    rw [hD]
    by_cases h1 : S.length ≤ n
    · have hr := rowLoop_ok S 0 cf.rowValues (by omega)
      rw [hr]
      simp only [Nat.zero_add, List.take_zero, List.nil_append]
      have h3 : ¬ (S.length = cf.rowValues.length - 1 ∧
            (if S.length ≠ 0 then line.getLast? = some cf.delimiter else line = [])) := by
        rintro ⟨_, h⟩
        rw [if_pos (by omega)] at h
        exact he (hlast.mpr (Or.inr h))
      rw [if_neg h3]
      by_cases h4 : S.length < n
      · right
        refine ⟨by rintro (h | h); omega; exact he h.2, _, ?_, by rw [if_pos h4]⟩
        simp only [List.length_append, List.length_drop]
        show _ + (n - _) = n
        omega
      · left
        have h5 : S.length = n := by omega
        refine ⟨Or.inl h5, ?_⟩
        rw [if_neg h4]
        congr 2
        rw [List.drop_of_length_le (show cf.rowValues.length ≤ _ from by
            rw [h5]; exact Nat.le_refl _), List.append_nil, List.take_of_length_le (by omega)]
    · right
      obtain ⟨rv, h2, h3⟩ := rowLoop_throw S 0 cf.rowValues (by omega) (by omega)
      exact ⟨by rintro (h | h); omega; exact he h.2, rv, h3, by rw [h2]⟩

/-! ## Header -/

theorem collectColNames_ok (cs : List Column) (acc r : List (Str × Nat))
    (h : collectColNames cs acc = .ok r) (hacc : (acc.map Prod.fst).Nodup) :
    r = acc ++ cs.map (fun c => (c.name, c.number)) ∧ (r.map Prod.fst).Nodup := by
  induction cs generalizing acc with
  | nil => simp only [collectColNames, Res.ok.injEq] at h; subst h; simpa using hacc
  | cons c cs ih =>
    simp only [collectColNames] at h
    split at h
    · simp at h
    · rename_i hno
      obtain ⟨h1, h2⟩ := ih _ h (by
        rw [List.map_append, List.nodup_append]
        refine ⟨hacc, by simp, ?_⟩
        intro a ha b hb
        simp only [List.map_cons, List.map_nil, List.mem_singleton] at hb
        subst hb
        rintro rfl
        apply hno
        obtain ⟨x, hx, hxe⟩ := List.mem_map.mp ha
        rw [List.any_eq_true]
        exact ⟨x, hx, by simpa using hxe⟩)
      exact ⟨by rw [h1]; simp, h2⟩

theorem collectColNames_total (cs : List Column) (acc : List (Str × Nat))
    (hnd : (acc.map Prod.fst ++ cs.map Column.name).Nodup) :
    collectColNames cs acc = .ok (acc ++ cs.map (fun c => (c.name, c.number))) := by
  induction cs generalizing acc with
  | nil => simp [collectColNames]
  | cons c cs ih =>
    rw [collectColNames, if_neg]
    · rw [ih]
      · simp
      · simpa using hnd
    · rw [List.any_eq_true]
      rintro ⟨x, hx, hxe⟩
      rw [List.nodup_append] at hnd
      exact hnd.2.2 x.1 (List.mem_map.mpr ⟨x, hx, rfl⟩) c.name (by simp) (by simpa using hxe)

theorem collectColNames_throw (cs : List Column) (acc : List (Str × Nat)) :
    (∃ r, collectColNames cs acc = .ok r) ∨ collectColNames cs acc = .throw .domain := by
  induction cs generalizing acc with
  | nil => exact Or.inl ⟨_, rfl⟩
  | cons c cs ih =>
    simp only [collectColNames]
    split
    · exact Or.inr rfl
    · exact ih _

theorem mem_of_find {names : List (Str × Nat)} {h : Str} {x : Str × Nat}
    (hf : names.find? (·.1 == h) = some x) : x ∈ names ∧ x.1 = h :=
  ⟨List.mem_of_find?_eq_some hf, by simpa using List.find?_some hf⟩

/-- The header loop never writes out of bounds when all numbers are registered; when it succeeds the
header is duplicate free and positions are recorded. -/
theorem headerLoop_cases (hs : List Str) (pos : Nat) (found : List Str) (c2p : List (Option Nat))
    (names : List (Str × Nat)) (hnd : (names.map Prod.fst).Nodup)
    (hnum : (names.map Prod.snd).Nodup) (hb : ∀ x ∈ names, x.2 < c2p.length)
    (hdis : ∀ x ∈ names, x.1 ∉ found) :
    (headerLoop hs pos found c2p names = .throw .domain ∧
      ¬ (hs.Nodup ∧ ∀ h ∈ hs, h ∈ names.map Prod.fst)) ∨
    ∃ c2p', headerLoop hs pos found c2p names =
        .ok (c2p', names.filter (fun x => x.1 ∉ hs)) ∧
      hs.Nodup ∧ (∀ h ∈ hs, h ∈ names.map Prod.fst) ∧ c2p'.length = c2p.length ∧
      (∀ j h n, hs[j]? = some h → (h, n) ∈ names → c2p'[n]? = some (some (pos + j))) ∧
      (∀ n, (∀ x ∈ names, x.1 ∈ hs → x.2 ≠ n) → c2p'[n]? = c2p[n]?) := by
  induction hs generalizing pos found c2p names with
  | nil =>
    right
    refine ⟨c2p, ?_, by simp, by simp, rfl, by simp, fun _ _ => rfl⟩
    have : names.filter (fun x => decide (x.1 ∉ ([] : List Str))) = names := by
      rw [List.filter_eq_self]; simp
    rw [this]; rfl
  | cons h hs ih =>
    simp only [headerLoop]
    by_cases hf : found.contains h = true
    · left
      rw [if_pos hf]
      refine ⟨rfl, ?_⟩
      rintro ⟨_, hmem⟩
      obtain ⟨x, hx, hxe⟩ := List.mem_map.mp (hmem h (by simp))
      exact hdis x hx (by rw [hxe]; simpa using hf)
    · rw [if_neg hf]
      cases hfi : names.find? (·.1 == h) with
      | none =>
        left
        refine ⟨rfl, ?_⟩
        rintro ⟨_, hmem⟩
        obtain ⟨x, hx, hxe⟩ := List.mem_map.mp (hmem h (by simp))
        have := List.find?_eq_none.mp hfi x hx
        simp [hxe] at this
      | some x =>
        obtain ⟨hx, hxh⟩ := mem_of_find hfi
        obtain ⟨xn, number⟩ := x
        simp only at hxh
        subst hxh
        have hlt : number < c2p.length := hb _ hx
        simp only
        rw [if_pos hlt]
        have sub : (names.filter (·.1 != xn)).Sublist names := List.filter_sublist
        have hmemf : ∀ y, y ∈ names.filter (·.1 != xn) ↔ y ∈ names ∧ y.1 ≠ xn := by
          intro y; rw [List.mem_filter]; simp
        have hcase := ih (pos + 1) (xn :: found) (c2p.set number (some pos))
          (names.filter (·.1 != xn)) (hnd.sublist (sub.map _)) (hnum.sublist (sub.map _))
          (fun y hy => by simpa using hb y ((hmemf y).mp hy).1)
          (fun y hy => by
            simp only [List.mem_cons, not_or]
            exact ⟨((hmemf y).mp hy).2, hdis y ((hmemf y).mp hy).1⟩)
        rcases hcase with ⟨h1, h2⟩ | ⟨c2p', h1, h2, h3, h4, h5, h6⟩
        · left
          refine ⟨h1, ?_⟩
          rintro ⟨g1, g2⟩
          apply h2
          rw [List.nodup_cons] at g1
          refine ⟨g1.2, fun z hz => ?_⟩
          obtain ⟨y, hy, hye⟩ := List.mem_map.mp (g2 z (by simp [hz]))
          refine List.mem_map.mpr ⟨y, (hmemf y).mpr ⟨hy, ?_⟩, hye⟩
          rintro rfl
          exact g1.1 (by rw [hye]; exact hz)
        · right
          have hxn : xn ∉ hs := by
            intro hmem
            obtain ⟨y, hy, hye⟩ := List.mem_map.mp (h3 xn hmem)
            exact ((hmemf y).mp hy).2 hye
          have uniqNum : ∀ y ∈ names, y.2 = number → y.1 = xn := by
            intro y hy hyn
            have := (List.pairwise_iff_getElem.mp hnum)
            obtain ⟨i, hi, hyi⟩ := List.getElem_of_mem hy
            obtain ⟨j, hj, hxj⟩ := List.getElem_of_mem hx
            by_cases hij : i = j
            · subst hij; rw [← hyi, hxj]
            · exfalso
              rcases Nat.lt_or_gt_of_ne hij with hlt' | hlt'
              · have := this i j (by simpa using hi) (by simpa using hj) hlt'
                apply this; simp [hyi, hxj, hyn]
              · have := this j i (by simpa using hj) (by simpa using hi) hlt'
                apply this; simp [hyi, hxj, hyn]
          refine ⟨c2p', ?_, ?_, ?_, by simpa using h4, ?_, ?_⟩
          · rw [h1]
            congr 2
            rw [List.filter_filter]
            apply List.filter_congr
            intro y _
            by_cases hq : y.1 = xn <;> simp [hq]
          · rw [List.nodup_cons]; exact ⟨hxn, h2⟩
          · intro z hz
            rcases List.mem_cons.mp hz with rfl | hz
            · exact List.mem_map.mpr ⟨_, hx, rfl⟩
            · obtain ⟨y, hy, hye⟩ := List.mem_map.mp (h3 z hz)
              exact List.mem_map.mpr ⟨y, ((hmemf y).mp hy).1, hye⟩
          · intro j z n hj hzn
            cases j with
            | zero =>
              simp only [List.getElem?_cons_zero, Option.some.injEq] at hj
              subst hj
              have hnn : n = number := by
                have := (List.pairwise_iff_getElem.mp hnd)
                obtain ⟨i, hi, hyi⟩ := List.getElem_of_mem hzn
                obtain ⟨k, hk, hxk⟩ := List.getElem_of_mem hx
                by_cases hik : i = k
                · subst hik
                  rw [hyi] at hxk
                  exact (Prod.mk.inj hxk).2
                · exfalso
                  rcases Nat.lt_or_gt_of_ne hik with hlt' | hlt'
                  · have := this i k (by simpa using hi) (by simpa using hk) hlt'
                    apply this; simp [hyi, hxk]
                  · have := this k i (by simpa using hk) (by simpa using hi) hlt'
                    apply this; simp [hyi, hxk]
              subst hnn
              rw [h6 n, List.getElem?_set_self hlt]
              · rfl
              · intro y hy hyhs hyn
                have := uniqNum y ((hmemf y).mp hy).1 hyn
                exact ((hmemf y).mp hy).2 this
            | succ j =>
              simp only [List.getElem?_cons_succ] at hj
              have hz : z ∈ hs := List.mem_of_getElem? hj
              rw [h5 j z n hj ((hmemf (z, n)).mpr ⟨hzn, by rintro rfl; exact hxn hz⟩)]
              congr 2; omega
          · intro n hn
            rw [h6 n]
            · rw [List.getElem?_set_ne]
              exact hn _ hx (by simp)
            · intro y hy hyhs
              exact hn y ((hmemf y).mp hy).1 (by simp [hyhs])

theorem isDigit_value (b : UInt8) : isDigitChar b = true ↔
    ∃ d < 10, digitValue b = some d ∧ b.toNat - 0x30 = d := by
  have h : ∀ n < 256, (isDigitChar (UInt8.ofNat n) = true ↔
      ∃ d < 10, digitValue (UInt8.ofNat n) = some d ∧ (UInt8.ofNat n).toNat - 0x30 = d) := by
    decide +kernel
  have := h b.toNat b.toNat_lt
  rwa [byte_ofNat_toNat] at this

theorem decimal_read (s : Str) (a : Nat) (h : s.all isDigitChar = true) :
    readFrom 10 a s = some (s.foldl (fun a b => a * 10 + (b.toNat - 0x30)) a) := by
  induction s generalizing a with
  | nil => rfl
  | cons b s ih =>
    rw [List.all_cons, Bool.and_eq_true] at h
    obtain ⟨d, hd, hv, he⟩ := (isDigit_value b).mp h.1
    simp only [readFrom, hv, hd, if_true, List.foldl_cons]
    rw [ih _ h.2, he]

theorem read_all_digits (s : Str) (a v : Nat) (h : readFrom 10 a s = some v) :
    s.all isDigitChar = true := by
  induction s generalizing a with
  | nil => rfl
  | cons b s ih =>
    simp only [readFrom] at h
    split at h
    · simp at h
    · rename_i d hd
      split at h
      · rename_i hlt
        rw [List.all_cons, ih _ h, Bool.and_true, isDigit_value]
        refine ⟨d, hlt, hd, ?_⟩
        unfold digitValue at hd
        split at hd
        · simpa using hd
        · split at hd
          · simp at hd; omega
          · split at hd
            · simp at hd; omega
            · simp at hd
      · simp at h

theorem takeWhile_append_stop {p : UInt8 → Bool} (a b : Str) (ha : a.all p = true)
    (hb : ∀ x y, b = x :: y → p x = false) : (a ++ b).takeWhile p = a := by
  induction a with
  | nil =>
    cases b with
    | nil => rfl
    | cons x y => simp [hb x y rfl]
  | cons c a ih =>
    rw [List.all_cons, Bool.and_eq_true] at ha
    simp [ha.1, ih ha.2]

theorem dropWhile_append_stop {p : UInt8 → Bool} (a b : Str) (ha : a.all p = true)
    (hb : ∀ x y, b = x :: y → p x = false) : (a ++ b).dropWhile p = b := by
  induction a with
  | nil =>
    cases b with
    | nil => rfl
    | cons x y => simp [hb x y rfl]
  | cons c a ih =>
    rw [List.all_cons, Bool.and_eq_true] at ha
    simp [ha.1, ih ha.2]

theorem digit_not_special (b : UInt8) (h : isDigitChar b = true) :
    isSpaceChar b = false ∧ b ≠ 0x2d ∧ b ≠ 0x2b := by
  have h' : ∀ n < 256, isDigitChar (UInt8.ofNat n) = true →
      isSpaceChar (UInt8.ofNat n) = false ∧ UInt8.ofNat n ≠ 0x2d ∧ UInt8.ofNat n ≠ 0x2b := by
    decide +kernel
  have := h' b.toNat b.toNat_lt
  rw [byte_ofNat_toNat] at this
  exact this h

end KT
