import Verif.Model.UcdLinkCounts
import Verif.Spec.LinkCounts
import Verif.Lemmas.UcdArrays
import Verif.Lemmas.UcdDefinitionFound
/-! # Lemmas for C199: where links are found -/
namespace KT
open Spec

/-- The array and its keys agree. -/
structure KeysOf (h : Str → Bool) (st : LinkState) : Prop where
  reading : ∀ c, st.1.hasReading c = h c
  empty : h [] = false
  keys : ∀ c, c ≠ [] → (st.1.readingLink c = [] ↔ c ∉ st.2)

theorem addLink_hasReading (a : ScriptArrays) (cp : Str) (l : List Str) (c : Str) :
    (a.addLink cp l).hasReading c = a.hasReading c := by
  unfold ScriptArrays.addLink
  split
  · split <;> rfl
  · rfl

theorem mem_setKey (ks : List Str) (k c : Str) (hk : k ≠ []) : c ∈ setKey ks k ↔ c ∈ ks ∨ c = k := by
  unfold setKey
  split
  · rename_i h
    rcases h with h | h
    · exact absurd h hk
    · constructor
      · exact .inl
      · rintro (hc | rfl)
        · exact hc
        · exact h
  · simp

/-- One link. -/
theorem addLink_keys {h : Str → Bool} {st : LinkState} (hs : KeysOf h st) (cp : Str) (l : List Str) (hc : cp ≠ []) :
    (l.any h = true → cp ∉ st.2 → KeysOf h (st.1.addLink cp l, setKey st.2 cp)) ∧
    (¬ (cp ∉ st.2 ∧ l.any h = true) → KeysOf h (st.1.addLink cp l, st.2)) := by
  have hfun : st.1.hasReading = h := funext hs.reading
  constructor
  · intro hl hk
    refine ⟨fun c => (addLink_hasReading _ _ _ c).trans (hs.reading c), hs.empty, ?_⟩
    intro c hcn
    show (st.1.addLink cp l).readingLink c = [] ↔ c ∉ setKey st.2 cp
    rw [mem_setKey _ _ _ hc]
    unfold ScriptArrays.addLink
    rw [if_pos ((hs.keys cp hc).mpr hk), hfun]
    cases hf : l.find? h with
    | none =>
      rw [List.find?_eq_none] at hf
      obtain ⟨x, hx, hx'⟩ := List.any_eq_true.mp hl
      exact absurd hx' (hf x hx)
    | some d =>
      show arraySet _ _ _ _ = [] ↔ _
      rw [arraySet_get]
      have hd := List.find?_some hf
      by_cases hcc : c = cp
      · rw [if_pos ⟨hc, hcc⟩]
        constructor
        · intro hd'; subst hd'; rw [hs.empty] at hd; cases hd
        · intro hx; exact absurd (.inr hcc) hx
      · rw [if_neg (fun hx => hcc hx.2), hs.keys c hcn]
        simp [hcc]
  · intro hn
    refine ⟨fun c => (addLink_hasReading _ _ _ c).trans (hs.reading c), hs.empty, ?_⟩
    intro c hcn
    show (st.1.addLink cp l).readingLink c = [] ↔ c ∉ st.2
    rw [← hs.keys c hcn]
    unfold ScriptArrays.addLink
    by_cases hk : cp ∈ st.2
    · rw [if_neg (fun hx => (hs.keys cp hc).mp hx hk)]
    · rw [if_pos ((hs.keys cp hc).mpr hk), hfun]
      have : l.find? h = none := by
        rw [List.find?_eq_none]
        intro x hx hx'
        exact hn ⟨hk, List.any_eq_true.mpr ⟨x, hx, hx'⟩⟩
      rw [this]

/-- A loop over the records. -/
theorem storeLinks_records {h : Str → Bool} (F : Str × Str → Option (List Str)) : ∀ (rs : List (Str × Str)) (st : LinkState),
    (rs.map (·.1)).Nodup → (∀ r ∈ rs, r.1 ≠ []) → KeysOf h st →
    let out := storeLinks (rs.filterMap fun r => (F r).map fun l => (r.1, l)) st
    KeysOf h out.1 ∧ (∀ c, c ∈ out.1.2 ↔ c ∈ st.2 ∨ ∃ r ∈ rs, r.1 = c ∧ ((F r).getD []).any h = true) ∧
    out.2 = rs.countP (fun r => !st.2.contains r.1 && ((F r).getD []).any h) ∧ out.1.2.length = st.2.length + out.2
  | [], st, _, _, hs => by
    refine ⟨hs, ?_, rfl, rfl⟩
    intro c
    simp [storeLinks]
  | r :: rs, st, hn, hr, hs => by
    rw [List.map_cons, List.nodup_cons] at hn
    have hr1 := hr r List.mem_cons_self
    have hr2 : ∀ q ∈ rs, q.1 ≠ [] := fun q hq => hr q (List.mem_cons_of_mem _ hq)
    have hfun : st.1.hasReading = h := funext hs.reading
    rw [List.filterMap_cons]
    cases hF : F r with
    | none =>
      obtain ⟨i1, i2, i3, i4⟩ := storeLinks_records F rs st hn.2 hr2 hs
      simp only [Option.map_none]
      refine ⟨i1, ?_, ?_, i4⟩
      · intro c; rw [i2]; simp [hF]
      · rw [i3, List.countP_cons_of_neg (by simp [hF])]
    | some l =>
      simp only [Option.map_some]
      have other : ∀ ks : List Str, (∀ c, c ∈ ks ↔ c ∈ st.2 ∨ c = r.1) ∨ (∀ c, c ∈ ks ↔ c ∈ st.2) →
          rs.countP (fun q => !ks.contains q.1 && ((F q).getD []).any h) =
          rs.countP (fun q => !st.2.contains q.1 && ((F q).getD []).any h) := by
        intro ks hks
        apply List.countP_congr
        intro q hq
        have hne : q.1 ≠ r.1 := fun hx => hn.1 (hx ▸ List.mem_map_of_mem (f := (·.1)) hq)
        have : ks.contains q.1 = st.2.contains q.1 := by
          rw [Bool.eq_iff_iff, List.contains_iff_mem, List.contains_iff_mem]
          rcases hks with hks | hks
          · rw [hks]; simp [hne]
          · exact hks _
        rw [this]
      rw [storeLinks]
      by_cases hc : st.1.readingLink r.1 = [] ∧ l.any st.1.hasReading = true
      · simp only [if_pos hc]
        rw [hfun] at hc
        have hk : r.1 ∉ st.2 := (hs.keys _ hr1).mp hc.1
        obtain ⟨i1, i2, i3, i4⟩ := storeLinks_records F rs _ hn.2 hr2 ((addLink_keys hs r.1 l hr1).1 hc.2 hk)
        refine ⟨i1, ?_, ?_, ?_⟩
        · intro c
          rw [i2]
          show (c ∈ setKey st.2 r.1 ∨ _) ↔ _
          rw [mem_setKey _ _ _ hr1]
          constructor
          · rintro ((hx | rfl) | ⟨q, hq, hx⟩)
            · exact .inl hx
            · exact .inr ⟨r, List.mem_cons_self, rfl, by rw [hF]; exact hc.2⟩
            · exact .inr ⟨q, List.mem_cons_of_mem _ hq, hx⟩
          · rintro (hx | ⟨q, hq, hx⟩)
            · exact .inl (.inl hx)
            · rcases List.mem_cons.mp hq with rfl | hq
              · exact .inl (.inr hx.1.symm)
              · exact .inr ⟨q, hq, hx⟩
        · rw [i3, List.countP_cons_of_pos (by simp [hF, hk, hc.2])]
          rw [other (setKey st.2 r.1) (.inl fun c => mem_setKey _ _ _ hr1)]
        · rw [i4]
          show (setKey st.2 r.1).length + _ = _
          unfold setKey
          rw [if_neg (by rintro (hx | hx); exact hr1 hx; exact hk hx), List.length_append, List.length_singleton]
          omega
      · simp only [if_neg hc]
        rw [hfun] at hc
        have hn' : ¬ (r.1 ∉ st.2 ∧ l.any h = true) := by
          rw [← hs.keys _ hr1]; exact hc
        obtain ⟨i1, i2, i3, i4⟩ := storeLinks_records F rs _ hn.2 hr2 ((addLink_keys hs r.1 l hr1).2 hn')
        refine ⟨i1, ?_, ?_, i4⟩
        · intro c
          rw [i2]
          constructor
          · rintro (hx | ⟨q, hq, hx⟩)
            · exact .inl hx
            · exact .inr ⟨q, List.mem_cons_of_mem _ hq, hx⟩
          · rintro (hx | ⟨q, hq, hx⟩)
            · exact .inl hx
            · rcases List.mem_cons.mp hq with rfl | hq
              · rw [hF] at hx
                refine .inl (Classical.byContradiction fun hy => hn' ⟨?_, hx.2⟩)
                rw [hx.1]; exact hy
              · exact .inr ⟨q, hq, hx⟩
        · rw [i3, List.countP_cons_of_neg]
          simp only [hF, Option.getD_some, Bool.and_eq_true, Bool.not_eq_true', List.contains_eq_mem, decide_eq_false_iff_not]
          exact hn'

/-! ## Places -/

/-- A code with readings is at this place. -/
def hitAt (h : Str → Bool) (d : Str) (p : LinkPlace) : Bool := (codesAt p d).any h

/-- The state when the places `pre` are done. -/
structure Reached (h : Str → Bool) (rs : List (Str × Str)) (pre : List LinkPlace) (st : LinkState) : Prop where
  keysOf : KeysOf h st
  mem : ∀ c, c ∈ st.2 ↔ ∃ r ∈ rs, r.1 = c ∧ pre.any (hitAt h r.2) = true

/-- The number of records whose first place is `p`. -/
def firstAt (h : Str → Bool) (rs : List (Str × Str)) (all : List LinkPlace) (p : LinkPlace) : Nat :=
  rs.countP fun r => all.find? (hitAt h r.2) == some p

theorem storeLinks_place {h : Str → Bool} (F : Str × Str → Option (List Str)) (rs : List (Str × Str)) (st : LinkState)
    (hn : (rs.map (·.1)).Nodup) (hr : ∀ r ∈ rs, r.1 ≠ []) (pre rest : List LinkPlace) (p : LinkPlace)
    (hF : ∀ r ∈ rs, (F r).getD [] = codesAt p r.2) (hs : Reached h rs pre st) (hp : (pre ++ p :: rest).Nodup) :
    let out := storeLinks (rs.filterMap fun r => (F r).map fun l => (r.1, l)) st
    Reached h rs (pre ++ [p]) out.1 ∧ out.2 = firstAt h rs (pre ++ p :: rest) p ∧ out.1.2.length = st.2.length + out.2 := by
  obtain ⟨i1, i2, i3, i4⟩ := storeLinks_records F rs st hn hr hs.keysOf
  refine ⟨⟨i1, ?_⟩, ?_, i4⟩
  · intro c
    rw [i2, hs.mem]
    constructor
    · rintro (⟨r, hr, hc, h1⟩ | ⟨r, hr, hc, h1⟩)
      · exact ⟨r, hr, hc, by rw [List.any_append, h1]; rfl⟩
      · refine ⟨r, hr, hc, ?_⟩
        rw [hF r hr] at h1
        rw [List.any_append]
        simp [hitAt, h1]
    · rintro ⟨r, hr, hc, h1⟩
      rw [List.any_append, Bool.or_eq_true] at h1
      rcases h1 with h1 | h1
      · exact .inl ⟨r, hr, hc, h1⟩
      · refine .inr ⟨r, hr, hc, ?_⟩
        rw [hF r hr]
        simpa [hitAt] using h1
  · rw [i3]
    unfold firstAt
    apply List.countP_congr
    intro r hrm
    rw [hF r hrm, Bool.and_eq_true, Bool.not_eq_true', List.contains_eq_mem, decide_eq_false_iff_not, hs.mem, beq_iff_eq,
      List.find?_append]
    have hsame : (∃ q ∈ rs, q.1 = r.1 ∧ pre.any (hitAt h q.2) = true) ↔ pre.any (hitAt h r.2) = true := by
      constructor
      · rintro ⟨q, hq, hqr, hx⟩
        have : q = r := by
          have key : ∀ (l : List (Str × Str)), (l.map (·.1)).Nodup → ∀ q ∈ l, ∀ r ∈ l, q.1 = r.1 → q = r := by
            intro l
            induction l with
            | nil => intro _ q hq; cases hq
            | cons x l ih =>
              intro hl q hq r hr he
              rw [List.map_cons, List.nodup_cons] at hl
              rcases List.mem_cons.mp hq with rfl | hq2 <;> rcases List.mem_cons.mp hr with rfl | hr2
              · rfl
              · exact absurd (List.mem_map_of_mem (f := (·.1)) hr2) (by rw [← he]; exact hl.1)
              · exact absurd (List.mem_map_of_mem (f := (·.1)) hq2) (by show q.1 ∉ _; rw [he]; exact hl.1)
              · exact ih hl.2 q hq2 r hr2 he
          exact key rs hn q hq r hrm hqr
        rw [← this]; exact hx
      · intro hx; exact ⟨r, hrm, rfl, hx⟩
    rw [hsame]
    have hnot : p ∉ pre := fun hx => (List.nodup_append.mp hp).2.2 p hx p List.mem_cons_self rfl
    cases hf : pre.find? (hitAt h r.2) with
    | none =>
      rw [List.find?_eq_none] at hf
      have : ¬ pre.any (hitAt h r.2) = true := by
        intro hx
        obtain ⟨q, hq, hq'⟩ := List.any_eq_true.mp hx
        exact hf q hq hq'
      rw [Option.none_or, List.find?_cons]
      have hpp : (codesAt p r.2).any h = hitAt h r.2 p := rfl
      rw [hpp]
      cases hh : hitAt h r.2 p with
      | true => simp [this]
      | false =>
        simp only [Bool.false_eq_true, and_false, false_iff]
        intro hx
        have := List.mem_of_find?_eq_some hx
        exact (List.nodup_cons.mp (List.nodup_append.mp hp).2.1).1 this
    | some q =>
      have hq := List.mem_of_find?_eq_some hf
      have : pre.any (hitAt h r.2) = true := List.any_eq_true.mpr ⟨q, hq, List.find?_some hf⟩
      simp only [this, not_true_eq_false, false_and, Option.some_or, Option.some.injEq, false_iff]
      rintro rfl
      exact hnot hq

theorem utf_codesAt (w : Str) (hw : w ∈ linkWords) (n : Nat) (d : Str) (hd : 0x22 ∉ d) :
    ((utfMatch w n d).map utfCodes).getD [] = codesAt (w, n, false) d := by
  rw [utfMatch_parts w hw n d hd]
  unfold codesAt
  cases (definitionParts d)[n]? with
  | none => rfl
  | some part =>
    simp only [Option.bind_some]
    cases namedCharacters w part <;> rfl

theorem uni_codesAt (w : Str) (hw : w ∈ linkWords) (n : Nat) (d : Str) (hd : 0x22 ∉ d) :
    ((uniMatch w n d).map fun s => [s]).getD [] = codesAt (w, n, true) d := by
  rw [uniMatch_parts w hw n d hd]
  unfold codesAt
  cases (definitionParts d)[n]? with
  | none => rfl
  | some part =>
    simp only [Option.bind_some]
    cases namedCode w part <;> rfl

/-- The places of a word in some parts. -/
def placesOf (w : Str) (ns : List Nat) : List LinkPlace := ns.flatMap fun n => [(w, n, false), (w, n, true)]

theorem passCounts_place {h : Str → Bool} (rs : List (Str × Str)) (st : LinkState) (hn : (rs.map (·.1)).Nodup)
    (hr : ∀ r ∈ rs, r.1 ≠ []) (hq : ∀ r ∈ rs, 0x22 ∉ r.2) (pre rest : List LinkPlace) (w : Str) (hw : w ∈ linkWords) (n : Nat)
    (hs : Reached h rs pre st) (hp : (pre ++ placesOf w [n] ++ rest).Nodup) :
    let out := passCounts rs w n st
    Reached h rs (pre ++ placesOf w [n]) out.1 ∧
    out.2 = (firstAt h rs (pre ++ placesOf w [n] ++ rest) (w, n, false), firstAt h rs (pre ++ placesOf w [n] ++ rest) (w, n, true)) ∧
    out.1.2.length = st.2.length + (out.2.1 + out.2.2) := by
  have e1 : pre ++ placesOf w [n] ++ rest = pre ++ (w, n, false) :: ((w, n, true) :: rest) := by simp [placesOf]
  have e2 : pre ++ placesOf w [n] ++ rest = pre ++ [(w, n, false)] ++ (w, n, true) :: rest := by simp [placesOf]
  have e3 : pre ++ placesOf w [n] = pre ++ [(w, n, false)] ++ [(w, n, true)] := by simp [placesOf]
  have u1 : utfLinks rs w n = rs.filterMap fun r => ((utfMatch w n r.2).map utfCodes).map fun l => (r.1, l) := by
    unfold utfLinks; simp only [Option.map_map, Function.comp_def]
  have u2 : uniLinks rs w n = rs.filterMap fun r => ((uniMatch w n r.2).map fun s => [s]).map fun l => (r.1, l) := by
    unfold uniLinks; simp only [Option.map_map, Function.comp_def]
  obtain ⟨a1, a2, a3⟩ := storeLinks_place (fun r => (utfMatch w n r.2).map utfCodes) rs st hn hr pre _ (w, n, false)
    (fun r h => utf_codesAt w hw n r.2 (hq r h)) hs (e1 ▸ hp)
  rw [← u1] at a1 a2 a3
  obtain ⟨b1, b2, b3⟩ := storeLinks_place (fun r => (uniMatch w n r.2).map fun s => [s]) rs _ hn hr _ rest (w, n, true)
    (fun r h => uni_codesAt w hw n r.2 (hq r h)) a1 (e2 ▸ hp)
  rw [← u2] at b1 b2 b3
  refine ⟨?_, ?_, ?_⟩
  · rw [e3]; exact b1
  · unfold passCounts
    simp only [Prod.mk.injEq]
    exact ⟨by rw [e1]; exact a2, by rw [e2]; exact b2⟩
  · unfold passCounts
    simp only []
    rw [b3, a3]; omega

theorem linkTypeCounts_place {h : Str → Bool} (rs : List (Str × Str)) (hn : (rs.map (·.1)).Nodup)
    (hr : ∀ r ∈ rs, r.1 ≠ []) (hq : ∀ r ∈ rs, 0x22 ∉ r.2) (w : Str) (hw : w ∈ linkWords) (all : List LinkPlace) (hp : all.Nodup) :
    ∀ (ns : List Nat) (st : LinkState) (pre rest : List LinkPlace), Reached h rs pre st → pre ++ placesOf w ns ++ rest = all →
    let out := linkTypeCounts rs w ns st
    Reached h rs (pre ++ placesOf w ns) out.1 ∧
    out.2 = ns.map (fun n => (firstAt h rs all (w, n, false), firstAt h rs all (w, n, true))) ∧
    out.1.2.length = st.2.length + (out.2.map fun c => c.1 + c.2).sum
  | [], st, pre, rest, hs, _ => ⟨by simpa [placesOf, linkTypeCounts] using hs, rfl, by simp [linkTypeCounts]⟩
  | n :: ns, st, pre, rest, hs, he => by
    have e1 : pre ++ placesOf w [n] ++ (placesOf w ns ++ rest) = all := by rw [← he]; simp [placesOf]
    obtain ⟨a1, a2, a3⟩ := passCounts_place rs st hn hr hq pre (placesOf w ns ++ rest) w hw n hs (e1 ▸ hp)
    obtain ⟨b1, b2, b3⟩ := linkTypeCounts_place rs hn hr hq w hw all hp ns _ (pre ++ placesOf w [n]) rest a1 (by rw [← e1]; simp)
    rw [e1] at a2
    refine ⟨?_, ?_, ?_⟩
    · have : pre ++ placesOf w (n :: ns) = pre ++ placesOf w [n] ++ placesOf w ns := by simp [placesOf]
      rw [this]; exact b1
    · show (passCounts rs w n st).2 :: (linkTypeCounts rs w ns (passCounts rs w n st).1).2 = _
      rw [a2, b2]; rfl
    · show (linkTypeCounts rs w ns (passCounts rs w n st).1).1.2.length = _ + (((passCounts rs w n st).2 :: (linkTypeCounts rs w ns (passCounts rs w n st).1).2).map _).sum
      rw [b3, a3, List.map_cons, List.sum_cons]; omega

theorem countTypes_place {h : Str → Bool} (rs : List (Str × Str)) (hn : (rs.map (·.1)).Nodup)
    (hr : ∀ r ∈ rs, r.1 ≠ []) (hq : ∀ r ∈ rs, 0x22 ∉ r.2) (all : List LinkPlace) (hp : all.Nodup) :
    ∀ (ws : List Str) (st : LinkState) (pre rest : List LinkPlace), (∀ w ∈ ws, w ∈ linkWords) → Reached h rs pre st →
    pre ++ (ws.flatMap fun w => placesOf w [0, 1, 2]) ++ rest = all →
    let out := countTypes rs ws st
    Reached h rs (pre ++ ws.flatMap fun w => placesOf w [0, 1, 2]) out.1 ∧
    out.2 = ws.map (fun w => (w, [0, 1, 2].map fun n => (firstAt h rs all (w, n, false), firstAt h rs all (w, n, true)))) ∧
    out.1.2.length = st.2.length + (out.2.map fun r => (r.2.map fun c => c.1 + c.2).sum).sum
  | [], st, pre, rest, _, hs, _ => ⟨by simpa [countTypes] using hs, rfl, by simp [countTypes]⟩
  | w :: ws, st, pre, rest, hw, hs, he => by
    have e1 : pre ++ placesOf w [0, 1, 2] ++ ((ws.flatMap fun w => placesOf w [0, 1, 2]) ++ rest) = all := by rw [← he]; simp
    obtain ⟨a1, a2, a3⟩ := linkTypeCounts_place rs hn hr hq w (hw w List.mem_cons_self) all hp [0, 1, 2] st pre _ hs e1
    obtain ⟨b1, b2, b3⟩ := countTypes_place rs hn hr hq all hp ws _ (pre ++ placesOf w [0, 1, 2]) rest
      (fun x hx => hw x (List.mem_cons_of_mem _ hx)) a1 (by rw [← e1]; simp)
    refine ⟨?_, ?_, ?_⟩
    · have : pre ++ (w :: ws).flatMap (fun w => placesOf w [0, 1, 2]) = pre ++ placesOf w [0, 1, 2] ++ ws.flatMap fun w => placesOf w [0, 1, 2] := by simp
      rw [this]; exact b1
    · show (w, (linkTypeCounts rs w [0, 1, 2] st).2) :: (countTypes rs ws (linkTypeCounts rs w [0, 1, 2] st).1).2 = _
      rw [a2, b2]; rfl
    · show (countTypes rs ws (linkTypeCounts rs w [0, 1, 2] st).1).1.2.length =
        _ + (((w, (linkTypeCounts rs w [0, 1, 2] st).2) :: (countTypes rs ws (linkTypeCounts rs w [0, 1, 2] st).1).2).map _).sum
      rw [b3, a3, List.map_cons, List.sum_cons]; dsimp only; omega

end KT
