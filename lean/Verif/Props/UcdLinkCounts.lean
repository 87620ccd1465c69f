import Verif.Lemmas.UcdLinkCounts
import Verif.Props.UcdDefinition
import Verif.Props.UcdScriptSample
/-!
# C199: counts of links in definitions

Model: `Verif/Model/UcdLinkCounts.lean`.
-/
namespace KT
open Spec

/-- The report has the counts of links, one line for each word. -/
def C199_statement : Prop :=
  ∀ (first all : List UcdXml) (es fs : List UcdEntry) (order : List Str), AllRecords first es → AllRecords all fs →
    (fs.map UcdEntry.cp).Nodup → (∀ e ∈ fs, 0x22 ∉ e.definition) → order.Perm linkWords →
    definitionLog first all order = linkReport es fs order

/-! ## Counts -/

theorem linkPlaces_nodup : linkPlaces.Nodup := by decide +kernel

/-- The arrays before links are searched. -/
def searchStart (first : List UcdXml) : LinkState := ((populateArrays first (fun _ => []) {}).1, [])

theorem searchStart_hasReading (first : List UcdXml) (es : List UcdEntry) (h : AllRecords first es) (c : Str) :
    (searchStart first).1.hasReading c = (readingOf es c).isSome := by
  rw [← scriptArrays_hasReading first es [] h c]
  rfl

theorem searchStart_keys (first : List UcdXml) (es : List UcdEntry) (h : AllRecords first es) :
    KeysOf (fun c => (readingOf es c).isSome) (searchStart first) := by
  refine ⟨searchStart_hasReading first es h, ?_, ?_⟩
  · have := searchStart_hasReading first es h []
    show (readingOf es []).isSome = false
    rw [← this]
    obtain ⟨_, _, h3, h4, _⟩ := populate_noEmpty first (fun _ => []) {} ⟨rfl, rfl, rfl, rfl, rfl, rfl⟩
    show ScriptArrays.hasReading (populateArrays first (fun _ => []) {}).1 [] = false
    unfold ScriptArrays.hasReading
    rw [h3, h4]; rfl
  · intro c _
    show (populateArrays first (fun _ => []) {}).1.readingLink c = [] ↔ c ∉ ([] : List Str)
    rw [populate_readingLink]
    simp

theorem countP_records (fs : List UcdEntry) (P : Str → Bool) :
    (((fs.filter UcdEntry.searched).map fun e => (e.cp, e.definition)).countP fun r => P r.2) =
      fs.countP fun e => e.searched && P e.definition := by
  rw [List.countP_map, List.countP_filter]
  apply List.countP_congr
  intro e _
  simp [Bool.and_comm]

theorem countP_pairs (l : List (Str × Str)) (P : Str → Bool) : l.countP (fun p => P p.1) = (l.map (·.1)).countP P := by
  rw [List.countP_map]; rfl

theorem length_of_members (rs : List (Str × Str)) (P : Str → Bool) (ks : List Str) (hk : ks.Nodup) (hn : (rs.map (·.1)).Nodup)
    (h : ∀ c, c ∈ ks ↔ ∃ r ∈ rs, r.1 = c ∧ P r.2 = true) : ks.length = rs.countP fun r => P r.2 := by
  have : ks.Perm ((rs.filter fun r => P r.2).map (·.1)) := by
    have hm : ((rs.filter fun r => P r.2).map (·.1)).Nodup :=
      ((List.filter_sublist (l := rs) (p := fun r => P r.2)).map (fun r : Str × Str => r.1)).nodup hn
    rw [List.perm_ext_iff_of_nodup hk hm]
    intro c
    rw [h, List.mem_map]
    constructor
    · rintro ⟨r, hr, rfl, hp⟩; exact ⟨r, List.mem_filter.mpr ⟨hr, hp⟩, rfl⟩
    · rintro ⟨r, hr, rfl⟩; exact ⟨r, (List.mem_filter.mp hr).1, rfl, (List.mem_filter.mp hr).2⟩
  rw [this.length_eq, List.length_map, List.countP_eq_length_filter]

theorem setKey_nodup (ks : List Str) (k : Str) (h : ks.Nodup) : (setKey ks k).Nodup := by
  unfold setKey
  split
  · exact h
  · rename_i hk
    rw [List.nodup_append]
    refine ⟨h, by simp, ?_⟩
    intro a ha b hb hab
    rw [List.mem_singleton] at hb
    subst hb; subst hab
    exact hk (.inr ha)

theorem storeLinks_nodup (ls : List (Str × List Str)) (st : LinkState) (h : st.2.Nodup) : (storeLinks ls st).1.2.Nodup := by
  induction ls generalizing st with
  | nil => exact h
  | cons l ls ih =>
    rw [storeLinks]
    split
    · exact ih _ (setKey_nodup _ _ h)
    · exact ih _ h

theorem linkTypeCounts_nodup (rs : List (Str × Str)) (w : Str) (ns : List Nat) (st : LinkState) (h : st.2.Nodup) :
    (linkTypeCounts rs w ns st).1.2.Nodup := by
  induction ns generalizing st with
  | nil => exact h
  | cons n ns ih => exact ih _ (storeLinks_nodup _ _ (storeLinks_nodup _ _ h))

theorem countTypes_nodup (rs : List (Str × Str)) (ws : List Str) (st : LinkState) (h : st.2.Nodup) :
    (countTypes rs ws st).1.2.Nodup := by
  induction ws generalizing st with
  | nil => exact h
  | cons w ws ih => exact ih _ (linkTypeCounts_nodup _ _ _ _ h)

/-- `setKey` for a list of different keys. -/
theorem setKey_length (ks : List Str) (k : Str) (hk : k ≠ []) :
    (setKey ks k).length = ks.length + if k ∈ ks then 0 else 1 := by
  unfold setKey
  by_cases h : k ∈ ks
  · rw [if_pos (.inr h), if_pos h]; rfl
  · rw [if_neg (by rintro (hx | hx); exact hk hx; exact h hx), if_neg h]; simp

theorem manualKeys_length (ks : List Str) :
    (manualKeys ks).length = ks.length + manualLinks.countP fun p => !ks.contains p.1 := by
  unfold manualKeys
  rw [setKey_length _ _ (by decide), setKey_length _ _ (by decide), setKey_length _ _ (by decide), setKey_length _ _ (by decide)]
  simp only [mem_setKey _ _ _ (show (u8!"3D4E" : Str) ≠ [] by decide), mem_setKey _ _ _ (show (u8!"5ECF" : Str) ≠ [] by decide),
    mem_setKey _ _ _ (show (u8!"9D25" : Str) ≠ [] by decide)]
  simp only [show (u8!"5ECF" : Str) = u8!"3D4E" ↔ False by decide, show (u8!"9D25" : Str) = u8!"3D4E" ↔ False by decide,
    show (u8!"9D25" : Str) = u8!"5ECF" ↔ False by decide, show (u8!"6AA8" : Str) = u8!"3D4E" ↔ False by decide,
    show (u8!"6AA8" : Str) = u8!"5ECF" ↔ False by decide, show (u8!"6AA8" : Str) = u8!"9D25" ↔ False by decide]
  simp only [or_false, manualLinks, List.countP_cons, List.countP_nil, List.contains_eq_mem, Bool.not_eq_true',
    decide_eq_false_iff_not]
  have flip : ∀ k : Str, (if k ∉ ks then 1 else 0) = if k ∈ ks then 0 else 1 := by
    intro k; by_cases h : k ∈ ks <;> simp [h]
  simp only [flip]
  omega

/-- The counts of each word and the number of links. -/
theorem C199_counts (first all : List UcdXml) (es fs : List UcdEntry) (h1 : AllRecords first es) (h2 : AllRecords all fs)
    (hn : (fs.map UcdEntry.cp).Nodup) (hq : ∀ e ∈ fs, 0x22 ∉ e.definition) :
    let c := countTypes (definitionRecords all) definitionTypes (searchStart first)
    c.2 = linkWords.map (fun w => (w, [0, 1, 2].map fun n => (foundAt es fs (w, n, false), foundAt es fs (w, n, true)))) ∧
    c.1.2.length = linkedEntries es fs ∧
    (c.2.map fun r => (r.2.map fun c => c.1 + c.2).sum).sum = linkedEntries es fs ∧
    (manualKeys c.1.2).length = linkedEntries es fs + manualOnly es fs := by
  rw [show definitionTypes = linkWords from rfl]
  have hrec := definitionRecords_entries all fs h2
  have hn' : ((definitionRecords all).map (·.1)).Nodup := by
    rw [hrec, List.map_map]
    exact ((List.filter_sublist).map UcdEntry.cp).nodup hn
  have hr : ∀ r ∈ definitionRecords all, r.1 ≠ [] := by
    rw [hrec]
    intro r hr
    obtain ⟨e, he, rfl⟩ := List.mem_map.mp hr
    exact (allRecords_fits all fs h2 e (List.mem_filter.mp he).1).cp.1
  have hq' : ∀ r ∈ definitionRecords all, 0x22 ∉ r.2 := by
    rw [hrec]
    intro r hr
    obtain ⟨e, he, rfl⟩ := List.mem_map.mp hr
    exact hq e (List.mem_filter.mp he).1
  obtain ⟨a1, a2, a3⟩ := countTypes_place (h := fun c => (readingOf es c).isSome) (definitionRecords all) hn' hr hq' linkPlaces
    linkPlaces_nodup linkWords (searchStart first) [] [] (fun w hw => hw)
    ⟨searchStart_keys first es h1, fun c => by simp [searchStart]⟩ (by rw [List.append_nil]; rfl)
  rw [List.nil_append] at a1
  have hmem := a1.mem
  have hany : ∀ d, (linkWords.flatMap fun w => placesOf w [0, 1, 2]).any (hitAt (fun c => (readingOf es c).isSome) d) =
      (firstPlace es d).isSome := by
    intro d
    unfold firstPlace
    rw [List.isSome_find?]
    rfl
  simp only [hany] at hmem
  have hlen : (countTypes (definitionRecords all) linkWords (searchStart first)).1.2.length = linkedEntries es fs := by
    rw [length_of_members (definitionRecords all) (fun d => (firstPlace es d).isSome) _ (countTypes_nodup _ _ _ List.nodup_nil) hn' hmem,
      hrec]
    exact countP_records fs fun d => (firstPlace es d).isSome
  refine ⟨?_, hlen, ?_, ?_⟩
  · refine a2.trans ?_
    apply List.map_congr_left
    intro w _
    have : ∀ p, firstAt (fun c => (readingOf es c).isSome) (definitionRecords all) linkPlaces p = foundAt es fs p := by
      intro p
      unfold firstAt
      rw [hrec]
      exact countP_records fs fun d => linkPlaces.find? (hitAt (fun c => (readingOf es c).isSome) d) == some p
    simp only [this]
  · rw [← hlen]
    rw [show (searchStart first).2.length = 0 from rfl, Nat.zero_add] at a3
    exact a3.symm
  · rw [manualKeys_length, hlen]
    congr 1
    unfold manualOnly
    apply List.countP_congr
    intro p _
    have : (countTypes (definitionRecords all) linkWords (searchStart first)).1.2.contains p.1 =
        fs.any fun e => e.cp == p.1 && e.searched && (firstPlace es e.definition).isSome := by
      rw [Bool.eq_iff_iff, List.contains_iff_mem]
      refine (hmem p.1).trans ?_
      rw [hrec, List.any_eq_true]
      constructor
      · rintro ⟨r, hr, hc, hp⟩
        obtain ⟨e, he, rfl⟩ := List.mem_map.mp hr
        obtain ⟨he1, he2⟩ := List.mem_filter.mp he
        exact ⟨e, he1, by rw [Bool.and_eq_true, Bool.and_eq_true]; exact ⟨⟨beq_iff_eq.mpr hc, he2⟩, hp⟩⟩
      · rintro ⟨e, he, hx⟩
        rw [Bool.and_eq_true, Bool.and_eq_true, beq_iff_eq] at hx
        exact ⟨_, List.mem_map.mpr ⟨e, List.mem_filter.mpr ⟨he, hx.1.2⟩, rfl⟩, hx.1.1, hx.2⟩
    rw [this]

end KT
