import Verif.Lemmas.Map
/-!
# C68, C76 and C77: inserting and finding kanji

Model: `Verif/Model/KanjiData.lean`.
-/
namespace KT

/-- Insert all kanji of a history; each comes with the UCD entry used for the checks. -/
def KanjiStore.insertAll (d : KanjiStore) (hist : List (KanjiRec × Option Ucd)) : KanjiStore :=
  hist.foldl (fun d x => (d.checkInsert x.1 x.2).1) d

/-- The kanji of a list without those that have the name of an earlier one. -/
def firstByName (ks : List KanjiRec) : List KanjiRec :=
  ks.foldl (fun acc k => if acc.all (·.kanji.name != k.kanji.name) then acc ++ [k] else acc) []

/-- What the members hold after the kanji `A` were accepted. -/
structure StoreInv (d : KanjiStore) (A : List KanjiRec) : Prop where
  nameMap : d.nameMap = A.map fun k => (k.kanji.name, k)
  nodup : (A.map (·.kanji.name)).Nodup
  compat : ∀ s, d.compatMap.lookup s =
    (A.find? fun k => k.kanji.variant && k.kanji.compatibilityName == s).map (·.kanji.name)
  grades : ∀ g, d.grades g = A.filter (·.kanji.grade == some g)
  morohashi : ∀ id : MorohashiId, id.id ≠ 0 → listAt d.morohashiMap id = A.filter (·.morohashiId == id)
  nelson : ∀ id, listAt d.nelsonMap id = A.flatMap fun k => List.replicate (k.nelsonIds.count id) k

theorem listAt_foldl {k : KanjiRec} (ids : List UInt16) (m : List (UInt16 × List KanjiRec)) (a : UInt16) :
    listAt (ids.foldl (fun m id => mapPush m id k) m) a = listAt m a ++ List.replicate (ids.count a) k := by
  induction ids generalizing m with
  | nil => simp
  | cons i ids ih =>
    rw [List.foldl_cons, ih, listAt_mapPush, List.count_cons]
    cases h : i == a with
    | true => simp [List.append_assoc, List.replicate_succ]
    | false => simp

theorem any_name_iff (A : List KanjiRec) (s : Str) :
    (A.map fun k => (k.kanji.name, k)).lookup s = A.find? (·.kanji.name == s) := by
  exact (lookup_map_key A (·.kanji.name) (fun x => x) s).trans (by simp)

theorem storeInv_empty : StoreInv {} [] :=
  ⟨rfl, by simp, fun _ => rfl, fun _ => rfl, fun _ _ => rfl, fun _ => rfl⟩

theorem checkInsert_inv (d : KanjiStore) (A : List KanjiRec) (k : KanjiRec) (ucd : Option Ucd) (h : StoreInv d A) :
    StoreInv (d.checkInsert k ucd).1 (if A.all (·.kanji.name != k.kanji.name) then A ++ [k] else A) ∧
    (d.checkInsert k ucd).2 = A.all (·.kanji.name != k.kanji.name) := by
  have hl : d.nameMap.lookup k.kanji.name = A.find? (·.kanji.name == k.kanji.name) := by
    rw [h.nameMap, any_name_iff]
  rcases Bool.eq_false_or_eq_true (A.all (·.kanji.name != k.kanji.name)) with hall | hall
  · -- accepted
    have hnone : d.nameMap.lookup k.kanji.name = none := by
      rw [hl, List.find?_eq_none]
      intro x hx
      have := List.all_eq_true.mp hall x hx
      simpa using this
    have hemp : mapEmplace d.nameMap k.kanji.name k = (d.nameMap ++ [(k.kanji.name, k)], true) := by
      unfold mapEmplace; rw [hnone]; rfl
    rw [hall, if_pos rfl]
    unfold KanjiStore.checkInsert
    rw [hemp]
    refine ⟨⟨?_, ?_, ?_, ?_, ?_, ?_⟩, rfl⟩
    · show d.nameMap ++ _ = _
      rw [h.nameMap]; simp
    · rw [List.map_append, List.nodup_append]
      refine ⟨h.nodup, by simp, ?_⟩
      intro a ha b hb
      obtain ⟨x, hx, rfl⟩ := List.mem_map.mp ha
      simp only [List.map_cons, List.map_nil, List.mem_singleton] at hb
      subst hb
      have := List.all_eq_true.mp hall x hx
      simpa using this
    · intro s
      show ((if k.kanji.variant then mapEmplace d.compatMap k.kanji.compatibilityName k.kanji.name
        else (d.compatMap, true)) : List (Str × Str) × Bool).1.lookup s = _
      rw [List.find?_append]
      cases hv : k.kanji.variant with
      | false =>
        rw [if_neg (by simp), h.compat s]
        simp [hv]
      | true =>
        rw [if_pos rfl, lookup_mapEmplace, h.compat s]
        cases hc : k.kanji.compatibilityName == s with
        | false => simp [hv, hc]
        | true =>
          rw [List.find?_cons_of_pos (by rw [hv, hc]; rfl), if_pos rfl]
          cases A.find? fun k => k.kanji.variant && k.kanji.compatibilityName == s <;> rfl
    · intro g
      show (match k.kanji.grade with
        | some g => enumPush d.grades g k
        | none => d.grades) g = _
      rw [List.filter_append, ← h.grades g]
      cases hg : k.kanji.grade with
      | none => simp [List.filter, hg]
      | some g' =>
        show enumPush d.grades g' k g = _
        unfold enumPush
        by_cases e : g = g'
        · subst e; simp [List.filter, hg]
        · have : (some g' == some g) = false := by simpa using Ne.symm e
          rw [if_neg e]; simp [List.filter, hg, this]
    · intro id hid
      show listAt (if k.morohashiId.id ≠ 0 then mapPush d.morohashiMap k.morohashiId k else d.morohashiMap) id = _
      rw [List.filter_append, ← h.morohashi id hid]
      by_cases e : k.morohashiId = id
      · rw [if_pos (by rw [e]; exact hid), listAt_mapPush]
        simp [List.filter, e]
      · have eb : (k.morohashiId == id) = false := by simpa using e
        have : [k].filter (·.morohashiId == id) = [] := by simp [List.filter, eb]
        rw [this, List.append_nil]
        split
        · rw [listAt_mapPush, eb]; simp
        · rfl
    · intro id
      show listAt (k.nelsonIds.foldl (fun m id => mapPush m id k) d.nelsonMap) id = _
      rw [listAt_foldl, h.nelson id, List.flatMap_append]; simp
  · -- rejected
    have hsome : (d.nameMap.lookup k.kanji.name).isSome := by
      rw [hl, List.find?_isSome]
      obtain ⟨x, hx, hxn⟩ := List.all_eq_false.mp hall
      exact ⟨x, hx, by simpa using hxn⟩
    have hemp : mapEmplace d.nameMap k.kanji.name k = (d.nameMap, false) := by
      unfold mapEmplace; rw [if_pos hsome]
    rw [hall, if_neg (by simp)]
    unfold KanjiStore.checkInsert
    rw [hemp]
    exact ⟨⟨h.nameMap, h.nodup, h.compat, h.grades, h.morohashi, h.nelson⟩, rfl⟩

theorem insertAll_inv (hist : List (KanjiRec × Option Ucd)) :
    StoreInv (KanjiStore.insertAll {} hist) (firstByName (hist.map (·.1))) := by
  have gen : ∀ (hist : List (KanjiRec × Option Ucd)) (d : KanjiStore) (A : List KanjiRec), StoreInv d A →
      StoreInv (KanjiStore.insertAll d hist)
        ((hist.map (·.1)).foldl (fun acc k => if acc.all (·.kanji.name != k.kanji.name) then acc ++ [k] else acc) A) := by
    intro hist
    induction hist with
    | nil => intro d A h; exact h
    | cons x hist ih =>
      intro d A h
      exact ih _ _ (checkInsert_inv d A x.1 x.2 h).1
  exact gen hist {} [] storeInv_empty

/-- What `findByName` gives. -/
theorem findByName_inv {d : KanjiStore} {A : List KanjiRec} (h : StoreInv d A) (s : Str) :
    d.findByName s =
      A.find? (·.kanji.name ==
        ((A.find? fun k => k.kanji.variant && k.kanji.compatibilityName == s).map (·.kanji.name)).getD s) := by
  rw [KanjiStore.findByName, h.compat s, h.nameMap, any_name_iff]

theorem find_name {A : List KanjiRec} (hn : (A.map (·.kanji.name)).Nodup) (k : KanjiRec) (hk : k ∈ A) :
    A.find? (·.kanji.name == k.kanji.name) = some k := by
  induction A with
  | nil => cases hk
  | cons x A ih =>
    simp only [List.map_cons, List.nodup_cons, List.mem_map, not_exists, not_and] at hn
    rcases List.mem_cons.mp hk with h | h
    · rw [h, List.find?_cons_of_pos (by simp)]
    · rw [List.find?_cons_of_neg (by simpa using fun e => hn.1 k h e.symm)]
      exact ih hn.2 h

/-! ## C68: names -/

/-- After any history of insertions every kanji that was accepted is found under its name. -/
def C68_statement : Prop :=
  ∀ (hist : List (KanjiRec × Option Ucd)) (k : KanjiRec), k ∈ firstByName (hist.map (·.1)) →
    (KanjiStore.insertAll {} hist).findByName k.kanji.name = some k

/-- If 侮 (U+FA30) is inserted and later 侮 with a variation selector, of which U+FA30 is the compatibility name, then
looking up U+FA30 gives the second and the first can't be found any more. -/
theorem C68_violated : ¬ C68_statement := by
  intro h
  let k : KanjiRec := ⟨⟨.jinmei, [0xef, 0xa8, 0xb0], none, [], 1, ⟨8, 0⟩, none, 0, none, none, none, false, [], none, [], [], none⟩, {}, []⟩
  let v : KanjiRec := ⟨⟨.jinmei, u8!"侮" ++ [0xef, 0xb8, 0x80], some [0xef, 0xa8, 0xb0], [], 1, ⟨8, 0⟩, none, 0, none,
    none, none, false, [], none, [], [], none⟩, {}, []⟩
  have h1 := h [(k, none), (v, none)] k (by decide +kernel)
  have h2 : (KanjiStore.insertAll {} [(k, none), (v, none)]).findByName k.kanji.name = some v := by decide +kernel
  rw [h2] at h1
  exact absurd h1 (by decide +kernel)

/-- A kanji that was accepted is found under its name unless another accepted kanji with a variation selector has that
name as its compatibility name. -/
theorem C68_name_partial (hist : List (KanjiRec × Option Ucd)) (k : KanjiRec)
    (hk : k ∈ firstByName (hist.map (·.1)))
    (hv : ∀ x ∈ firstByName (hist.map (·.1)), x.kanji.variant = true → x.kanji.compatibilityName = k.kanji.name → x = k) :
    (KanjiStore.insertAll {} hist).findByName k.kanji.name = some k := by
  have hi := insertAll_inv hist
  rw [findByName_inv hi]
  have : ((firstByName (hist.map (·.1))).find? fun x => x.kanji.variant && x.kanji.compatibilityName == k.kanji.name).map
      (·.kanji.name) = none ∨
    ((firstByName (hist.map (·.1))).find? fun x => x.kanji.variant && x.kanji.compatibilityName == k.kanji.name).map
      (·.kanji.name) = some k.kanji.name := by
    cases hf : (firstByName (hist.map (·.1))).find? fun x =>
        x.kanji.variant && x.kanji.compatibilityName == k.kanji.name with
    | none => exact .inl rfl
    | some x =>
      right
      have hp := List.find?_some hf
      simp only [Bool.and_eq_true, beq_iff_eq] at hp
      rw [hv x (List.mem_of_find?_eq_some hf) hp.1 hp.2]; rfl
  rcases this with e | e <;> rw [e] <;> exact find_name hi.nodup k hk

/-- A kanji with a variation selector is also found under its compatibility name, unless another one has the same. -/
theorem C68_compatibility (hist : List (KanjiRec × Option Ucd)) (k : KanjiRec)
    (hk : k ∈ firstByName (hist.map (·.1))) (hkv : k.kanji.variant = true)
    (hv : ∀ x ∈ firstByName (hist.map (·.1)), x.kanji.variant = true →
      x.kanji.compatibilityName = k.kanji.compatibilityName → x = k) :
    (KanjiStore.insertAll {} hist).findByName k.kanji.compatibilityName = some k := by
  have hi := insertAll_inv hist
  rw [findByName_inv hi]
  cases hf : (firstByName (hist.map (·.1))).find? fun x =>
      x.kanji.variant && x.kanji.compatibilityName == k.kanji.compatibilityName with
  | none =>
    have := List.find?_eq_none.mp hf k hk
    simp [hkv] at this
  | some x =>
    have hp := List.find?_some hf
    simp only [Bool.and_eq_true, beq_iff_eq] at hp
    rw [hv x (List.mem_of_find?_eq_some hf) hp.1 hp.2]
    exact find_name hi.nodup k hk

/-- Nothing else is found: a kanji that is found was accepted and has the name, or is a variant with the name as its
compatibility name. -/
theorem C68_only (hist : List (KanjiRec × Option Ucd)) (s : Str) (k : KanjiRec)
    (h : (KanjiStore.insertAll {} hist).findByName s = some k) :
    k ∈ firstByName (hist.map (·.1)) ∧
      (k.kanji.name = s ∨ (k.kanji.variant = true ∧ k.kanji.compatibilityName = s)) := by
  have hi := insertAll_inv hist
  rw [findByName_inv hi] at h
  have hk := List.mem_of_find?_eq_some h
  have hp := List.find?_some h
  simp only [beq_iff_eq] at hp
  refine ⟨hk, ?_⟩
  cases hf : (firstByName (hist.map (·.1))).find? fun x => x.kanji.variant && x.kanji.compatibilityName == s with
  | none => rw [hf] at hp; exact .inl hp
  | some x =>
    rw [hf] at hp
    have hx := List.find?_some hf
    simp only [Bool.and_eq_true, beq_iff_eq] at hx
    have hxm := List.mem_of_find?_eq_some hf
    have e : x = k := by
      have e1 := find_name hi.nodup x hxm
      have e2 := find_name hi.nodup k hk
      have e3 : k.kanji.name = x.kanji.name := hp
      rw [e3, e1] at e2
      exact Option.some.inj e2
    right; rw [← e]; exact hx

/-- An insertion fails exactly if there is a kanji with the name; then an error is printed and nothing else changes. -/
theorem C68_duplicate (hist : List (KanjiRec × Option Ucd)) (k : KanjiRec) (ucd : Option Ucd) :
    ((KanjiStore.insertAll {} hist).checkInsert k ucd).2 =
      (firstByName (hist.map (·.1))).all (·.kanji.name != k.kanji.name) ∧
    (((KanjiStore.insertAll {} hist).checkInsert k ucd).2 = false →
      ((KanjiStore.insertAll {} hist).checkInsert k ucd).1 =
        { KanjiStore.insertAll {} hist with errors := (KanjiStore.insertAll {} hist).errors + 1 }) := by
  refine ⟨(checkInsert_inv _ _ k ucd (insertAll_inv hist)).2, ?_⟩
  unfold KanjiStore.checkInsert
  rcases hm : mapEmplace (KanjiStore.insertAll {} hist).nameMap k.kanji.name k with ⟨m, _ | _⟩
  · intro _; rfl
  · intro h; cases h

/-! ## C76: ids and grades -/

/-- The kanji found by an id or a grade are the accepted ones with it, in the order of insertion (a kanji that has a
Nelson id twice is given twice). -/
theorem C76_lookup (hist : List (KanjiRec × Option Ucd)) :
    (∀ id, (KanjiStore.insertAll {} hist).findByMorohashiId id =
      if id.id = 0 then [] else (firstByName (hist.map (·.1))).filter (·.morohashiId == id)) ∧
    (∀ id, (KanjiStore.insertAll {} hist).findByNelsonId id =
      (firstByName (hist.map (·.1))).flatMap fun k => List.replicate (k.nelsonIds.count id) k) ∧
    (∀ g, (KanjiStore.insertAll {} hist).grades g = (firstByName (hist.map (·.1))).filter (·.kanji.grade == some g)) := by
  have hi := insertAll_inv hist
  refine ⟨fun id => ?_, hi.nelson, hi.grades⟩
  unfold KanjiStore.findByMorohashiId
  by_cases h : id.id = 0
  · rw [if_pos h, if_neg (by simpa using h)]
  · rw [if_neg h, if_pos h]; exact hi.morohashi id h

/-- With different Nelson ids in every kanji each kanji is given once. -/
theorem C76_nelson (hist : List (KanjiRec × Option Ucd)) (h : ∀ x ∈ hist, x.1.nelsonIds.Nodup) (id : UInt16) :
    (KanjiStore.insertAll {} hist).findByNelsonId id =
      (firstByName (hist.map (·.1))).filter (·.nelsonIds.contains id) := by
  rw [(C76_lookup hist).2.1]
  have hmem : ∀ k ∈ firstByName (hist.map (·.1)), k ∈ hist.map (·.1) := by
    have gen : ∀ (l A : List KanjiRec) (k : KanjiRec), k ∈ l.foldl (fun acc k =>
        if acc.all (·.kanji.name != k.kanji.name) then acc ++ [k] else acc) A → k ∈ A ∨ k ∈ l := by
      intro l
      induction l with
      | nil => intro A k h; exact .inl h
      | cons x l ih =>
        intro A k h
        rcases ih _ k h with g | g
        · dsimp only at g
          split at g
          · rcases List.mem_append.mp g with g | g
            · exact .inl g
            · right; simp at g; simp [g]
          · exact .inl g
        · exact .inr (List.mem_cons_of_mem _ g)
    intro k hk
    rcases gen _ _ k hk with g | g
    · cases g
    · exact g
  have hnd : ∀ k ∈ firstByName (hist.map (·.1)), k.nelsonIds.Nodup := by
    intro k hk
    obtain ⟨x, hx, rfl⟩ := List.mem_map.mp (hmem k hk)
    exact h x hx
  clear h hmem
  revert hnd
  generalize firstByName (hist.map (·.1)) = A
  intro hnd
  induction A with
  | nil => rfl
  | cons k A ih =>
    have h1 := hnd k (by simp)
    rw [List.flatMap_cons, ih fun x hx => hnd x (List.mem_cons_of_mem _ hx)]
    by_cases hc : id ∈ k.nelsonIds
    · rw [List.filter_cons_of_pos (by simpa using hc), h1.count, if_pos hc]; rfl
    · rw [List.filter_cons_of_neg (by simpa using hc), List.count_eq_zero.mpr hc]; rfl

/-! ## C77: processing lists -/

theorem filter_sublist {α : Type} {p q : α → Bool} (l : List α) (h : ∀ x, p x = true → q x = true) :
    (l.filter p).Sublist (l.filter q) := by
  induction l with
  | nil => exact List.Sublist.slnil
  | cons x l ih =>
    cases hp : p x with
    | true => rw [List.filter_cons_of_pos hp, List.filter_cons_of_pos (h x hp)]; exact ih.cons_cons x
    | false =>
      rw [List.filter_cons_of_neg (by simp [hp])]
      cases hq : q x with
      | true => rw [List.filter_cons_of_pos hq]; exact ih.cons x
      | false => rw [List.filter_cons_of_neg (by simp [hq])]; exact ih

theorem findByName_isSome {d : KanjiStore} {A : List KanjiRec} (h : StoreInv d A) (s : Str) :
    (d.findByName s).isSome ↔
      ∃ k ∈ A, k.kanji.name = s ∨ (k.kanji.variant = true ∧ k.kanji.compatibilityName = s) := by
  rw [findByName_inv h]
  cases hf : A.find? fun x => x.kanji.variant && x.kanji.compatibilityName == s with
  | none =>
    simp only [Option.map_none, Option.getD_none, List.find?_isSome, beq_iff_eq]
    constructor
    · rintro ⟨k, hk, e⟩; exact ⟨k, hk, .inl e⟩
    · rintro ⟨k, hk, e | e⟩
      · exact ⟨k, hk, e⟩
      · have := List.find?_eq_none.mp hf k hk
        simp [e.1, e.2] at this
  | some x =>
    have hx := List.find?_some hf
    simp only [Bool.and_eq_true, beq_iff_eq] at hx
    have hxm := List.mem_of_find?_eq_some hf
    simp only [Option.map_some, Option.getD_some, find_name h.nodup x hxm, Option.isSome_some, true_iff]
    exact ⟨x, hxm, .inr hx⟩

theorem findByName_some {d : KanjiStore} {A : List KanjiRec} (h : StoreInv d A) (s : Str) (k : KanjiRec)
    (hk : d.findByName s = some k) :
    k ∈ A ∧ (k.kanji.name = s ∨ (k.kanji.variant = true ∧ k.kanji.compatibilityName = s)) := by
  rw [findByName_inv h] at hk
  have hm := List.mem_of_find?_eq_some hk
  have hp := List.find?_some hk
  simp only [beq_iff_eq] at hp
  refine ⟨hm, ?_⟩
  cases hf : A.find? fun x => x.kanji.variant && x.kanji.compatibilityName == s with
  | none => rw [hf] at hp; exact .inl hp
  | some x =>
    rw [hf] at hp
    have hx := List.find?_some hf
    simp only [Bool.and_eq_true, beq_iff_eq] at hx
    have e1 := find_name h.nodup x (List.mem_of_find?_eq_some hf)
    have e2 := find_name h.nodup k hm
    have e3 : k.kanji.name = x.kanji.name := hp
    rw [e3, e1] at e2
    right; rw [← Option.some.inj e2]; exact hx

/-- A kanji whose name was not found is accepted. -/
theorem insert_new {d : KanjiStore} {A : List KanjiRec} (h : StoreInv d A) (k : KanjiRec) (t : KanjiType)
    (ucd : Option Ucd) (hn : d.findByName k.kanji.name = none) :
    StoreInv (d.checkInsertType t k ucd).1 (A ++ [k]) ∧ (d.checkInsertType t k ucd).2 = true ∧
    (d.checkInsertType t k ucd).1.types = enumPush d.types t k ∧
    (d.checkInsertType t k ucd).1.levels = d.levels ∧ (d.checkInsertType t k ucd).1.kyus = d.kyus ∧
    (d.checkInsertType t k ucd).1.frequencies = d.frequencies := by
  have hall : A.all (·.kanji.name != k.kanji.name) = true := by
    rw [List.all_eq_true]
    intro x hx
    have : ¬ (d.findByName k.kanji.name).isSome := by rw [hn]; simp
    rw [findByName_isSome h] at this
    simp only [bne_iff_ne, ne_eq]
    intro e
    exact this ⟨x, hx, .inl e⟩
  have hi := checkInsert_inv d A k ucd h
  rw [hall, if_pos rfl] at hi
  have hfields : (d.checkInsert k ucd).1.types = d.types ∧ (d.checkInsert k ucd).1.levels = d.levels ∧
      (d.checkInsert k ucd).1.kyus = d.kyus ∧ (d.checkInsert k ucd).1.frequencies = d.frequencies := by
    unfold KanjiStore.checkInsert
    rcases mapEmplace d.nameMap k.kanji.name k with ⟨m, _ | _⟩ <;> exact ⟨rfl, rfl, rfl, rfl⟩
  unfold KanjiStore.checkInsertType
  rcases hc : d.checkInsert k ucd with ⟨d1, b⟩
  rw [hc] at hi hfields
  obtain ⟨hi1, hi2⟩ := hi
  simp only at hi1 hi2 hfields
  subst hi2
  exact ⟨⟨hi1.nameMap, hi1.nodup, hi1.compat, hi1.grades, hi1.morohashi, hi1.nelson⟩, rfl,
    by show enumPush d1.types t k = _; rw [hfields.1], hfields.2.1, hfields.2.2.1, hfields.2.2.2⟩

theorem makeOther_name (c : KanjiCtx) (t : KanjiType) (name : Str) (u : Option Ucd) (q : Option KenteiKyu) (n : UInt16)
    (k : Kanji) (h : Kanji.makeOther c t name u q n = .ok k) :
    k.name = name ∧ k.type = t ∧ k.kyu = q ∧ k.frequency = n ∧ k.level = none := by
  unfold Kanji.makeOther at h
  cases u with
  | none => cases h
  | some u =>
    simp only [Res.bind] at h
    cases hr : c.ucdRadical u with
    | ok r =>
      rw [hr] at h
      simp only [Kanji.construct, checkName] at h
      by_cases hn : utf8Size name = some 1
      · rw [if_pos hn] at h; cases h; exact ⟨rfl, rfl, rfl, rfl, rfl⟩
      · rw [if_neg hn] at h; cases h
    | throw e => rw [hr] at h; cases h
    | ub => rw [hr] at h; cases h

/-- After the kanji of the Unicode file were added (`processUcd`), every entry of that file is found; only kanji for
entries that were not found before were made, none of them in vain, and all of them are in the list of the type. -/
theorem C77_ucd (c : KanjiCtx) (ic : IdCtx) (ucds : List Ucd) (d d' : KanjiStore) (A : List KanjiRec)
    (h : StoreInv d A) (hd : KanjiStore.processUcd c ic ucds d = .ok d') :
    (∀ u ∈ ucds, (d'.findByName u.name).isSome) ∧
    ∃ new : List KanjiRec, StoreInv d' (A ++ new) ∧
      (new.map (·.kanji.name)).Sublist ((ucds.map (·.name)).filter fun n => (d.findByName n).isNone) ∧
      (∀ k ∈ new, k.kanji.type = .ucd) ∧
      ∀ t, d'.types t = d.types t ++ if t = .ucd then new else [] := by
  induction ucds generalizing d A with
  | nil =>
    rw [KanjiStore.processUcd] at hd
    cases hd
    exact ⟨by simp, [], by simpa using h, by simp, by simp, by simp⟩
  | cons u us ih =>
    rw [KanjiStore.processUcd] at hd
    cases hf : d.findByName u.name with
    | some k =>
      rw [hf] at hd
      obtain ⟨i1, new, i2, i3, i4, i5⟩ := ih d A h hd
      refine ⟨?_, new, i2, ?_, i4, i5⟩
      · intro x hx
        rcases List.mem_cons.mp hx with rfl | hx
        · have : (d.findByName x.name).isSome := by rw [hf]; rfl
          rw [findByName_isSome h] at this
          obtain ⟨k, hk, e⟩ := this
          exact (findByName_isSome i2 x.name).mpr ⟨k, List.mem_append_left _ hk, e⟩
        · exact i1 x hx
      · rw [List.map_cons, List.filter_cons_of_neg (by rw [hf]; simp)]; exact i3
    | none =>
      rw [hf] at hd
      simp only [Res.bind] at hd
      cases hm : Kanji.makeUcd c u with
      | throw e => rw [hm] at hd; cases hd
      | ub => rw [hm] at hd; cases hd
      | ok k =>
        rw [hm] at hd
        simp only at hd
        obtain ⟨n1, n2, _⟩ := makeOther_name c .ucd u.name (some u) none 0 k hm
        have hin := insert_new h (ic.record (some u) k) .ucd (c.findUcd k.name) (by
          show d.findByName k.name = none
          rw [n1]; exact hf)
        obtain ⟨i1, new, i2, i3, i4, i5⟩ := ih _ _ hin.1 hd
        refine ⟨?_, ic.record (some u) k :: new, by simpa using i2, ?_, ?_, ?_⟩
        · intro x hx
          rcases List.mem_cons.mp hx with rfl | hx
          · exact (findByName_isSome i2 x.name).mpr ⟨ic.record (some x) k, by simp, .inl n1⟩
          · exact i1 x hx
        · rw [List.map_cons, List.map_cons, List.filter_cons_of_pos (by rw [hf]; rfl)]
          show (k.name :: _).Sublist _
          rw [n1]
          refine List.Sublist.cons_cons _ (i3.trans ?_)
          refine filter_sublist _ fun s hs => ?_
          simp only [Option.isNone_iff_eq_none] at hs ⊢
          cases hds : d.findByName s with
          | none => rfl
          | some y =>
            have : (d.findByName s).isSome := by rw [hds]; rfl
            rw [findByName_isSome h] at this
            obtain ⟨z, hz, e⟩ := this
            have := (findByName_isSome hin.1 s).mpr ⟨z, List.mem_append_left _ hz, e⟩
            rw [hs] at this; cases this
        · intro x hx
          rcases List.mem_cons.mp hx with rfl | hx
          · exact n2
          · exact i4 x hx
        · intro t
          rw [i5 t, hin.2.2.1]
          unfold enumPush
          by_cases ht : t = .ucd
          · simp [ht]
          · simp [ht]

/-- Adding kanji to the frequencies one after the other. -/
def FreqData.addAll (f : FreqData KanjiRec) : List KanjiRec → Res (FreqData KanjiRec)
  | [] => .ok f
  | k :: ks => (f.add k k.kanji.frequency.toNat).bind fun f => f.addAll ks

/-- What `processList` did with the kanji `ks` of the entries. -/
def listsDone (kind : ListKind) (ks : List KanjiRec) (d d' : KanjiStore) : Prop :=
  match kind with
  | .kyu _ => (∀ k ∈ ks, k.kanji.kyu.isSome) ∧ (∀ q, d'.kyus q = d.kyus q ++ ks.filter (·.kanji.kyu == some q)) ∧
      d'.levels = d.levels ∧ d'.frequencies = d.frequencies
  | .level _ => (∀ k ∈ ks, k.kanji.level.isSome) ∧
      (∀ l, d'.levels l = d.levels l ++ ks.filter (·.kanji.level == some l)) ∧
      d'.kyus = d.kyus ∧ d'.frequencies = d.frequencies
  | .frequency => d.frequencies.addAll ks = .ok d'.frequencies ∧ d'.kyus = d.kyus ∧ d'.levels = d.levels

theorem addToList_spec (kind : ListKind) (d d' : KanjiStore) (k : KanjiRec) (A : List KanjiRec) (h : StoreInv d A)
    (hd : d.addToList kind k = .ok d') :
    StoreInv d' A ∧ d'.types = d.types ∧ listsDone kind [k] d d' := by
  unfold KanjiStore.addToList at hd
  cases kind with
  | kyu q =>
    simp only [KanjiStore.addToKyus] at hd
    cases hk : k.kanji.kyu with
    | none => rw [hk] at hd; cases hd
    | some q' =>
      rw [hk] at hd; cases hd
      refine ⟨⟨h.nameMap, h.nodup, h.compat, h.grades, h.morohashi, h.nelson⟩, rfl, by simp [hk], fun x => ?_, rfl, rfl⟩
      show enumPush d.kyus q' k x = _
      unfold enumPush
      by_cases e : x = q'
      · subst e; simp [List.filter, hk]
      · have : (some q' == some x) = false := by simpa using Ne.symm e
        rw [if_neg e]; simp [List.filter, hk, this]
  | level l =>
    simp only [KanjiStore.addToLevels] at hd
    cases hk : k.kanji.level with
    | none => rw [hk] at hd; cases hd
    | some q' =>
      rw [hk] at hd; cases hd
      refine ⟨⟨h.nameMap, h.nodup, h.compat, h.grades, h.morohashi, h.nelson⟩, rfl, by simp [hk], fun x => ?_, rfl, rfl⟩
      show enumPush d.levels q' k x = _
      unfold enumPush
      by_cases e : x = q'
      · subst e; simp [List.filter, hk]
      · have : (some q' == some x) = false := by simpa using Ne.symm e
        rw [if_neg e]; simp [List.filter, hk, this]
  | frequency =>
    simp only [KanjiStore.addToFrequencies, Res.bind] at hd
    cases hf : d.frequencies.add k k.kanji.frequency.toNat with
    | throw e => rw [hf] at hd; cases hd
    | ub => rw [hf] at hd; cases hd
    | ok f =>
      rw [hf] at hd; cases hd
      refine ⟨⟨h.nameMap, h.nodup, h.compat, h.grades, h.morohashi, h.nelson⟩, rfl, ?_, rfl, rfl⟩
      simp only [FreqData.addAll, hf, Res.bind]

theorem listsDone_trans (kind : ListKind) (k : KanjiRec) (ks : List KanjiRec) (d d1 d' : KanjiStore)
    (h1 : listsDone kind [k] d d1) (h2 : listsDone kind ks d1 d') : listsDone kind (k :: ks) d d' := by
  cases kind with
  | kyu q =>
    obtain ⟨a1, a2, a3, a4⟩ := h1
    obtain ⟨b1, b2, b3, b4⟩ := h2
    refine ⟨?_, fun x => ?_, b3.trans a3, b4.trans a4⟩
    · intro x hx
      rcases List.mem_cons.mp hx with rfl | hx
      · exact a1 x (by simp)
      · exact b1 x hx
    · rw [b2, a2, List.append_assoc, ← List.filter_append]; rfl
  | level q =>
    obtain ⟨a1, a2, a3, a4⟩ := h1
    obtain ⟨b1, b2, b3, b4⟩ := h2
    refine ⟨?_, fun x => ?_, b3.trans a3, b4.trans a4⟩
    · intro x hx
      rcases List.mem_cons.mp hx with rfl | hx
      · exact a1 x (by simp)
      · exact b1 x hx
    · rw [b2, a2, List.append_assoc, ← List.filter_append]; rfl
  | frequency =>
    obtain ⟨a1, a2, a3⟩ := h1
    obtain ⟨b1, b2, b3⟩ := h2
    refine ⟨?_, b2.trans a2, b3.trans a3⟩
    simp only [FreqData.addAll, Res.bind] at a1 ⊢
    cases hf : d.frequencies.add k k.kanji.frequency.toNat with
    | throw e => rw [hf] at a1; cases a1
    | ub => rw [hf] at a1; cases a1
    | ok f =>
      rw [hf] at a1
      simp only at a1
      cases a1
      exact b1

theorem newListKanji_name (c : KanjiCtx) (ic : IdCtx) (kind : ListKind) (i : Nat) (name : Str) (k : KanjiRec)
    (h : newListKanji c ic kind i name = .ok k) : k.kanji.name = name ∧ k.kanji.type = kind.newType := by
  cases kind with
  | kyu q =>
    simp only [newListKanji, Res.bind] at h
    cases hm : Kanji.makeKentei c name (some q) with
    | throw e => rw [hm] at h; cases h
    | ub => rw [hm] at h; cases h
    | ok x =>
      rw [hm] at h; cases h
      have := makeOther_name c .kentei name _ _ _ x hm
      exact ⟨this.1, this.2.1⟩
  | level l =>
    simp only [newListKanji, Res.bind] at h
    cases hm : Kanji.makeFrequency c name (UInt16.ofNat (i + 1)) with
    | throw e => rw [hm] at h; cases h
    | ub => rw [hm] at h; cases h
    | ok x =>
      rw [hm] at h; cases h
      have := makeOther_name _ .frequency name _ _ _ x hm
      exact ⟨this.1, this.2.1⟩
  | frequency =>
    simp only [newListKanji, Res.bind] at h
    cases hm : Kanji.makeFrequency c name (UInt16.ofNat (i + 1)) with
    | throw e => rw [hm] at h; cases h
    | ub => rw [hm] at h; cases h
    | ok x =>
      rw [hm] at h; cases h
      have := makeOther_name _ .frequency name _ _ _ x hm
      exact ⟨this.1, this.2.1⟩

/-- A kanji can be given for an entry of a list. -/
def Matches (name : Str) (k : KanjiRec) : Prop :=
  k.kanji.name = name ∨ (k.kanji.variant = true ∧ k.kanji.compatibilityName = name)

/-- After a list was processed successfully every entry is found; kanji were only made for entries that were not found
before, none of them in vain; and one kanji per entry, in the order of the list, was put into the lists (of the level,
kyu or frequency of that kanji). -/
theorem C77_list (c : KanjiCtx) (ic : IdCtx) (kind : ListKind) (i : Nat) (names : List Str) (d d' : KanjiStore)
    (A : List KanjiRec) (h : StoreInv d A) (hd : KanjiStore.processList c ic kind i names d = .ok d') :
    (∀ n ∈ names, (d'.findByName n).isSome) ∧
    ∃ new ks : List KanjiRec, StoreInv d' (A ++ new) ∧
      (new.map (·.kanji.name)).Sublist (names.filter fun n => (d.findByName n).isNone) ∧
      (∀ k ∈ new, k.kanji.type = kind.newType) ∧
      (∀ t, d'.types t = d.types t ++ if t = kind.newType then new else []) ∧
      ks.length = names.length ∧ (∀ (j : Nat) n k, names[j]? = some n → ks[j]? = some k → k ∈ A ++ new ∧ Matches n k) ∧
      listsDone kind ks d d' := by
  induction names generalizing i d A with
  | nil =>
    rw [KanjiStore.processList] at hd
    cases hd
    refine ⟨by simp, [], [], by simpa using h, by simp, by simp, by simp, rfl, by simp, ?_⟩
    cases kind <;> simp [listsDone, FreqData.addAll]
  | cons name names ih =>
    rw [KanjiStore.processList] at hd
    cases hf : d.findByName name with
    | some k =>
      rw [hf] at hd
      simp only [Res.bind] at hd
      cases ha : d.addToList kind k with
      | throw e => rw [ha] at hd; cases hd
      | ub => rw [ha] at hd; cases hd
      | ok d1 =>
        rw [ha] at hd
        simp only at hd
        obtain ⟨s1, s2, s3⟩ := addToList_spec kind d d1 k A h ha
        obtain ⟨i1, new, ks, i2, i3, i4, i5, i6, i7, i8⟩ := ih (i + 1) d1 A s1 hd
        have hsame : ∀ n, (d1.findByName n).isSome = (d.findByName n).isSome := by
          intro n
          rw [Bool.eq_iff_iff, findByName_isSome s1, findByName_isSome h]
        refine ⟨?_, new, k :: ks, i2, ?_, i4, ?_, by simp [i6], ?_, listsDone_trans kind k ks d d1 d' s3 i8⟩
        · intro n hn
          rcases List.mem_cons.mp hn with rfl | hn
          · have : (d.findByName n).isSome := by rw [hf]; rfl
            rw [findByName_isSome h] at this
            obtain ⟨k, hk, e⟩ := this
            exact (findByName_isSome i2 n).mpr ⟨k, List.mem_append_left _ hk, e⟩
          · exact i1 n hn
        · rw [List.filter_cons_of_neg (by rw [hf]; simp)]
          refine i3.trans (filter_sublist _ fun n hn => ?_)
          have := hsame n
          rw [Option.isNone_iff_eq_none] at hn ⊢
          rw [hn] at this
          exact Option.not_isSome_iff_eq_none.mp (by rw [← this]; simp)
        · intro t; rw [i5 t, s2]
        · intro j n x hn hx
          cases j with
          | zero =>
            simp only [List.getElem?_cons_zero, Option.some.injEq] at hn hx
            subst hn; subst hx
            have := findByName_some h name k hf
            exact ⟨List.mem_append_left _ this.1, this.2⟩
          | succ j => exact i7 j n x (by simpa using hn) (by simpa using hx)
    | none =>
      rw [hf] at hd
      simp only [Res.bind] at hd
      cases hm : newListKanji c ic kind i name with
      | throw e => rw [hm] at hd; cases hd
      | ub => rw [hm] at hd; cases hd
      | ok k =>
        rw [hm] at hd
        simp only at hd
        obtain ⟨n1, n2⟩ := newListKanji_name c ic kind i name k hm
        have hin := insert_new h k kind.newType (c.findUcd k.kanji.name) (by rw [n1]; exact hf)
        cases ha : (d.checkInsertType kind.newType k (c.findUcd k.kanji.name)).1.addToList kind k with
        | throw e => rw [ha] at hd; cases hd
        | ub => rw [ha] at hd; cases hd
        | ok d1 =>
          rw [ha] at hd
          simp only at hd
          obtain ⟨s1, s2, s3⟩ := addToList_spec kind _ d1 k _ hin.1 ha
          obtain ⟨i1, new, ks, i2, i3, i4, i5, i6, i7, i8⟩ := ih (i + 1) d1 _ s1 hd
          have s3' : listsDone kind [k] d d1 := by
            obtain ⟨_, _, _, g1, g2, g3⟩ := hin
            unfold listsDone at s3 ⊢
            rw [g1, g2, g3] at s3
            exact s3
          refine ⟨?_, k :: new, k :: ks, by simpa using i2, ?_, ?_, ?_, by simp [i6], ?_,
            listsDone_trans kind k ks d d1 d' s3' i8⟩
          · intro n hn
            rcases List.mem_cons.mp hn with rfl | hn
            · exact (findByName_isSome i2 n).mpr ⟨k, by simp, .inl n1⟩
            · exact i1 n hn
          · rw [List.map_cons, List.filter_cons_of_pos (by rw [hf]; rfl), n1]
            refine List.Sublist.cons_cons _ (i3.trans (filter_sublist _ fun n hn => ?_))
            rw [Option.isNone_iff_eq_none] at hn ⊢
            cases hds : d.findByName n with
            | none => rfl
            | some y =>
              have : (d.findByName n).isSome := by rw [hds]; rfl
              rw [findByName_isSome h] at this
              obtain ⟨z, hz, e⟩ := this
              have := (findByName_isSome s1 n).mpr ⟨z, List.mem_append_left _ hz, e⟩
              rw [hn] at this; cases this
          · intro x hx
            rcases List.mem_cons.mp hx with rfl | hx
            · exact n2
            · exact i4 x hx
          · intro t
            rw [i5 t, s2, hin.2.2.1]
            unfold enumPush
            by_cases ht : t = kind.newType <;> simp [ht]
          · intro j n x hn hx
            cases j with
            | zero =>
              simp only [List.getElem?_cons_zero, Option.some.injEq] at hn hx
              subst hn; subst hx
              exact ⟨by simp, .inl n1⟩
            | succ j =>
              have := i7 j n x (by simpa using hn) (by simpa using hx)
              exact ⟨by simpa using this.1, this.2⟩

/-- A context with an entry for every name. -/
def sampleCtx : KanjiCtx :=
  ⟨fun s => some ⟨s, 0, .none, [], ⟨7, 0⟩⟩, fun _ => 0, fun _ => none, fun _ => some .k2, fun _ => .ok (u8!"一", 1),
    fun _ => .ok (u8!"一", 1), fun _ => none, fun _ => [], fun _ => [], fun _ => none⟩

example : (match KanjiStore.processList sampleCtx ⟨fun _ => {}, fun _ => [3]⟩ (.kyu .k2) 0 [u8!"亜", u8!"哀", u8!"亜"] {} with
    | .ok d => (d.kyus .k2).map (·.kanji.name) ++ (d.findByNelsonId 3).map (·.kanji.name)
    | _ => []) = [u8!"亜", u8!"哀", u8!"亜", u8!"亜", u8!"哀"] := by decide +kernel

end KT
