import Verif.Props.KanjiData
/-!
# C68: errors reported while kanji are inserted

Model: `Verif/Model/KanjiData.lean` (`checkInsert`, `sanityErrors`).
-/
namespace KT

/-- A kanji that isn't in the Unicode file or has a type that contradicts its entry there. -/
def Contradicts (k : Kanji) (ucd : Option Ucd) : Prop :=
  ∀ u, ucd = some u →
    k.type = .jouyou ∧ u.isJoyo = false ∨ k.type = .jinmei ∧ u.isJinmei = false ∨
    k.type = .linkedJinmei ∧ (u.isJinmei = false ∨ u.hasLinks = false)

instance (k : Kanji) (ucd : Option Ucd) : Decidable (Contradicts k ucd) :=
  match ucd with
  | none => isTrue (by intro u h; cases h)
  | some u => decidable_of_iff (k.type = .jouyou ∧ u.isJoyo = false ∨ k.type = .jinmei ∧ u.isJinmei = false ∨
      k.type = .linkedJinmei ∧ (u.isJinmei = false ∨ u.hasLinks = false))
      ⟨fun h v e => by cases e; exact h, fun h => h u rfl⟩

/-- Errors for a kanji when `A` were accepted before: one if it has the name of one of them, otherwise
one if it contradicts its Unicode entry and one if another kanji has the same compatibility name. -/
def reportsFor (A : List KanjiRec) (k : KanjiRec) (ucd : Option Ucd) : Nat :=
  if ∃ x ∈ A, x.kanji.name = k.kanji.name then 1
  else (if Contradicts k.kanji ucd then 1 else 0) +
    if k.kanji.variant = true ∧ ∃ x ∈ A, x.kanji.variant = true ∧ x.kanji.compatibilityName = k.kanji.compatibilityName
    then 1 else 0

theorem sanityErrors_eq (k : Kanji) (ucd : Option Ucd) : sanityErrors k ucd = if Contradicts k ucd then 1 else 0 := by
  cases ucd with
  | none => rw [if_pos (by intro u h; cases h)]; rfl
  | some u =>
    have : Contradicts k (some u) ↔ (k.type = .jouyou ∧ u.isJoyo = false ∨ k.type = .jinmei ∧ u.isJinmei = false ∨
      k.type = .linkedJinmei ∧ (u.isJinmei = false ∨ u.hasLinks = false)) :=
      ⟨fun h => h u rfl, fun h v e => by cases e; exact h⟩
    simp only [this, sanityErrors]
    cases k.type <;> cases u.isJoyo <;> cases u.isJinmei <;> cases u.hasLinks <;> simp

/-- Every insertion reports exactly these errors. -/
theorem C68_errors (hist : List (KanjiRec × Option Ucd)) (k : KanjiRec) (ucd : Option Ucd) :
    ((KanjiStore.insertAll {} hist).checkInsert k ucd).1.errors =
      (KanjiStore.insertAll {} hist).errors + reportsFor (firstByName (hist.map (·.1))) k ucd := by
  have hi := insertAll_inv hist
  generalize firstByName (hist.map (·.1)) = A at hi
  generalize KanjiStore.insertAll {} hist = d at hi
  have h2 := (checkInsert_inv d A k ucd hi).2
  have hl : d.nameMap.lookup k.kanji.name = A.find? (·.kanji.name == k.kanji.name) := by
    rw [hi.nameMap, any_name_iff]
  unfold reportsFor
  by_cases hd : ∃ x ∈ A, x.kanji.name = k.kanji.name
  · rw [if_pos hd]
    have : mapEmplace d.nameMap k.kanji.name k = (d.nameMap, false) := by
      unfold mapEmplace
      rw [if_pos]
      rw [hl, List.find?_isSome]
      obtain ⟨x, hx, hn⟩ := hd
      exact ⟨x, hx, by simpa using hn⟩
    unfold KanjiStore.checkInsert
    rw [this]
  · rw [if_neg hd]
    have : mapEmplace d.nameMap k.kanji.name k = (d.nameMap ++ [(k.kanji.name, k)], true) := by
      unfold mapEmplace
      rw [if_neg]
      rw [hl, List.find?_isSome]
      rintro ⟨x, hx, hn⟩
      exact hd ⟨x, hx, by simpa using hn⟩
    unfold KanjiStore.checkInsert
    rw [this]
    simp only [sanityErrors_eq]
    by_cases hv : k.kanji.variant = true
    · simp only [hv, if_true, true_and]
      by_cases hc : ∃ x ∈ A, x.kanji.variant = true ∧ x.kanji.compatibilityName = k.kanji.compatibilityName
      · rw [if_pos hc]
        have : mapEmplace d.compatMap k.kanji.compatibilityName k.kanji.name = (d.compatMap, false) := by
          unfold mapEmplace
          rw [if_pos]
          rw [hi.compat, Option.isSome_map, List.find?_isSome]
          obtain ⟨x, hx, h3, h4⟩ := hc
          exact ⟨x, hx, by simp [h3, h4]⟩
        rw [this]
        simp only [Bool.false_eq_true, if_false]
        omega
      · rw [if_neg hc]
        have : (mapEmplace d.compatMap k.kanji.compatibilityName k.kanji.name).2 = true := by
          unfold mapEmplace
          rw [if_neg]
          rw [hi.compat, Option.isSome_map, List.find?_isSome]
          rintro ⟨x, hx, h3⟩
          exact hc ⟨x, hx, by simpa using h3⟩
        rw [this]
        simp
    · simp [hv]

theorem insertAll_snoc (d : KanjiStore) (hist : List (KanjiRec × Option Ucd)) (x : KanjiRec × Option Ucd) :
    KanjiStore.insertAll d (hist ++ [x]) = ((KanjiStore.insertAll d hist).checkInsert x.1 x.2).1 := by
  simp [KanjiStore.insertAll, List.foldl_append]

/-- The number of errors reported for a history, from its parts. -/
theorem C68_all_errors (hist : List (KanjiRec × Option Ucd)) :
    (KanjiStore.insertAll {} hist).errors =
      ((List.range hist.length).map fun i => match hist[i]? with
        | some x => reportsFor (firstByName ((hist.take i).map (·.1))) x.1 x.2
        | none => 0).sum := by
  have gen : ∀ n, n ≤ hist.length → (KanjiStore.insertAll {} (hist.take n)).errors =
      ((List.range n).map fun i => match hist[i]? with
        | some x => reportsFor (firstByName ((hist.take i).map (·.1))) x.1 x.2
        | none => 0).sum := by
    intro n
    induction n with
    | zero => intro _; rfl
    | succ n ih =>
      intro hn
      have hx : hist[n]? = some hist[n] := List.getElem?_eq_getElem (by omega)
      rw [List.take_add_one, hx, Option.toList_some, insertAll_snoc, C68_errors, ih (by omega), List.range_succ]
      simp [hx]
  have := gen hist.length (Nat.le_refl _)
  rwa [List.take_length] at this

/-- No error is reported for kanji with different names and compatibility names that agree with the
Unicode file. -/
theorem C68_no_errors (hist : List (KanjiRec × Option Ucd)) (hn : (hist.map (·.1.kanji.name)).Nodup)
    (hc : ((hist.map (·.1)).filter (·.kanji.variant)).map (·.kanji.compatibilityName) |>.Nodup)
    (hu : ∀ x ∈ hist, ¬ Contradicts x.1.kanji x.2) : (KanjiStore.insertAll {} hist).errors = 0 := by
  have hsub : ∀ (l A : List KanjiRec) (k : KanjiRec), k ∈ l.foldl (fun acc k =>
        if acc.all (·.kanji.name != k.kanji.name) then acc ++ [k] else acc) A → k ∈ A ∨ k ∈ l := by
    intro l
    induction l with
    | nil => intro A k h; exact .inl h
    | cons x l ih =>
      intro A k h
      rcases ih _ k h with g | g
      · dsimp only at g
        split at g
        · rcases List.mem_append.mp g with g | g
          · exact .inl g
          · right; simp at g; simp [g]
        · exact .inl g
      · exact .inr (List.mem_cons_of_mem _ g)
  rw [C68_all_errors, List.sum_eq_zero_iff_forall_eq_nat]
  intro y hy
  obtain ⟨i, hi, rfl⟩ := List.mem_map.mp hy
  have hi : i < hist.length := List.mem_range.mp hi
  rw [List.getElem?_eq_getElem hi]
  simp only [reportsFor]
  have hsplit : hist = hist.take i ++ hist[i] :: hist.drop (i + 1) := by
    rw [← List.drop_eq_getElem_cons hi, List.take_append_drop]
  rw [hsplit] at hn hc
  rw [if_neg, if_neg (hu _ (List.getElem_mem hi)), if_neg]
  · rintro ⟨hv, x, hx, hxv, he⟩
    rcases hsub _ _ _ hx with h | h
    · cases h
    rw [List.map_append, List.filter_append, List.map_append, List.nodup_append] at hc
    refine hc.2.2 x.kanji.compatibilityName ?_ hist[i].1.kanji.compatibilityName ?_ he
    · exact List.mem_map.mpr ⟨x, List.mem_filter.mpr ⟨h, hxv⟩, rfl⟩
    · refine List.mem_map.mpr ⟨hist[i].1, List.mem_filter.mpr ⟨?_, hv⟩, rfl⟩
      exact List.mem_cons_self
  · rintro ⟨x, hx, he⟩
    rcases hsub _ _ _ hx with h | h
    · cases h
    obtain ⟨z, hz, rfl⟩ := List.mem_map.mp h
    rw [List.map_append, List.nodup_append] at hn
    exact hn.2.2 _ (List.mem_map_of_mem hz) _
      List.mem_cons_self he

/-- A kanji twice without a Unicode entry: two errors. -/
example : let k : Kanji := { type := .jouyou, name := u8!"一", radicalName := u8!"一", radicalNumber := 1, strokes := ⟨1, 0⟩ }
    (KanjiStore.insertAll {} [(⟨k, {}, []⟩, none), (⟨k, {}, []⟩, none)]).errors = 2 := by decide

end KT
