import Verif.Props.JukugoReport
import Verif.Props.GroupData
import Verif.Props.GroupReport
/-!
# C186: everything printed while the data of the quiz program is loaded

Model: `Verif/Model/QuizPrint.lean`.
-/
namespace KT
open Spec

/-! ## Groups -/

theorem readGroupPrinting_result (find : Str → Option KanjiRec) (t : GroupType) (row : GroupRow) :
    (readGroupPrinting find t row).result = readGroup find t row := by
  unfold readGroupPrinting readGroup
  split
  · rfl
  · split
    · rfl
    · split
      · rfl
      · rw [quietly_bind_result]
        congr 1
        funext names
        rw [Printing.bind_result]
        simp only [Res.bind]
        split
        · rfl
        · rfl

theorem loadMeaningPrinting_result (find : Str → Option KanjiRec) : ∀ (rows : List GroupRow) (d : MeaningGroups),
    (loadMeaningPrinting find rows d).result = loadMeaning find rows d
  | [], _ => rfl
  | r :: rs, d => by
    rw [loadMeaningPrinting, loadMeaning, Printing.bind_result, readGroupPrinting_result]
    congr 1
    funext g
    exact loadMeaningPrinting_result find rs _

theorem loadPatternPrinting_result (find : Str → Option KanjiRec) : ∀ (rows : List GroupRow) (d : PatternGroups),
    (loadPatternPrinting find rows d).result = loadPattern find rows d
  | [], _ => rfl
  | r :: rs, d => by
    rw [loadPatternPrinting, loadPattern, Printing.bind_result, readGroupPrinting_result]
    congr 1
    funext g
    rw [Printing.bind_result]
    exact loadPatternPrinting_result find rs _

theorem readGroupPrinting_silent (find : Str → Option KanjiRec) (t : GroupType) (row : GroupRow) :
    Silent (readGroupPrinting find t row) := by
  unfold readGroupPrinting
  split
  · rfl
  · split
    · rfl
    · split
      · rfl
      · refine (silent_quietly _).bind fun names => (silent_insert _ _).bind fun _ => ?_
        simp only
        split <;> rfl

theorem loadMeaningPrinting_silent (find : Str → Option KanjiRec) : ∀ (rows : List GroupRow) (d : MeaningGroups),
    Silent (loadMeaningPrinting find rows d)
  | [], _ => rfl
  | r :: rs, d => (readGroupPrinting_silent find .meaning r).bind fun _ => loadMeaningPrinting_silent find rs _

theorem loadPatternPrinting_silent (find : Str → Option KanjiRec) : ∀ (rows : List GroupRow) (d : PatternGroups),
    Silent (loadPatternPrinting find rows d)
  | [], _ => rfl
  | r :: rs, d => (readGroupPrinting_silent find .pattern r).bind fun _ => (silent_insert _ _).bind fun _ =>
      loadPatternPrinting_silent find rs _

theorem findMembers_length (find : Str → Option KanjiRec) (names : List Str) :
    (findMembers find names).length + (names.filter fun n => (find n).isNone).length = names.length := by
  induction names with
  | nil => rfl
  | cons n ns ih =>
    unfold findMembers at ih ⊢
    rw [List.filterMap_cons, List.filter_cons]
    cases find n <;> simp <;> omega

/-- **C186** (not found): for each member of a row that isn't found there is a message, in order, and loading then ends with an
exception; a row that is loaded has no message. -/
theorem C186_not_found (find : Str → Option KanjiRec) (t : GroupType) (row : GroupRow) (names : List Str)
    (h1 : row.name ≠ []) (h2 : isAnySingleByte row.name = false) (h3 : endsWith row.members (u8!",") = false)
    (h4 : getKanjiNames t row.name row.members = .ok names) :
    (readGroupPrinting find t row).prints.errors = (names.filter fun n => (find n).isNone).map (fun n =>
      u8!"failed to find member " ++ n ++ u8!" in group: '" ++ row.name ++ u8!"', number: " ++ row.number) ∧
    ((∃ n ∈ names, find n = none) → readGroup find t row = .throw .domain) ∧
    (∀ g, readGroup find t row = .ok g → ∀ n ∈ names, find n ≠ none) := by
  have key : (∃ n ∈ names, find n = none) → readGroup find t row = .throw .domain := by
    rintro ⟨x, hx, hf⟩
    have hl : (findMembers find names).length < names.length := by
      have := findMembers_length find names
      have h5 : (names.filter fun n => (find n).isNone) ≠ [] := by
        exact List.ne_nil_of_mem (a := x) (List.mem_filter.mpr ⟨hx, by simp [hf]⟩)
      have := List.length_pos_iff.mpr h5
      omega
    unfold readGroup
    rw [if_neg (by simpa using h1), if_neg (by simp [h2]), if_neg (by simp [h3]), h4]
    simp only [Res.bind]
    rw [if_pos hl]
  refine ⟨?_, key, fun g hg => ?_⟩
  · unfold readGroupPrinting
    rw [if_neg (by simpa using h1), if_neg (by simp [h2]), if_neg (by simp [h3]), h4]
    rw [Printing.bind_errors (a := names) rfl, Printing.bind_errors (a := ()) rfl]
    simp only
    split <;> simp [quietly, notFoundMessages]
  · intro n hn h
    rw [key ⟨n, hn, h⟩] at hg
    cases hg

theorem readGroupPrinting_errors {find : Str → Option KanjiRec} {t : GroupType} {row : GroupRow} {g : Group}
    (h : readGroup find t row = .ok g) : (readGroupPrinting find t row).prints.errors = [] := by
  have h0 := h
  unfold readGroup at h0
  by_cases h1 : row.name.isEmpty = true
  · rw [if_pos h1] at h0; cases h0
  rw [if_neg h1] at h0
  by_cases h2 : isAnySingleByte row.name = true
  · rw [if_pos h2] at h0; cases h0
  rw [if_neg h2] at h0
  by_cases h3 : endsWith row.members (u8!",") = true
  · rw [if_pos h3] at h0; cases h0
  rw [if_neg h3] at h0
  obtain ⟨names, h4, _⟩ := Res.bind_eq_ok h0
  obtain ⟨e1, _, e3⟩ := C186_not_found find t row names (by simpa using h1) (by simpa using h2) (by simpa using h3) h4
  rw [e1, List.filter_eq_nil_iff.mpr fun n hn => by simpa using e3 g h n hn]
  rfl

theorem loadMeaningPrinting_errors {find : Str → Option KanjiRec} : ∀ (rows : List GroupRow) {d d' : MeaningGroups},
    loadMeaning find rows d = .ok d' → (loadMeaningPrinting find rows d).prints.errors = []
  | [], _, _, _ => rfl
  | r :: rs, d, d', h => by
    rw [loadMeaning] at h
    obtain ⟨g, h1, h2⟩ := Res.bind_eq_ok h
    rw [loadMeaningPrinting, Printing.bind_errors (a := g) (by rw [readGroupPrinting_result]; exact h1),
      readGroupPrinting_errors h1, loadMeaningPrinting_errors rs h2]
    rfl

theorem addMember_lookup (g : Group) (k : KanjiRec) (d : PatternGroups) (s : Str) (h : s ≠ k.kanji.name) :
    (d.addMember g k).map.lookup s = d.map.lookup s := by
  have := addMember_map g [k] d s
  simp only [List.foldl_cons, List.foldl_nil, List.any_cons, List.any_nil, Bool.or_false] at this
  rw [this, if_neg (by simpa using fun e => h e.symm)]
  simp

theorem filterMap_same {α β : Type} {f g : α → Option β} : ∀ {l : List α}, (∀ x ∈ l, f x = g x) →
    l.filterMap f = l.filterMap g
  | [], _ => rfl
  | x :: l, h => by
    rw [List.filterMap_cons, List.filterMap_cons, h x (by simp), filterMap_same fun y hy => h y (by simp [hy])]

theorem alreadyMessages_eq (g : Group) : ∀ (ks : List KanjiRec) (d : PatternGroups), (ks.map (·.kanji.name)).Nodup →
    alreadyMessages g ks d = ks.filterMap fun k => (d.map.lookup k.kanji.name).map (alreadyIn k.kanji.name g)
  | [], _, _ => rfl
  | k :: ks, d, h => by
    rw [List.map_cons, List.nodup_cons] at h
    have e : (ks.filterMap fun x => ((d.addMember g k).map.lookup x.kanji.name).map (alreadyIn x.kanji.name g)) =
        ks.filterMap fun x => (d.map.lookup x.kanji.name).map (alreadyIn x.kanji.name g) := by
      apply filterMap_same
      intro x hx
      rw [addMember_lookup g k d _ fun e => h.1 (e ▸ List.mem_map.mpr ⟨x, hx, rfl⟩)]
    rw [alreadyMessages, alreadyMessages_eq g ks _ h.2, e, List.filterMap_cons]
    cases d.map.lookup k.kanji.name <;> rfl

theorem readGroup_cases (find : Str → Option KanjiRec) (t : GroupType) (r : GroupRow) :
    (∃ g, readGroup find t r = .ok g ∧ (g.members.map (·.kanji.name)).Nodup) ∨ readGroup find t r = .throw .domain := by
  have h := readGroups_iff find t [r]
  have e : readGroups find t [r] = (readGroup find t r).bind fun g => .ok [g] := by
    rw [readGroups]; rfl
  rw [e] at h
  rcases h.2 with ⟨gs, hg⟩ | hg
  · obtain ⟨g, h1, h2⟩ := Res.bind_eq_ok hg
    cases h2
    refine .inl ⟨g, h1, ?_⟩
    exact groupsOf_distinct find t [r] [g] ((h.1 [g]).mp hg) g (by simp)
  · cases hr : readGroup find t r with
    | ok g => rw [hr] at hg; cases hg
    | throw x => rw [hr] at hg; cases hg; exact .inr rfl
    | ub => rw [hr] at hg; cases hg

/-- The messages for the rows of a file: those for members already in another group, and those of the row that is rejected. -/
theorem loadPatternPrinting_errors (find : Str → Option KanjiRec) : ∀ (rows : List GroupRow) (before : List Group)
    (d : PatternGroups), (∀ s, d.map.lookup s = before.find? (hasMember s)) →
    ∃ (n : Nat) (gs : List Group), n ≤ rows.length ∧ readGroups find .pattern (rows.take n) = .ok gs ∧
      (loadPatternPrinting find rows d).prints.errors = alreadyInGroup before gs ++
        ((rows[n]?).map fun r => (readGroupPrinting find .pattern r).prints.errors).getD [] ∧
      ∀ r, rows[n]? = some r → readGroup find .pattern r = .throw .domain
  | [], before, d, _ => ⟨0, [], by simp, rfl, rfl, by simp⟩
  | r :: rs, before, d, h => by
    rcases readGroup_cases find .pattern r with ⟨g, h1, h2⟩ | h1
    · have hd : ∀ s, (d.add g).map.lookup s = (before ++ [g]).find? (hasMember s) := by
        intro s
        have := pattern_map [g] d s
        simp only [List.foldl_cons, List.foldl_nil] at this
        rw [this, h, List.find?_append]
      obtain ⟨n, gs, k1, k2, k3, k4⟩ := loadPatternPrinting_errors find rs (before ++ [g]) (d.add g) hd
      refine ⟨n + 1, g :: gs, by simpa using k1, ?_, ?_, by simpa using k4⟩
      · rw [List.take_succ_cons, readGroups, h1]; simp only [Res.bind, k2]
      · rw [loadPatternPrinting, Printing.bind_errors (a := g) (by rw [readGroupPrinting_result]; exact h1),
          readGroupPrinting_errors h1, List.nil_append, Printing.bind_errors (a := d.add g) rfl, k3]
        simp only
        rw [alreadyMessages_eq g _ _ h2, alreadyInGroup, List.getElem?_cons_succ, List.append_assoc]
        congr 1
        apply filterMap_same
        intro x _
        rw [h]
        rfl
    · refine ⟨0, [], by simp, rfl, ?_, by simpa using h1⟩
      rw [loadPatternPrinting]
      unfold Printing.bind
      rw [readGroupPrinting_result, h1]
      simp [alreadyInGroup]

theorem alreadyMessages_count (g : Group) : ∀ (ks : List KanjiRec) (d : PatternGroups),
    (ks.foldl (PatternGroups.addMember g) d).errors = d.errors + (alreadyMessages g ks d).length
  | [], _ => rfl
  | k :: ks, d => by
    rw [List.foldl_cons, alreadyMessages_count g ks, alreadyMessages]
    have e : (d.addMember g k).errors = d.errors + if (d.map.lookup k.kanji.name).isSome then 1 else 0 := by
      unfold PatternGroups.addMember mapEmplace
      cases d.map.lookup k.kanji.name <;> rfl
    rw [e]
    cases d.map.lookup k.kanji.name <;> simp <;> omega

theorem loadPatternPrinting_count {find : Str → Option KanjiRec} : ∀ (rows : List GroupRow) {d d' : PatternGroups},
    loadPattern find rows d = .ok d' → d'.errors = d.errors + (loadPatternPrinting find rows d).prints.errors.length
  | [], _, _, h => by cases h; rfl
  | r :: rs, d, d', h => by
    rw [loadPattern] at h
    obtain ⟨g, h1, h2⟩ := Res.bind_eq_ok h
    rw [loadPatternPrinting, Printing.bind_errors (a := g) (by rw [readGroupPrinting_result]; exact h1),
      readGroupPrinting_errors h1, List.nil_append, Printing.bind_errors (a := d.add g) rfl, List.length_append,
      loadPatternPrinting_count rs h2]
    have : (d.add g).errors = d.errors + (alreadyMessages g g.members d).length := alreadyMessages_count g g.members d
    rw [this]
    simp only
    omega

theorem loadMeaningPrinting_rows (find : Str → Option KanjiRec) : ∀ (rows : List GroupRow) (d : MeaningGroups),
    ∃ (n : Nat) (gs : List Group), n ≤ rows.length ∧ readGroups find .meaning (rows.take n) = .ok gs ∧
      (loadMeaningPrinting find rows d).prints.errors =
        ((rows[n]?).map fun r => (readGroupPrinting find .meaning r).prints.errors).getD [] ∧
      ∀ r, rows[n]? = some r → readGroup find .meaning r = .throw .domain
  | [], d => ⟨0, [], by simp, rfl, rfl, by simp⟩
  | r :: rs, d => by
    rcases readGroup_cases find .meaning r with ⟨g, h1, h2⟩ | h1
    · obtain ⟨n, gs, k1, k2, k3, k4⟩ := loadMeaningPrinting_rows find rs (d.add g)
      refine ⟨n + 1, g :: gs, by simpa using k1, ?_, ?_, by simpa using k4⟩
      · rw [List.take_succ_cons, readGroups, h1]; simp only [Res.bind, k2]
      · rw [loadMeaningPrinting, Printing.bind_errors (a := g) (by rw [readGroupPrinting_result]; exact h1),
          readGroupPrinting_errors h1, List.nil_append, k3]
        rfl
    · refine ⟨0, [], by simp, rfl, ?_, by simpa using h1⟩
      rw [loadMeaningPrinting]
      unfold Printing.bind
      rw [readGroupPrinting_result, h1]
      simp

/-- **C186** (rows): the messages for the rows of the two files.  A meaning group has messages only for members that aren't
found; a pattern group also for members that are in a group of a row before, with the first such group.  The messages end
with those of the first row that is rejected. -/
theorem C186_rows (find : Str → Option KanjiRec) (rows : List GroupRow) :
    (∃ (n : Nat) (gs : List Group), n ≤ rows.length ∧ readGroups find .meaning (rows.take n) = .ok gs ∧
      (loadMeaningPrinting find rows {}).prints.errors =
        ((rows[n]?).map fun r => (readGroupPrinting find .meaning r).prints.errors).getD [] ∧
      ∀ r, rows[n]? = some r → readGroup find .meaning r = .throw .domain) ∧
    ∃ (n : Nat) (gs : List Group), n ≤ rows.length ∧ readGroups find .pattern (rows.take n) = .ok gs ∧
      (loadPatternPrinting find rows {}).prints.errors = alreadyInGroup [] gs ++
        ((rows[n]?).map fun r => (readGroupPrinting find .pattern r).prints.errors).getD [] ∧
      ∀ r, rows[n]? = some r → readGroup find .pattern r = .throw .domain :=
  ⟨loadMeaningPrinting_rows find rows {}, loadPatternPrinting_errors find rows [] {} fun _ => rfl⟩

end KT
