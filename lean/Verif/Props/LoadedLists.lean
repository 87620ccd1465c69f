import Verif.Props.LoadedProgram
/-!
# The lists of the quiz program are the lists in the files: C179
-/
namespace KT
open Spec

/-! ## Lists of levels, kyus and frequencies -/

theorem typed_list {τ : Type} [DecidableEq τ] : ∀ (ts : List τ) (text : τ → Str) (names : List Str) (r : List (τ × LoadState)),
    loadTyped names (ts.map fun t => (t, text t)) = .ok r → ts.Nodup → ∀ x,
    (r.filter (·.1 == x)).flatMap (·.2.list) = if x ∈ ts then fileTokens (text x) else [] := by
  intro ts text names r h hn x
  obtain ⟨h1, h2, h3⟩ := loadTyped_spec _ _ _ h
  clear h h3
  rw [List.map_map] at h1 h2
  induction ts generalizing r with
  | nil => cases r with
    | nil => rfl
    | cons _ _ => cases h1
  | cons t ts ih =>
    cases r with
    | nil => cases h1
    | cons p r =>
      simp only [List.map_cons, Function.comp, List.cons.injEq] at h1 h2
      have hn' := List.nodup_cons.mp hn
      have := ih r hn'.2 h1.2 h2.2
      rw [List.filter_cons]
      by_cases he : t = x
      · subst he
        rw [if_pos (by simp [h1.1]), List.flatMap_cons, this, h2.1, if_neg hn'.1]
        simp
      · rw [if_neg (by simp [h1.1, he]), this]
        simp [Ne.symm he]

/-- The kanji asked for a level are those of the file of the level, in its order; likewise for the kyus. -/
theorem C179_lists (ltr : Bool) (f : DataFiles) (d : DetailStore) (h : loadData ltr f = .ok d) (hp : f.Plain d.store) :
    (∀ l, (d.store.levels l).map (·.kanji.name) = fileTokens (f.levels l)) ∧
    (∀ k, (d.store.kyus k).map (·.kanji.name) = fileTokens (f.kyus k)) := by
  obtain ⟨_, h⟩ := loadData_ok h
  obtain ⟨lists, rad, hl, _, _, rfl, hd⟩ := loadTextData_ok h
  obtain ⟨t1, t2, _⟩ := loadListFiles_ok hl
  obtain ⟨n1, n2⟩ := C104_lists _ ⟨_, _, _, hl⟩ f.kanji d.store hd (plainEntries_of hp hl)
  refine ⟨fun l => ?_, fun k => ?_⟩
  · refine (n1 l).trans ((typed_list levelOrder f.levels [] _ t1 (by decide) l).trans (if_pos ?_))
    cases l <;> decide
  · refine (n2 k).trans ((typed_list kyuOrder f.kyus [] _ t2 (by decide) k).trans (if_pos ?_))
    cases k <;> decide

/-- The kanji of a frequency is the one of this line of the frequency file. -/
theorem C179_frequency (ltr : Bool) (f : DataFiles) (d : DetailStore) (h : loadData ltr f = .ok d) (hp : f.Plain d.store)
    (hn : (fileTokens f.frequency).length ≤ 2750) (n : Nat) :
    ∃ k, d.store.frequencies.find n = .ok k ∧
      k.map (·.kanji.name) = if n = 0 then none else (fileTokens f.frequency)[n - 1]? := by
  obtain ⟨_, h⟩ := loadData_ok h
  obtain ⟨lists, rad, hl, _, _, rfl, hd⟩ := loadTextData_ok h
  obtain ⟨_, _, t3⟩ := loadListFiles_ok hl
  have e := (C40_entries _ _ _ _ _ t3).1
  obtain ⟨k, h1, h2⟩ := C104_frequency _ ⟨_, _, _, hl⟩ f.kanji d.store hd (plainEntries_of hp hl)
    (show lists.frequency.list.length ≤ 2750 by rw [e]; exact hn) n
  refine ⟨k, h1, h2.trans ?_⟩
  rw [← e]
  rfl

/-! ## Grades -/

/-- The row has this grade. -/
def rowGrade (g : KanjiGrade) (row : CellRow) : Bool :=
  match getGrade row.grade with
  | .ok g' => g' == g
  | _ => false

theorem graded_rows {c : KanjiCtx} {l : Loaded} {g : KanjiGrade} (rows : List CellRow) (ks : List (Kanji × NumberedInfo))
    (h : rows.map (jouyouFromRow c) = ks.map .ok) :
    ((ks.map fun k => l.record k.1).filter (·.kanji.grade == some g)).map (·.kanji.name) =
      (rows.filter (rowGrade g)).map (·.name) := by
  induction rows generalizing ks with
  | nil => cases ks with
    | nil => rfl
    | cons _ _ => cases h
  | cons row rows ih => cases ks with
    | nil => cases h
    | cons k ks =>
      rw [List.map_cons, List.map_cons] at h
      obtain ⟨h1, h2⟩ := List.cons.inj h
      have ih := ih ks h2
      obtain ⟨k, i⟩ := k
      obtain ⟨_, hname, _, _, _, _, _, ⟨g', hg, hk⟩, _⟩ := jouyou_row h1
      have e1 : (l.record k).kanji.grade = some g' := hk
      have e2 : (l.record k).kanji.name = row.name := hname
      have e3 : rowGrade g row = (g' == g) := by unfold rowGrade; rw [hg]
      rw [List.map_cons, List.filter_cons, List.filter_cons, e1, e3]
      by_cases hgg : g' = g
      · subst hgg
        rw [if_pos (by simp), if_pos (by simp), List.map_cons, List.map_cons, e2, ih]
      · rw [if_neg (by simpa using hgg), if_neg (by simpa using hgg), ih]

/-- If loading printed no error the kanji asked for a grade are those of the rows with this grade, in their order. -/
theorem C179_grades (ltr : Bool) (f : DataFiles) (d : DetailStore) (h : loadData ltr f = .ok d) (he : d.store.errors = 0)
    (g : KanjiGrade) : (d.store.grades g).map (·.kanji.name) = (f.kanji.jouyou.filter (rowGrade g)).map (·.name) := by
  obtain ⟨_, h⟩ := loadData_ok h
  obtain ⟨lists, rad, hl, _, _, rfl, hd⟩ := loadTextData_ok h
  obtain ⟨⟨ks, e1, e2⟩, _⟩ := C101_rows _ _ _ hd
  have hgrade := C103_grade _ _ _ hd
  obtain ⟨_, _, _, _, _, _, _, hl, _⟩ := loadKanji_spec hd
  rw [← graded_rows (l := loadedOf ltr lists d.ucd rad f.kanji.frequencyReadings) _ _ e1, ← e2, hl.types.noErr he .jouyou,
    hl.types.store.grades, List.filter_filter, ← hl.types.store.all_eq]
  congr 1
  refine List.filter_congr fun k hk => ?_
  have := hgrade k hk
  cases hg : k.kanji.grade with
  | none => rfl
  | some x => rw [hg] at this; simp [this.mp rfl]

/-! ## Kanji of the Unicode file -/

theorem insertUcd_sorted (u : UcdRec) (l : List UcdRec) (h : l.Pairwise fun a b => strLt b.name a.name = false) :
    (insertUcd u l).Pairwise fun a b => strLt b.name a.name = false := by
  induction l with
  | nil => simp [insertUcd]
  | cons x l ih =>
    have h' := List.pairwise_cons.mp h
    rw [insertUcd]
    split
    · next hlt =>
      refine List.pairwise_cons.mpr ⟨fun y hy => ?_, h⟩
      rcases List.mem_cons.mp hy with rfl | hy
      · exact strLt_not_symm _ _ hlt
      · exact strLt_not_trans _ _ _ (strLt_not_symm _ _ hlt) (h'.1 y hy)
    · next hnl =>
      refine List.pairwise_cons.mpr ⟨fun y hy => ?_, ih h'.2⟩
      rcases (mem_insertUcd u y l).mp hy with rfl | hy
      · exact Bool.eq_false_iff.mpr hnl
      · exact h'.1 y hy

theorem ordered_sorted (d : UcdData) : d.ordered.Pairwise fun a b => strLt b.name a.name = false := by
  have : ∀ (m : List (Str × UcdRec)) (r : List UcdRec), (r.Pairwise fun a b => strLt b.name a.name = false) →
      (m.foldl (fun r p => insertUcd p.2 r) r).Pairwise fun a b => strLt b.name a.name = false := by
    intro m
    induction m with
    | nil => exact fun r h => h
    | cons p m ih => exact fun r h => ih _ (insertUcd_sorted _ _ h)
  exact this _ _ List.Pairwise.nil

theorem ucdType_names {l : Loaded} {f : KanjiFiles} {d : KanjiStore} (h : loadKanji l f = .ok d) :
    ((d.types .ucd).map (·.kanji.name)).Sublist (l.ucds.map (·.name)) ∧ ((d.types .ucd).map (·.kanji.name)).Nodup := by
  have hn := (C101_types l f d h).1
  have hs := ((C101_types l f d h).2 .ucd).2.1 (by decide)
  refine ⟨?_, by rw [hs]; exact (List.filter_sublist.map _).nodup hn⟩
  obtain ⟨jouyou, line, old, jinmei, extra, lists, ucd, hl, t1, t2, t3, t4, t5, t6, t7, _, _, _, _, _, _, _, _, _, _, _,
    hu⟩ := loadKanji_spec h
  rw [hl.types.eq .ucd (by decide)]
  refine List.Sublist.trans (List.Sublist.map _ ?_) hu
  rw [List.filter_append, List.filter_eq_nil_iff.mpr, List.nil_append]
  · exact List.filter_sublist
  · intro x hx
    simp only [List.mem_append] at hx
    have : x.kanji.type ≠ .ucd := by
      rcases hx with (((hx | hx | hx) | hx) | hx) | hx
      · rw [t1 x hx]; decide
      · rw [(t2 x hx).1]; decide
      · rw [(t7 x hx).1]; decide
      · rcases t3 x hx with e | e <;> rw [e] <;> decide
      · rw [t4 x hx]; decide
      · rcases t5 x hx with e | e <;> rw [e] <;> decide
    simpa using this

/-- The kanji that are only in the Unicode file are in the order of their names. -/
theorem C179_ucd (ltr : Bool) (f : DataFiles) (d : DetailStore) (h : loadData ltr f = .ok d) :
    (d.store.types .ucd).Pairwise fun a b => strLt a.kanji.name b.kanji.name = true := by
  obtain ⟨_, h⟩ := loadData_ok h
  obtain ⟨lists, rad, hl, _, _, rfl, hd⟩ := loadTextData_ok h
  obtain ⟨h1, h2⟩ := ucdType_names hd
  have h3 : ((loadedOf ltr lists d.ucd rad f.kanji.frequencyReadings).ucds.map (·.name)).Pairwise
      fun a b => strLt b a = false := by
    show ((d.ucd.ordered.map (·.toUcd)).map (·.name)).Pairwise _
    rw [List.map_map, List.pairwise_map]
    exact ordered_sorted d.ucd
  have h4 := h3.sublist h1
  rw [List.pairwise_map] at h4
  rw [List.Nodup, List.pairwise_map] at h2
  refine (h4.and h2).imp fun {a b} ⟨p, q⟩ => ?_
  rcases strLt_total.total a.kanji.name b.kanji.name with e | e | e
  · exact e
  · exact absurd e q
  · rw [p] at e; cases e

/-! ## Groups, jukugo and texts -/

/-- The groups are those of the rows of their files, the jukugo are those of the lists, and the texts shown for a kanji are
its own. -/
theorem C179_shown (ltr : Bool) (f : DataFiles) (d : DetailStore) (h : loadData ltr f = .ok d) :
    GroupsOf d.store.findByName .meaning f.meanings d.detail.meanings.groups ∧
    GroupsOf d.store.findByName .pattern f.patterns d.detail.patterns.groups ∧
    (∃ ws, allWords (f.jukugo.zip jukugoGrades) = some ws ∧ OneGrade ws ∧ d.detail.jukugo.words = ws.eraseDups) ∧
    ∀ k, d.detail.reading k = k.kanji.reading ∧ d.extra k = k.kanji.extra ∧
      (d.detail.meaning k = none ↔ k.kanji.meaning = []) ∧ ∀ m, d.detail.meaning k = some m → m = k.kanji.meaning := by
  unfold loadData at h
  obtain ⟨⟨store, u, l⟩, _, h⟩ := Res.bind_eq_ok h
  obtain ⟨m, h2, h⟩ := Res.bind_eq_ok h
  obtain ⟨p, h3, h⟩ := Res.bind_eq_ok h
  obtain ⟨j, h4, h⟩ := Res.bind_eq_ok h
  cases h
  refine ⟨((C89_load _ _).1 _).1 ⟨m, h2, rfl⟩, ((C89_load _ _).2.1 _).1 ⟨p, h3, rfl⟩, ?_, fun k => ⟨rfl, rfl, ?_, ?_⟩⟩
  · have := C83_load f.jukugo
    rw [h4] at this
    split at this
    · cases this
    · next ws hw =>
      refine ⟨ws, hw, ?_⟩
      by_cases ho : OneGrade ws
      · obtain ⟨st, e, e2⟩ := this.1 ho
        cases e
        exact ⟨ho, e2⟩
      · cases this.2 ho
  · show (if k.kanji.meaning.isEmpty = true then none else some k.kanji.meaning) = none ↔ _
    cases k.kanji.meaning <;> simp
  · intro x hx
    have hx : (if k.kanji.meaning.isEmpty = true then none else some k.kanji.meaning) = some x := hx
    split at hx
    · cases hx
    · exact (Option.some.inj hx).symm

end KT
