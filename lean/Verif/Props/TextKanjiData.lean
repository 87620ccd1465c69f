import Verif.Model.TextKanjiData
import Verif.Props.KanjiData
import Verif.Props.KanjiFreq
import Verif.Props.Kanji
import Verif.Props.ListFile
import Verif.Lemmas.Order
/-!
# C100 to C104: loading all data files

Model: `Verif/Model/TextKanjiData.lean`.
-/
namespace KT
open Spec

/-! ## C100: level, kyu and frequency are those of the list files -/

/-- The files of one kind: each was loaded with all names of the files before it taken. -/
theorem loadTyped_spec {τ : Type} : ∀ (fs : List (τ × Str)) (names : List Str) (r : List (τ × LoadState)),
    loadTyped names fs = .ok r →
    r.map (·.1) = fs.map (·.1) ∧
    r.map (·.2.list) = fs.map (fun f => fileTokens f.2) ∧
    (∀ p ∈ r, ∀ s, p.2.exists_ s = true ↔ s ∈ p.2.list) ∧
    (∀ p ∈ r, ∀ s ∈ p.2.list, s ∉ names) ∧
    (r.map (·.2.list)).Pairwise fun a b => ∀ s ∈ a, s ∉ b := by
  intro fs
  induction fs with
  | nil => intro names r h; cases h; simp
  | cons f fs ih =>
    obtain ⟨t, text⟩ := f
    intro names r h
    rw [loadTyped] at h
    rcases hl : ListFile.load false true names text with ⟨st, o⟩
    rw [hl] at h
    cases o with
    | throw e => cases h
    | ub => cases h
    | ok u =>
      obtain ⟨r', h1, h2⟩ := Res.bind_eq_ok h
      cases h2
      obtain ⟨i1, i2, i3, i4, i5⟩ := ih st.names r' h1
      have hent := C40_entries false true names text st hl
      have hidx := C40_index false true names text st hl
      have hinv := load_inv false true names text
      rw [hl] at hinv
      obtain ⟨hn, hinv⟩ := hinv
      obtain ⟨hinv, _⟩ := hinv rfl
      refine ⟨by simp [i1], by simp [i2, hent.1], ?_, ?_, ?_⟩
      · intro p hp s
        rcases List.mem_cons.mp hp with rfl | hp
        · exact (hidx s).1
        · exact i3 p hp s
      · intro p hp s hs
        rcases List.mem_cons.mp hp with rfl | hp
        · exact hinv.fresh s hs
        · intro hsn
          exact i4 p hp s hs (hn s hsn)
      · rw [List.map_cons, List.pairwise_cons]
        refine ⟨?_, i5⟩
        intro b hb s hs hsb
        obtain ⟨p, hp, rfl⟩ := List.mem_map.mp hb
        exact i4 p hp s hsb (hinv.sub s hs)

/-- Looking for the first file that has a name finds the only one. -/
theorem find_typed {τ : Type} (r : List (τ × LoadState)) (he : ∀ p ∈ r, ∀ s, p.2.exists_ s = true ↔ s ∈ p.2.list)
    (hd : (r.map (·.2.list)).Pairwise fun a b => ∀ s ∈ a, s ∉ b) (s : Str) (t : τ) :
    (r.find? (·.2.exists_ s)).map (·.1) = some t ↔ ∃ st, (t, st) ∈ r ∧ s ∈ st.list := by
  induction r with
  | nil => simp
  | cons p r ih =>
    rw [List.map_cons, List.pairwise_cons] at hd
    have hp := he p (by simp) s
    cases hx : p.2.exists_ s with
    | true =>
      rw [List.find?_cons, hx]
      have hs := hp.mp hx
      simp only [Option.map_some, Option.some.injEq]
      constructor
      · rintro rfl; exact ⟨p.2, by simp, hs⟩
      · rintro ⟨st, hm, hst⟩
        rcases List.mem_cons.mp hm with e | hm
        · rw [← e]
        · exact absurd hst (hd.1 st.list (List.mem_map.mpr ⟨_, hm, rfl⟩) s hs)
    | false =>
      rw [List.find?_cons, hx, ih (fun q hq => he q (List.mem_cons_of_mem _ hq)) hd.2]
      constructor
      · rintro ⟨st, hm, hst⟩; exact ⟨st, List.mem_cons_of_mem _ hm, hst⟩
      · rintro ⟨st, hm, hst⟩
        rcases List.mem_cons.mp hm with e | hm
        · have : p.2.exists_ s = true := hp.mpr (by rw [← e]; exact hst)
          rw [hx] at this; cases this
        · exact ⟨st, hm, hst⟩

theorem typed_iff {τ : Type} (fs : List (τ × Str)) (r : List (τ × LoadState)) (h : loadTyped [] fs = .ok r) (s : Str)
    (x : τ) : (r.find? (·.2.exists_ s)).map (·.1) = some x ↔ ∃ text, (x, text) ∈ fs ∧ s ∈ fileTokens text := by
  obtain ⟨i1, i2, i3, i4, i5⟩ := loadTyped_spec _ _ _ h
  rw [find_typed r i3 i5]
  have hz : r.map (fun p => (p.1, p.2.list)) = fs.map fun f => (f.1, fileTokens f.2) := by
    have e1 : r.map (fun p => (p.1, p.2.list)) = (r.map (·.1)).zip (r.map (·.2.list)) := by
      rw [List.zip_map', List.map_inj_left]; simp
    have e2 : fs.map (fun f => (f.1, fileTokens f.2)) = (fs.map (·.1)).zip (fs.map fun f => fileTokens f.2) := by
      rw [List.zip_map', List.map_inj_left]; simp
    rw [e1, e2, i1, i2]
  have hm : ∀ (a : τ) (b : List Str), (∃ st, (a, st) ∈ r ∧ st.list = b) ↔ ∃ text, (a, text) ∈ fs ∧ fileTokens text = b := by
    intro a b
    have := congrArg ((a, b) ∈ ·) hz
    simp only [List.mem_map, Prod.mk.injEq, eq_iff_iff] at this
    constructor
    · rintro ⟨st, g1, g2⟩
      obtain ⟨p, q1, q2, q3⟩ := this.mp ⟨(a, st), g1, rfl, g2⟩
      exact ⟨p.2, by rw [← q2]; exact q1, q3⟩
    · rintro ⟨st, g1, g2⟩
      obtain ⟨p, q1, q2, q3⟩ := this.mpr ⟨(a, st), g1, rfl, g2⟩
      exact ⟨p.2, by rw [← q2]; exact q1, q3⟩
  constructor
  · rintro ⟨st, g1, g2⟩
    obtain ⟨text, q1, q2⟩ := (hm x st.list).mp ⟨st, g1, rfl⟩
    exact ⟨text, q1, by rw [q2]; exact g2⟩
  · rintro ⟨text, g1, g2⟩
    obtain ⟨st, q1, q2⟩ := (hm x _).mpr ⟨text, g1, rfl⟩
    exact ⟨st, q1, by rw [q2]; exact g2⟩

/-- What a successful `loadListFiles` loaded. -/
theorem loadListFiles_ok {levels : List (JlptLevel × Str)} {kyus : List (KenteiKyu × Str)} {frequency : Str}
    {l : ListFiles} (h : loadListFiles levels kyus frequency = .ok l) :
    loadTyped [] levels = .ok l.levels ∧ loadTyped [] kyus = .ok l.kyus ∧
      ListFile.load true false [] frequency = (l.frequency, .ok ()) := by
  unfold loadListFiles at h
  obtain ⟨r1, h1, h⟩ := Res.bind_eq_ok h
  obtain ⟨r2, h2, h⟩ := Res.bind_eq_ok h
  split at h
  · rename_i st he
    cases h
    exact ⟨h1, h2, he⟩
  · cases h
  · cases h

/-- The level of a kanji is the one in whose file it is, and no kanji is in the files of two levels. -/
theorem C100_level (levels : List (JlptLevel × Str)) (kyus : List (KenteiKyu × Str)) (frequency : Str) (l : ListFiles)
    (h : loadListFiles levels kyus frequency = .ok l) :
    (∀ s x, l.level s = some x ↔ ∃ text, (x, text) ∈ levels ∧ s ∈ fileTokens text) ∧
    (levels.map fun f => fileTokens f.2).Pairwise fun a b => ∀ s ∈ a, s ∉ b := by
  obtain ⟨h1, _, _⟩ := loadListFiles_ok h
  obtain ⟨_, i2, _, _, i5⟩ := loadTyped_spec _ _ _ h1
  exact ⟨fun s x => typed_iff levels l.levels h1 s x, by rw [← i2]; exact i5⟩

/-- The kyu of a kanji is the one in whose file it is, and no kanji is in the files of two kyus. -/
theorem C100_kyu (levels : List (JlptLevel × Str)) (kyus : List (KenteiKyu × Str)) (frequency : Str) (l : ListFiles)
    (h : loadListFiles levels kyus frequency = .ok l) :
    (∀ s x, l.kyu s = some x ↔ ∃ text, (x, text) ∈ kyus ∧ s ∈ fileTokens text) ∧
    (kyus.map fun f => fileTokens f.2).Pairwise fun a b => ∀ s ∈ a, s ∉ b := by
  obtain ⟨_, h1, _⟩ := loadListFiles_ok h
  obtain ⟨_, i2, _, _, i5⟩ := loadTyped_spec _ _ _ h1
  exact ⟨fun s x => typed_iff kyus l.kyus h1 s x, by rw [← i2]; exact i5⟩

/-- The frequency of a kanji is its line in the frequency file, or 0 if it isn't there. -/
theorem C100_frequency (levels : List (JlptLevel × Str)) (kyus : List (KenteiKyu × Str)) (frequency : Str)
    (l : ListFiles) (h : loadListFiles levels kyus frequency = .ok l) (s : Str) :
    (∀ i, (fileTokens frequency)[i]? = some s ↔ (l.frequencyOf s).toNat = i + 1) ∧
    (s ∉ fileTokens frequency ↔ l.frequencyOf s = 0) := by
  obtain ⟨_, _, h1⟩ := loadListFiles_ok h
  obtain ⟨e1, e2, e3, _, _⟩ := C40_entries _ _ _ _ _ h1
  obtain ⟨_, x2, x3⟩ := C40_index _ _ _ _ _ h1 s
  rw [← e1]
  have hin : ∀ i, l.frequency.list[i]? = some s → (l.frequencyOf s).toNat = i + 1 := by
    intro i hi
    have hlt : i < l.frequency.list.length := (List.getElem?_eq_some_iff.mp hi).1
    rw [ListFiles.frequencyOf, x2 i hi, UInt16.toNat_ofNat']
    omega
  have hout : s ∉ l.frequency.list → l.frequencyOf s = 0 := by
    intro hs
    rw [ListFiles.frequencyOf, x3 hs]; rfl
  refine ⟨fun i => ⟨hin i, fun hi => ?_⟩, hout, fun h0 hs => ?_⟩
  · by_cases hs : s ∈ l.frequency.list
    · obtain ⟨j, hj⟩ := List.getElem?_of_mem hs
      have := hin j hj
      have e : i = j := by omega
      rw [e]; exact hj
    · rw [hout hs] at hi
      simp at hi
  · obtain ⟨j, hj⟩ := List.getElem?_of_mem hs
    have := hin j hj
    rw [h0] at this
    simp at this

/-- Files with one kanji each. -/
def sampleLists : Res ListFiles :=
  loadListFiles [(.n5, u8!"一\n"), (.n4, u8!"二 三\n")] [(.k10, u8!"一 二\n")] (u8!"三\n一\n")

example : (match sampleLists with
    | .ok l => (l.level (u8!"三"), l.kyu (u8!"二"), l.frequencyOf (u8!"一"), l.frequencyOf (u8!"二"))
    | _ => (none, none, 0, 0)) = (some .n4, some .k10, 2, 0) := by decide +kernel

/-! ## The store while the files are loaded -/

/-- All kanji found by name, in the order in which they were inserted. -/
def KanjiStore.all (d : KanjiStore) : List KanjiRec := d.nameMap.map (·.2)

theorem StoreInv.all_eq {d : KanjiStore} {A : List KanjiRec} (h : StoreInv d A) : d.all = A := by
  rw [KanjiStore.all, h.nameMap, List.map_map]; simp [Function.comp_def]

/-- What an insertion does. -/
theorem checkInsert_facts {d : KanjiStore} {A : List KanjiRec} (k : KanjiRec) (ucd : Option Ucd) (h : StoreInv d A) :
    (d.checkInsert k ucd).1.types = d.types ∧ (d.checkInsert k ucd).1.frequencies = d.frequencies ∧
    (d.checkInsert k ucd).1.levels = d.levels ∧ (d.checkInsert k ucd).1.kyus = d.kyus ∧
    ((StoreInv (d.checkInsert k ucd).1 (A ++ [k]) ∧ (d.checkInsert k ucd).2 = true ∧
        d.errors ≤ (d.checkInsert k ucd).1.errors ∧ (∀ x ∈ A, x.kanji.name ≠ k.kanji.name)) ∨
      (StoreInv (d.checkInsert k ucd).1 A ∧ (d.checkInsert k ucd).2 = false ∧
        (d.checkInsert k ucd).1.errors = d.errors + 1 ∧ ∃ x ∈ A, x.kanji.name = k.kanji.name)) := by
  have hi := checkInsert_inv d A k ucd h
  have hf : (d.checkInsert k ucd).1.types = d.types ∧ (d.checkInsert k ucd).1.frequencies = d.frequencies ∧
      (d.checkInsert k ucd).1.levels = d.levels ∧ (d.checkInsert k ucd).1.kyus = d.kyus ∧
      ((d.checkInsert k ucd).2 = true → d.errors ≤ (d.checkInsert k ucd).1.errors) ∧
      ((d.checkInsert k ucd).2 = false → (d.checkInsert k ucd).1.errors = d.errors + 1) := by
    unfold KanjiStore.checkInsert
    rcases mapEmplace d.nameMap k.kanji.name k with ⟨m, _ | _⟩
    · exact ⟨rfl, rfl, rfl, rfl, fun h => by (cases h), fun _ => rfl⟩
    · refine ⟨rfl, rfl, rfl, rfl, fun _ => ?_, fun h => by (cases h)⟩
      dsimp only
      repeat' split
      all_goals omega
  refine ⟨hf.1, hf.2.1, hf.2.2.1, hf.2.2.2.1, ?_⟩
  cases hall : A.all (·.kanji.name != k.kanji.name) with
  | true =>
    rw [hall, if_pos rfl] at hi
    refine .inl ⟨hi.1, hi.2, hf.2.2.2.2.1 hi.2, fun x hx => ?_⟩
    have := List.all_eq_true.mp hall x hx
    simpa using this
  | false =>
    rw [hall, if_neg (by simp)] at hi
    obtain ⟨x, hx, hxn⟩ := List.all_eq_false.mp hall
    exact .inr ⟨hi.1, hi.2, hf.2.2.2.2.2 hi.2, x, hx, by simpa using hxn⟩

/-- The types whose lists are made from the rows of a file. -/
def rowTypes : List KanjiType := [.jouyou, .jinmei, .extra]

/-- What holds while the files are loaded: `A` are the kanji found by name, `T` the lists of the types (with the rows of
the current file). -/
structure TypesInv (d : KanjiStore) (T : KanjiType → List KanjiRec) (A : List KanjiRec) : Prop where
  store : StoreInv d A
  sub : ∀ t, (A.filter (·.kanji.type == t)).Sublist (T t)
  typed : ∀ t, ∀ k ∈ T t, k.kanji.type = t
  eq : ∀ t, t ∉ rowTypes → T t = A.filter (·.kanji.type == t)
  noErr : d.errors = 0 → ∀ t, T t = A.filter (·.kanji.type == t)

theorem filter_single_eq {k : KanjiRec} {t : KanjiType} (h : k.kanji.type = t) :
    [k].filter (·.kanji.type == t) = [k] := by simp [h]

theorem filter_single_ne {k : KanjiRec} {t : KanjiType} (h : k.kanji.type ≠ t) :
    [k].filter (·.kanji.type == t) = [] := by simp [h]

/-- A row: the kanji is in the list of the type whether or not it was accepted. -/
theorem TypesInv.row {d : KanjiStore} {T : KanjiType → List KanjiRec} {A : List KanjiRec} (h : TypesInv d T A)
    (k : KanjiRec) (ucd : Option Ucd) (hk : k.kanji.type ∈ rowTypes) :
    ∃ A', TypesInv (d.checkInsert k ucd).1 (enumPush T k.kanji.type k) A' ∧ (A' = A ++ [k] ∨ A' = A) ∧
      (∃ x ∈ A', x.kanji.name = k.kanji.name) ∧ (d.checkInsert k ucd).1.types = d.types ∧
      d.errors ≤ (d.checkInsert k ucd).1.errors ∧ ((d.checkInsert k ucd).1.errors = 0 → A' = A ++ [k]) := by
  have htyped : ∀ t, ∀ x ∈ enumPush T k.kanji.type k t, x.kanji.type = t := by
    intro t x hx
    unfold enumPush at hx
    split at hx
    · rename_i e
      rcases List.mem_append.mp hx with hx | hx
      · exact h.typed t x hx
      · simp at hx; rw [hx, e]
    · exact h.typed t x hx
  obtain ⟨f1, _, _, _, f2⟩ := checkInsert_facts k ucd h.store
  rcases f2 with ⟨g1, _, g3, g4⟩ | ⟨g1, _, g3, g4⟩
  · refine ⟨A ++ [k], ⟨g1, fun t => ?_, htyped, fun t ht => ?_, fun he t => ?_⟩, .inl rfl, ⟨k, by simp, rfl⟩, f1, g3,
      fun _ => rfl⟩
    · rw [List.filter_append]
      unfold enumPush
      by_cases e : t = k.kanji.type
      · rw [if_pos e, filter_single_eq e.symm]; exact (h.sub t).append (List.Sublist.refl _)
      · rw [if_neg e, filter_single_ne (Ne.symm e), List.append_nil]; exact h.sub t
    · have e : t ≠ k.kanji.type := fun e => ht (e ▸ hk)
      rw [List.filter_append, filter_single_ne (Ne.symm e), List.append_nil, enumPush, if_neg e]; exact h.eq t ht
    · have h0 := h.noErr (by omega) t
      rw [List.filter_append]
      unfold enumPush
      by_cases e : t = k.kanji.type
      · rw [if_pos e, filter_single_eq e.symm, h0]
      · rw [if_neg e, filter_single_ne (Ne.symm e), List.append_nil]; exact h0
  · refine ⟨A, ⟨g1, fun t => ?_, htyped, fun t ht => ?_, fun he t => ?_⟩, .inr rfl, g4, f1, by omega, by omega⟩
    · unfold enumPush
      split
      · exact (h.sub t).trans (List.sublist_append_left _ _)
      · exact h.sub t
    · have e : t ≠ k.kanji.type := fun e => ht (e ▸ hk)
      rw [enumPush, if_neg e]; exact h.eq t ht
    · omega

/-- A kanji of another type is in the list of the type only if it was accepted. -/
theorem TypesInv.single {d : KanjiStore} {T : KanjiType → List KanjiRec} {A : List KanjiRec} (h : TypesInv d T A)
    (k : KanjiRec) (ucd : Option Ucd) :
    ∃ A' T', TypesInv (d.checkInsertType k.kanji.type k ucd).1 T' A' ∧
      ((A' = A ++ [k] ∧ T' = enumPush T k.kanji.type k ∧
          (d.checkInsertType k.kanji.type k ucd).1.types = enumPush d.types k.kanji.type k) ∨
        (A' = A ∧ T' = T ∧ (d.checkInsertType k.kanji.type k ucd).1.types = d.types ∧
          (d.checkInsertType k.kanji.type k ucd).1.errors ≠ 0)) ∧
      (∃ x ∈ A', x.kanji.name = k.kanji.name) ∧ d.errors ≤ (d.checkInsertType k.kanji.type k ucd).1.errors := by
  obtain ⟨f1, _, _, _, f2⟩ := checkInsert_facts k ucd h.store
  unfold KanjiStore.checkInsertType
  rcases hc : d.checkInsert k ucd with ⟨d1, b⟩
  rw [hc] at f1 f2
  simp only at f1 f2
  rcases f2 with ⟨g1, rfl, g3, g4⟩ | ⟨g1, rfl, g3, g4⟩
  · have key : ∀ t, T t = A.filter (·.kanji.type == t) →
        enumPush T k.kanji.type k t = (A ++ [k]).filter (·.kanji.type == t) := by
      intro t ht
      rw [List.filter_append]
      unfold enumPush
      by_cases e : t = k.kanji.type
      · rw [if_pos e, filter_single_eq e.symm, ht]
      · rw [if_neg e, filter_single_ne (Ne.symm e), List.append_nil]; exact ht
    refine ⟨A ++ [k], enumPush T k.kanji.type k, ⟨?_, fun t => ?_, ?_, fun t ht => key t (h.eq t ht), fun he t => ?_⟩,
      .inl ⟨rfl, rfl, ?_⟩, ⟨k, by simp, rfl⟩, g3⟩
    · exact ⟨g1.nameMap, g1.nodup, g1.compat, g1.grades, g1.morohashi, g1.nelson⟩
    · rw [List.filter_append]
      unfold enumPush
      by_cases e : t = k.kanji.type
      · rw [if_pos e, filter_single_eq e.symm]; exact (h.sub t).append (List.Sublist.refl _)
      · rw [if_neg e, filter_single_ne (Ne.symm e), List.append_nil]; exact h.sub t
    · intro t x hx
      unfold enumPush at hx
      split at hx
      · rename_i e
        rcases List.mem_append.mp hx with hx | hx
        · exact h.typed t x hx
        · simp at hx; rw [hx, e]
      · exact h.typed t x hx
    · refine key t (h.noErr ?_ t)
      have : d1.errors = 0 := he
      omega
    · show enumPush d1.types k.kanji.type k = _
      rw [f1]
  · refine ⟨A, T, ⟨g1, h.sub, h.typed, h.eq, fun he => h.noErr ?_⟩, .inr ⟨rfl, rfl, f1, ?_⟩, g4, by simp only; omega⟩
    · have : d1.errors = 0 := he
      omega
    · simp only; omega

/-- Where a kanji can come from. -/
inductive Origin (l : Loaded) (f : KanjiFiles) : KanjiRec → Prop
  | jouyou (row info k) : row ∈ f.jouyou → jouyouFromRow l.ctx row = .ok (k, info) → Origin l f (l.record k)
  | jinmei (row info k) : row ∈ f.jinmei → jinmeiFromRow l.ctx row = .ok (k, info) → Origin l f (l.record k)
  | extra (row info k) : row ∈ f.extra → extraFromRow l.ctx row = .ok (k, info) → Origin l f (l.record k)
  | line (line jouyou linked rest link k) : line ∈ f.linkedJinmei → fields 0x09 line = jouyou :: linked :: rest →
      Origin l f link → link.kanji.name = jouyou → Kanji.makeLinked l.ctx linked link.kanji false = .ok k →
      Origin l f (l.record k)
  | old (link o k) : Origin l f link → o ∈ link.kanji.oldNames → Kanji.makeLinked l.ctx o link.kanji true = .ok k →
      Origin l f (l.record k)
  | jinmeiOld (row info link o k) : row ∈ f.jinmei → jinmeiFromRow l.ctx row = .ok (link, info) →
      o ∈ link.oldNames → Kanji.makeLinked l.ctx o link false = .ok k → Origin l f (l.record k)
  | frequency (i name k) : l.lists.frequency.list[i]? = some name →
      newListKanji l.ctx l.ids .frequency i name = .ok k → Origin l f k
  | kentei (q st i name k) : (q, st) ∈ l.lists.kyus → name ∈ st.list →
      newListKanji l.ctx l.ids (.kyu q) i name = .ok k → Origin l f k
  | ucd (u k) : u ∈ l.ucds → Kanji.makeUcd l.ctx u = .ok k → Origin l f (l.ids.record (some u) k)

theorem jouyou_row {c : KanjiCtx} {row : CellRow} {k : Kanji} {i : NumberedInfo} (h : jouyouFromRow c row = .ok (k, i)) :
    k.type = .jouyou ∧ k.name = row.name ∧ k.oldNames = getOldNames row.oldNames ∧ k.newName = none ∧
    k.frequency = c.frequency row.name ∧ k.level = c.level row.name ∧ k.kyu = c.kyu row.name ∧
    (∃ g, getGrade row.grade = .ok g ∧ k.grade = some g) ∧ cellU16 row.number = .ok i.number ∧
    getYear row.year = .ok i.year ∧ i.reason = none ∧ ∃ n, cellU8 row.strokes = .ok n ∧ Strokes.make n = .ok k.strokes := by
  unfold jouyouFromRow at h
  obtain ⟨n, h1, h⟩ := Res.bind_eq_ok h
  obtain ⟨_, h2, h⟩ := Res.bind_eq_ok h
  obtain ⟨_, h3, h⟩ := Res.bind_eq_ok h
  obtain ⟨_, _, h⟩ := Res.bind_eq_ok h
  obtain ⟨num, h4, h⟩ := Res.bind_eq_ok h
  obtain ⟨year, h5, h⟩ := Res.bind_eq_ok h
  obtain ⟨g, h6, h⟩ := Res.bind_eq_ok h
  obtain ⟨k', h7, h⟩ := Res.bind_eq_ok h
  cases h
  unfold Kanji.makeJouyou at h7
  obtain ⟨s, q1, h7⟩ := Res.bind_eq_ok h7
  obtain ⟨r, _, h7⟩ := Res.bind_eq_ok h7
  obtain ⟨_, _, h7⟩ := Res.bind_eq_ok h7
  cases h7
  exact ⟨rfl, rfl, rfl, rfl, rfl, rfl, rfl, ⟨g, h6, rfl⟩, h4, h5, rfl, n, h1, q1⟩

theorem jinmei_row {c : KanjiCtx} {row : CellRow} {k : Kanji} {i : NumberedInfo} (h : jinmeiFromRow c row = .ok (k, i)) :
    k.type = .jinmei ∧ k.name = row.name ∧ k.oldNames = getOldNames row.oldNames ∧ k.newName = none ∧
    k.frequency = c.frequency row.name ∧ k.level = c.level row.name ∧ k.kyu = c.kyu row.name ∧
    k.grade = none ∧ cellU16 row.number = .ok i.number ∧
    getYear row.year = .ok i.year ∧ i.reason = some row.reason ∧ row.reason ∈ allReasons := by
  unfold jinmeiFromRow at h
  obtain ⟨k', h7, h⟩ := Res.bind_eq_ok h
  obtain ⟨num, h4, h⟩ := Res.bind_eq_ok h
  obtain ⟨year, h5, h⟩ := Res.bind_eq_ok h
  split at h
  · rename_i hr
    cases h
    unfold Kanji.makeJinmei at h7
    obtain ⟨r, _, h7⟩ := Res.bind_eq_ok h7
    split at h7
    · cases h7
    · obtain ⟨_, _, h7⟩ := Res.bind_eq_ok h7; cases h7
      exact ⟨rfl, rfl, rfl, rfl, rfl, rfl, rfl, rfl, h4, h5, rfl, by simpa using hr⟩
  · cases h

theorem extra_row {c : KanjiCtx} {row : CellRow} {k : Kanji} {i : NumberedInfo} (h : extraFromRow c row = .ok (k, i)) :
    k.type = .extra ∧ k.name = row.name ∧ k.frequency = 0 ∧ k.level = none ∧ k.kyu = c.kyu row.name ∧
    k.grade = none ∧ cellU16 row.number = .ok i.number ∧ i.year = 0 ∧ i.reason = none ∧
    ∃ n, cellU8 row.strokes = .ok n ∧ Strokes.make n = .ok k.strokes := by
  unfold extraFromRow at h
  obtain ⟨n, h1, h⟩ := Res.bind_eq_ok h
  obtain ⟨k', h7, h⟩ := Res.bind_eq_ok h
  obtain ⟨num, h4, h⟩ := Res.bind_eq_ok h
  cases h
  unfold Kanji.makeExtra at h7
  obtain ⟨s, q1, h7⟩ := Res.bind_eq_ok h7
  obtain ⟨r, _, h7⟩ := Res.bind_eq_ok h7
  obtain ⟨_, _, h7⟩ := Res.bind_eq_ok h7; cases h7
  exact ⟨rfl, rfl, rfl, rfl, rfl, rfl, h4, rfl, rfl, n, h1, q1⟩

theorem linked_facts {c : KanjiCtx} {name : Str} {link k : Kanji} {isOld : Bool}
    (h : Kanji.makeLinked c name link isOld = .ok k) :
    k.type = (if isOld then .linkedOld else .linkedJinmei) ∧ k.name = name ∧ k.newName = some link.name ∧
    k.oldNames = [] ∧ k.frequency = c.frequency name ∧ k.level = none ∧ k.kyu = c.kyu name ∧ k.grade = none ∧
    (link.type = .jouyou ∨ (link.type = .jinmei ∧ isOld = false)) := by
  unfold Kanji.makeLinked at h
  split at h
  · cases h
  · rename_i hg
    split at h
    · cases h
    · obtain ⟨r, _, h⟩ := Res.bind_eq_ok h
      obtain ⟨_, _, h⟩ := Res.bind_eq_ok h; cases h
      refine ⟨rfl, rfl, rfl, rfl, rfl, rfl, rfl, rfl, ?_⟩
      by_cases e : link.type = .jouyou
      · exact .inl e
      · right
        simp only [ne_eq, e, not_false_eq_true, true_and, not_or, Decidable.not_not] at hg
        exact ⟨hg.2, by simpa using hg.1⟩

/-- What holds while the files are loaded. -/
structure Loading (l : Loaded) (f : KanjiFiles) (d : KanjiStore) (T : KanjiType → List KanjiRec) (A : List KanjiRec) :
    Prop where
  types : TypesInv d T A
  origin : ∀ k ∈ A, Origin l f k
  links : ∀ k ∈ A, k.kanji.type = .linkedJinmei ∨ k.kanji.type = .linkedOld →
    ∃ j ∈ A, k.kanji.newName = some j.kanji.name ∧
      (d.errors = 0 → j.kanji.type = .jouyou ∨ (j.kanji.type = .jinmei ∧ k.kanji.type = .linkedJinmei))

theorem links_grow {A new : List KanjiRec} {e e' : Nat} (he : e ≤ e')
    (h : ∀ k ∈ A, k.kanji.type = .linkedJinmei ∨ k.kanji.type = .linkedOld →
      ∃ j ∈ A, k.kanji.newName = some j.kanji.name ∧
        (e = 0 → j.kanji.type = .jouyou ∨ (j.kanji.type = .jinmei ∧ k.kanji.type = .linkedJinmei)))
    (hn : ∀ k ∈ new, k.kanji.type = .linkedJinmei ∨ k.kanji.type = .linkedOld →
      ∃ j ∈ A ++ new, k.kanji.newName = some j.kanji.name ∧
        (e' = 0 → j.kanji.type = .jouyou ∨ (j.kanji.type = .jinmei ∧ k.kanji.type = .linkedJinmei))) :
    ∀ k ∈ A ++ new, k.kanji.type = .linkedJinmei ∨ k.kanji.type = .linkedOld →
      ∃ j ∈ A ++ new, k.kanji.newName = some j.kanji.name ∧
        (e' = 0 → j.kanji.type = .jouyou ∨ (j.kanji.type = .jinmei ∧ k.kanji.type = .linkedJinmei)) := by
  intro k hk ht
  rcases List.mem_append.mp hk with hk | hk
  · obtain ⟨j, hj, h1, h2⟩ := h k hk ht
    exact ⟨j, List.mem_append_left _ hj, h1, fun h0 => h2 (by omega)⟩
  · exact hn k hk ht

/-- One row. -/
theorem Loading.row {l : Loaded} {f : KanjiFiles} {d : KanjiStore} {T : KanjiType → List KanjiRec} {A : List KanjiRec}
    (h : Loading l f d T A) (k : KanjiRec) (hk : k.kanji.type ∈ rowTypes) (ho : Origin l f k) :
    ∃ new, Loading l f (l.insert d k) (enumPush T k.kanji.type k) (A ++ new) ∧ (∀ x ∈ new, x = k) ∧
      (∃ x ∈ A ++ new, x.kanji.name = k.kanji.name) ∧ (l.insert d k).types = d.types ∧
      d.errors ≤ (l.insert d k).errors ∧ ((l.insert d k).errors = 0 → new = [k]) := by
  obtain ⟨A', h1, h2, h3, h4, h5, h6⟩ := h.types.row k (l.findUcd k.kanji.name) hk
  obtain ⟨new, rfl, hnew⟩ : ∃ new, A' = A ++ new ∧ ∀ x ∈ new, x = k := by
    rcases h2 with rfl | rfl
    · exact ⟨[k], rfl, by simp⟩
    · exact ⟨[], by simp, by simp⟩
  refine ⟨new, ⟨h1, ?_, links_grow h5 h.links ?_⟩, hnew, h3, h4, h5, fun he => ?_⟩
  · intro x hx
    rcases List.mem_append.mp hx with hx | hx
    · exact h.origin x hx
    · rw [hnew x hx]; exact ho
  · intro x hx ht
    rw [hnew x hx] at ht
    rcases ht with e | e <;> rw [e] at hk <;> simp [rowTypes] at hk
  · exact List.append_cancel_left (h6 he)

/-- All rows of a file. -/
theorem Loading.rows {l : Loaded} {f : KanjiFiles} (t : KanjiType) (ht : t ∈ rowTypes) : ∀ (ks : List KanjiRec)
    (d : KanjiStore) (T : KanjiType → List KanjiRec) (A : List KanjiRec),
    Loading l f d T A → (∀ k ∈ ks, k.kanji.type = t) → (∀ k ∈ ks, Origin l f k) →
    ∃ new, Loading l f (ks.foldl l.insert d) (fun x => if x = t then T x ++ ks else T x) (A ++ new) ∧ new.Sublist ks ∧
      (∀ k ∈ ks, ∃ x ∈ A ++ new, x.kanji.name = k.kanji.name) ∧ (ks.foldl l.insert d).types = d.types ∧
      d.errors ≤ (ks.foldl l.insert d).errors ∧ ((ks.foldl l.insert d).errors = 0 → new = ks) := by
  intro ks
  induction ks with
  | nil => intro d T A h _ _; exact ⟨[], by simpa using h, by simp, by simp, rfl, Nat.le_refl _, fun _ => rfl⟩
  | cons k ks ih =>
    intro d T A h h1 h2
    have hkt := h1 k (by simp)
    obtain ⟨n1, g1, g2, g3, g4, g5, g6⟩ := h.row k (by rw [hkt]; exact ht) (h2 k (by simp))
    obtain ⟨n2, i1, i2, i3, i4, i5, i6⟩ := ih _ _ _ g1 (fun x hx => h1 x (List.mem_cons_of_mem _ hx))
      (fun x hx => h2 x (List.mem_cons_of_mem _ hx))
    rw [List.append_assoc] at i1 i3
    rw [List.foldl_cons]
    refine ⟨n1 ++ n2, ?_, ?_, ?_, i4.trans g4, Nat.le_trans g5 i5, fun he => ?_⟩
    · have : (fun x => if x = t then enumPush T k.kanji.type k x ++ ks else enumPush T k.kanji.type k x) =
          fun x => if x = t then T x ++ k :: ks else T x := by
        funext x
        unfold enumPush
        by_cases e : x = t <;> simp [e, hkt]
      rw [← this]; exact i1
    · have : n1.Sublist [k] := by
        have hsub := g1.types.store.nodup
        rw [List.map_append, List.nodup_append] at hsub
        match n1, g2, hsub with
        | [], _, _ => simp
        | [x], g2, _ => simp [g2 x (by simp)]
        | x :: y :: r, g2, hsub =>
          rw [g2 x (by simp), g2 y (by simp)] at hsub
          simp at hsub
      exact this.append i2
    · intro x hx
      rcases List.mem_cons.mp hx with rfl | hx
      · obtain ⟨y, hy, e⟩ := g3
        exact ⟨y, by rw [← List.append_assoc]; exact List.mem_append_left _ hy, e⟩
      · exact i3 x hx
    · have e2 := i6 he
      have e1 := g6 (by omega)
      rw [e1, e2]; rfl

/-- Moving the rows into the list of the type. -/
theorem Loading.setType {l : Loaded} {f : KanjiFiles} {d : KanjiStore} {T : KanjiType → List KanjiRec}
    {A : List KanjiRec} (h : Loading l f d T A) (t : KanjiType) (ks : List KanjiRec) (hk : T t = ks)
    (hT : ∀ x, x ≠ t → T x = d.types x) : Loading l f (d.setType t ks) (d.setType t ks).types A := by
  have e : (d.setType t ks).types = T := by
    funext x
    show (if x = t then ks else d.types x) = T x
    by_cases hx : x = t
    · rw [if_pos hx, hx, hk]
    · rw [if_neg hx, hT x hx]
  rw [e]
  have s := h.types.store
  exact ⟨⟨⟨s.nameMap, s.nodup, s.compat, s.grades, s.morohashi, s.nelson⟩, h.types.sub, h.types.typed, h.types.eq,
    h.types.noErr⟩, h.origin, h.links⟩

/-- One linked kanji. -/
theorem Loading.linked {l : Loaded} {f : KanjiFiles} {d d' : KanjiStore} {T : KanjiType → List KanjiRec}
    {A : List KanjiRec} (h : Loading l f d T A) (isOld : Bool) (name : Str) (link : KanjiRec)
    (hl : ∃ j ∈ A, j.kanji.name = link.kanji.name ∧ (d.errors = 0 → j = link))
    (ho : ∀ k, Kanji.makeLinked l.ctx name link.kanji isOld = .ok k → Origin l f (l.record k))
    (hd : insertLinked l isOld name link d = .ok d') :
    ∃ new T', Loading l f d' T' (A ++ new) ∧ (∀ t, T t = d.types t → T' t = d'.types t) ∧
      (∀ t ∈ rowTypes, T' t = T t ∧ d'.types t = d.types t) ∧
      (∀ x ∈ new, x.kanji.name = name ∧ x.kanji.type = (if isOld then .linkedOld else .linkedJinmei) ∧
        x.kanji.newName = some link.kanji.name ∧ x.kanji.oldNames = []) ∧
      (∃ x ∈ A ++ new, x.kanji.name = name) ∧ d.errors ≤ d'.errors ∧ link.kanji.type ∈ [.jouyou, .jinmei] ∧
      (isOld = true → link.kanji.type = .jouyou) ∧ (d'.errors = 0 → new ≠ []) := by
  unfold insertLinked at hd
  obtain ⟨k, hm, hd⟩ := Res.bind_eq_ok hd
  cases hd
  obtain ⟨m1, m2, m3, m4, _, _, _, _, m9⟩ := linked_facts hm
  have hname : l.findUcd name = l.findUcd (l.record k).kanji.name := by
    show _ = l.findUcd k.name
    rw [m2]
  have htype : (if isOld then KanjiType.linkedOld else .linkedJinmei) = (l.record k).kanji.type := m1.symm
  have hrow : ∀ t ∈ rowTypes, t ≠ (l.record k).kanji.type := by
    rw [← htype]; cases isOld <;> decide
  rw [hname, htype]
  obtain ⟨A', T', g1, g2, g3, g4⟩ := h.types.single (l.record k) (l.findUcd (l.record k).kanji.name)
  obtain ⟨new, rfl, hnew, hT1, hT2, hne⟩ : ∃ new, A' = A ++ new ∧ (∀ x ∈ new, x = l.record k) ∧
      (∀ t, T t = d.types t → T' t =
        (d.checkInsertType (l.record k).kanji.type (l.record k) (l.findUcd (l.record k).kanji.name)).1.types t) ∧
      (∀ t ∈ rowTypes, T' t = T t ∧
        (d.checkInsertType (l.record k).kanji.type (l.record k) (l.findUcd (l.record k).kanji.name)).1.types t =
          d.types t) ∧
      ((d.checkInsertType (l.record k).kanji.type (l.record k) (l.findUcd (l.record k).kanji.name)).1.errors = 0 →
        new ≠ []) := by
    rcases g2 with ⟨e1, e2, e3⟩ | ⟨e1, e2, e3, e4⟩
    · refine ⟨[l.record k], e1, by simp, fun t ht => ?_, fun t ht => ?_, by simp⟩
      · rw [e2, e3]; unfold enumPush; rw [ht]
      · rw [e2, e3]; unfold enumPush; rw [if_neg (hrow t ht), if_neg (hrow t ht)]; exact ⟨rfl, rfl⟩
    · exact ⟨[], by simp [e1], by simp, fun t ht => by rw [e2, e3, ht], fun t _ => by rw [e2, e3]; exact ⟨rfl, rfl⟩,
        fun h0 => absurd h0 e4⟩
  refine ⟨new, T', ⟨g1, ?_, links_grow g4 h.links ?_⟩, hT1, hT2, ?_, ?_, g4, ?_, ?_, hne⟩
  · intro x hx
    rcases List.mem_append.mp hx with hx | hx
    · exact h.origin x hx
    · rw [hnew x hx]; exact ho k hm
  · intro x hx _
    rw [hnew x hx]
    obtain ⟨j, hj, j1, j2⟩ := hl
    refine ⟨j, List.mem_append_left _ hj, ?_, fun he => ?_⟩
    · show k.newName = _
      rw [m3, j1]
    · rw [j2 (by omega)]
      show _ ∨ (_ ∧ k.type = _)
      rcases m9 with e | ⟨e1, e2⟩
      · exact .inl e
      · exact .inr ⟨e1, by rw [m1, e2]; rfl⟩
  · intro x hx
    rw [hnew x hx]
    exact ⟨m2, rfl, m3, m4⟩
  · obtain ⟨x, hx, e⟩ := g3
    exact ⟨x, hx, e.trans m2⟩
  · rcases m9 with e | e
    · simp [e]
    · simp [e.1]
  · intro e
    rcases m9 with g | g
    · exact g
    · rw [e] at g; cases g.2

/-! ## The files one after the other -/

theorem fromRows_ok {α β : Type} (make : α → Res β) : ∀ (rows : List α) (ks : List β),
    fromRows make rows = .ok ks → rows.map make = ks.map .ok := by
  intro rows
  induction rows with
  | nil => intro ks h; cases h; rfl
  | cons r rows ih =>
    intro ks h
    rw [fromRows] at h
    obtain ⟨k, h1, h⟩ := Res.bind_eq_ok h
    obtain ⟨ks', h2, h⟩ := Res.bind_eq_ok h
    cases h
    rw [List.map_cons, List.map_cons, h1, ih ks' h2]

theorem fromRows_mem {α β : Type} {make : α → Res β} {rows : List α} {ks : List β} (h : fromRows make rows = .ok ks) :
    (∀ k ∈ ks, ∃ r ∈ rows, make r = .ok k) ∧ ∀ r ∈ rows, ∃ k ∈ ks, make r = .ok k := by
  have e := fromRows_ok make rows ks h
  constructor
  · intro k hk
    have : Res.ok k ∈ rows.map make := by rw [e]; exact List.mem_map.mpr ⟨k, hk, rfl⟩
    obtain ⟨r, hr, e⟩ := List.mem_map.mp this
    exact ⟨r, hr, e⟩
  · intro r hr
    have : make r ∈ ks.map Res.ok := by rw [← e]; exact List.mem_map.mpr ⟨r, hr, rfl⟩
    obtain ⟨k, hk, e⟩ := List.mem_map.mp this
    exact ⟨k, hk, e.symm⟩

theorem loading_empty (l : Loaded) (f : KanjiFiles) : Loading l f {} ({} : KanjiStore).types [] :=
  ⟨⟨storeInv_empty, fun _ => by simp, by simp, fun _ _ => rfl, fun _ _ => rfl⟩, by simp, by simp⟩

/-- The kanji of the rows of a file. -/
def rowKanji (l : Loaded) (make : CellRow → Res (Kanji × NumberedInfo)) (rows : List CellRow) : List KanjiRec :=
  rows.filterMap fun r => match make r with
    | .ok k => some (l.record k.1)
    | _ => none

theorem rowKanji_eq {l : Loaded} {make : CellRow → Res (Kanji × NumberedInfo)} {rows : List CellRow}
    {ks : List (Kanji × NumberedInfo)} (h : fromRows make rows = .ok ks) :
    ks.map (fun k => l.record k.1) = rowKanji l make rows := by
  have e := fromRows_ok make rows ks h
  have : rowKanji l make rows = (rows.map make).filterMap fun r => match r with
      | .ok k => some (l.record k.1)
      | _ => none := by
    rw [rowKanji, List.filterMap_map]; rfl
  rw [this, e, List.filterMap_map]
  induction ks with
  | nil => rfl
  | cons k ks _ => simp [Function.comp_def]

theorem loadJouyou_spec {l : Loaded} {f : KanjiFiles} {d' : KanjiStore} (h : loadJouyou l f.jouyou {} = .ok d') :
    ∃ A, Loading l f d' d'.types A ∧ (∀ k ∈ A, k.kanji.type = .jouyou) ∧
      d'.types .jouyou = rowKanji l (jouyouFromRow l.ctx) f.jouyou ∧
      (∀ k ∈ d'.types .jouyou, ∃ x ∈ A, x.kanji.name = k.kanji.name) := by
  unfold loadJouyou at h
  obtain ⟨ks, h1, h⟩ := Res.bind_eq_ok h
  cases h
  have hm := (fromRows_mem h1).1
  obtain ⟨new, g1, g2, g3, g4, g5, g6⟩ := (loading_empty l f).rows .jouyou (by decide) (ks.map fun k => l.record k.1)
    {} _ [] (by
      intro k hk
      obtain ⟨x, hx, rfl⟩ := List.mem_map.mp hk
      obtain ⟨r, _, hr⟩ := hm x hx
      exact (jouyou_row hr).1) (by
      intro k hk
      obtain ⟨x, hx, rfl⟩ := List.mem_map.mp hk
      obtain ⟨r, hrm, hr⟩ := hm x hx
      exact .jouyou r x.2 x.1 hrm hr)
  rw [List.nil_append] at g1 g3
  have hs := g1.setType .jouyou (ks.map fun k => l.record k.1) rfl (by
    intro x hx
    rw [g4]
    show (if x = .jouyou then _ else _) = _
    rw [if_neg hx])
  have e : ∀ d : KanjiStore, (d.setType .jouyou (ks.map fun k => l.record k.1)).types .jouyou =
      ks.map fun k => l.record k.1 := fun d => by simp [KanjiStore.setType]
  refine ⟨new, hs, fun k hk => ?_, ?_, ?_⟩
  · obtain ⟨x, hx, rfl⟩ := List.mem_map.mp (g2.subset hk)
    obtain ⟨r, _, hr⟩ := hm x hx
    exact (jouyou_row hr).1
  · rw [e]; exact rowKanji_eq h1
  · rw [e]; exact g3

theorem nameMap_lookup {d : KanjiStore} {A : List KanjiRec} (h : StoreInv d A) {s : Str} {k : KanjiRec}
    (hk : d.nameMap.lookup s = some k) : k ∈ A ∧ k.kanji.name = s := by
  rw [h.nameMap, any_name_iff] at hk
  exact ⟨List.mem_of_find?_eq_some hk, by simpa using List.find?_some hk⟩

theorem loadLinkedLines_spec {l : Loaded} {f : KanjiFiles} : ∀ (lines : List Str) (d d' : KanjiStore)
    (A : List KanjiRec), Loading l f d d.types A → (∀ x ∈ lines, x ∈ f.linkedJinmei) →
    loadLinkedLines l lines d = .ok d' →
    ∃ new, Loading l f d' d'.types (A ++ new) ∧ (∀ t ∈ rowTypes, d'.types t = d.types t) ∧ d.errors ≤ d'.errors ∧
      (∀ x ∈ new, x.kanji.type = .linkedJinmei ∧ x.kanji.oldNames = []) ∧
      ∀ line ∈ lines, ∃ jouyou linked rest, fields 0x09 line = jouyou :: linked :: rest ∧
        (∃ x ∈ A ++ new, x.kanji.name = jouyou) ∧ ∃ x ∈ A ++ new, x.kanji.name = linked := by
  intro lines
  induction lines with
  | nil =>
    intro d d' A h _ hd
    cases hd
    exact ⟨[], by simpa using h, fun _ _ => rfl, Nat.le_refl _, by simp, by simp⟩
  | cons line lines ih =>
    intro d d' A h hl hd
    rw [loadLinkedLines] at hd
    split at hd
    · rename_i jouyou linked rest hf
      split at hd
      · cases hd
      · rename_i k hk
        obtain ⟨d1, h1, hd⟩ := Res.bind_eq_ok hd
        obtain ⟨hkA, hkn⟩ := nameMap_lookup h.types.store hk
        obtain ⟨n1, T', g1, g2, g3, g4, g5, g6, _, _, _⟩ := h.linked false linked k ⟨k, hkA, rfl, fun _ => rfl⟩
          (fun x hx => .line line jouyou linked rest k x (hl line (by simp)) hf (h.origin k hkA) hkn hx) h1
        have eT : T' = d1.types := funext fun t => g2 t rfl
        rw [eT] at g1 g3
        obtain ⟨n2, i1, i2, i3, i4, i5⟩ := ih d1 d' _ g1 (fun x hx => hl x (List.mem_cons_of_mem _ hx)) hd
        rw [List.append_assoc] at i1 i5
        refine ⟨n1 ++ n2, i1, fun t ht => (i2 t ht).trans (g3 t ht).2, Nat.le_trans g6 i3, ?_, ?_⟩
        · intro x hx
          rcases List.mem_append.mp hx with hx | hx
          · obtain ⟨_, a2, _, a4⟩ := g4 x hx
            exact ⟨a2, a4⟩
          · exact i4 x hx
        · intro x hx
          rcases List.mem_cons.mp hx with rfl | hx
          · refine ⟨jouyou, linked, rest, hf, ⟨k, List.mem_append_left _ hkA, hkn⟩, ?_⟩
            obtain ⟨y, hy, e⟩ := g5
            exact ⟨y, by rw [← List.append_assoc]; exact List.mem_append_left _ hy, e⟩
          · exact i5 x hx
    · cases hd

/-! ### The order of iteration -/

theorem insertByName_mem (k x : KanjiRec) (r : List KanjiRec) : x ∈ insertByName k r ↔ x = k ∨ x ∈ r := by
  induction r with
  | nil => simp [insertByName]
  | cons y r ih =>
    rw [insertByName]
    split
    · simp
    · simp only [List.mem_cons, ih]
      constructor
      · rintro (h | h | h)
        · exact .inr (.inl h)
        · exact .inl h
        · exact .inr (.inr h)
      · rintro (h | h | h)
        · exact .inr (.inl h)
        · exact .inl h
        · exact .inr (.inr h)

theorem insertByName_sorted (k : KanjiRec) (r : List KanjiRec)
    (h : r.Pairwise fun a b => strLt a.kanji.name b.kanji.name = true) (hn : ∀ x ∈ r, x.kanji.name ≠ k.kanji.name) :
    (insertByName k r).Pairwise fun a b => strLt a.kanji.name b.kanji.name = true := by
  induction r with
  | nil => simp [insertByName]
  | cons y r ih =>
    rw [List.pairwise_cons] at h
    rw [insertByName]
    split
    · rename_i hlt
      rw [List.pairwise_cons, List.pairwise_cons]
      refine ⟨fun z hz => ?_, h⟩
      rcases List.mem_cons.mp hz with rfl | hz
      · exact hlt
      · exact strLt_total.trans _ _ _ hlt (h.1 z hz)
    · rename_i hlt
      rw [List.pairwise_cons]
      refine ⟨fun z hz => ?_, ih h.2 fun x hx => hn x (List.mem_cons_of_mem _ hx)⟩
      rcases (insertByName_mem k z r).mp hz with rfl | hz
      · rcases strLt_total.total y.kanji.name z.kanji.name with g | g | g
        · exact g
        · exact absurd g (hn y (by simp))
        · exact absurd g hlt
      · exact h.1 z hz

/-- The order of iteration has the kanji of the map, sorted by name. -/
theorem mapOrder_spec {d : KanjiStore} {A : List KanjiRec} (h : StoreInv d A) :
    (∀ x, x ∈ mapOrder d.nameMap ↔ x ∈ A) ∧
    (mapOrder d.nameMap).Pairwise fun a b => strLt a.kanji.name b.kanji.name = true := by
  rw [h.nameMap, mapOrder, List.foldl_map]
  have gen : ∀ (B r : List KanjiRec), (r.Pairwise fun a b => strLt a.kanji.name b.kanji.name = true) →
      (B.map (·.kanji.name)).Nodup → (∀ x ∈ r, x.kanji.name ∉ B.map (·.kanji.name)) →
      (∀ x, x ∈ B.foldl (fun r p => insertByName p r) r ↔ x ∈ r ∨ x ∈ B) ∧
      (B.foldl (fun r p => insertByName p r) r).Pairwise fun a b => strLt a.kanji.name b.kanji.name = true := by
    intro B
    induction B with
    | nil => intro r h _ _; simpa using h
    | cons b B ih =>
      intro r hs hn hd
      rw [List.map_cons, List.nodup_cons] at hn
      have := ih (insertByName b r) (insertByName_sorted b r hs fun x hx e => hd x hx (by simp [e])) hn.2 (by
        intro x hx
        rcases (insertByName_mem b x r).mp hx with rfl | hx
        · exact hn.1
        · intro hm
          exact hd x hx (List.mem_cons_of_mem _ hm))
      rw [List.foldl_cons]
      refine ⟨fun x => ?_, this.2⟩
      rw [this.1 x, insertByName_mem, List.mem_cons]
      constructor
      · rintro ((h | h) | h)
        · exact .inr (.inl h)
        · exact .inl h
        · exact .inr (.inr h)
      · rintro (h | h | h)
        · exact .inl (.inr h)
        · exact .inl (.inl h)
        · exact .inr h
  have := gen A [] List.Pairwise.nil h.nodup (by simp)
  exact ⟨fun x => by rw [this.1 x]; simp, this.2⟩

/-! ### Old names -/

theorem matches_of_find {d : KanjiStore} {A : List KanjiRec} (h : StoreInv d A) (s : Str) :
    (d.findByName s).isSome ↔ ∃ k ∈ A, Matches s k := findByName_isSome h s

theorem loadOldNames_spec {l : Loaded} {f : KanjiFiles} (link : KanjiRec) : ∀ (js : List Str) (d d' : KanjiStore)
    (A : List KanjiRec), Loading l f d d.types A → link ∈ A → (∀ j ∈ js, j ∈ link.kanji.oldNames) →
    loadOldNames l link js d = .ok d' →
    ∃ new, Loading l f d' d'.types (A ++ new) ∧ (∀ t ∈ rowTypes, d'.types t = d.types t) ∧ d.errors ≤ d'.errors ∧
      (∀ x ∈ new, x.kanji.type = .linkedOld ∧ x.kanji.oldNames = [] ∧ x.kanji.name ∈ js ∧
        x.kanji.newName = some link.kanji.name ∧ link.kanji.type = .jouyou ∧ ¬ ∃ y ∈ A, Matches x.kanji.name y) ∧
      ∀ j ∈ js, ∃ x ∈ A ++ new, Matches j x := by
  intro js
  induction js with
  | nil =>
    intro d d' A h _ _ hd
    cases hd
    exact ⟨[], by simpa using h, fun _ _ => rfl, Nat.le_refl _, by simp, by simp⟩
  | cons j js ih =>
    intro d d' A h hl hj hd
    rw [loadOldNames] at hd
    split at hd
    · rename_i k hk
      obtain ⟨new, i1, i2, i3, i4, i5⟩ := ih d d' A h hl (fun x hx => hj x (List.mem_cons_of_mem _ hx)) hd
      refine ⟨new, i1, i2, i3, fun x hx => ?_, fun x hx => ?_⟩
      · obtain ⟨a1, a2, a3, a4⟩ := i4 x hx
        exact ⟨a1, a2, List.mem_cons_of_mem _ a3, a4⟩
      · rcases List.mem_cons.mp hx with rfl | hx
        · obtain ⟨y, hy, e⟩ := (matches_of_find h.types.store x).mp (by rw [hk]; rfl)
          exact ⟨y, List.mem_append_left _ hy, e⟩
        · exact i5 x hx
    · rename_i hk
      obtain ⟨d1, h1, hd⟩ := Res.bind_eq_ok hd
      obtain ⟨n1, T', g1, g2, g3, g4, g5, g6, _, g8, _⟩ := h.linked true j link ⟨link, hl, rfl, fun _ => rfl⟩
        (fun x hx => .old link j x (h.origin link hl) (hj j (by simp)) hx) h1
      have eT : T' = d1.types := funext fun t => g2 t rfl
      rw [eT] at g1 g3
      obtain ⟨n2, i1, i2, i3, i4, i5⟩ := ih d1 d' _ g1 (List.mem_append_left _ hl)
        (fun x hx => hj x (List.mem_cons_of_mem _ hx)) hd
      rw [List.append_assoc] at i1 i5
      refine ⟨n1 ++ n2, i1, fun t ht => (i2 t ht).trans (g3 t ht).2, Nat.le_trans g6 i3, ?_, ?_⟩
      · intro x hx
        rcases List.mem_append.mp hx with hx | hx
        · obtain ⟨a1, a2, a3, a4⟩ := g4 x hx
          refine ⟨a2, a4, by rw [a1]; simp, a3, g8 rfl, ?_⟩
          rw [a1, ← matches_of_find h.types.store, hk]; simp
        · obtain ⟨a1, a2, a3, a4, a5, a6⟩ := i4 x hx
          refine ⟨a1, a2, List.mem_cons_of_mem _ a3, a4, a5, ?_⟩
          rintro ⟨y, hy, e⟩
          exact a6 ⟨y, List.mem_append_left _ hy, e⟩
      · intro x hx
        rcases List.mem_cons.mp hx with rfl | hx
        · obtain ⟨y, hy, e⟩ := g5
          exact ⟨y, by rw [← List.append_assoc]; exact List.mem_append_left _ hy, .inl e⟩
        · exact i5 x hx

theorem loadAllOldNames_spec {l : Loaded} {f : KanjiFiles} : ∀ (ks P : List KanjiRec) (d d' : KanjiStore)
    (A : List KanjiRec), Loading l f d d.types A →
    ((P ++ ks).Pairwise fun a b => strLt a.kanji.name b.kanji.name = true) → (∀ k ∈ ks, k ∈ A) →
    (∀ y ∈ P, ∀ o ∈ y.kanji.oldNames, ∃ x ∈ A, Matches o x) → loadAllOldNames l ks d = .ok d' →
    ∃ new, Loading l f d' d'.types (A ++ new) ∧ (∀ t ∈ rowTypes, d'.types t = d.types t) ∧ d.errors ≤ d'.errors ∧
      (∀ y ∈ P ++ ks, ∀ o ∈ y.kanji.oldNames, ∃ x ∈ A ++ new, Matches o x) ∧
      ∀ x ∈ new, x.kanji.type = .linkedOld ∧ x.kanji.oldNames = [] ∧ (¬ ∃ y ∈ A, Matches x.kanji.name y) ∧
        ∃ j ∈ P ++ ks, j.kanji.type = .jouyou ∧
        x.kanji.newName = some j.kanji.name ∧ x.kanji.name ∈ j.kanji.oldNames ∧
        ∀ y ∈ P ++ ks, x.kanji.name ∈ y.kanji.oldNames → y = j ∨ strLt j.kanji.name y.kanji.name = true := by
  intro ks
  induction ks with
  | nil =>
    intro P d d' A h _ _ hP hd
    cases hd
    exact ⟨[], by simpa using h, fun _ _ => rfl, Nat.le_refl _, by simpa using hP, by simp⟩
  | cons k ks ih =>
    intro P d d' A h hs hk hP hd
    rw [loadAllOldNames] at hd
    obtain ⟨d1, h1, hd⟩ := Res.bind_eq_ok hd
    obtain ⟨n1, g1, g2, g3, g4, g5⟩ := loadOldNames_spec k k.kanji.oldNames d d1 A h (hk k (by simp)) (fun _ h => h) h1
    have e : P ++ k :: ks = (P ++ [k]) ++ ks := by simp
    obtain ⟨n2, i1, i2, i3, i4, i5⟩ := ih (P ++ [k]) d1 d' (A ++ n1) g1 (by rw [← e]; exact hs)
      (fun x hx => List.mem_append_left _ (hk x (List.mem_cons_of_mem _ hx))) (by
        intro y hy o ho
        rcases List.mem_append.mp hy with hy | hy
        · obtain ⟨x, hx, e⟩ := hP y hy o ho
          exact ⟨x, List.mem_append_left _ hx, e⟩
        · simp only [List.mem_singleton] at hy
          rw [hy] at ho
          exact g5 o ho) hd
    rw [← e] at i4 i5
    rw [List.append_assoc] at i1 i4
    refine ⟨n1 ++ n2, i1, fun t ht => (i2 t ht).trans (g2 t ht), Nat.le_trans g3 i3, i4, ?_⟩
    intro x hx
    rcases List.mem_append.mp hx with hx | hx
    · obtain ⟨a1, a2, a3, a4, a5, a6⟩ := g4 x hx
      refine ⟨a1, a2, a6, k, by simp, a5, a4, a3, fun y hy ho => ?_⟩
      rcases List.mem_append.mp hy with hy | hy
      · exact absurd (hP y hy _ ho) a6
      · rcases List.mem_cons.mp hy with rfl | hy
        · exact .inl rfl
        · right
          have := (List.pairwise_append.mp hs).2.1
          exact (List.pairwise_cons.mp this).1 y hy
    · obtain ⟨a1, a2, a3, a4⟩ := i5 x hx
      refine ⟨a1, a2, ?_, a4⟩
      rintro ⟨y, hy, e⟩
      exact a3 ⟨y, List.mem_append_left _ hy, e⟩

theorem loadOfficialLinked_spec {l : Loaded} {f : KanjiFiles} {d d' : KanjiStore} {A : List KanjiRec}
    (h : Loading l f d d.types A) (hd : loadOfficialLinked l f.linkedJinmei d = .ok d') :
    ∃ n1 n2, Loading l f d' d'.types (A ++ (n1 ++ n2)) ∧ (∀ t ∈ rowTypes, d'.types t = d.types t) ∧ d.errors ≤ d'.errors ∧
      (∀ x ∈ n1, x.kanji.type = .linkedJinmei ∧ x.kanji.oldNames = []) ∧
      (∀ line ∈ f.linkedJinmei, ∃ jouyou linked rest, fields 0x09 line = jouyou :: linked :: rest ∧
        (∃ x ∈ A ++ n1, x.kanji.name = jouyou) ∧ ∃ x ∈ A ++ n1, x.kanji.name = linked) ∧
      (∀ y ∈ A, ∀ o ∈ y.kanji.oldNames, ∃ x ∈ A ++ (n1 ++ n2), Matches o x) ∧
      ∀ x ∈ n2, x.kanji.type = .linkedOld ∧ x.kanji.oldNames = [] ∧ (¬ ∃ y ∈ A ++ n1, Matches x.kanji.name y) ∧
        ∃ j ∈ A, j.kanji.type = .jouyou ∧ x.kanji.newName = some j.kanji.name ∧ x.kanji.name ∈ j.kanji.oldNames ∧
        ∀ y ∈ A, x.kanji.name ∈ y.kanji.oldNames → y = j ∨ strLt j.kanji.name y.kanji.name = true := by
  unfold loadOfficialLinked at hd
  obtain ⟨d1, h1, hd⟩ := Res.bind_eq_ok hd
  obtain ⟨n1, g1, g2, g3, g4, g5⟩ := loadLinkedLines_spec f.linkedJinmei d d1 A h (fun _ h => h) h1
  obtain ⟨o1, o2⟩ := mapOrder_spec g1.types.store
  obtain ⟨n2, i1, i2, i3, i4, i5⟩ := loadAllOldNames_spec (mapOrder d1.nameMap) [] d1 d' _ g1 (by simpa using o2)
    (fun k hk => (o1 k).mp hk) (by simp) hd
  rw [List.append_assoc] at i1
  refine ⟨n1, n2, i1, fun t ht => (i2 t ht).trans (g2 t ht), Nat.le_trans g3 i3, g4, g5, ?_, ?_⟩
  · intro y hy o ho
    have := i4 y (by rw [List.nil_append, o1]; exact List.mem_append_left _ hy) o ho
    rw [List.append_assoc] at this
    exact this
  · intro x hx
    obtain ⟨a1, a2, a3, j, hj, a4, a5, a6, a7⟩ := i5 x hx
    rw [List.nil_append, o1] at hj
    have hjA : j ∈ A := by
      rcases List.mem_append.mp hj with hj | hj
      · exact hj
      · rw [(g4 j hj).1] at a4; cases a4
    refine ⟨a1, a2, a3, j, hjA, a4, a5, a6, fun y hy ho => ?_⟩
    exact a7 y (by rw [List.nil_append, o1]; exact List.mem_append_left _ hy) ho

theorem loadJinmeiOld_spec {l : Loaded} {f : KanjiFiles} (row : CellRow) (info : NumberedInfo) (link : Kanji)
    (hrow : row ∈ f.jinmei) (hr : jinmeiFromRow l.ctx row = .ok (link, info)) : ∀ (js : List Str) (d d' : KanjiStore)
    (T : KanjiType → List KanjiRec) (A : List KanjiRec), Loading l f d T A → (∀ j ∈ js, j ∈ link.oldNames) →
    (∃ j ∈ A, j.kanji.name = link.name ∧ (d.errors = 0 → j = l.record link)) →
    loadJinmeiOld l (l.record link) js d = .ok d' →
    ∃ new T', Loading l f d' T' (A ++ new) ∧ (∀ t, T t = d.types t → T' t = d'.types t) ∧
      (∀ t ∈ rowTypes, T' t = T t ∧ d'.types t = d.types t) ∧ d.errors ≤ d'.errors ∧
      (∀ x ∈ new, x.kanji.type = .linkedJinmei ∧ x.kanji.oldNames = []) ∧
      (∀ j ∈ js, ∃ x ∈ A ++ new, x.kanji.name = j) := by
  intro js
  induction js with
  | nil =>
    intro d d' T A h _ _ hd
    cases hd
    exact ⟨[], T, by simpa using h, fun _ h => h, fun _ _ => ⟨rfl, rfl⟩, Nat.le_refl _, by simp, by simp⟩
  | cons j js ih =>
    intro d d' T A h hj hl hd
    rw [loadJinmeiOld] at hd
    obtain ⟨d1, h1, hd⟩ := Res.bind_eq_ok hd
    obtain ⟨n1, T1, g1, g2, g3, g4, g5, g6, _, _, _⟩ := h.linked false j (l.record link) hl
      (fun x hx => .jinmeiOld row info link j x hrow hr (hj j (by simp)) hx) h1
    obtain ⟨n2, T2, i1, i2, i3, i4, i5, i6⟩ := ih d1 d' T1 _ g1 (fun x hx => hj x (List.mem_cons_of_mem _ hx)) (by
        obtain ⟨y, hy, e1, e2⟩ := hl
        exact ⟨y, List.mem_append_left _ hy, e1, fun he => e2 (by omega)⟩) hd
    rw [List.append_assoc] at i1 i6
    refine ⟨n1 ++ n2, T2, i1, fun t ht => i2 t (g2 t ht),
      fun t ht => ⟨(i3 t ht).1.trans (g3 t ht).1, (i3 t ht).2.trans (g3 t ht).2⟩, Nat.le_trans g6 i4, ?_, ?_⟩
    · intro x hx
      rcases List.mem_append.mp hx with hx | hx
      · obtain ⟨_, a2, _, a4⟩ := g4 x hx
        exact ⟨a2, a4⟩
      · exact i5 x hx
    · intro x hx
      rcases List.mem_cons.mp hx with rfl | hx
      · obtain ⟨y, hy, e⟩ := g5
        exact ⟨y, by rw [← List.append_assoc]; exact List.mem_append_left _ hy, e⟩
      · exact i6 x hx

theorem loadJinmeiLoop_spec {l : Loaded} {f : KanjiFiles} : ∀ (ks done : List KanjiRec) (d d' : KanjiStore)
    (A : List KanjiRec), Loading l f d (fun t => if t = .jinmei then done else d.types t) A →
    (∀ k ∈ ks, ∃ row info link, row ∈ f.jinmei ∧ jinmeiFromRow l.ctx row = .ok (link, info) ∧ k = l.record link) →
    loadJinmeiLoop l ks d = .ok d' →
    ∃ new, Loading l f d' (fun t => if t = .jinmei then done ++ ks else d'.types t) (A ++ new) ∧
      (∀ t ∈ rowTypes, d'.types t = d.types t) ∧ d.errors ≤ d'.errors ∧
      (∀ x ∈ new, x.kanji.type = .jinmei ∨ x.kanji.type = .linkedJinmei) ∧
      (∀ k ∈ ks, (∃ x ∈ A ++ new, x.kanji.name = k.kanji.name) ∧
        ∀ o ∈ k.kanji.oldNames, ∃ x ∈ A ++ new, x.kanji.name = o) := by
  intro ks
  induction ks with
  | nil =>
    intro done d d' A h _ hd
    cases hd
    exact ⟨[], by simpa using h, fun _ _ => rfl, Nat.le_refl _, by simp, by simp⟩
  | cons k ks ih =>
    intro done d d' A h hk hd
    rw [loadJinmeiLoop] at hd
    obtain ⟨d1, h1, hd2⟩ := Res.bind_eq_ok hd
    obtain ⟨row, info, link, hrow, hr, rfl⟩ := hk k (by simp)
    obtain ⟨f1, f2, f3, _⟩ := jinmei_row hr
    have htype : (l.record link).kanji.type = .jinmei := f1
    obtain ⟨n1, g1, g2, g3, g4, g5, g6⟩ := h.row (l.record link) (by rw [htype]; decide) (.jinmei row info link hrow hr)
    obtain ⟨n2, T2, i1, i2, i3, i4, i5, i6⟩ := loadJinmeiOld_spec row info link hrow hr _ _ d1 _ _ g1 (fun _ h => h) (by
        obtain ⟨y, hy, e⟩ := g3
        refine ⟨y, hy, e, fun he => ?_⟩
        have en := g6 he
        rw [en] at hy g1
        have hnd := g1.types.store.nodup
        have q1 := find_name hnd y hy
        have q2 := find_name hnd (l.record link) (by simp)
        rw [e, q2] at q1
        exact (Option.some.inj q1).symm) h1
    have eT : T2 = fun t => if t = .jinmei then done ++ [l.record link] else d1.types t := by
      funext t
      by_cases e : t = .jinmei
      · rw [e, if_pos rfl, (i3 .jinmei (by decide)).1, htype]; simp [enumPush]
      · rw [if_neg e]
        apply i2
        rw [htype, g4]
        show (if t = .jinmei then _ else _) = _
        rw [if_neg e]; exact if_neg e
    rw [eT] at i1
    rw [List.append_assoc] at i1 i6
    obtain ⟨n3, j1, j2, j3, j4, j5⟩ := ih _ d1 d' _ i1 (fun x hx => hk x (List.mem_cons_of_mem _ hx)) hd2
    have eA : A ++ (n1 ++ n2) ++ n3 = A ++ (n1 ++ n2 ++ n3) := by simp
    rw [eA] at j1 j5
    rw [List.append_assoc] at j1
    refine ⟨n1 ++ n2 ++ n3, ?_, fun t ht => ?_, Nat.le_trans g5 (Nat.le_trans i4 j3), ?_, ?_⟩
    · rw [List.append_assoc n1]; simpa using j1
    · rw [j2 t ht, (i3 t ht).2, g4]
    · intro x hx
      rcases List.mem_append.mp hx with hx | hx
      · rcases List.mem_append.mp hx with hx | hx
        · rw [g2 x hx]; exact .inl htype
        · exact .inr (i5 x hx).1
      · exact j4 x hx
    · intro x hx
      rcases List.mem_cons.mp hx with rfl | hx
      · refine ⟨?_, fun o ho => ?_⟩
        · obtain ⟨y, hy, e⟩ := g3
          refine ⟨y, ?_, e⟩
          rcases List.mem_append.mp hy with hy | hy
          · exact List.mem_append_left _ hy
          · exact List.mem_append_right _ (List.mem_append_left _ (List.mem_append_left _ hy))
        · obtain ⟨y, hy, e⟩ := i6 o ho
          refine ⟨y, ?_, e⟩
          rw [← eA]; exact List.mem_append_left _ hy
      · exact j5 x hx

theorem loadJinmei_spec {l : Loaded} {f : KanjiFiles} {d d' : KanjiStore} {A : List KanjiRec}
    (h : Loading l f d d.types A) (h0 : d.types .jinmei = []) (hd : loadJinmei l f.jinmei d = .ok d') :
    ∃ new, Loading l f d' d'.types (A ++ new) ∧
      d'.types .jinmei = rowKanji l (jinmeiFromRow l.ctx) f.jinmei ∧
      d'.types .jouyou = d.types .jouyou ∧ d'.types .extra = d.types .extra ∧ d.errors ≤ d'.errors ∧
      (∀ x ∈ new, x.kanji.type = .jinmei ∨ x.kanji.type = .linkedJinmei) ∧
      ∀ k ∈ d'.types .jinmei, (∃ x ∈ A ++ new, x.kanji.name = k.kanji.name) ∧
        ∀ o ∈ k.kanji.oldNames, ∃ x ∈ A ++ new, x.kanji.name = o := by
  unfold loadJinmei at hd
  obtain ⟨ks, h1, hd⟩ := Res.bind_eq_ok hd
  obtain ⟨d1, h2, hd⟩ := Res.bind_eq_ok hd
  cases hd
  have hm := (fromRows_mem h1).1
  have e0 : d.types = fun t => if t = .jinmei then [] else d.types t := by
    funext t
    by_cases e : t = .jinmei
    · rw [if_pos e, e, h0]
    · rw [if_neg e]
  rw [e0] at h
  obtain ⟨new, g1, g2, g3, g4, g5⟩ := loadJinmeiLoop_spec (ks.map fun k => l.record k.1) [] d d1 A h (by
    intro k hk
    obtain ⟨x, hx, rfl⟩ := List.mem_map.mp hk
    obtain ⟨r, hrm, hr⟩ := hm x hx
    exact ⟨r, x.2, x.1, hrm, hr, rfl⟩) h2
  rw [List.nil_append] at g1
  have hs := g1.setType .jinmei (ks.map fun k => l.record k.1) (if_pos rfl) (fun x hx => if_neg hx)
  have e : (d1.setType .jinmei (ks.map fun k => l.record k.1)).types .jinmei = ks.map fun k => l.record k.1 := by
    simp [KanjiStore.setType]
  refine ⟨new, hs, ?_, ?_, ?_, g3, g4, ?_⟩
  · rw [e]; exact rowKanji_eq h1
  · exact g2 .jouyou (by decide)
  · exact g2 .extra (by decide)
  · rw [e]; exact g5

theorem loadExtra_spec {l : Loaded} {f : KanjiFiles} {d d' : KanjiStore} {A : List KanjiRec}
    (h : Loading l f d d.types A) (h0 : d.types .extra = []) (hd : loadExtra l f.extra d = .ok d') :
    ∃ new, Loading l f d' d'.types (A ++ new) ∧
      d'.types .extra = rowKanji l (extraFromRow l.ctx) f.extra ∧
      d'.types .jouyou = d.types .jouyou ∧ d'.types .jinmei = d.types .jinmei ∧ d.errors ≤ d'.errors ∧
      (∀ x ∈ new, x.kanji.type = .extra) ∧
      ∀ k ∈ d'.types .extra, ∃ x ∈ A ++ new, x.kanji.name = k.kanji.name := by
  unfold loadExtra at hd
  obtain ⟨ks, h1, hd⟩ := Res.bind_eq_ok hd
  cases hd
  have hm := (fromRows_mem h1).1
  have htype : ∀ k ∈ ks.map (fun k => l.record k.1), k.kanji.type = .extra := by
    intro k hk
    obtain ⟨x, hx, rfl⟩ := List.mem_map.mp hk
    obtain ⟨r, _, hr⟩ := hm x hx
    exact (extra_row hr).1
  obtain ⟨new, g1, g2, g3, g4, g5, g6⟩ := h.rows .extra (by decide) (ks.map fun k => l.record k.1) d _ A htype (by
      intro k hk
      obtain ⟨x, hx, rfl⟩ := List.mem_map.mp hk
      obtain ⟨r, hrm, hr⟩ := hm x hx
      exact .extra r x.2 x.1 hrm hr)
  have hs := g1.setType .extra (ks.map fun k => l.record k.1) (by simp [h0]) (by
    intro x hx
    rw [g4]
    show (if x = .extra then _ else _) = _
    rw [if_neg hx])
  have e : ∀ d : KanjiStore, (d.setType .extra (ks.map fun k => l.record k.1)).types .extra =
      ks.map fun k => l.record k.1 := fun d => by simp [KanjiStore.setType]
  refine ⟨new, hs, ?_, ?_, ?_, g5, fun x hx => htype x (g2.subset hx), ?_⟩
  · rw [e]; exact rowKanji_eq h1
  · exact congrFun g4 .jouyou
  · exact congrFun g4 .jinmei
  · rw [e]; exact g3

theorem addToList_errors (kind : ListKind) (d d' : KanjiStore) (k : KanjiRec) (h : d.addToList kind k = .ok d') :
    d'.errors = d.errors ∧ ∀ x, kind = .level x → k.kanji.level.isSome := by
  unfold KanjiStore.addToList at h
  cases kind with
  | kyu q =>
    simp only [KanjiStore.addToKyus] at h
    split at h
    · cases h; exact ⟨rfl, by simp⟩
    · cases h
  | level q =>
    simp only [KanjiStore.addToLevels] at h
    split at h
    · rename_i hl; cases h; exact ⟨rfl, by simp [hl]⟩
    · cases h
  | frequency =>
    simp only [KanjiStore.addToFrequencies] at h
    obtain ⟨a, _, h⟩ := Res.bind_eq_ok h
    cases h
    exact ⟨rfl, by simp⟩

/-- The kanji made by `processList`. -/
theorem processList_new (c : KanjiCtx) (ic : IdCtx) (kind : ListKind) : ∀ (names : List Str) (i : Nat)
    (d d' : KanjiStore) (A : List KanjiRec), StoreInv d A → KanjiStore.processList c ic kind i names d = .ok d' →
    ∃ new, StoreInv d' (A ++ new) ∧ d.errors ≤ d'.errors ∧
      ∀ k ∈ new, (∃ j name, names[j]? = some name ∧ newListKanji c ic kind (i + j) name = .ok k) ∧
        ∀ x, kind = .level x → k.kanji.level.isSome := by
  intro names
  induction names with
  | nil =>
    intro i d d' A h hd
    rw [KanjiStore.processList] at hd
    cases hd
    exact ⟨[], by simpa using h, Nat.le_refl _, by simp⟩
  | cons name names ih =>
    intro i d d' A h hd
    rw [KanjiStore.processList] at hd
    cases hf : d.findByName name with
    | some k =>
      rw [hf] at hd
      obtain ⟨d1, ha, hd⟩ := Res.bind_eq_ok hd
      obtain ⟨s1, _, _⟩ := addToList_spec kind d d1 k A h ha
      obtain ⟨new, i1, i2, i3⟩ := ih (i + 1) d1 d' A s1 hd
      refine ⟨new, i1, by rw [← (addToList_errors kind d d1 k ha).1]; exact i2, fun x hx => ?_⟩
      obtain ⟨⟨j, n, e1, e2⟩, e3⟩ := i3 x hx
      exact ⟨⟨j + 1, n, by simpa using e1, by rw [← e2]; congr 1; omega⟩, e3⟩
    | none =>
      rw [hf] at hd
      obtain ⟨k, hm, hd⟩ := Res.bind_eq_ok hd
      obtain ⟨d1, ha, hd⟩ := Res.bind_eq_ok hd
      obtain ⟨n1, n2⟩ := newListKanji_name c ic kind i name k hm
      have hin := insert_new h k kind.newType (c.findUcd k.kanji.name) (by rw [n1]; exact hf)
      have herr : d.errors ≤ (d.checkInsertType kind.newType k (c.findUcd k.kanji.name)).1.errors := by
        have := (checkInsert_facts k (c.findUcd k.kanji.name) h).2.2.2.2
        unfold KanjiStore.checkInsertType
        rcases hc : d.checkInsert k (c.findUcd k.kanji.name) with ⟨d2, b⟩
        rw [hc] at this
        simp only at this
        rcases this with ⟨_, rfl, g, _⟩ | ⟨_, rfl, g, _⟩
        · exact g
        · simp only; omega
      obtain ⟨s1, _, _⟩ := addToList_spec kind _ d1 k _ hin.1 ha
      have ae := addToList_errors kind _ d1 k ha
      obtain ⟨new, i1, i2, i3⟩ := ih (i + 1) d1 d' _ s1 hd
      refine ⟨k :: new, by simpa using i1, by omega, fun x hx => ?_⟩
      rcases List.mem_cons.mp hx with rfl | hx
      · exact ⟨⟨0, name, rfl, hm⟩, ae.2⟩
      · obtain ⟨⟨j, n, e1, e2⟩, e3⟩ := i3 x hx
        exact ⟨⟨j + 1, n, by simpa using e1, by rw [← e2]; congr 1; omega⟩, e3⟩

theorem newListKanji_level {c : KanjiCtx} {ic : IdCtx} {kind : ListKind} {i : Nat} {name : Str} {k : KanjiRec}
    (h : newListKanji c ic kind i name = .ok k) : k.kanji.level = none := by
  cases kind with
  | kyu q =>
    simp only [newListKanji] at h
    obtain ⟨x, hx, h⟩ := Res.bind_eq_ok h
    cases h
    exact (makeOther_name _ _ _ _ _ _ x hx).2.2.2.2
  | level q =>
    simp only [newListKanji] at h
    obtain ⟨x, hx, h⟩ := Res.bind_eq_ok h
    cases h
    exact (makeOther_name _ _ _ _ _ _ x hx).2.2.2.2
  | frequency =>
    simp only [newListKanji] at h
    obtain ⟨x, hx, h⟩ := Res.bind_eq_ok h
    cases h
    exact (makeOther_name _ _ _ _ _ _ x hx).2.2.2.2

/-- New kanji that are all of one type and are put into its list. -/
theorem Loading.append {l : Loaded} {f : KanjiFiles} {d d' : KanjiStore} {A new : List KanjiRec}
    (h : Loading l f d d.types A) (hs : StoreInv d' (A ++ new)) (he : d.errors ≤ d'.errors) (t : KanjiType)
    (ht : t ∉ [KanjiType.linkedJinmei, .linkedOld]) (hn : ∀ k ∈ new, k.kanji.type = t)
    (hty : ∀ x, d'.types x = d.types x ++ if x = t then new else []) (ho : ∀ k ∈ new, Origin l f k) :
    Loading l f d' d'.types (A ++ new) := by
  have hf : ∀ x, new.filter (·.kanji.type == x) = if x = t then new else [] := by
    intro x
    by_cases e : x = t
    · rw [if_pos e, List.filter_eq_self]
      intro k hk; rw [hn k hk, e]; simp
    · rw [if_neg e, List.filter_eq_nil_iff]
      intro k hk; rw [hn k hk]; simpa using Ne.symm e
  refine ⟨⟨hs, fun x => ?_, fun x k hk => ?_, fun x hx => ?_, fun h0 x => ?_⟩, ?_, links_grow he h.links ?_⟩
  · rw [List.filter_append, hty, hf]
    exact (h.types.sub x).append (List.Sublist.refl _)
  · rw [hty] at hk
    rcases List.mem_append.mp hk with hk | hk
    · exact h.types.typed x k hk
    · split at hk
      · rename_i e; rw [hn k hk, e]
      · cases hk
  · rw [List.filter_append, hty, hf, h.types.eq x hx]
  · rw [List.filter_append, hty, hf, h.types.noErr (by omega) x]
  · intro k hk
    rcases List.mem_append.mp hk with hk | hk
    · exact h.origin k hk
    · exact ho k hk
  · intro k hk e
    rw [hn k hk] at e
    rcases e with e | e <;> simp [e] at ht

/-- The list files given to `processLists` are those of `l`. -/
def FromLists (l : Loaded) (fs : List (ListKind × List Str)) : Prop :=
  ∀ x ∈ fs, match x.1 with
    | .frequency => x.2 = l.lists.frequency.list
    | .level _ => True
    | .kyu q => ∃ st, (q, st) ∈ l.lists.kyus ∧ x.2 = st.list

theorem processOrder_fromLists (l : Loaded) : FromLists l l.lists.processOrder := by
  intro x hx
  unfold ListFiles.processOrder at hx
  simp only [List.append_assoc, List.mem_append, List.mem_map, List.mem_singleton] at hx
  rcases hx with ⟨p, _, rfl⟩ | rfl | ⟨p, hp, rfl⟩
  · trivial
  · rfl
  · exact ⟨p.2, hp, rfl⟩

theorem storeInv_unique {d : KanjiStore} {A B : List KanjiRec} (h1 : StoreInv d A) (h2 : StoreInv d B) : A = B := by
  rw [← h1.all_eq, h2.all_eq]

theorem processLists_spec {l : Loaded} {f : KanjiFiles} : ∀ (fs : List (ListKind × List Str)) (d d' : KanjiStore)
    (A : List KanjiRec), Loading l f d d.types A → FromLists l fs → processLists l fs d = .ok d' →
    ∃ new, Loading l f d' d'.types (A ++ new) ∧ (∀ t ∈ rowTypes, d'.types t = d.types t) ∧ d.errors ≤ d'.errors ∧
      (∀ x ∈ new, x.kanji.type = .frequency ∨ x.kanji.type = .kentei) ∧
      ∀ p ∈ fs, ∀ n ∈ p.2, ∃ x ∈ A ++ new, Matches n x := by
  intro fs
  induction fs with
  | nil =>
    intro d d' A h _ hd
    cases hd
    exact ⟨[], by simpa using h, fun _ _ => rfl, Nat.le_refl _, by simp, by simp⟩
  | cons p fs ih =>
    obtain ⟨kind, names⟩ := p
    intro d d' A h hfs hd
    rw [processLists] at hd
    obtain ⟨d1, h1, hd⟩ := Res.bind_eq_ok hd
    obtain ⟨c1, new, ks, c2, _, c4, c5, _⟩ := C77_list l.ctx l.ids kind 0 names d d1 A h.types.store h1
    obtain ⟨new', e1, e2, e3⟩ := processList_new l.ctx l.ids kind names 0 d d1 A h.types.store h1
    have enew : new' = new := List.append_cancel_left (storeInv_unique e1 c2)
    rw [enew] at e1 e3
    have hrow : ∀ t ∈ rowTypes, t ≠ kind.newType := by cases kind <;> simp [ListKind.newType, rowTypes]
    have hl1 := h.append c2 e2 kind.newType (by cases kind <;> simp [ListKind.newType]) c4 c5 (by
      intro k hk
      obtain ⟨⟨j, name, hj, hm⟩, hlev⟩ := e3 k hk
      rw [Nat.zero_add] at hm
      have hfs0 := hfs (kind, names) (by simp)
      cases kind with
      | frequency =>
        exact .frequency j name k (by rw [← show names = _ from hfs0]; exact hj) hm
      | level x =>
        have := hlev x rfl
        rw [newListKanji_level hm] at this; cases this
      | kyu q =>
        obtain ⟨st, hst, e⟩ := hfs0
        exact .kentei q st j name k hst (by rw [← show names = _ from e]; exact List.mem_of_getElem? hj) hm)
    obtain ⟨n2, i1, i2, i3, i4, i5⟩ := ih d1 d' _ hl1 (fun x hx => hfs x (List.mem_cons_of_mem _ hx)) hd
    rw [List.append_assoc] at i1 i5
    refine ⟨new ++ n2, i1, fun t ht => ?_, Nat.le_trans e2 i3, ?_, ?_⟩
    · rw [i2 t ht, c5 t, if_neg (hrow t ht), List.append_nil]
    · intro x hx
      rcases List.mem_append.mp hx with hx | hx
      · rw [c4 x hx]; cases kind <;> simp [ListKind.newType]
      · exact i4 x hx
    · intro q hq n hn
      rcases List.mem_cons.mp hq with rfl | hq
      · obtain ⟨y, hy, e⟩ := (matches_of_find c2 n).mp (c1 n hn)
        exact ⟨y, by rw [← List.append_assoc]; exact List.mem_append_left _ hy, e⟩
      · exact i5 q hq n hn

/-- The kanji made by `processUcd`. -/
theorem processUcd_new (c : KanjiCtx) (ic : IdCtx) : ∀ (ucds : List Ucd)
    (d d' : KanjiStore) (A : List KanjiRec), StoreInv d A → KanjiStore.processUcd c ic ucds d = .ok d' →
    ∃ new, StoreInv d' (A ++ new) ∧ d.errors ≤ d'.errors ∧ d'.levels = d.levels ∧ d'.kyus = d.kyus ∧
      d'.frequencies = d.frequencies ∧
      ∀ x ∈ new, ∃ u k, u ∈ ucds ∧ Kanji.makeUcd c u = .ok k ∧ x = ic.record (some u) k := by
  intro ucds
  induction ucds with
  | nil =>
    intro d d' A h hd
    rw [KanjiStore.processUcd] at hd
    cases hd
    exact ⟨[], by simpa using h, Nat.le_refl _, rfl, rfl, rfl, by simp⟩
  | cons u us ih =>
    intro d d' A h hd
    rw [KanjiStore.processUcd] at hd
    cases hf : d.findByName u.name with
    | some k =>
      rw [hf] at hd
      obtain ⟨new, i1, i2, i3, i4, i5, i6⟩ := ih d d' A h hd
      refine ⟨new, i1, i2, i3, i4, i5, fun x hx => ?_⟩
      obtain ⟨u', k', a, b⟩ := i6 x hx
      exact ⟨u', k', List.mem_cons_of_mem _ a, b⟩
    | none =>
      rw [hf] at hd
      obtain ⟨k, hm, hd⟩ := Res.bind_eq_ok hd
      obtain ⟨n1, n2, _⟩ := makeOther_name c .ucd u.name (some u) none 0 k hm
      have hin := insert_new h (ic.record (some u) k) .ucd (c.findUcd k.name) (by
        show d.findByName k.name = none
        rw [n1]; exact hf)
      have herr : d.errors ≤ (d.checkInsertType .ucd (ic.record (some u) k) (c.findUcd k.name)).1.errors := by
        have := (checkInsert_facts (ic.record (some u) k) (c.findUcd k.name) h).2.2.2.2
        unfold KanjiStore.checkInsertType
        rcases hc : d.checkInsert (ic.record (some u) k) (c.findUcd k.name) with ⟨d2, b⟩
        rw [hc] at this
        simp only at this
        rcases this with ⟨_, rfl, g, _⟩ | ⟨_, rfl, g, _⟩
        · exact g
        · simp only; omega
      obtain ⟨new, i1, i2, i3, i4, i5, i6⟩ := ih _ d' _ hin.1 hd
      obtain ⟨_, _, _, q1, q2, q3⟩ := hin
      refine ⟨ic.record (some u) k :: new, by simpa using i1, by omega, i3.trans q1, i4.trans q2, i5.trans q3,
        fun x hx => ?_⟩
      rcases List.mem_cons.mp hx with rfl | hx
      · exact ⟨u, k, by simp, hm, rfl⟩
      · obtain ⟨u', k', a, b⟩ := i6 x hx
        exact ⟨u', k', List.mem_cons_of_mem _ a, b⟩

theorem processUcd_spec {l : Loaded} {f : KanjiFiles} {d d' : KanjiStore} {A : List KanjiRec}
    (h : Loading l f d d.types A) (hd : KanjiStore.processUcd l.ctx l.ids l.ucds d = .ok d') :
    ∃ new, Loading l f d' d'.types (A ++ new) ∧ (∀ t ∈ rowTypes, d'.types t = d.types t) ∧ d.errors ≤ d'.errors ∧
      (∀ x ∈ new, x.kanji.type = .ucd ∧ ¬ ∃ y ∈ A, Matches x.kanji.name y) ∧ d'.levels = d.levels ∧ d'.kyus = d.kyus ∧
      d'.frequencies = d.frequencies ∧ (∀ u ∈ l.ucds, ∃ x ∈ A ++ new, Matches u.name x) ∧
      (new.map (·.kanji.name)).Sublist (l.ucds.map (·.name)) := by
  obtain ⟨c1, new, c2, c3, c4, c5⟩ := C77_ucd l.ctx l.ids l.ucds d d' A h.types.store hd
  obtain ⟨new', e1, e2, e3, e4, e5, e6⟩ := processUcd_new l.ctx l.ids l.ucds d d' A h.types.store hd
  have enew : new' = new := List.append_cancel_left (storeInv_unique e1 c2)
  rw [enew] at e1 e6
  have hl := h.append c2 e2 .ucd (by decide) c4 c5 (by
    intro x hx
    obtain ⟨u, k, a, b, rfl⟩ := e6 x hx
    exact .ucd u k a b)
  refine ⟨new, hl, fun t ht => ?_, e2, fun x hx => ⟨c4 x hx, ?_⟩, e3, e4, e5, fun u hu => ?_,
    c3.trans List.filter_sublist⟩
  · rw [c5 t, if_neg (by rintro rfl; simp [rowTypes] at ht), List.append_nil]
  · rw [← matches_of_find h.types.store]
    have : x.kanji.name ∈ new.map (·.kanji.name) := List.mem_map.mpr ⟨x, hx, rfl⟩
    have := (List.mem_filter.mp (c3.subset this)).2
    rw [Option.isNone_iff_eq_none] at this
    rw [this]; simp
  · exact (matches_of_find c2 u.name).mp (c1 u hu)

/-! ## All files -/

/-- The members set by `processList` only. -/
def SameLists (d d' : KanjiStore) : Prop :=
  d'.levels = d.levels ∧ d'.kyus = d.kyus ∧ d'.frequencies = d.frequencies

theorem SameLists.trans {a b c : KanjiStore} (h1 : SameLists a b) (h2 : SameLists b c) : SameLists a c :=
  ⟨h2.1.trans h1.1, h2.2.1.trans h1.2.1, h2.2.2.trans h1.2.2⟩

theorem sameLists_insert (d : KanjiStore) (k : KanjiRec) (ucd : Option Ucd) : SameLists d (d.checkInsert k ucd).1 := by
  unfold KanjiStore.checkInsert
  repeat' split
  all_goals exact ⟨rfl, rfl, rfl⟩

theorem sameLists_insertType (d : KanjiStore) (t : KanjiType) (k : KanjiRec) (ucd : Option Ucd) :
    SameLists d (d.checkInsertType t k ucd).1 := by
  have := sameLists_insert d k ucd
  unfold KanjiStore.checkInsertType
  split
  · rename_i h; rw [h] at this; exact this
  · rename_i h; rw [h] at this; exact this

theorem sameLists_rows (l : Loaded) : ∀ (ks : List KanjiRec) (d : KanjiStore), SameLists d (ks.foldl l.insert d)
  | [], _ => ⟨rfl, rfl, rfl⟩
  | k :: ks, d => (sameLists_insert d k _).trans (sameLists_rows l ks _)

theorem sameLists_linked {l : Loaded} {isOld : Bool} {name : Str} {link : KanjiRec} {d d' : KanjiStore}
    (h : insertLinked l isOld name link d = .ok d') : SameLists d d' := by
  unfold insertLinked at h
  obtain ⟨k, _, h⟩ := Res.bind_eq_ok h
  cases h
  exact sameLists_insertType d _ _ _

theorem sameLists_lines {l : Loaded} : ∀ {lines : List Str} {d d' : KanjiStore},
    loadLinkedLines l lines d = .ok d' → SameLists d d'
  | [], d, d', h => by cases h; exact ⟨rfl, rfl, rfl⟩
  | line :: lines, d, d', h => by
    rw [loadLinkedLines] at h
    split at h
    · split at h
      · cases h
      · obtain ⟨d1, h1, h⟩ := Res.bind_eq_ok h
        exact (sameLists_linked h1).trans (sameLists_lines h)
    · cases h

theorem sameLists_oldNames {l : Loaded} {link : KanjiRec} : ∀ {js : List Str} {d d' : KanjiStore},
    loadOldNames l link js d = .ok d' → SameLists d d'
  | [], d, d', h => by cases h; exact ⟨rfl, rfl, rfl⟩
  | j :: js, d, d', h => by
    rw [loadOldNames] at h
    split at h
    · exact sameLists_oldNames h
    · obtain ⟨d1, h1, h⟩ := Res.bind_eq_ok h
      exact (sameLists_linked h1).trans (sameLists_oldNames h)

theorem sameLists_allOldNames {l : Loaded} : ∀ {ks : List KanjiRec} {d d' : KanjiStore},
    loadAllOldNames l ks d = .ok d' → SameLists d d'
  | [], d, d', h => by cases h; exact ⟨rfl, rfl, rfl⟩
  | k :: ks, d, d', h => by
    rw [loadAllOldNames] at h
    obtain ⟨d1, h1, h⟩ := Res.bind_eq_ok h
    exact (sameLists_oldNames h1).trans (sameLists_allOldNames h)

theorem sameLists_jinmeiOld {l : Loaded} {link : KanjiRec} : ∀ {js : List Str} {d d' : KanjiStore},
    loadJinmeiOld l link js d = .ok d' → SameLists d d'
  | [], d, d', h => by cases h; exact ⟨rfl, rfl, rfl⟩
  | j :: js, d, d', h => by
    rw [loadJinmeiOld] at h
    obtain ⟨d1, h1, h⟩ := Res.bind_eq_ok h
    exact (sameLists_linked h1).trans (sameLists_jinmeiOld h)

theorem sameLists_jinmei {l : Loaded} : ∀ {ks : List KanjiRec} {d d' : KanjiStore},
    loadJinmeiLoop l ks d = .ok d' → SameLists d d'
  | [], d, d', h => by cases h; exact ⟨rfl, rfl, rfl⟩
  | k :: ks, d, d', h => by
    rw [loadJinmeiLoop] at h
    obtain ⟨d1, h1, h⟩ := Res.bind_eq_ok h
    exact ((sameLists_insert d k _).trans (sameLists_jinmeiOld h1)).trans (sameLists_jinmei h)

/-- What is known after loading; the parts come from the files in this order. -/
theorem loadKanji_spec {l : Loaded} {f : KanjiFiles} {d : KanjiStore} (h : loadKanji l f = .ok d) :
    ∃ jouyou line old jinmei extra lists ucd : List KanjiRec,
      Loading l f d d.types (jouyou ++ (line ++ old) ++ jinmei ++ extra ++ lists ++ ucd) ∧
      (∀ k ∈ jouyou, k.kanji.type = .jouyou) ∧
      (∀ k ∈ line, k.kanji.type = .linkedJinmei ∧ k.kanji.oldNames = []) ∧
      (∀ k ∈ jinmei, k.kanji.type = .jinmei ∨ k.kanji.type = .linkedJinmei) ∧
      (∀ k ∈ extra, k.kanji.type = .extra) ∧
      (∀ k ∈ lists, k.kanji.type = .frequency ∨ k.kanji.type = .kentei) ∧
      (∀ k ∈ ucd, k.kanji.type = .ucd ∧
        ¬ ∃ y ∈ jouyou ++ (line ++ old) ++ jinmei ++ extra ++ lists, Matches k.kanji.name y) ∧
      (∀ x ∈ old, x.kanji.type = .linkedOld ∧ x.kanji.oldNames = [] ∧
        (¬ ∃ y ∈ jouyou ++ line, Matches x.kanji.name y) ∧
        ∃ j ∈ jouyou, j.kanji.type = .jouyou ∧ x.kanji.newName = some j.kanji.name ∧
          x.kanji.name ∈ j.kanji.oldNames ∧
          ∀ y ∈ jouyou, x.kanji.name ∈ y.kanji.oldNames → y = j ∨ strLt j.kanji.name y.kanji.name = true) ∧
      (∀ line' ∈ f.linkedJinmei, ∃ j linked rest, fields 0x09 line' = j :: linked :: rest ∧
        (∃ x ∈ jouyou ++ line, x.kanji.name = j) ∧ ∃ x ∈ jouyou ++ line, x.kanji.name = linked) ∧
      (∀ y ∈ jouyou, ∀ o ∈ y.kanji.oldNames, ∃ x ∈ jouyou ++ (line ++ old), Matches o x) ∧
      (∃ ks : List (Kanji × NumberedInfo), f.jouyou.map (jouyouFromRow l.ctx) = ks.map .ok ∧
        d.types .jouyou = ks.map fun k => l.record k.1) ∧
      (∃ ks : List (Kanji × NumberedInfo), f.jinmei.map (jinmeiFromRow l.ctx) = ks.map .ok ∧
        d.types .jinmei = ks.map fun k => l.record k.1) ∧
      (∃ ks : List (Kanji × NumberedInfo), f.extra.map (extraFromRow l.ctx) = ks.map .ok ∧
        d.types .extra = ks.map fun k => l.record k.1) ∧
      (∀ k ∈ d.types .jouyou, ∃ x ∈ jouyou, x.kanji.name = k.kanji.name) ∧
      (∀ k ∈ d.types .jinmei, (∃ x ∈ jouyou ++ (line ++ old) ++ jinmei, x.kanji.name = k.kanji.name) ∧
        ∀ o ∈ k.kanji.oldNames, ∃ x ∈ jouyou ++ (line ++ old) ++ jinmei, x.kanji.name = o) ∧
      (∀ k ∈ d.types .extra, ∃ x ∈ jouyou ++ (line ++ old) ++ jinmei ++ extra, x.kanji.name = k.kanji.name) ∧
      (∀ p ∈ l.lists.processOrder, ∀ n ∈ p.2,
        ∃ x ∈ jouyou ++ (line ++ old) ++ jinmei ++ extra ++ lists, Matches n x) ∧
      (∀ u ∈ l.ucds, ∃ x ∈ jouyou ++ (line ++ old) ++ jinmei ++ extra ++ lists ++ ucd, Matches u.name x) ∧
      (∃ d0 d1, StoreInv d0 (jouyou ++ (line ++ old) ++ jinmei ++ extra) ∧
        StoreInv d1 (jouyou ++ (line ++ old) ++ jinmei ++ extra ++ lists) ∧ SameLists {} d0 ∧
        processLists l l.lists.processOrder d0 = .ok d1 ∧ SameLists d1 d) ∧
      (ucd.map (·.kanji.name)).Sublist (l.ucds.map (·.name)) := by
  unfold loadKanji at h
  obtain ⟨_, _, h⟩ := Res.bind_eq_ok h
  obtain ⟨d1, h1, h⟩ := Res.bind_eq_ok h
  obtain ⟨d2, h2, h⟩ := Res.bind_eq_ok h
  obtain ⟨d3, h3, h⟩ := Res.bind_eq_ok h
  obtain ⟨d4, h4, h⟩ := Res.bind_eq_ok h
  obtain ⟨d5, h5, h6⟩ := Res.bind_eq_ok h
  obtain ⟨A, a1, a2, a3, a4⟩ := loadJouyou_spec (f := f) h1
  obtain ⟨n1, n2, b1, b2, b3, b4, b5, b6, b7⟩ := loadOfficialLinked_spec a1 h2
  have h1' := h1
  unfold loadJouyou at h1'
  obtain ⟨jks, j1, h1'⟩ := Res.bind_eq_ok h1'
  have other : ∀ t, t ≠ .jouyou → d1.types t = [] := by
    intro t ht
    cases h1'
    obtain ⟨_, _, _, _, e, _⟩ := Loading.rows .jouyou (by decide) (jks.map fun k => l.record k.1) {}
      ({} : KanjiStore).types [] (loading_empty l f)
      (by
        intro k hk
        obtain ⟨p, hp, rfl⟩ := List.mem_map.mp hk
        obtain ⟨r, _, hr⟩ := (fromRows_mem j1).1 p hp
        exact (jouyou_row hr).1)
      (by
        intro k hk
        obtain ⟨p, hp, rfl⟩ := List.mem_map.mp hk
        obtain ⟨r, hr', hr⟩ := (fromRows_mem j1).1 p hp
        exact .jouyou r p.2 p.1 hr' hr)
    simp only [KanjiStore.setType, if_neg ht, e]
  obtain ⟨n3, c1, c2, c3, c4, c5, c6, c7⟩ := loadJinmei_spec b1
    (by rw [b2 .jinmei (by decide)]; exact other _ (by decide)) h3
  obtain ⟨n4, e1, e2, e3, e4, e5, e6, e7⟩ := loadExtra_spec c1
    (by rw [c4, b2 .extra (by decide)]; exact other _ (by decide)) h4
  obtain ⟨n5, g1, g2, g3, g4, g5⟩ := processLists_spec _ d4 d5 _ e1 (processOrder_fromLists l) h5
  obtain ⟨n6, i1, i2, i3, i4, i5, i6, i7, i8, i9⟩ := processUcd_spec g1 h6
  have tj : d.types .jouyou = d1.types .jouyou := by
    rw [i2 _ (by decide), g2 _ (by decide), e3, c3, b2 _ (by decide)]
  have tm : d.types .jinmei = d3.types .jinmei := by rw [i2 _ (by decide), g2 _ (by decide), e4]
  have te : d.types .extra = d4.types .extra := by rw [i2 _ (by decide), g2 _ (by decide)]
  unfold loadJinmei at h3
  obtain ⟨mks, m1, h3⟩ := Res.bind_eq_ok h3
  obtain ⟨d3', m2, h3⟩ := Res.bind_eq_ok h3
  unfold loadExtra at h4
  obtain ⟨eks, x1, h4⟩ := Res.bind_eq_ok h4
  unfold loadOfficialLinked at h2
  obtain ⟨d2', l1, l2⟩ := Res.bind_eq_ok h2
  refine ⟨A, n1, n2, n3, n4, n5, n6, i1, a2, b4, c6, e6, g4, i4, b7, b5, b6, ?_, ?_, ?_, ?_, ?_, ?_, g5, i8,
    ⟨d4, d5, e1.types.store, g1.types.store, ?_, h5, i5, i6, i7⟩, i9⟩
  · exact ⟨jks, fromRows_ok _ _ _ j1, by rw [tj, a3, rowKanji_eq j1]⟩
  · exact ⟨mks, fromRows_ok _ _ _ m1, by rw [tm, c2, rowKanji_eq m1]⟩
  · exact ⟨eks, fromRows_ok _ _ _ x1, by rw [te, e2, rowKanji_eq x1]⟩
  · rw [tj]; exact a4
  · rw [tm]; exact c7
  · rw [te]; exact e7
  · have s1 : SameLists {} d1 := by cases h1'; exact sameLists_rows l _ _
    have s2 := (sameLists_lines l1).trans (sameLists_allOldNames l2)
    have s3 : SameLists d2 d3 := by
      have := sameLists_jinmei m2
      cases h3
      exact this
    have s4 : SameLists d3 d4 := by cases h4; exact sameLists_rows l _ _
    exact ((s1.trans s2).trans s3).trans s4

/-! ## C101: the lists of types -/

/-- The kanji of the types Jouyou, Jinmei and Extra are one per row of the file, in the order of the rows. -/
theorem C101_rows (l : Loaded) (f : KanjiFiles) (d : KanjiStore) (h : loadKanji l f = .ok d) :
    (∃ ks : List (Kanji × NumberedInfo), f.jouyou.map (jouyouFromRow l.ctx) = ks.map .ok ∧
      d.types .jouyou = ks.map fun k => l.record k.1) ∧
    (∃ ks : List (Kanji × NumberedInfo), f.jinmei.map (jinmeiFromRow l.ctx) = ks.map .ok ∧
      d.types .jinmei = ks.map fun k => l.record k.1) ∧
    (∃ ks : List (Kanji × NumberedInfo), f.extra.map (extraFromRow l.ctx) = ks.map .ok ∧
      d.types .extra = ks.map fun k => l.record k.1) := by
  obtain ⟨_, _, _, _, _, _, _, _, _, _, _, _, _, _, _, _, _, a, b, c, _⟩ := loadKanji_spec h
  exact ⟨a, b, c⟩

/-- No two kanji found by name have the same name, those of a type are in the list of the type in the order in which
they were inserted, and a kanji in the list of a type has this type and its name is the name of a kanji found. -/
theorem C101_types (l : Loaded) (f : KanjiFiles) (d : KanjiStore) (h : loadKanji l f = .ok d) :
    (d.all.map (·.kanji.name)).Nodup ∧
    ∀ t, (d.all.filter (·.kanji.type == t)).Sublist (d.types t) ∧
      (t ∉ rowTypes → d.types t = d.all.filter (·.kanji.type == t)) ∧
      ∀ k ∈ d.types t, k.kanji.type = t ∧ ∃ x ∈ d.all, x.kanji.name = k.kanji.name := by
  obtain ⟨jouyou, line, old, jinmei, extra, lists, ucd, hl, _, _, _, _, _, _, _, _, _, _, _, _, tj, tm, te, _⟩ :=
    loadKanji_spec h
  rw [hl.types.store.all_eq]
  refine ⟨hl.types.store.nodup, fun t => ⟨hl.types.sub t, hl.types.eq t, fun k hk => ⟨hl.types.typed t k hk, ?_⟩⟩⟩
  by_cases ht : t ∈ rowTypes
  · have : t = .jouyou ∨ t = .jinmei ∨ t = .extra := by simpa [rowTypes] using ht
    rcases this with rfl | rfl | rfl
    · obtain ⟨x, hx, e⟩ := tj k hk
      exact ⟨x, by simp [hx], e⟩
    · obtain ⟨⟨x, hx, e⟩, _⟩ := tm k hk
      exact ⟨x, List.mem_append_left _ (List.mem_append_left _ (List.mem_append_left _ hx)), e⟩
    · obtain ⟨x, hx, e⟩ := te k hk
      exact ⟨x, List.mem_append_left _ (List.mem_append_left _ hx), e⟩
  · rw [hl.types.eq t ht] at hk
    exact ⟨k, (List.mem_filter.mp hk).1, rfl⟩

/-- The kanji in the list of a type are the kanji of that type found by name. -/
def C101_statement : Prop :=
  ∀ (l : Loaded) (f : KanjiFiles) (d : KanjiStore), loadKanji l f = .ok d →
    ∀ t, d.types t = d.all.filter (·.kanji.type == t)

/-- Files with two kanji per list. -/
def sampleLoaded : Loaded where
  lists := {}
  ucds := [⟨u8!"三", 0x4e09, .none, [], ⟨3, 0⟩⟩]
  findUcd := fun s => some ⟨s, 0, .none, [], ⟨7, 0⟩⟩
  ucdRadical := fun _ => .ok (u8!"一", 1)
  radicalByName := fun _ => .ok (u8!"一", 1)
  pinyin := fun _ => none
  ids := ⟨fun _ => {}, fun _ => []⟩

def sampleRow (name strokes old : Str) : CellRow :=
  { number := u8!"1", name, radical := u8!"一", strokes, grade := u8!"1", oldNames := old, reason := u8!"Names" }

/-- Two rows for one kanji. -/
def duplicateFiles : KanjiFiles :=
  { jouyou := [sampleRow (u8!"亜") (u8!"7") [], sampleRow (u8!"亜") (u8!"8") []] }

theorem C101_violated : ¬ C101_statement := by
  intro h
  have : ∃ d, loadKanji sampleLoaded duplicateFiles = .ok d ∧
      (d.types .jouyou).length = 2 ∧ (d.all.filter (·.kanji.type == .jouyou)).length = 1 := by
    have e : (match loadKanji sampleLoaded duplicateFiles with
        | .ok d => decide ((d.types .jouyou).length = 2 ∧ (d.all.filter (·.kanji.type == .jouyou)).length = 1)
        | _ => false) = true := by decide +kernel
    split at e
    · rename_i d hd
      exact ⟨d, hd, by simpa using e⟩
    · cases e
  obtain ⟨d, h1, h2, h3⟩ := this
  have := h _ _ d h1 .jouyou
  rw [← this] at h3
  omega

/-- It holds when no error was printed. -/
theorem C101_partial (l : Loaded) (f : KanjiFiles) (d : KanjiStore) (h : loadKanji l f = .ok d) (he : d.errors = 0)
    (t : KanjiType) : d.types t = d.all.filter (·.kanji.type == t) := by
  obtain ⟨jouyou, line, old, jinmei, extra, lists, ucd, hl, _⟩ := loadKanji_spec h
  rw [hl.types.store.all_eq]
  exact hl.types.noErr he t

/-! ## C102: links -/

/-- The new name of every linked kanji is the name of a kanji found; it is a Jouyou kanji (or a Jinmei kanji, for a
linked Jinmei kanji) when no error was printed. -/
theorem C102_links (l : Loaded) (f : KanjiFiles) (d : KanjiStore) (h : loadKanji l f = .ok d) (k : KanjiRec)
    (hk : k ∈ d.all) (ht : k.kanji.type = .linkedJinmei ∨ k.kanji.type = .linkedOld) :
    ∃ j ∈ d.all, k.kanji.newName = some j.kanji.name ∧
      (d.errors = 0 → j.kanji.type = .jouyou ∨ (j.kanji.type = .jinmei ∧ k.kanji.type = .linkedJinmei)) := by
  obtain ⟨jouyou, line, old, jinmei, extra, lists, ucd, hl, _⟩ := loadKanji_spec h
  rw [hl.types.store.all_eq] at hk ⊢
  exact hl.links k hk ht

/-- Both kanji of every line of 'linked-jinmei' are found. -/
theorem C102_lines (l : Loaded) (f : KanjiFiles) (d : KanjiStore) (h : loadKanji l f = .ok d) (line : Str)
    (hline : line ∈ f.linkedJinmei) :
    ∃ jouyou linked rest, fields 0x09 line = jouyou :: linked :: rest ∧
      (∃ k ∈ d.all, k.kanji.name = jouyou) ∧ ∃ k ∈ d.all, k.kanji.name = linked := by
  obtain ⟨jouyou, lines, old, jinmei, extra, lists, ucd, hl, _, _, _, _, _, _, _, hlines, _⟩ := loadKanji_spec h
  rw [hl.types.store.all_eq]
  obtain ⟨j, x, rest, e, ⟨a, ha, ea⟩, b, hb, eb⟩ := hlines line hline
  have sub : ∀ y ∈ jouyou ++ lines, y ∈ jouyou ++ (lines ++ old) ++ jinmei ++ extra ++ lists ++ ucd := by
    intro y hy
    rcases List.mem_append.mp hy with hy | hy <;> simp [hy]
  exact ⟨j, x, rest, e, ⟨a, sub a ha, ea⟩, b, sub b hb, eb⟩

/-- Every old name of a Jouyou or Jinmei kanji finds a kanji. -/
theorem C102_old_found (l : Loaded) (f : KanjiFiles) (d : KanjiStore) (h : loadKanji l f = .ok d) (k : KanjiRec)
    (hk : k ∈ d.all) (ht : k.kanji.type = .jouyou ∨ k.kanji.type = .jinmei) (o : Str) (ho : o ∈ k.kanji.oldNames) :
    (d.findByName o).isSome := by
  obtain ⟨jouyou, lines, old, jinmei, extra, lists, ucd, hl, t1, t2, t3, t4, t5, t6, t7, hlines, hold, _, _, _, tj, tm,
    _⟩ := loadKanji_spec h
  have hs := hl.types.store
  rw [findByName_isSome hs]
  rw [hs.all_eq] at hk
  have hkt : k ∈ d.types k.kanji.type :=
    (hl.types.sub k.kanji.type).subset (List.mem_filter.mpr ⟨hk, by simp⟩)
  rcases ht with e | e
  · have hkj : k ∈ jouyou := by
      rcases List.mem_append.mp hk with hk | hk
      · rcases List.mem_append.mp hk with hk | hk
        · rcases List.mem_append.mp hk with hk | hk
          · rcases List.mem_append.mp hk with hk | hk
            · rcases List.mem_append.mp hk with hk | hk
              · exact hk
              · rcases List.mem_append.mp hk with hk | hk
                · have := (t2 k hk).1; rw [e] at this; cases this
                · have := (t7 k hk).1; rw [e] at this; cases this
            · rcases t3 k hk with g | g <;> · rw [e] at g; cases g
          · have := t4 k hk; rw [e] at this; cases this
        · rcases t5 k hk with g | g <;> · rw [e] at g; cases g
      · have := (t6 k hk).1; rw [e] at this; cases this
    obtain ⟨x, hx, m⟩ := hold k hkj o ho
    exact ⟨x, List.mem_append_left _ (List.mem_append_left _ (List.mem_append_left _ (List.mem_append_left _ hx))), m⟩
  · rw [e] at hkt
    obtain ⟨x, hx, m⟩ := (tm k hkt).2 o ho
    exact ⟨x, List.mem_append_left _ (List.mem_append_left _ (List.mem_append_left _ hx)), .inl m⟩

/-- A kanji of type LinkedOld is the old name of the Jouyou kanji that it is linked to: of several that have this old name
the first in the order of the names. -/
theorem C102_old_first (l : Loaded) (f : KanjiFiles) (d : KanjiStore) (h : loadKanji l f = .ok d) (k : KanjiRec)
    (hk : k ∈ d.all) (ht : k.kanji.type = .linkedOld) :
    ∃ j ∈ d.all, j.kanji.type = .jouyou ∧ k.kanji.newName = some j.kanji.name ∧ k.kanji.name ∈ j.kanji.oldNames ∧
      ∀ y ∈ d.all, y.kanji.type = .jouyou → k.kanji.name ∈ y.kanji.oldNames →
        y = j ∨ strLt j.kanji.name y.kanji.name = true := by
  obtain ⟨jouyou, lines, old, jinmei, extra, lists, ucd, hl, t1, t2, t3, t4, t5, t6, t7, _⟩ := loadKanji_spec h
  have hs := hl.types.store
  rw [hs.all_eq] at hk ⊢
  have part : ∀ x ∈ jouyou ++ (lines ++ old) ++ jinmei ++ extra ++ lists ++ ucd,
      (x.kanji.type = .jouyou → x ∈ jouyou) ∧ (x.kanji.type = .linkedOld → x ∈ old) := by
    intro x hx
    simp only [List.mem_append] at hx
    rcases hx with ((((hx | hx | hx) | hx) | hx) | hx) | hx
    · exact ⟨fun _ => hx, by simp [t1 x hx]⟩
    · exact ⟨by simp [(t2 x hx).1], by simp [(t2 x hx).1]⟩
    · exact ⟨by simp [(t7 x hx).1], fun _ => hx⟩
    · rcases t3 x hx with g | g <;> exact ⟨by simp [g], by simp [g]⟩
    · exact ⟨by simp [t4 x hx], by simp [t4 x hx]⟩
    · rcases t5 x hx with g | g <;> exact ⟨by simp [g], by simp [g]⟩
    · exact ⟨by simp [(t6 x hx).1], by simp [(t6 x hx).1]⟩
  obtain ⟨_, _, _, j, hj, e1, e2, e3, e4⟩ := t7 k ((part k hk).2 ht)
  exact ⟨j, by simp [hj], e1, e2, e3, fun y hy ey ho => e4 y ((part y hy).1 ey) ho⟩

/-! ## C103: what kanji come from -/

theorem newListKanji_kyu {c : KanjiCtx} {ic : IdCtx} {q : KenteiKyu} {i : Nat} {name : Str} {k : KanjiRec}
    (h : newListKanji c ic (.kyu q) i name = .ok k) : k.kanji.kyu = some q ∧ k.kanji.frequency = 0 := by
  simp only [newListKanji] at h
  obtain ⟨x, hx, h⟩ := Res.bind_eq_ok h
  cases h
  have := makeOther_name _ _ _ _ _ _ x hx
  exact ⟨this.2.2.1, this.2.2.2.1⟩

theorem newListKanji_frequency {c : KanjiCtx} {ic : IdCtx} {i : Nat} {name : Str} {k : KanjiRec}
    (h : newListKanji c ic .frequency i name = .ok k) :
    k.kanji.kyu = c.kyu name ∧ k.kanji.frequency = UInt16.ofNat (i + 1) := by
  simp only [newListKanji] at h
  obtain ⟨x, hx, h⟩ := Res.bind_eq_ok h
  cases h
  have := makeOther_name _ _ _ _ _ _ x hx
  exact ⟨this.2.2.1, this.2.2.2.1⟩

/-- Every kanji comes from an entry of the file of its type (LinkedOld: from an old name of a Jouyou kanji). -/
theorem C103_sources (l : Loaded) (f : KanjiFiles) (d : KanjiStore) (h : loadKanji l f = .ok d) (k : KanjiRec)
    (hk : k ∈ d.all) :
    match k.kanji.type with
    | .jouyou => ∃ row ∈ f.jouyou, k.kanji.name = row.name ∧ k.kanji.oldNames = getOldNames row.oldNames ∧
        (∃ g, getGrade row.grade = .ok g ∧ k.kanji.grade = some g) ∧
        ∃ n, cellU8 row.strokes = .ok n ∧ Strokes.make n = .ok k.kanji.strokes
    | .jinmei => ∃ row ∈ f.jinmei, k.kanji.name = row.name ∧ k.kanji.oldNames = getOldNames row.oldNames ∧
        row.reason ∈ allReasons
    | .extra => ∃ row ∈ f.extra, k.kanji.name = row.name ∧
        ∃ n, cellU8 row.strokes = .ok n ∧ Strokes.make n = .ok k.kanji.strokes
    | .linkedJinmei =>
        (∃ line ∈ f.linkedJinmei, ∃ jouyou rest, fields 0x09 line = jouyou :: k.kanji.name :: rest ∧
          k.kanji.newName = some jouyou) ∨
        ∃ row ∈ f.jinmei, k.kanji.name ∈ getOldNames row.oldNames ∧ k.kanji.newName = some row.name
    | .linkedOld => ∃ row ∈ f.jouyou, k.kanji.name ∈ getOldNames row.oldNames ∧ k.kanji.newName = some row.name
    | .frequency => k.kanji.name ∈ l.lists.frequency.list
    | .kentei => ∃ q st, (q, st) ∈ l.lists.kyus ∧ k.kanji.name ∈ st.list ∧ k.kanji.kyu = some q
    | .ucd => ∃ u ∈ l.ucds, k.kanji.name = u.name := by
  obtain ⟨jouyou, line, old, jinmei, extra, lists, ucd, hl, _⟩ := loadKanji_spec h
  rw [hl.types.store.all_eq] at hk
  have ho := hl.origin k hk
  cases ho with
  | jouyou row info k' hr hk' =>
    have := jouyou_row hk'
    rw [show (l.record k').kanji.type = _ from this.1]
    exact ⟨row, hr, this.2.1, this.2.2.1, this.2.2.2.2.2.2.2.1, this.2.2.2.2.2.2.2.2.2.2.2⟩
  | jinmei row info k' hr hk' =>
    have := jinmei_row hk'
    rw [show (l.record k').kanji.type = _ from this.1]
    exact ⟨row, hr, this.2.1, this.2.2.1, this.2.2.2.2.2.2.2.2.2.2.2⟩
  | extra row info k' hr hk' =>
    have := extra_row hk'
    rw [show (l.record k').kanji.type = _ from this.1]
    exact ⟨row, hr, this.2.1, this.2.2.2.2.2.2.2.2.2⟩
  | line line jouyou linked rest link k' hm hf hlo hn hk' =>
    have := linked_facts hk'
    rw [show (l.record k').kanji.type = _ from this.1]
    exact .inl ⟨line, hm, jouyou, rest, by show _ = jouyou :: k'.name :: rest; rw [this.2.1]; exact hf,
      by show k'.newName = _; rw [this.2.2.1, hn]⟩
  | old link o k' hlo hoo hk' =>
    have := linked_facts hk'
    rw [show (l.record k').kanji.type = _ from this.1]
    have hlt : link.kanji.type = .jouyou := by
      rcases this.2.2.2.2.2.2.2.2 with g | g
      · exact g
      · cases g.2
    cases hlo with
    | jouyou row info j hr hj =>
      have hj' := jouyou_row hj
      refine ⟨row, hr, ?_, ?_⟩
      · show k'.name ∈ _
        rw [this.2.1, ← hj'.2.2.1]; exact hoo
      · show k'.newName = _
        rw [this.2.2.1, ← hj'.2.1]; rfl
    | jinmei row info j hr hj => have g := (jinmei_row hj).1; rw [show j.type = .jouyou from hlt] at g; cases g
    | extra row info j hr hj => have g := (extra_row hj).1; rw [show j.type = .jouyou from hlt] at g; cases g
    | line _ _ _ _ _ j _ _ _ _ hj => have g := (linked_facts hj).1; rw [show j.type = .jouyou from hlt] at g; cases g
    | old _ _ j _ _ hj => have g := (linked_facts hj).1; rw [show j.type = .jouyou from hlt] at g; cases g
    | jinmeiOld _ _ _ _ j _ _ _ hj => have g := (linked_facts hj).1; rw [show j.type = .jouyou from hlt] at g; cases g
    | frequency i name _ _ hj => have g := (newListKanji_name _ _ _ _ _ _ hj).2; rw [hlt] at g; cases g
    | kentei q st i name _ _ _ hj => have g := (newListKanji_name _ _ _ _ _ _ hj).2; rw [hlt] at g; cases g
    | ucd u j _ hj =>
      have g := (makeOther_name _ _ _ _ _ _ j hj).2.1; rw [show j.type = .jouyou from hlt] at g; cases g
  | jinmeiOld row info link o k' hr hlink hoo hk' =>
    have := linked_facts hk'
    have hj' := jinmei_row hlink
    rw [show (l.record k').kanji.type = _ from this.1]
    refine .inr ⟨row, hr, ?_, ?_⟩
    · show k'.name ∈ _
      rw [this.2.1, ← hj'.2.2.1]; exact hoo
    · show k'.newName = _
      rw [this.2.2.1, ← hj'.2.1]
  | frequency i name _ hi hk' =>
    have g := newListKanji_name _ _ _ _ _ _ hk'
    rw [g.2]
    show k.kanji.name ∈ _
    rw [g.1]
    exact List.mem_of_getElem? hi
  | kentei q st i name _ hq hn hk' =>
    have g := newListKanji_name _ _ _ _ _ _ hk'
    rw [g.2]
    exact ⟨q, st, hq, by rw [g.1]; exact hn, (newListKanji_kyu hk').1⟩
  | ucd u k' hu hk' =>
    have := makeOther_name _ _ _ _ _ _ k' hk'
    rw [show (l.ids.record (some u) k').kanji.type = _ from this.2.1]
    exact ⟨u, hu, this.1⟩

/-- Only Jouyou kanji have a grade, only Jouyou and Jinmei kanji have a level: the one of their name in the level files. -/
theorem C103_level (l : Loaded) (f : KanjiFiles) (d : KanjiStore) (h : loadKanji l f = .ok d) (k : KanjiRec)
    (hk : k ∈ d.all) :
    k.kanji.level = if k.kanji.type = .jouyou ∨ k.kanji.type = .jinmei then l.lists.level k.kanji.name else none := by
  obtain ⟨jouyou, line, old, jinmei, extra, lists, ucd, hl, _⟩ := loadKanji_spec h
  rw [hl.types.store.all_eq] at hk
  cases hl.origin k hk with
  | jouyou row info k' hr hk' =>
    have := jouyou_row hk'
    show k'.level = if k'.type = _ ∨ k'.type = _ then l.lists.level k'.name else _
    rw [this.1, this.2.1, if_pos (.inl rfl)]; exact this.2.2.2.2.2.1
  | jinmei row info k' hr hk' =>
    have := jinmei_row hk'
    show k'.level = if k'.type = _ ∨ k'.type = _ then l.lists.level k'.name else _
    rw [this.1, this.2.1, if_pos (.inr rfl)]; exact this.2.2.2.2.2.1
  | extra row info k' hr hk' =>
    have := extra_row hk'
    show k'.level = if k'.type = _ ∨ k'.type = _ then _ else _
    rw [this.1, if_neg (by decide)]; exact this.2.2.2.1
  | line line jouyou linked rest link k' hm hf hlo hn hk' =>
    have := linked_facts hk'
    show k'.level = if k'.type = _ ∨ k'.type = _ then _ else _
    rw [this.1, if_neg (by decide)]; exact this.2.2.2.2.2.1
  | old link o k' hlo hoo hk' =>
    have := linked_facts hk'
    show k'.level = if k'.type = _ ∨ k'.type = _ then _ else _
    rw [this.1, if_neg (by decide)]; exact this.2.2.2.2.2.1
  | jinmeiOld row info link o k' hr hlink hoo hk' =>
    have := linked_facts hk'
    show k'.level = if k'.type = _ ∨ k'.type = _ then _ else _
    rw [this.1, if_neg (by decide)]; exact this.2.2.2.2.2.1
  | frequency i name _ hi hk' =>
    rw [(newListKanji_name _ _ _ _ _ _ hk').2, if_neg (by decide)]; exact newListKanji_level hk'
  | kentei q st i name _ hq hn hk' =>
    rw [(newListKanji_name _ _ _ _ _ _ hk').2, if_neg (by simp [ListKind.newType])]; exact newListKanji_level hk'
  | ucd u k' hu hk' =>
    have := makeOther_name _ _ _ _ _ _ k' hk'
    show k'.level = if k'.type = _ ∨ k'.type = _ then _ else _
    rw [this.2.1, if_neg (by decide)]; exact this.2.2.2.2

theorem makeOther_grade {c : KanjiCtx} {t : KanjiType} {name : Str} {u : Option Ucd} {q : Option KenteiKyu} {n : UInt16}
    {k : Kanji} (h : Kanji.makeOther c t name u q n = .ok k) : k.grade = none := by
  unfold Kanji.makeOther at h
  cases u with
  | none => cases h
  | some u =>
    simp only at h
    obtain ⟨r, _, h⟩ := Res.bind_eq_ok h
    obtain ⟨_, _, h⟩ := Res.bind_eq_ok h; cases h
    rfl

@[inherit_doc C103_level]
theorem C103_grade (l : Loaded) (f : KanjiFiles) (d : KanjiStore) (h : loadKanji l f = .ok d) (k : KanjiRec)
    (hk : k ∈ d.all) : k.kanji.grade.isSome ↔ k.kanji.type = .jouyou := by
  obtain ⟨jouyou, line, old, jinmei, extra, lists, ucd, hl, _⟩ := loadKanji_spec h
  rw [hl.types.store.all_eq] at hk
  cases hl.origin k hk with
  | jouyou row info k' hr hk' =>
    have := jouyou_row hk'
    show k'.grade.isSome ↔ k'.type = _
    obtain ⟨g, _, e⟩ := this.2.2.2.2.2.2.2.1
    rw [this.1, e]; simp
  | jinmei row info k' hr hk' =>
    have := jinmei_row hk'
    show k'.grade.isSome ↔ k'.type = _
    rw [this.1, this.2.2.2.2.2.2.2.1]; simp
  | extra row info k' hr hk' =>
    have := extra_row hk'
    show k'.grade.isSome ↔ k'.type = _
    rw [this.1, this.2.2.2.2.2.1]; simp
  | line line jouyou linked rest link k' hm hf hlo hn hk' =>
    have := linked_facts hk'
    show k'.grade.isSome ↔ k'.type = _
    rw [this.1, this.2.2.2.2.2.2.2.1]; simp
  | old link o k' hlo hoo hk' =>
    have := linked_facts hk'
    show k'.grade.isSome ↔ k'.type = _
    rw [this.1, this.2.2.2.2.2.2.2.1]; simp
  | jinmeiOld row info link o k' hr hlink hoo hk' =>
    have := linked_facts hk'
    show k'.grade.isSome ↔ k'.type = _
    rw [this.1, this.2.2.2.2.2.2.2.1]; simp
  | frequency i name _ hi hk' =>
    rw [(newListKanji_name _ _ _ _ _ _ hk').2]
    simp only [newListKanji] at hk'
    obtain ⟨x, hx, e⟩ := Res.bind_eq_ok hk'
    cases e
    show x.grade.isSome ↔ _
    rw [makeOther_grade hx]; simp [ListKind.newType]
  | kentei q st i name _ hq hn hk' =>
    rw [(newListKanji_name _ _ _ _ _ _ hk').2]
    simp only [newListKanji] at hk'
    obtain ⟨x, hx, e⟩ := Res.bind_eq_ok hk'
    cases e
    show x.grade.isSome ↔ _
    rw [makeOther_grade hx]; simp [ListKind.newType]
  | ucd u k' hu hk' =>
    have := makeOther_name _ _ _ _ _ _ k' hk'
    show k'.grade.isSome ↔ k'.type = _
    rw [this.2.1, makeOther_grade hk']; simp

/-- The list files were loaded from some texts. -/
def ListsLoaded (l : ListFiles) : Prop :=
  ∃ levels kyus frequency, loadListFiles levels kyus frequency = .ok l

theorem ListsLoaded.level_iff {l : ListFiles} (h : ListsLoaded l) (s : Str) (x : JlptLevel) :
    l.level s = some x ↔ ∃ st, (x, st) ∈ l.levels ∧ s ∈ st.list := by
  obtain ⟨a, b, c, h⟩ := h
  obtain ⟨h1, _, _⟩ := loadListFiles_ok h
  obtain ⟨_, _, i3, _, i5⟩ := loadTyped_spec _ _ _ h1
  exact find_typed l.levels i3 i5 s x

theorem ListsLoaded.kyu_iff {l : ListFiles} (h : ListsLoaded l) (s : Str) (x : KenteiKyu) :
    l.kyu s = some x ↔ ∃ st, (x, st) ∈ l.kyus ∧ s ∈ st.list := by
  obtain ⟨a, b, c, h⟩ := h
  obtain ⟨_, h1, _⟩ := loadListFiles_ok h
  obtain ⟨_, _, i3, _, i5⟩ := loadTyped_spec _ _ _ h1
  exact find_typed l.kyus i3 i5 s x

theorem ListsLoaded.frequency_iff {l : ListFiles} (h : ListsLoaded l) (s : Str) (i : Nat) :
    l.frequency.list[i]? = some s ↔ (l.frequencyOf s).toNat = i + 1 := by
  obtain ⟨a, b, c, h⟩ := h
  have := (C100_frequency a b c l h s).1 i
  obtain ⟨_, _, h3⟩ := loadListFiles_ok h
  rw [(C40_entries true false [] c l.frequency h3).1]
  exact this

/-- The kyu of a kanji is the one of its name in the kyu files. -/
theorem C103_kyu (l : Loaded) (hls : ListsLoaded l.lists) (f : KanjiFiles) (d : KanjiStore) (h : loadKanji l f = .ok d)
    (k : KanjiRec) (hk : k ∈ d.all) : k.kanji.kyu = l.lists.kyu k.kanji.name := by
  obtain ⟨jouyou, line, old, jinmei, extra, lists, ucd, hl, t1, t2, t3, t4, t5, t6, t7, _, _, _, _, _, _, _, _, hp, _⟩ :=
    loadKanji_spec h
  rw [hl.types.store.all_eq] at hk
  cases hl.origin k hk with
  | jouyou row info k' hr hk' =>
    have := jouyou_row hk'
    show k'.kyu = l.lists.kyu k'.name
    rw [this.2.1]; exact this.2.2.2.2.2.2.1
  | jinmei row info k' hr hk' =>
    have := jinmei_row hk'
    show k'.kyu = l.lists.kyu k'.name
    rw [this.2.1]; exact this.2.2.2.2.2.2.1
  | extra row info k' hr hk' =>
    have := extra_row hk'
    show k'.kyu = l.lists.kyu k'.name
    rw [this.2.1]; exact this.2.2.2.2.1
  | line line jouyou linked rest link k' hm hf hlo hn hk' =>
    have := linked_facts hk'
    show k'.kyu = l.lists.kyu k'.name
    rw [this.2.1]; exact this.2.2.2.2.2.2.1
  | old link o k' hlo hoo hk' =>
    have := linked_facts hk'
    show k'.kyu = l.lists.kyu k'.name
    rw [this.2.1]; exact this.2.2.2.2.2.2.1
  | jinmeiOld row info link o k' hr hlink hoo hk' =>
    have := linked_facts hk'
    show k'.kyu = l.lists.kyu k'.name
    rw [this.2.1]; exact this.2.2.2.2.2.2.1
  | frequency i name _ hi hk' =>
    rw [(newListKanji_name _ _ _ _ _ _ hk').1]; exact (newListKanji_frequency hk').1
  | kentei q st i name _ hq hn hk' =>
    rw [(newListKanji_name _ _ _ _ _ _ hk').1, (newListKanji_kyu hk').1]
    exact ((hls.kyu_iff name q).mpr ⟨st, hq, hn⟩).symm
  | ucd u k' hu hk' =>
    have := makeOther_name _ _ _ _ _ _ k' hk'
    have hmem : l.ids.record (some u) k' ∈ ucd := by
      have ty : (l.ids.record (some u) k').kanji.type = .ucd := this.2.1
      generalize l.ids.record (some u) k' = x at hk ty
      simp only [List.mem_append] at hk
      rcases hk with ((((hx | hx | hx) | hx) | hx) | hx) | hx
      · rw [t1 x hx] at ty; cases ty
      · rw [(t2 x hx).1] at ty; cases ty
      · rw [(t7 x hx).1] at ty; cases ty
      · rcases t3 x hx with g | g <;> · rw [g] at ty; cases ty
      · rw [t4 x hx] at ty; cases ty
      · rcases t5 x hx with g | g <;> · rw [g] at ty; cases ty
      · exact hx
    have hno := (t6 _ hmem).2
    rw [show (l.ids.record (some u) k').kanji.kyu = none from this.2.2.1]
    cases hq : l.lists.kyu (l.ids.record (some u) k').kanji.name with
    | none => rfl
    | some q =>
      exfalso
      obtain ⟨st, h1, h2⟩ := (hls.kyu_iff _ q).mp hq
      exact hno (hp (.kyu q, st.list) (by
        unfold ListFiles.processOrder
        exact List.mem_append_right _ (List.mem_map.mpr ⟨_, h1, rfl⟩)) _ h2)

/-- The frequency of a kanji is the one of its name in the frequency file, except that Extra, Kentei and Ucd kanji have
none. -/
theorem C103_frequency (l : Loaded) (hls : ListsLoaded l.lists) (f : KanjiFiles) (d : KanjiStore)
    (h : loadKanji l f = .ok d) (k : KanjiRec) (hk : k ∈ d.all) :
    k.kanji.frequency =
      if k.kanji.type = .extra ∨ k.kanji.type = .kentei ∨ k.kanji.type = .ucd then 0
      else l.lists.frequencyOf k.kanji.name := by
  obtain ⟨jouyou, line, old, jinmei, extra, lists, ucd, hl, _⟩ := loadKanji_spec h
  rw [hl.types.store.all_eq] at hk
  cases hl.origin k hk with
  | jouyou row info k' hr hk' =>
    have := jouyou_row hk'
    show k'.frequency = if k'.type = _ ∨ k'.type = _ ∨ k'.type = _ then 0 else l.lists.frequencyOf k'.name
    rw [this.1, this.2.1, if_neg (by decide)]; exact this.2.2.2.2.1
  | jinmei row info k' hr hk' =>
    have := jinmei_row hk'
    show k'.frequency = if k'.type = _ ∨ k'.type = _ ∨ k'.type = _ then 0 else l.lists.frequencyOf k'.name
    rw [this.1, this.2.1, if_neg (by decide)]; exact this.2.2.2.2.1
  | extra row info k' hr hk' =>
    have := extra_row hk'
    show k'.frequency = if k'.type = _ ∨ k'.type = _ ∨ k'.type = _ then 0 else l.lists.frequencyOf k'.name
    rw [this.1, if_pos (by decide)]; exact this.2.2.1
  | line line jouyou linked rest link k' hm hf hlo hn hk' =>
    have := linked_facts hk'
    show k'.frequency = if k'.type = _ ∨ k'.type = _ ∨ k'.type = _ then 0 else l.lists.frequencyOf k'.name
    rw [this.1, this.2.1, if_neg (by decide)]; exact this.2.2.2.2.1
  | old link o k' hlo hoo hk' =>
    have := linked_facts hk'
    show k'.frequency = if k'.type = _ ∨ k'.type = _ ∨ k'.type = _ then 0 else l.lists.frequencyOf k'.name
    rw [this.1, this.2.1, if_neg (by decide)]; exact this.2.2.2.2.1
  | jinmeiOld row info link o k' hr hlink hoo hk' =>
    have := linked_facts hk'
    show k'.frequency = if k'.type = _ ∨ k'.type = _ ∨ k'.type = _ then 0 else l.lists.frequencyOf k'.name
    rw [this.1, this.2.1, if_neg (by decide)]; exact this.2.2.2.2.1
  | frequency i name _ hi hk' =>
    have e := newListKanji_name _ _ _ _ _ _ hk'
    rw [e.1, e.2, if_neg (by decide), (newListKanji_frequency hk').2]
    have := (hls.frequency_iff name i).mp hi
    apply UInt16.toNat_inj.mp
    have lt := (l.lists.frequencyOf name).toNat_lt
    rw [UInt16.toNat_ofNat', this]
    omega
  | kentei q st i name _ hq hn hk' =>
    rw [(newListKanji_name _ _ _ _ _ _ hk').2, if_pos (by simp [ListKind.newType])]; exact (newListKanji_kyu hk').2
  | ucd u k' hu hk' =>
    have := makeOther_name _ _ _ _ _ _ k' hk'
    show k'.frequency = if k'.type = _ ∨ k'.type = _ ∨ k'.type = _ then 0 else l.lists.frequencyOf k'.name
    rw [this.2.1, if_pos (by decide)]; exact this.2.2.2.1

/-! ## C104: what is found -/

/-- Every entry of the list files and of the Unicode file is found. -/
theorem C104_found (l : Loaded) (f : KanjiFiles) (d : KanjiStore) (h : loadKanji l f = .ok d) :
    (∀ x st, (x, st) ∈ l.lists.levels → ∀ n ∈ st.list, (d.findByName n).isSome) ∧
    (∀ x st, (x, st) ∈ l.lists.kyus → ∀ n ∈ st.list, (d.findByName n).isSome) ∧
    (∀ n ∈ l.lists.frequency.list, (d.findByName n).isSome) ∧
    (∀ u ∈ l.ucds, (d.findByName u.name).isSome) := by
  obtain ⟨jouyou, line, old, jinmei, extra, lists, ucd, hl, t1, t2, t3, t4, t5, t6, t7, _, _, _, _, _, _, _, _, hp, hu,
    _⟩ := loadKanji_spec h
  have hs := hl.types.store
  have hp' : ∀ p ∈ l.lists.processOrder, ∀ n ∈ p.2, (d.findByName n).isSome := by
    intro p hpm n hn
    obtain ⟨x, hx, m⟩ := hp p hpm n hn
    exact (findByName_isSome hs n).mpr ⟨x, List.mem_append_left _ hx, m⟩
  refine ⟨fun x st hx n hn => ?_, fun x st hx n hn => ?_, fun n hn => ?_, fun u hum => ?_⟩
  · exact hp' (.level x, st.list) (List.mem_append_left _ (List.mem_append_left _ (List.mem_map.mpr ⟨_, hx, rfl⟩))) n hn
  · exact hp' (.kyu x, st.list) (List.mem_append_right _ (List.mem_map.mpr ⟨_, hx, rfl⟩)) n hn
  · exact hp' (.frequency, l.lists.frequency.list) (List.mem_append_left _ (List.mem_append_right _ (by simp))) n hn
  · exact (findByName_isSome hs _).mpr (hu u hum)

theorem addAll_append (f f1 f2 : FreqData KanjiRec) (a b : List KanjiRec) (h1 : f.addAll a = .ok f1)
    (h2 : f1.addAll b = .ok f2) : f.addAll (a ++ b) = .ok f2 := by
  induction a generalizing f with
  | nil => cases h1; exact h2
  | cons k a ih =>
    rw [FreqData.addAll] at h1
    obtain ⟨g, e, h1⟩ := Res.bind_eq_ok h1
    rw [List.cons_append, FreqData.addAll, e]
    exact ih g h1

/-- What the list files put into the lists, when a name of an entry only finds the kanji with this name. -/
theorem processLists_lists {l : Loaded} (All : List KanjiRec) : ∀ (fs : List (ListKind × List Str)) (d d' : KanjiStore)
    (A : List KanjiRec), StoreInv d A → processLists l fs d = .ok d' → (∀ B, StoreInv d' B → ∀ k ∈ B, k ∈ All) →
    (∀ k ∈ All, ∀ p ∈ fs, ∀ n ∈ p.2, Matches n k → k.kanji.name = n) →
    (∀ k ∈ All, ∀ p ∈ fs, ∀ y, p.1 = .level y → k.kanji.name ∈ p.2 → k.kanji.level.isSome → k.kanji.level = some y) →
    (∀ k ∈ All, ∀ p ∈ fs, ∀ y, p.1 = .kyu y → k.kanji.name ∈ p.2 → k.kanji.kyu.isSome → k.kanji.kyu = some y) →
    (∃ new, StoreInv d' (A ++ new)) ∧
    (∀ x, (d'.levels x).map (·.kanji.name) =
      (d.levels x).map (·.kanji.name) ++ fs.flatMap fun p => if p.1 = .level x then p.2 else []) ∧
    (∀ x, (d'.kyus x).map (·.kanji.name) =
      (d.kyus x).map (·.kanji.name) ++ fs.flatMap fun p => if p.1 = .kyu x then p.2 else []) ∧
    ∃ ks : List KanjiRec, ks.map (·.kanji.name) = fs.flatMap (fun p => if p.1 = .frequency then p.2 else []) ∧
      (∀ k ∈ ks, k ∈ All) ∧ d.frequencies.addAll ks = .ok d'.frequencies := by
  intro fs
  induction fs with
  | nil =>
    intro d d' A hs hd hAll _ _ _
    cases hd
    exact ⟨⟨[], by simpa using hs⟩, by simp, by simp, [], rfl, by simp, rfl⟩
  | cons p fs ih =>
    obtain ⟨kind, names⟩ := p
    intro d d' A hs hd hAll hname hlev hkyu
    rw [processLists] at hd
    obtain ⟨d1, h1, hd⟩ := Res.bind_eq_ok hd
    obtain ⟨_, new1, ks, s1, _, _, _, hlen, hat, hdone⟩ := C77_list _ _ kind 0 names d d1 A hs h1
    obtain ⟨⟨new2, s2⟩, i1, i2, ks2, i3, i4, i5⟩ := ih d1 d' _ s1 hd hAll
      (fun k hk p hp => hname k hk p (List.mem_cons_of_mem _ hp))
      (fun k hk p hp => hlev k hk p (List.mem_cons_of_mem _ hp))
      (fun k hk p hp => hkyu k hk p (List.mem_cons_of_mem _ hp))
    have hin : ∀ k ∈ A ++ new1, k ∈ All := fun k hk => hAll _ s2 k (List.mem_append_left _ hk)
    have hnm : ks.map (·.kanji.name) = names := by
      apply List.ext_getElem?
      intro j
      rw [List.getElem?_map]
      cases hj : names[j]? with
      | none =>
        have : ks[j]? = none := by
          rw [List.getElem?_eq_none_iff] at hj ⊢; omega
        rw [this]; rfl
      | some n =>
        have hjl : j < ks.length := by
          rw [hlen]; exact (List.getElem?_eq_some_iff.mp hj).1
        obtain ⟨hm, hmat⟩ := hat j n ks[j] hj (List.getElem?_eq_getElem hjl)
        rw [List.getElem?_eq_getElem hjl]
        exact congrArg some (hname _ (hin _ hm) (kind, names) (by simp) n (List.mem_of_getElem? hj) hmat)
    have hks : ∀ k ∈ ks, k ∈ All ∧ k.kanji.name ∈ names := by
      intro k hk
      obtain ⟨j, hj⟩ := List.getElem?_of_mem hk
      have hjl : j < names.length := by
        rw [← hlen]; exact (List.getElem?_eq_some_iff.mp hj).1
      have := hat j names[j] k (List.getElem?_eq_getElem hjl) hj
      refine ⟨hin k this.1, ?_⟩
      rw [← hnm]; exact List.mem_map.mpr ⟨k, hk, rfl⟩
    refine ⟨⟨new1 ++ new2, by rw [← List.append_assoc]; exact s2⟩, ?_, ?_, ?_⟩
    · intro x
      rw [i1 x, List.flatMap_cons]
      cases kind with
      | kyu q => obtain ⟨_, _, e, _⟩ := hdone; rw [e]; simp
      | frequency => obtain ⟨_, _, e⟩ := hdone; rw [e]; simp
      | level q =>
        obtain ⟨e1, e2, _, _⟩ := hdone
        have hq : ∀ k ∈ ks, k.kanji.level = some q := fun k hk =>
          hlev k (hks k hk).1 (.level q, names) (by simp) q rfl (hks k hk).2 (e1 k hk)
        rw [e2 x]
        by_cases hx : q = x
        · subst hx
          rw [List.filter_eq_self.mpr (by intro k hk; simp [hq k hk])]
          simp [hnm]
        · rw [List.filter_eq_nil_iff.mpr (by intro k hk; simp [hq k hk, hx])]
          simp [hx]
    · intro x
      rw [i2 x, List.flatMap_cons]
      cases kind with
      | level q => obtain ⟨_, _, e, _⟩ := hdone; rw [e]; simp
      | frequency => obtain ⟨_, e, _⟩ := hdone; rw [e]; simp
      | kyu q =>
        obtain ⟨e1, e2, _, _⟩ := hdone
        have hq : ∀ k ∈ ks, k.kanji.kyu = some q := fun k hk =>
          hkyu k (hks k hk).1 (.kyu q, names) (by simp) q rfl (hks k hk).2 (e1 k hk)
        rw [e2 x]
        by_cases hx : q = x
        · subst hx
          rw [List.filter_eq_self.mpr (by intro k hk; simp [hq k hk])]
          simp [hnm]
        · rw [List.filter_eq_nil_iff.mpr (by intro k hk; simp [hq k hk, hx])]
          simp [hx]
    · cases kind with
      | level q =>
        obtain ⟨_, _, _, e⟩ := hdone
        exact ⟨ks2, by rw [i3, List.flatMap_cons]; simp, i4, by rw [← e]; exact i5⟩
      | kyu q =>
        obtain ⟨_, _, _, e⟩ := hdone
        exact ⟨ks2, by rw [i3, List.flatMap_cons]; simp, i4, by rw [← e]; exact i5⟩
      | frequency =>
        obtain ⟨e, _, _⟩ := hdone
        refine ⟨ks ++ ks2, by rw [List.map_append, hnm, i3, List.flatMap_cons]; simp, ?_, addAll_append _ _ _ _ _ e i5⟩
        intro k hk
        rcases List.mem_append.mp hk with hk | hk
        · exact (hks k hk).1
        · exact i4 k hk

/-- No entry of the list files is the compatibility name of another kanji that is found. -/
def PlainEntries (l : ListFiles) (d : KanjiStore) : Prop :=
  ∀ k ∈ d.all, ∀ p ∈ l.processOrder, ∀ n ∈ p.2, k.kanji.variant = true → k.kanji.compatibilityName = n → k.kanji.name = n

theorem flatMap_filter {τ : Type} [DecidableEq τ] (l : List (τ × LoadState)) (make : τ → ListKind)
    (hm : ∀ a b, make a = make b ↔ a = b) (x : τ) :
    (l.map fun p => (make p.1, p.2.list)).flatMap (fun p => if p.1 = make x then p.2 else []) =
      (l.filter (·.1 == x)).flatMap (·.2.list) := by
  induction l with
  | nil => rfl
  | cons p l ih =>
    rw [List.map_cons, List.flatMap_cons, ih]
    by_cases e : p.1 = x
    · rw [List.filter_cons_of_pos (by simp [e]), List.flatMap_cons, if_pos (by rw [e])]
    · rw [List.filter_cons_of_neg (by simp [e]), if_neg (by rw [hm]; exact e), List.nil_append]

theorem flatMap_nil {τ : Type} (l : List (τ × LoadState)) (make : τ → ListKind) (x : ListKind)
    (hm : ∀ a, make a ≠ x) :
    (l.map fun p => (make p.1, p.2.list)).flatMap (fun p => if p.1 = x then p.2 else []) = [] := by
  induction l with
  | nil => rfl
  | cons p l ih => rw [List.map_cons, List.flatMap_cons, ih, if_neg (hm p.1)]; rfl

theorem loadKanji_lists {l : Loaded} (hls : ListsLoaded l.lists) {f : KanjiFiles} {d : KanjiStore}
    (h : loadKanji l f = .ok d) (hpl : PlainEntries l.lists d) :
    (∀ x, (d.levels x).map (·.kanji.name) = (l.lists.levels.filter (·.1 == x)).flatMap (·.2.list)) ∧
    (∀ x, (d.kyus x).map (·.kanji.name) = (l.lists.kyus.filter (·.1 == x)).flatMap (·.2.list)) ∧
    ∃ ks : List KanjiRec, ks.map (·.kanji.name) = l.lists.frequency.list ∧ (∀ k ∈ ks, k ∈ d.all) ∧
      ({} : FreqData KanjiRec).addAll ks = .ok d.frequencies := by
  obtain ⟨jouyou, line, old, jinmei, extra, lists, ucd, hl, _, _, _, _, _, _, _, _, _, _, _, _, _, _, _, _, _, ⟨d0, d1, s0,
    s1, sl0, hd, sl1⟩, _⟩ := loadKanji_spec h
  obtain ⟨_, i1, i2, ks, i3, i4, i5⟩ := processLists_lists d.all l.lists.processOrder d0 d1 _ s0 hd
    (fun B hB k hk => by
      rw [storeInv_unique hB s1] at hk
      rw [hl.types.store.all_eq]
      exact List.mem_append_left _ hk)
    (fun k hk p hp n hn m => by
      rcases m with m | m
      · exact m
      · exact hpl k hk p hp n hn m.1 m.2)
    (fun k hk p hp y e hn hs => by
      have := C103_level l f d h k hk
      split at this
      · rw [this]
        obtain ⟨kind, names⟩ := p
        subst e
        unfold ListFiles.processOrder at hp
        simp only [List.append_assoc, List.mem_append, List.mem_map, List.mem_singleton, Prod.mk.injEq] at hp
        rcases hp with ⟨q, hq, e1, e2⟩ | ⟨e1, _⟩ | ⟨q, _, e1, _⟩
        · cases e1
          exact (hls.level_iff _ _).mpr ⟨q.2, hq, by rw [e2]; exact hn⟩
        · cases e1
        · cases e1
      · rw [this] at hs; cases hs)
    (fun k hk p hp y e hn hs => by
      have := C103_kyu l hls f d h k hk
      rw [this]
      obtain ⟨kind, names⟩ := p
      subst e
      unfold ListFiles.processOrder at hp
      simp only [List.append_assoc, List.mem_append, List.mem_map, List.mem_singleton, Prod.mk.injEq] at hp
      rcases hp with ⟨q, _, e1, _⟩ | ⟨e1, _⟩ | ⟨q, hq, e1, e2⟩
      · cases e1
      · cases e1
      · cases e1
        exact (hls.kyu_iff _ _).mpr ⟨q.2, hq, by rw [e2]; exact hn⟩)
  refine ⟨fun x => ?_, fun x => ?_, ks, ?_, i4, ?_⟩
  · rw [sl1.1, i1 x, sl0.1, ListFiles.processOrder, List.flatMap_append, List.flatMap_append,
      flatMap_filter _ ListKind.level (by simp), flatMap_nil _ ListKind.kyu _ (by simp)]
    simp
  · rw [sl1.2.1, i2 x, sl0.2.1, ListFiles.processOrder, List.flatMap_append, List.flatMap_append,
      flatMap_filter _ ListKind.kyu (by simp), flatMap_nil _ ListKind.level _ (by simp)]
    simp
  · rw [i3, ListFiles.processOrder, List.flatMap_append, List.flatMap_append,
      flatMap_nil _ ListKind.kyu _ (by simp), flatMap_nil _ ListKind.level _ (by simp)]
    simp
  · rw [sl1.2.2, ← i5, sl0.2.2]

/-- The kanji of a level (kyu) are the entries of the files of that level (kyu), in order. -/
theorem C104_lists (l : Loaded) (hls : ListsLoaded l.lists) (f : KanjiFiles) (d : KanjiStore)
    (h : loadKanji l f = .ok d) (hpl : PlainEntries l.lists d) :
    (∀ x, (d.levels x).map (·.kanji.name) = (l.lists.levels.filter (·.1 == x)).flatMap (·.2.list)) ∧
    (∀ x, (d.kyus x).map (·.kanji.name) = (l.lists.kyus.filter (·.1 == x)).flatMap (·.2.list)) :=
  ⟨(loadKanji_lists hls h hpl).1, (loadKanji_lists hls h hpl).2.1⟩

theorem addAll_ranked (ks : List KanjiRec) (r : Nat) (f : FreqData KanjiRec)
    (hr : ∀ i k, ks[i]? = some k → k.kanji.frequency.toNat = r + i) : f.addAll ks = addRanked ks r f := by
  induction ks generalizing r f with
  | nil => rfl
  | cons k ks ih =>
    rw [FreqData.addAll, addRanked, hr 0 k rfl]
    congr 1
    funext g
    exact ih (r + 1) g fun i x hx => by rw [hr (i + 1) x (by simpa using hx)]; omega

theorem addAll_pos {f g : FreqData KanjiRec} {ks : List KanjiRec} (h : f.addAll ks = .ok g) :
    ∀ k ∈ ks, k.kanji.frequency.toNat ≠ 0 := by
  induction ks generalizing f with
  | nil => simp
  | cons k ks ih =>
    rw [FreqData.addAll] at h
    obtain ⟨f', e, h⟩ := Res.bind_eq_ok h
    intro x hx
    rcases List.mem_cons.mp hx with rfl | hx
    · intro h0
      rw [h0, FreqData.add, if_pos rfl] at e
      cases e
    · exact ih h x hx

/-- The kanji of frequency `r` is the one of line `r` of the frequency file (for files of at most 2750 entries; see
`C44_violated` for longer ones). -/
theorem C104_frequency (l : Loaded) (hls : ListsLoaded l.lists) (f : KanjiFiles) (d : KanjiStore)
    (h : loadKanji l f = .ok d) (hpl : PlainEntries l.lists d) (hlen : l.lists.frequency.list.length ≤ 2750) (r : Nat) :
    ∃ k, d.frequencies.find r = .ok k ∧
      k.map (·.kanji.name) = if r = 0 then none else l.lists.frequency.list[r - 1]? := by
  obtain ⟨_, _, ks, h1, h2, h3⟩ := loadKanji_lists hls h hpl
  have hr : ∀ i k, ks[i]? = some k → k.kanji.frequency.toNat = 1 + i := by
    intro i k hk
    have hm := List.mem_of_getElem? hk
    have h0 := addAll_pos h3 k hm
    have hf := C103_frequency l hls f d h k (h2 k hm)
    split at hf
    · rw [hf] at h0; exact absurd rfl h0
    · have hi : l.lists.frequency.list[i]? = some k.kanji.name := by
        rw [← h1, List.getElem?_map, hk]; rfl
      rw [hf, (hls.frequency_iff _ i).mp hi]; omega
  rw [addAll_ranked ks 1 {} hr] at h3
  obtain ⟨g, e1, e2⟩ := C44_partial ks (by rw [← h1, List.length_map] at hlen; exact hlen) 0 (by omega)
  rw [show ({ maxFrequency := 0 } : FreqData KanjiRec) = {} from rfl, h3] at e1
  cases e1
  refine ⟨_, e2 r, ?_⟩
  split
  · rfl
  · rw [← h1, List.getElem?_map]

/-- Files with kanji of all types. -/
def sampleFiles : KanjiFiles where
  frequencyReadings := [(u8!"四", u8!"シ")]
  jouyou := [sampleRow (u8!"一") (u8!"1") (u8!"壱"), sampleRow (u8!"三") (u8!"3") (u8!"参,壱"),
    sampleRow (u8!"二") (u8!"2") []]
  linkedJinmei := [u8!"三\t参"]
  jinmei := [sampleRow (u8!"亜") [] (u8!"亞")]
  extra := [sampleRow (u8!"五") (u8!"4") []]

/-- `sampleFiles` with the lists of `sampleLists`. -/
def sampleStore : Res KanjiStore :=
  sampleLists.bind fun lists => loadKanji { sampleLoaded with
    lists, ucds := [⟨u8!"一", 0x4e00, .none, [], ⟨1, 0⟩⟩, ⟨u8!"六", 0x516d, .none, [], ⟨4, 0⟩⟩] } sampleFiles

example : (match sampleStore with
    | .ok d => (d.all.map fun k => (k.kanji.name, k.kanji.type, k.kanji.newName)) | _ => []) =
    [(u8!"一", .jouyou, none), (u8!"三", .jouyou, none), (u8!"二", .jouyou, none), (u8!"参", .linkedJinmei, some (u8!"三")),
      (u8!"壱", .linkedOld, some (u8!"一")), (u8!"亜", .jinmei, none), (u8!"亞", .linkedJinmei, some (u8!"亜")),
      (u8!"五", .extra, none), (u8!"六", .ucd, none)] := by decide +kernel

example : (match sampleStore with
    | .ok d => ((d.levels .n4).map (·.kanji.name), (d.kyus .k10).map (·.kanji.name),
        match d.frequencies.find 1 with | .ok k => k.map (·.kanji.name) | _ => none)
    | _ => ([], [], none)) = ([u8!"二", u8!"三"], [u8!"一", u8!"二"], some (u8!"三")) := by decide +kernel

end KT
