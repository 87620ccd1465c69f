import Verif.Props.LoadData
import Verif.Props.QuizProgram
/-!
# C171: the quiz program runs with every data that can be loaded

Model: `Verif/Model/LoadData.lean`.
-/
namespace KT
open Spec

/-! ## The kanji -/

theorem loaded_found (ltr : Bool) {rows : List UcdRow} {u : UcdData} (hu : UcdData.load rows {} = .ok u) (lists : ListFiles)
    (rad : RadicalData) (readings : List (Str × Str)) {x : Ucd}
    (h : (∃ name, (loadedOf ltr lists u rad readings).findUcd name = some x) ∨ x ∈ (loadedOf ltr lists u rad readings).ucds) :
    x.name ≠ [] ∧ ∀ n ∈ x.links, n ≠ [] := by
  have : ∃ e n, x = e.toUcd ∧ (n, e) ∈ u.map := by
    rcases h with ⟨name, h⟩ | h
    · obtain ⟨e, he, rfl⟩ := found_entry ltr lists u rad readings h
      obtain ⟨n, hn⟩ := findEntry_mem he
      exact ⟨e, n, rfl, hn⟩
    · have h : x ∈ u.ordered.map (·.toUcd) := h
      obtain ⟨e, he, rfl⟩ := List.mem_map.mp h
      obtain ⟨n, hm⟩ := (mem_ordered u e).mp he
      exact ⟨e, n, rfl, hm⟩
  obtain ⟨e, n, rfl, hm⟩ := this
  obtain ⟨_, _, row, _, hd⟩ := (ucd_loaded hu).2 _ hm
  obtain ⟨hn, code, _, hk⟩ := hd.name
  refine ⟨by rw [hn]; exact kanjiEntry_ne hk, linksMatch_ne hd.links.2⟩

theorem loaded_pinyin (ltr : Bool) (lists : ListFiles) (u : UcdData) (rad : RadicalData) (readings : List (Str × Str))
    {x : Ucd} {p : Str} (h : (loadedOf ltr lists u rad readings).pinyin x = some p) : p ≠ [] := by
  have h : ((u.entry x).bind fun e => if e.pinyin.isEmpty then none else some e.pinyin) = some p := h
  obtain ⟨e, _, h⟩ := Option.bind_eq_some_iff.mp h
  split at h
  · cases h
  · rename_i hn
    cases h
    simpa using hn

theorem other_sound {c : KanjiCtx} (hp : ∀ x p, c.pinyin x = some p → p ≠ []) {t : KanjiType} {name : Str}
    {ucd : Option Ucd} (hl : ∀ x, ucd = some x → ∀ n ∈ x.links, n ≠ []) {q : Option KenteiKyu} {n : UInt16} {k : Kanji}
    (h : Kanji.makeOther c t name ucd q n = .ok k) :
    (k.newName = none ∨ k.oldNames = []) ∧ (∀ p, k.pinyin = some p → p ≠ []) ∧ ∀ n ∈ k.oldNames, n ≠ [] := by
  obtain ⟨u, hu, h1, h2⟩ := C48_other _ _ _ _ _ _ _ h
  obtain ⟨u', hu', _, h3, _⟩ := makeOther_values h
  rw [hu] at hu'
  cases hu'
  refine ⟨?_, fun p hq => hp u p (by rw [← h3]; exact hq), ?_⟩
  · cases ht : u.hasTraditionalLinks with
    | true => exact .inl (h1 ht).2
    | false => exact .inr (h2 ht).1
  · cases ht : u.hasTraditionalLinks with
    | true => rw [(h1 ht).1]; exact hl u hu
    | false => rw [(h2 ht).1]; simp

theorem bind_pinyin {c : KanjiCtx} (hp : ∀ x p, c.pinyin x = some p → p ≠ []) (o : Option Ucd) (p : Str)
    (h : o.bind c.pinyin = some p) : p ≠ [] := by
  obtain ⟨x, _, h⟩ := Option.bind_eq_some_iff.mp h
  exact hp x p h

/-- Old names of Jouyou and Jinmei kanji are left open here. -/
theorem origin_sound {ltr : Bool} {rows : List UcdRow} {u : UcdData} (hu : UcdData.load rows {} = .ok u) (lists : ListFiles)
    (rad : RadicalData) (readings : List (Str × Str)) {f : KanjiFiles} {k : KanjiRec}
    (h : Origin (loadedOf ltr lists u rad readings) f k) :
    (k.kanji.newName = none ∨ k.kanji.oldNames = []) ∧ (∀ p, k.kanji.pinyin = some p → p ≠ []) ∧
    (k.kanji.type = .jouyou ∨ k.kanji.type = .jinmei ∨ ∀ n ∈ k.kanji.oldNames, n ≠ []) ∧
    k.kanji.compatName = (loadedOf ltr lists u rad readings).ctx.compatName k.kanji.name := by
  have hp : ∀ x p, (loadedOf ltr lists u rad readings).ctx.pinyin x = some p → p ≠ [] :=
    fun x p h => loaded_pinyin ltr lists u rad readings h
  cases h with
  | jouyou row info k' hr hk' =>
    have h1 := jouyou_row hk'
    have h2 := jouyou_values hk'
    refine ⟨.inl h1.2.2.2.1, fun p hq => bind_pinyin hp _ p (h2.2.1.symm.trans hq), .inl h1.1, ?_⟩
    exact h2.1.trans (congrArg _ h1.2.1.symm)
  | jinmei row info k' hr hk' =>
    have h1 := jinmei_row hk'
    obtain ⟨x, _, h2, h3, _⟩ := jinmei_values hk'
    refine ⟨.inl h1.2.2.2.1, fun p hq => hp x p (h3.symm.trans hq), .inr (.inl h1.1), ?_⟩
    exact h2.trans (congrArg _ h1.2.1.symm)
  | extra row info k' hr hk' =>
    have h1 := extra_row hk'
    obtain ⟨h2, h3, _, _, _, h4, h5⟩ := extra_values hk'
    refine ⟨h4, fun p hq => bind_pinyin hp _ p (h3.symm.trans hq), .inr (.inr fun n hn => ?_),
      h2.trans (congrArg _ h1.2.1.symm)⟩
    obtain ⟨x, hx, hn⟩ := h5 n hn
    exact (loaded_found ltr hu lists rad readings (.inl ⟨_, hx⟩)).2 n hn
  | line line j linked rest link k' hm hf hlo hn hk' =>
    have h1 := linked_facts hk'
    obtain ⟨x, _, h2, h3, _⟩ := makeLinked_values hk'
    refine ⟨.inr h1.2.2.2.1, fun p hq => hp x p (h3.symm.trans hq), .inr (.inr ?_), h2.trans (congrArg _ h1.2.1.symm)⟩
    show ∀ n ∈ k'.oldNames, n ≠ []
    rw [h1.2.2.2.1]; simp
  | old link o k' hlo hoo hk' =>
    have h1 := linked_facts hk'
    obtain ⟨x, _, h2, h3, _⟩ := makeLinked_values hk'
    refine ⟨.inr h1.2.2.2.1, fun p hq => hp x p (h3.symm.trans hq), .inr (.inr ?_), h2.trans (congrArg _ h1.2.1.symm)⟩
    show ∀ n ∈ k'.oldNames, n ≠ []
    rw [h1.2.2.2.1]; simp
  | jinmeiOld row info link o k' hr hlink hoo hk' =>
    have h1 := linked_facts hk'
    obtain ⟨x, _, h2, h3, _⟩ := makeLinked_values hk'
    refine ⟨.inr h1.2.2.2.1, fun p hq => hp x p (h3.symm.trans hq), .inr (.inr ?_), h2.trans (congrArg _ h1.2.1.symm)⟩
    show ∀ n ∈ k'.oldNames, n ≠ []
    rw [h1.2.2.2.1]; simp
  | frequency i name k' hi hk' =>
    have hn := newListKanji_name _ _ _ _ _ _ hk'
    unfold newListKanji at hk'
    obtain ⟨x, hx, hk'⟩ := Res.bind_eq_ok hk'
    cases hk'
    obtain ⟨h1, h2, h3⟩ := other_sound (by exact hp) (fun y hy => (loaded_found ltr hu lists rad readings (.inl ⟨_, hy⟩)).2) hx
    obtain ⟨_, _, h4, _⟩ := makeOther_values hx
    exact ⟨h1, h2, .inr (.inr h3), h4.trans (congrArg _ hn.1.symm)⟩
  | kentei q st i name k' hq hs hk' =>
    have hn := newListKanji_name _ _ _ _ _ _ hk'
    unfold newListKanji at hk'
    obtain ⟨x, hx, hk'⟩ := Res.bind_eq_ok hk'
    cases hk'
    obtain ⟨h1, h2, h3⟩ := other_sound (by exact hp) (fun y hy => (loaded_found ltr hu lists rad readings (.inl ⟨_, hy⟩)).2) hx
    obtain ⟨_, _, h4, _⟩ := makeOther_values hx
    exact ⟨h1, h2, .inr (.inr h3), h4.trans (congrArg _ hn.1.symm)⟩
  | ucd x k' hx hk' =>
    have hn := makeOther_name _ _ _ _ _ _ k' hk'
    obtain ⟨h1, h2, h3⟩ := other_sound (by exact hp)
      (fun y hy => by cases hy; exact (loaded_found ltr hu lists rad readings (.inr hx)).2) hk'
    obtain ⟨_, _, h4, _⟩ := makeOther_values hk'
    exact ⟨h1, h2, .inr (.inr h3), h4.trans (congrArg _ hn.1.symm)⟩

/-- Every kanji that is loaded has what the programs rely on. -/
theorem C171_kanji (ltr : Bool) (f : DataFiles) (d : KanjiStore) (u : UcdData) (l : Loaded)
    (h : loadTextData ltr f = .ok (d, u, l)) (k : KanjiRec) (hk : k ∈ d.all) : k.Sound := by
  obtain ⟨lists, rad, _, hu, _, rfl, hd⟩ := loadTextData_ok h
  have hk0 := hk
  obtain ⟨_, _, _, _, _, _, _, hl, _⟩ := loadKanji_spec hd
  have hs := hl.types.store
  rw [hs.all_eq] at hk
  obtain ⟨h1, h2, h3, _⟩ := origin_sound hu lists rad _ (hl.origin k hk)
  refine ⟨h1, h2, ?_⟩
  have main : k.kanji.type = .jouyou ∨ k.kanji.type = .jinmei → ∀ n ∈ k.kanji.oldNames, n ≠ [] := by
    intro ht n hn
    have := C102_old_found _ f.kanji d hd k hk0 ht n hn
    rw [findByName_isSome hs] at this
    obtain ⟨x, hx, hm⟩ := this
    have size := origin_size (hl.origin x hx)
    have hne : x.kanji.name ≠ [] := by
      intro e
      rw [e] at size
      exact absurd size (by decide +kernel)
    rintro rfl
    rcases hm with hm | ⟨_, hm⟩
    · exact hne hm
    · unfold Kanji.compatibilityName at hm
      cases hc : x.kanji.compatName with
      | none => rw [hc] at hm; exact hne hm
      | some y =>
        rw [hc] at hm
        have hm : y = [] := hm
        subst hm
        rw [(origin_sound hu lists rad _ (hl.origin x hx)).2.2.2] at hc
        unfold KanjiCtx.compatName at hc
        split at hc
        · rename_i v hv
          split at hc
          · exact (loaded_found ltr hu lists rad f.kanji.frequencyReadings (.inl ⟨_, hv⟩)).1 (Option.some.inj hc)
          · cases hc
        · cases hc
  rcases h3 with h3 | h3 | h3
  · exact main (.inl h3)
  · exact main (.inr h3)
  · exact h3

/-! ## The lists -/

theorem modify_mem {α : Type} (l : List (List α)) (i : Nat) (k : α) (b : List α) (hb : b ∈ l.modify i (· ++ [k])) :
    ∃ c ∈ l, b = c ∨ b = c ++ [k] := by
  obtain ⟨j, hj⟩ := List.getElem?_of_mem hb
  rw [List.getElem?_modify] at hj
  obtain ⟨c, hc, e⟩ := Option.map_eq_some_iff.mp hj
  refine ⟨c, List.mem_of_getElem? hc, ?_⟩
  split at e
  · exact .inr e.symm
  · exact .inl e.symm

/-- The buckets have nothing but what was there before and what was added. -/
theorem addAll_members (ks : List KanjiRec) (f g : FreqData KanjiRec) (h : f.addAll ks = .ok g) :
    ∀ b ∈ g.buckets, ∃ c ∈ f.buckets, b.length ≤ c.length + ks.length ∧ ∀ k ∈ b, k ∈ c ∨ k ∈ ks := by
  induction ks generalizing f with
  | nil => cases h; exact fun b hb => ⟨b, hb, by simp, fun k hk => .inl hk⟩
  | cons x ks ih =>
    rw [FreqData.addAll] at h
    obtain ⟨f1, h1, h⟩ := Res.bind_eq_ok h
    intro b hb
    obtain ⟨c, hc, l1, m1⟩ := ih f1 h b hb
    unfold FreqData.add at h1
    split at h1
    · cases h1
    · cases h1
      obtain ⟨c', hc', e⟩ := modify_mem _ _ _ _ hc
      refine ⟨c', hc', ?_, fun k hk => ?_⟩
      · rcases e with rfl | rfl
        · simp; omega
        · simp at l1 ⊢; omega
      · rcases m1 k hk with hk | hk
        · rcases e with rfl | rfl
          · exact .inl hk
          · rcases List.mem_append.mp hk with hk | hk
            · exact .inl hk
            · rw [List.mem_singleton.mp hk]; exact .inr (by simp)
        · exact .inr (List.mem_cons_of_mem _ hk)

/-- The kanji in the lists are kanji found by name. -/
theorem processLists_members {l : Loaded} : ∀ (fs : List (ListKind × List Str)) (d d' : KanjiStore) (A : List KanjiRec),
    StoreInv d A → processLists l fs d = .ok d' →
    ∃ new, StoreInv d' (A ++ new) ∧
      (∀ x, ∀ k ∈ d'.levels x, k ∈ d.levels x ∨ k ∈ A ++ new) ∧
      (∀ x, ∀ k ∈ d'.kyus x, k ∈ d.kyus x ∨ k ∈ A ++ new) := by
  intro fs
  induction fs with
  | nil =>
    intro d d' A hs hd
    cases hd
    exact ⟨[], by simpa using hs, fun _ k hk => .inl hk, fun _ k hk => .inl hk⟩
  | cons p fs ih =>
    obtain ⟨kind, names⟩ := p
    intro d d' A hs hd
    rw [processLists] at hd
    obtain ⟨d1, h1, hd⟩ := Res.bind_eq_ok hd
    obtain ⟨_, new1, ks, s1, _, _, _, hlen, hat, hdone⟩ := C77_list _ _ kind 0 names d d1 A hs h1
    obtain ⟨new2, s2, i1, i2⟩ := ih d1 d' _ s1 hd
    have hks : ∀ k ∈ ks, k ∈ A ++ new1 := by
      intro k hk
      obtain ⟨j, hj⟩ := List.getElem?_of_mem hk
      have hjl : j < names.length := by
        rw [← hlen]; exact (List.getElem?_eq_some_iff.mp hj).1
      exact (hat j names[j] k (List.getElem?_eq_getElem hjl) hj).1
    rw [List.append_assoc] at s2 i1 i2
    have up : ∀ k ∈ A ++ new1, k ∈ A ++ (new1 ++ new2) := by
      intro k hk
      rw [← List.append_assoc]
      exact List.mem_append_left _ hk
    refine ⟨new1 ++ new2, s2, fun x k hk => ?_, fun x k hk => ?_⟩
    · rcases i1 x k hk with hk | hk
      · cases kind with
        | kyu q => rw [hdone.2.2.1] at hk; exact .inl hk
        | frequency => rw [hdone.2.2] at hk; exact .inl hk
        | level q =>
          rw [hdone.2.1 x] at hk
          rcases List.mem_append.mp hk with hk | hk
          · exact .inl hk
          · exact .inr (up k (hks k (List.mem_filter.mp hk).1))
      · exact .inr hk
    · rcases i2 x k hk with hk | hk
      · cases kind with
        | level q => rw [hdone.2.2.1] at hk; exact .inl hk
        | frequency => rw [hdone.2.1] at hk; exact .inl hk
        | kyu q =>
          rw [hdone.2.1 x] at hk
          rcases List.mem_append.mp hk with hk | hk
          · exact .inl hk
          · exact .inr (up k (hks k (List.mem_filter.mp hk).1))
      · exact .inr hk

theorem typed_bound {τ : Type} [DecidableEq τ] : ∀ (fs : List (τ × Str)) (names : List Str) (r : List (τ × LoadState)),
    loadTyped names fs = .ok r → ∀ p ∈ r, p.2.list.length ≤ 65534
  | [], names, r, h, p, hp => by cases h; cases hp
  | (t, text) :: fs, names, r, h, p, hp => by
    unfold loadTyped at h
    split at h
    · rename_i st hst
      obtain ⟨r', h1, h⟩ := Res.bind_eq_ok h
      cases h
      rcases List.mem_cons.mp hp with rfl | hp
      · exact (C40_entries _ _ _ _ _ hst).2.2.1
      · exact typed_bound fs _ r' h1 p hp
    · cases h
    · cases h

/-- With one file per key the list of a key has at most as many entries as a file may have. -/
theorem typed_length {τ : Type} [DecidableEq τ] (r : List (τ × LoadState)) (hn : (r.map (·.1)).Nodup)
    (hb : ∀ p ∈ r, p.2.list.length ≤ 65534) (x : τ) : ((r.filter (·.1 == x)).flatMap (·.2.list)).length ≤ 65534 := by
  induction r with
  | nil => simp
  | cons p r ih =>
    rw [List.map_cons, List.nodup_cons] at hn
    by_cases e : p.1 = x
    · have : r.filter (·.1 == x) = [] := by
        rw [List.filter_eq_nil_iff]
        intro q hq hx
        exact hn.1 (by rw [e, ← (beq_iff_eq.mp hx)]; exact List.mem_map.mpr ⟨q, hq, rfl⟩)
      rw [List.filter_cons_of_pos (by simp [e]), this]
      simpa using hb p (by simp)
    · rw [List.filter_cons_of_neg (by simp [e])]
      exact ih hn.2 fun q hq => hb q (List.mem_cons_of_mem _ hq)

/-- Everything that is put into the list of a quiz is a kanji found by name. -/
theorem C171_listed (l : Loaded) (hls : ListsLoaded l.lists) (f : KanjiFiles) (d : KanjiStore) (h : loadKanji l f = .ok d)
    (hpl : PlainEntries l.lists d) (q : QuestionList) (k : KanjiRec) (hk : k ∈ listedKanji d q) : k ∈ d.all := by
  obtain ⟨_, _, ks, _, hks, hadd⟩ := loadKanji_lists hls h hpl
  obtain ⟨jouyou, line, old, jinmei, extra, lists, ucd, hl, _, _, _, _, _, _, _, _, _, _, _, _, _, _, _, _, _, ⟨d0, d1, s0,
    s1, sl0, hd, sl1⟩, _⟩ := loadKanji_spec h
  obtain ⟨new, sn, i1, i2⟩ := processLists_members l.lists.processOrder d0 d1 _ s0 hd
  have up : ∀ x ∈ jouyou ++ (line ++ old) ++ jinmei ++ extra ++ new, x ∈ d.all := by
    intro x hx
    rw [storeInv_unique sn s1] at hx
    rw [hl.types.store.all_eq]
    exact List.mem_append_left _ hx
  cases q with
  | frequency i =>
    cases i with
    | none => cases hk
    | some i =>
      have hk : k ∈ (d.frequencies.buckets[i]?).getD [] := hk
      cases hb : d.frequencies.buckets[i]? with
      | none => rw [hb] at hk; cases hk
      | some b =>
        rw [hb] at hk
        obtain ⟨c, hc, _, hm⟩ := addAll_members ks _ _ hadd b (List.mem_of_getElem? hb)
        rcases hm k hk with hk | hk
        · rw [(List.mem_replicate.mp hc).2] at hk; cases hk
        · exact hks k hk
  | grade g =>
    cases g with
    | none => cases hk
    | some g =>
      have hk : k ∈ d.grades g := hk
      rw [hl.types.store.grades] at hk
      rw [hl.types.store.all_eq]
      exact (List.mem_filter.mp hk).1
  | kyu x =>
    cases x with
    | none => cases hk
    | some x =>
      have hk : k ∈ d.kyus x := hk
      rw [sl1.2.1] at hk
      rcases i2 x k hk with hk | hk
      · rw [sl0.2.1] at hk; cases hk
      · exact up k hk
  | level x =>
    cases x with
    | none => cases hk
    | some x =>
      have hk : k ∈ d.levels x := hk
      rw [sl1.1] at hk
      rcases i1 x k hk with hk | hk
      · rw [sl0.1] at hk; cases hk
      · exact up k hk

/-! ## The program -/

theorem loadData_ok {ltr : Bool} {f : DataFiles} {d : DetailStore} (h : loadData ltr f = .ok d) :
    ∃ l, loadTextData ltr f = .ok (d.store, d.ucd, l) := by
  unfold loadData at h
  obtain ⟨⟨store, u, l⟩, h1, h⟩ := Res.bind_eq_ok h
  obtain ⟨_, _, h⟩ := Res.bind_eq_ok h
  obtain ⟨_, _, h⟩ := Res.bind_eq_ok h
  obtain ⟨_, _, h⟩ := Res.bind_eq_ok h
  cases h
  exact ⟨l, h1⟩

/-- A word of one of the list files. -/
def DataFiles.Entry (f : DataFiles) (n : Str) : Prop :=
  (∃ l, n ∈ fileTokens (f.levels l)) ∨ (∃ k, n ∈ fileTokens (f.kyus k)) ∨ n ∈ fileTokens f.frequency

/-- No list has the compatibility name of another kanji. -/
def DataFiles.Plain (f : DataFiles) (d : KanjiStore) : Prop :=
  ∀ k ∈ d.all, ∀ n, f.Entry n → k.kanji.variant = true → k.kanji.compatibilityName = n → k.kanji.name = n

/-- The limits within which the program works: fewer than 65536 Jouyou kanji, at most 2750 frequencies (C44), no list has the
compatibility name of another kanji (C104), and groups that can be asked (C159). -/
structure WithinLimits (f : DataFiles) (d : DetailStore) : Prop where
  jouyou : f.kanji.jouyou.length < 65536
  frequencies : (fileTokens f.frequency).length ≤ 2750
  plain : f.Plain d.store
  groups : GroupsFit d.detail

theorem typed_texts {τ : Type} {ts : List τ} {text : τ → Str} {r : List (τ × LoadState)}
    (h : loadTyped [] (ts.map fun t => (t, text t)) = .ok r) :
    r.map (·.1) = ts ∧ ∀ p ∈ r, ∃ t ∈ ts, p.2.list = fileTokens (text t) := by
  obtain ⟨h1, h2, _⟩ := loadTyped_spec _ _ _ h
  refine ⟨by rw [h1, List.map_map]; simp [Function.comp_def], fun p hp => ?_⟩
  have : p.2.list ∈ r.map (·.2.list) := List.mem_map.mpr ⟨p, hp, rfl⟩
  rw [h2, List.map_map] at this
  obtain ⟨t, ht, e⟩ := List.mem_map.mp this
  exact ⟨t, ht, e.symm⟩

theorem plainEntries_of {f : DataFiles} {d : KanjiStore} (hw : f.Plain d) {lists : ListFiles}
    (h : loadListFiles (levelOrder.map fun l => (l, f.levels l)) (kyuOrder.map fun k => (k, f.kyus k)) f.frequency =
      .ok lists) : PlainEntries lists d := by
  obtain ⟨h1, h2, h3⟩ := loadListFiles_ok h
  intro k hk p hp n hn
  apply hw k hk n
  unfold ListFiles.processOrder at hp
  simp only [List.mem_append, List.mem_map, List.mem_singleton] at hp
  rcases hp with (⟨q, hq, rfl⟩ | rfl) | ⟨q, hq, rfl⟩
  · obtain ⟨t, _, e⟩ := (typed_texts h1).2 q hq
    exact .inl ⟨t, e ▸ hn⟩
  · rw [(C40_entries _ _ _ _ _ h3).1] at hn
    exact .inr (.inr hn)
  · obtain ⟨t, _, e⟩ := (typed_texts h2).2 q hq
    exact .inr (.inl ⟨t, e ▸ hn⟩)

/-- Data that is loaded within the limits has what the program needs. -/
theorem C171_fits (ltr : Bool) (f : DataFiles) (d : DetailStore) (h : loadData ltr f = .ok d) (hw : WithinLimits f d) :
    DataFits d ∧ d.Sound ∧ ∀ n, ∃ k, d.store.frequencies.find n = .ok k := by
  obtain ⟨l, h⟩ := loadData_ok h
  obtain ⟨lists, rad, hlf, hu, _, rfl, hd⟩ := loadTextData_ok h
  have hls : ListsLoaded (loadedOf ltr lists d.ucd rad f.kanji.frequencyReadings).lists := ⟨_, _, _, hlf⟩
  have hpl : PlainEntries (loadedOf ltr lists d.ucd rad f.kanji.frequencyReadings).lists d.store := plainEntries_of hw.plain hlf
  obtain ⟨t1, t2, t3⟩ := loadListFiles_ok hlf
  have hfreq : lists.frequency.list.length ≤ 2750 := by
    rw [(C40_entries _ _ _ _ _ t3).1]; exact hw.frequencies
  refine ⟨⟨fun q k hk => ?_, fun q => ?_, hw.groups⟩, fun s k hk => ?_, fun n => ?_⟩
  · exact C171_kanji ltr f d.store d.ucd _ h k (C171_listed _ hls f.kanji d.store hd hpl q k hk)
  · obtain ⟨n1, n2, ks, n3, _, hadd⟩ := loadKanji_lists hls hd hpl
    have len : ∀ (a : List KanjiRec) (b : List Str), a.map (·.kanji.name) = b → a.length = b.length := by
      rintro a _ rfl; simp
    cases q with
    | frequency i =>
      cases i with
      | none => exact (by decide : 0 < 65536)
      | some i =>
        show ((d.store.frequencies.buckets[i]?).getD []).length < 65536
        cases hb : d.store.frequencies.buckets[i]? with
        | none => exact (by decide : 0 < 65536)
        | some b =>
          obtain ⟨c, hc, hlen, _⟩ := addAll_members ks _ _ hadd b (List.mem_of_getElem? hb)
          rw [(List.mem_replicate.mp hc).2] at hlen
          have : ks.length ≤ 2750 := by rw [len _ _ n3]; exact hfreq
          simp at hlen ⊢
          omega
    | grade g =>
      cases g with
      | none => exact (by decide : 0 < 65536)
      | some g =>
        show (d.store.grades g).length < 65536
        obtain ⟨_, _, _, _, _, _, _, hl, _⟩ := loadKanji_spec hd
        obtain ⟨⟨ks, e1, e2⟩, _⟩ := C101_rows _ _ _ hd
        have a1 : (d.store.grades g).length ≤ (d.store.all.filter (·.kanji.type == .jouyou)).length := by
          rw [hl.types.store.grades, ← hl.types.store.all_eq]
          have : d.store.all.filter (·.kanji.grade == some g) =
              (d.store.all.filter (·.kanji.type == .jouyou)).filter (·.kanji.grade == some g) := by
            rw [List.filter_filter]
            apply List.filter_congr
            intro k hk
            have := C103_grade _ _ _ hd k hk
            cases hg : k.kanji.grade with
            | none => simp
            | some y => rw [hg] at this; simp [this.mp rfl]
          rw [this]
          exact List.filter_sublist.length_le
        have a2 := ((C101_types _ _ _ hd).2 .jouyou).1.length_le
        have a3 : (d.store.types .jouyou).length = f.kanji.jouyou.length := by
          have := congrArg List.length e1
          rw [e2]
          simpa using this.symm
        have := hw.jouyou
        omega
    | kyu x =>
      cases x with
      | none => exact (by decide : 0 < 65536)
      | some x =>
        show (d.store.kyus x).length < 65536
        rw [len _ _ (n2 x)]
        have := typed_length lists.kyus (by rw [(typed_texts t2).1]; decide) (typed_bound _ _ _ t2) x
        exact Nat.lt_of_le_of_lt this (by decide)
    | level x =>
      cases x with
      | none => exact (by decide : 0 < 65536)
      | some x =>
        show (d.store.levels x).length < 65536
        rw [len _ _ (n1 x)]
        have := typed_length lists.levels (by rw [(typed_texts t1).1]; decide) (typed_bound _ _ _ t1) x
        exact Nat.lt_of_le_of_lt this (by decide)
  · obtain ⟨_, _, _, _, _, _, _, hl, _⟩ := loadKanji_spec hd
    obtain ⟨hk, _⟩ := nameMap_lookup hl.types.store hk
    rw [← hl.types.store.all_eq] at hk
    exact C171_kanji ltr f d.store d.ucd _ h k hk
  · obtain ⟨k, hk, _⟩ := C104_frequency _ hls f.kanji d.store hd hpl hfreq n
    exact ⟨k, hk⟩

/-- With data loaded within the limits the quiz program ends with an exit code for all arguments and inputs: no failing
assertion, no access outside of a list, no other undefined behaviour. -/
theorem C171_quiz (ltr : Bool) (f : DataFiles) (d : DetailStore) (h : loadData ltr f = .ok d) (hw : WithinLimits f d)
    (sort : List KanjiRec → List KanjiRec) (e : StoulTexts) (debug : Bool) (args : List Str) (n : Nat) (r : Drawn)
    (s : InStream) : ∃ o, runProgram sort d e debug args n r s = .ok o := by
  obtain ⟨h1, h2, h3⟩ := C171_fits ltr f d h hw
  exact C167_total sort d h1 h2 (fun n _ => h3 n) e debug args n r s

end KT
