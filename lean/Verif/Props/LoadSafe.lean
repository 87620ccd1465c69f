import Verif.Spec.LoadSafe
import Verif.Props.LoadedProgram
import Verif.Props.KanjiNames
/-!
# C181: loading data whose names fit together
-/
namespace KT
open Spec

/-- The outcome is not undefined, and a result satisfies `P`. -/
def Safe {α : Type} (r : Res α) (P : α → Prop) : Prop :=
  match r with
  | .ok a => P a
  | .throw _ => True
  | .ub => False

theorem Safe.noub {α : Type} {r : Res α} {P : α → Prop} (h : Safe r P) : r ≠ .ub := by
  rintro rfl; exact h

theorem Safe.of {α : Type} {r : Res α} {P : α → Prop} (h : r ≠ .ub) (hp : ∀ a, r = .ok a → P a) : Safe r P := by
  cases r with
  | ok a => exact hp a rfl
  | throw e => trivial
  | ub => exact h rfl

theorem Safe.bind {α β : Type} {r : Res α} {P : α → Prop} {f : α → Res β} {Q : β → Prop} (h : Safe r P)
    (hf : ∀ a, r = .ok a → P a → Safe (f a) Q) : Safe (r.bind f) Q := by
  cases r with
  | ok a => exact hf a rfl h
  | throw e => trivial
  | ub => exact h

theorem Safe.mono {α : Type} {r : Res α} {P Q : α → Prop} (h : Safe r P) (hpq : ∀ a, P a → Q a) : Safe r Q := by
  cases r with
  | ok a => exact hpq a h
  | throw e => trivial
  | ub => exact h

/-! ## The store -/

/-- The members that the lists need for an entry with the name of the kanji. -/
structure FitsLists (Lv Fr Ky : Str → Prop) (k : Kanji) : Prop where
  level : Lv k.name → k.level.isSome
  frequency : Fr k.name → k.frequency ≠ 0
  kyu : Ky k.name → k.kyu.isSome

/-- What holds while loading: `E` are the entries of all lists and `O` the old names. -/
structure SafeStore (E O Lv Fr Ky : Str → Prop) (d : KanjiStore) : Prop where
  name : ∀ p ∈ d.nameMap, p.1 = p.2.kanji.name
  fits : ∀ p ∈ d.nameMap, FitsLists Lv Fr Ky p.2.kanji
  old : ∀ p ∈ d.nameMap, ∀ o ∈ p.2.kanji.oldNames, O o
  compat : ∀ p ∈ d.compatMap, p.1 = p.2 ∨ ¬ E p.1

/-- There is a kanji with the name. -/
def KanjiStore.Has (d : KanjiStore) (n : Str) : Prop := (d.nameMap.lookup n).isSome

/-- The compatibility name isn't the entry of a list for another kanji. -/
def CompatFits (E : Str → Prop) (k : Kanji) : Prop :=
  k.variant = true → k.compatibilityName = k.name ∨ ¬ E k.compatibilityName

theorem lookup_appended {α : Type} {m : List (Str × α)} {n : Str} (p : Str × α) (h : (m.lookup n).isSome) :
    ((m ++ [p]).lookup n).isSome := by
  rw [List.lookup_append]
  cases hm : m.lookup n with
  | none => rw [hm] at h; cases h
  | some _ => rfl

theorem mapEmplace_mem {β : Type} {m : List (Str × β)} {key : Str} {value : β} {p : Str × β}
    (h : p ∈ (mapEmplace m key value).1) : p ∈ m ∨ p = (key, value) := by
  unfold mapEmplace at h
  split at h
  · exact .inl h
  · simpa using h

theorem checkInsert_maps (d : KanjiStore) (k : KanjiRec) (ucd : Option Ucd) :
    (d.checkInsert k ucd).1.nameMap = (mapEmplace d.nameMap k.kanji.name k).1 ∧
    ((d.checkInsert k ucd).1.compatMap = d.compatMap ∨
      k.kanji.variant = true ∧
      (d.checkInsert k ucd).1.compatMap = (mapEmplace d.compatMap k.kanji.compatibilityName k.kanji.name).1) := by
  unfold KanjiStore.checkInsert
  cases hm : mapEmplace d.nameMap k.kanji.name k with
  | mk m b =>
    cases b with
    | false =>
      refine ⟨?_, .inl rfl⟩
      unfold mapEmplace at hm
      split at hm
      · exact (Prod.mk.inj hm).1
      · cases (Prod.mk.inj hm).2
    | true =>
      refine ⟨rfl, ?_⟩
      by_cases hv : k.kanji.variant = true
      · right
        refine ⟨hv, ?_⟩
        simp only [hv, if_true]
      · left
        simp only [hv, if_false, Bool.false_eq_true]

theorem has_checkInsert (d : KanjiStore) (k : KanjiRec) (ucd : Option Ucd) :
    (d.checkInsert k ucd).1.Has k.kanji.name ∧ ∀ n, d.Has n → (d.checkInsert k ucd).1.Has n := by
  unfold KanjiStore.Has
  rw [(checkInsert_maps d k ucd).1]
  unfold mapEmplace
  split
  · rename_i h
    exact ⟨h, fun n h => h⟩
  · rename_i h
    refine ⟨?_, fun n hn => lookup_appended _ hn⟩
    rw [List.lookup_append]
    cases hl : d.nameMap.lookup k.kanji.name with
    | none => simp
    | some x => rw [hl] at h; exact absurd rfl h

theorem SafeStore.checkInsert {E O Lv Fr Ky : Str → Prop} {d : KanjiStore} (h : SafeStore E O Lv Fr Ky d) (k : KanjiRec)
    (ucd : Option Ucd) (hk : ¬ d.Has k.kanji.name → FitsLists Lv Fr Ky k.kanji) (ho : ∀ o ∈ k.kanji.oldNames, O o)
    (hc : CompatFits E k.kanji) : SafeStore E O Lv Fr Ky (d.checkInsert k ucd).1 := by
  obtain ⟨h1, h2⟩ := checkInsert_maps d k ucd
  have new : ∀ p ∈ (d.checkInsert k ucd).1.nameMap, p ∈ d.nameMap ∨ p = (k.kanji.name, k) ∧ ¬ d.Has k.kanji.name := by
    intro p hp
    rw [h1] at hp
    unfold mapEmplace at hp
    split at hp
    · exact .inl hp
    · rename_i hn
      rcases List.mem_append.mp hp with hp | hp
      · exact .inl hp
      · exact .inr ⟨List.mem_singleton.mp hp, hn⟩
  refine ⟨?_, ?_, ?_, ?_⟩
  · intro p hp
    rcases new p hp with hp | ⟨rfl, _⟩
    · exact h.name p hp
    · rfl
  · intro p hp
    rcases new p hp with hp | ⟨rfl, hn⟩
    · exact h.fits p hp
    · exact hk hn
  · intro p hp
    rcases new p hp with hp | ⟨rfl, hn⟩
    · exact h.old p hp
    · exact ho
  · intro p hp
    rcases h2 with h2 | ⟨hv, h2⟩
    · rw [h2] at hp; exact h.compat p hp
    · rw [h2] at hp
      rcases mapEmplace_mem hp with hp | rfl
      · exact h.compat p hp
      · exact hc hv

theorem SafeStore.mono {E O Lv Fr Ky O' Lv' Fr' Ky' : Str → Prop} {d : KanjiStore} (h : SafeStore E O Lv Fr Ky d)
    (ho : ∀ n, O n → O' n) (hl : ∀ n, Lv' n → Lv n) (hf : ∀ n, Fr' n → Fr n) (hk : ∀ n, Ky' n → Ky n) :
    SafeStore E O' Lv' Fr' Ky' d :=
  ⟨h.name, fun p hp => ⟨fun x => (h.fits p hp).level (hl _ x), fun x => (h.fits p hp).frequency (hf _ x),
    fun x => (h.fits p hp).kyu (hk _ x)⟩, fun p hp o hx => ho o (h.old p hp o hx), h.compat⟩

theorem SafeStore.setType {E O Lv Fr Ky : Str → Prop} {d : KanjiStore} (h : SafeStore E O Lv Fr Ky d) (t : KanjiType)
    (ks : List KanjiRec) : SafeStore E O Lv Fr Ky (d.setType t ks) := ⟨h.name, h.fits, h.old, h.compat⟩

theorem checkInsertType_maps (d : KanjiStore) (t : KanjiType) (k : KanjiRec) (ucd : Option Ucd) :
    (d.checkInsertType t k ucd).1.nameMap = (d.checkInsert k ucd).1.nameMap ∧
    (d.checkInsertType t k ucd).1.compatMap = (d.checkInsert k ucd).1.compatMap := by
  unfold KanjiStore.checkInsertType
  cases d.checkInsert k ucd with
  | mk d b => cases b <;> exact ⟨rfl, rfl⟩

theorem SafeStore.congr {E O Lv Fr Ky : Str → Prop} {d e : KanjiStore} (h : SafeStore E O Lv Fr Ky d)
    (h1 : e.nameMap = d.nameMap) (h2 : e.compatMap = d.compatMap) : SafeStore E O Lv Fr Ky e :=
  ⟨by rw [h1]; exact h.name, by rw [h1]; exact h.fits, by rw [h1]; exact h.old, by rw [h2]; exact h.compat⟩

theorem mem_of_lookup {β : Type} {m : List (Str × β)} {n : Str} {v : β} (h : m.lookup n = some v) : (n, v) ∈ m := by
  induction m with
  | nil => cases h
  | cons p m ih =>
    obtain ⟨a, b⟩ := p
    rw [List.lookup_cons] at h
    split at h
    · rename_i e
      rw [beq_iff_eq.mp e]
      cases h
      exact List.mem_cons_self
    · exact List.mem_cons_of_mem _ (ih h)

/-- The kanji found for the entry of a list has its name. -/
theorem SafeStore.found {E O Lv Fr Ky : Str → Prop} {d : KanjiStore} (h : SafeStore E O Lv Fr Ky d) {n : Str} (hn : E n) :
    d.findByName n = d.nameMap.lookup n ∧
    ∀ k, d.findByName n = some k → k.kanji.name = n ∧ FitsLists Lv Fr Ky k.kanji := by
  have e : d.findByName n = d.nameMap.lookup n := by
    unfold KanjiStore.findByName
    cases hc : d.compatMap.lookup n with
    | none => rfl
    | some m =>
      rcases h.compat _ (mem_of_lookup hc) with hm | hm
      · have hm : n = m := hm
        rw [← hm]; rfl
      · exact absurd hn hm
  refine ⟨e, fun k hk => ?_⟩
  rw [e] at hk
  have := mem_of_lookup hk
  exact ⟨(h.name _ this).symm, h.fits _ this⟩

/-! ## The kanji -/

/-- What is assumed of the names: `N` are all names, `E` the entries of the lists, `Lv`, `Fr` and `Ky` those of the single
kinds of lists. -/
structure LoadFits (l : Loaded) (f : KanjiFiles) (N E Lv Fr Ky : Str → Prop) : Prop where
  radicalName : ∀ s, l.radicalByName s ≠ .ub
  ucdRadical : ∀ u, l.ucdRadical u ≠ .ub
  one : ∀ n, N n → utf8Size n = some 1
  rows : ∀ n ∈ rowNames f, N n
  linked : ∀ n ∈ linkedNames f, N n
  entries : ∀ n, E n → N n
  ucds : ∀ u ∈ l.ucds, N u.name
  compat : ∀ n, N n → isCharWithVariationSelector n = some true → ∀ u, l.findUcd n = some u → u.name = n ∨ ¬ E u.name
  level : ∀ n, Lv n → (l.lists.level n).isSome
  frequency : ∀ n, Fr n → l.lists.frequencyOf n ≠ 0
  kyu : ∀ n, Ky n → (l.lists.kyu n).isSome
  levelRows : ∀ n, Lv n → n ∈ f.jouyou.map (·.name) ∨ n ∈ f.jinmei.map (·.name) ∧ n ∉ linkedNames f
  frequencyRows : ∀ n, Fr n → n ∉ f.extra.map (·.name)

variable {l : Loaded} {f : KanjiFiles} {N E Lv Fr Ky : Str → Prop}

theorem LoadFits.compatFits (h : LoadFits l f N E Lv Fr Ky) {k : Kanji} (hn : N k.name)
    (hc : k.compatName = l.ctx.compatName k.name) : CompatFits E k := by
  intro hv
  have hv : isCharWithVariationSelector k.name = some true := beq_iff_eq.mp hv
  unfold Kanji.compatibilityName
  rw [hc]
  have hcn : l.ctx.compatName k.name = (l.findUcd k.name).bind fun u => if u.name ≠ k.name then some u.name else none := by
    unfold KanjiCtx.compatName
    show (match l.findUcd k.name with | some u => if u.name ≠ k.name then some u.name else none | none => none) = _
    cases l.findUcd k.name <;> rfl
  rw [hcn]
  cases hu : l.findUcd k.name with
  | none => exact .inl rfl
  | some u =>
    rw [Option.bind_some]
    by_cases e : u.name = k.name
    · left; rw [if_neg (by simp [e])]; rfl
    · right
      rw [if_pos e]
      rcases h.compat _ hn hv u hu with h1 | h1
      · exact absurd h1 e
      · exact h1

theorem construct_safe {k : Kanji} (h : utf8Size k.name = some 1) : Kanji.construct k = .ok k := by
  simp [Kanji.construct, checkName, h, Res.bind]

/-- The parts of a kanji that come from its name. -/
structure OwnParts (l : Loaded) (n : Str) (k : Kanji) : Prop where
  name : k.name = n
  compat : k.compatName = l.ctx.compatName n
  kyu : k.kyu = l.lists.kyu n

theorem jouyouFromRow_safe (h : LoadFits l f N E Lv Fr Ky) (row : CellRow) (hn : N row.name) :
    Safe (jouyouFromRow l.ctx row) fun k => OwnParts l row.name k.1 ∧ k.1.level = l.lists.level row.name ∧
      k.1.frequency = l.lists.frequencyOf row.name ∧ k.1.oldNames = oldNamesIn row := by
  refine Safe.of (fun hu => ((C170_rows_partial l.ctx row h.radicalName).1.mp hu).1 (h.one _ hn)) ?_
  intro k hk
  unfold jouyouFromRow Kanji.makeJouyou at hk
  obtain ⟨_, _, hk⟩ := Res.bind_eq_ok hk
  obtain ⟨_, _, hk⟩ := Res.bind_eq_ok hk
  obtain ⟨_, _, hk⟩ := Res.bind_eq_ok hk
  obtain ⟨_, _, hk⟩ := Res.bind_eq_ok hk
  obtain ⟨_, _, hk⟩ := Res.bind_eq_ok hk
  obtain ⟨_, _, hk⟩ := Res.bind_eq_ok hk
  obtain ⟨_, _, hk⟩ := Res.bind_eq_ok hk
  obtain ⟨x, hx, hk⟩ := Res.bind_eq_ok hk
  obtain ⟨_, _, hx⟩ := Res.bind_eq_ok hx
  obtain ⟨_, _, hx⟩ := Res.bind_eq_ok hx
  obtain ⟨rfl, _⟩ := construct_eq hx
  cases hk
  exact ⟨⟨rfl, rfl, rfl⟩, rfl, rfl, fields_eq _ _⟩

theorem jinmeiFromRow_safe (h : LoadFits l f N E Lv Fr Ky) (row : CellRow) (hn : N row.name) :
    Safe (jinmeiFromRow l.ctx row) fun k => OwnParts l row.name k.1 ∧ k.1.level = l.lists.level row.name ∧
      k.1.frequency = l.lists.frequencyOf row.name ∧ k.1.oldNames = oldNamesIn row := by
  refine Safe.of (fun hu => ((C170_rows_partial l.ctx row h.radicalName).2.1.mp hu).1 (h.one _ hn)) ?_
  intro k hk
  unfold jinmeiFromRow Kanji.makeJinmei at hk
  obtain ⟨x, hx, hk⟩ := Res.bind_eq_ok hk
  obtain ⟨_, _, hk⟩ := Res.bind_eq_ok hk
  obtain ⟨_, _, hk⟩ := Res.bind_eq_ok hk
  obtain ⟨_, _, hx⟩ := Res.bind_eq_ok hx
  split at hx
  · cases hx
  obtain ⟨rfl, _⟩ := construct_eq hx
  split at hk
  · cases hk
    exact ⟨⟨rfl, rfl, rfl⟩, rfl, rfl, fields_eq _ _⟩
  · cases hk

theorem extraFromRow_safe (h : LoadFits l f N E Lv Fr Ky) (row : CellRow) (hn : N row.name) :
    Safe (extraFromRow l.ctx row) fun k => OwnParts l row.name k.1 := by
  refine Safe.of (fun hu => ((C170_rows_partial l.ctx row h.radicalName).2.2.mp hu).1 (h.one _ hn)) ?_
  intro k hk
  unfold extraFromRow Kanji.makeExtra at hk
  obtain ⟨_, _, hk⟩ := Res.bind_eq_ok hk
  obtain ⟨x, hx, hk⟩ := Res.bind_eq_ok hk
  obtain ⟨_, _, hk⟩ := Res.bind_eq_ok hk
  obtain ⟨_, _, hx⟩ := Res.bind_eq_ok hx
  obtain ⟨_, _, hx⟩ := Res.bind_eq_ok hx
  obtain ⟨rfl, _⟩ := construct_eq hx
  cases hk
  exact ⟨rfl, rfl, rfl⟩

theorem makeLinked_safe (h : LoadFits l f N E Lv Fr Ky) (name : Str) (hn : N name) (link : Kanji) (o : Bool) :
    Safe (Kanji.makeLinked l.ctx name link o) fun k => OwnParts l name k ∧ k.frequency = l.lists.frequencyOf name ∧
      k.oldNames = [] := by
  unfold Kanji.makeLinked
  split
  · trivial
  · split
    · trivial
    · rename_i u hu
      refine Safe.bind (P := fun _ => True) (Safe.of (h.ucdRadical u) fun _ _ => trivial) fun r _ _ => ?_
      rw [construct_safe (by exact h.one _ hn)]
      exact ⟨⟨rfl, rfl, rfl⟩, rfl, rfl⟩

theorem makeOther_safe (h : LoadFits l f N E Lv Fr Ky) (c : KanjiCtx) (hc : c.ucdRadical = l.ucdRadical)
    (hf : c.compatName = l.ctx.compatName) (t : KanjiType) (name : Str) (hn : N name) (ucd : Option Ucd) (q : Option KenteiKyu)
    (n : UInt16) :
    Safe (Kanji.makeOther c t name ucd q n) fun k => k.name = name ∧ k.compatName = l.ctx.compatName name ∧ k.kyu = q ∧
      k.frequency = n := by
  unfold Kanji.makeOther
  split
  · trivial
  · rename_i u
    refine Safe.bind (P := fun _ => True) (Safe.of (by rw [hc]; exact h.ucdRadical u) fun _ _ => trivial) fun r _ _ => ?_
    rw [construct_safe (by exact h.one _ hn)]
    exact ⟨rfl, by rw [← hf], rfl, rfl⟩

theorem fromRows_safe {α β : Type} {make : α → Res β} {rows : List α} {Q : α → β → Prop}
    (h : ∀ r ∈ rows, Safe (make r) (Q r)) :
    Safe (fromRows make rows) fun ks => (∀ k ∈ ks, ∃ r ∈ rows, Q r k) ∧ ∀ r ∈ rows, ∃ k ∈ ks, Q r k := by
  induction rows with
  | nil => exact ⟨fun k hk => (by cases hk), fun r hr => (by cases hr)⟩
  | cons r rs ih =>
    unfold fromRows
    refine Safe.bind (h r (by simp)) fun k _ hk => ?_
    refine Safe.bind (ih fun x hx => h x (List.mem_cons_of_mem _ hx)) fun ks _ hks => ?_
    refine ⟨?_, ?_⟩
    · intro x hx
      rcases List.mem_cons.mp hx with rfl | hx
      · exact ⟨r, by simp, hk⟩
      · obtain ⟨y, hy, hq⟩ := hks.1 x hx
        exact ⟨y, List.mem_cons_of_mem _ hy, hq⟩
    · intro x hx
      rcases List.mem_cons.mp hx with rfl | hx
      · exact ⟨k, by simp, hk⟩
      · obtain ⟨y, hy, hq⟩ := hks.2 x hx
        exact ⟨y, List.mem_cons_of_mem _ hy, hq⟩

/-! ## The files with kanji -/

/-- Kanji are only added. -/
def Grows (d e : KanjiStore) : Prop := ∀ n, d.Has n → e.Has n

theorem insertAll_safe {O : Str → Prop} (ks : List KanjiRec) : ∀ (d : KanjiStore), SafeStore E O Lv Fr Ky d →
    (∀ k ∈ ks, (¬ d.Has k.kanji.name → FitsLists Lv Fr Ky k.kanji) ∧ (∀ o ∈ k.kanji.oldNames, O o) ∧ CompatFits E k.kanji) →
    SafeStore E O Lv Fr Ky (ks.foldl l.insert d) ∧ Grows d (ks.foldl l.insert d) ∧
      ∀ k ∈ ks, (ks.foldl l.insert d).Has k.kanji.name := by
  induction ks with
  | nil => exact fun d hd _ => ⟨hd, fun n h => h, fun k hk => (by cases hk)⟩
  | cons k ks ih =>
    intro d hd hk
    rw [List.foldl_cons]
    obtain ⟨h1, h2, h3⟩ := hk k (by simp)
    obtain ⟨g1, g2⟩ := has_checkInsert d k (l.findUcd k.kanji.name)
    obtain ⟨i1, i2, i3⟩ := ih (l.insert d k) (hd.checkInsert k _ h1 h2 h3) (by
      intro x hx
      obtain ⟨j1, j2, j3⟩ := hk x (List.mem_cons_of_mem _ hx)
      exact ⟨fun hn => j1 fun h => hn (g2 _ h), j2, j3⟩)
    refine ⟨i1, fun n h => i2 n (g2 n h), ?_⟩
    intro x hx
    rcases List.mem_cons.mp hx with rfl | hx
    · exact i2 _ g1
    · exact i3 x hx

theorem loadJouyou_safe (h : LoadFits l f N E Lv Fr Ky) :
    Safe (loadJouyou l f.jouyou {}) fun d => SafeStore E (· ∈ linkedNames f) Lv Fr Ky d ∧
      ∀ n ∈ f.jouyou.map (·.name), d.Has n := by
  unfold loadJouyou
  have hN : ∀ r ∈ f.jouyou, N r.name := fun r hr => h.rows _ (by simp [rowNames]; exact .inl ⟨r, hr, rfl⟩)
  refine Safe.bind (fromRows_safe fun r hr => jouyouFromRow_safe h r (hN r hr)) fun ks _ hks => ?_
  have hd : SafeStore E (· ∈ linkedNames f) Lv Fr Ky {} :=
    ⟨fun p hp => (by cases hp), fun p hp => (by cases hp), fun p hp => (by cases hp), fun p hp => (by cases hp)⟩
  obtain ⟨i1, _, i3⟩ := insertAll_safe (l := l) (ks.map fun k => l.record k.1) {} hd (by
    intro k hk
    obtain ⟨x, hx, rfl⟩ := List.mem_map.mp hk
    obtain ⟨r, hr, ⟨hp, hl, hf, ho⟩⟩ := hks.1 x hx
    refine ⟨fun _ => ⟨fun e => ?_, fun e => ?_, fun e => ?_⟩, ?_, ?_⟩
    · show x.1.level.isSome; rw [hl, ← hp.name]; exact h.level _ e
    · show x.1.frequency ≠ 0; rw [hf, ← hp.name]; exact h.frequency _ e
    · show x.1.kyu.isSome; rw [hp.kyu, ← hp.name]; exact h.kyu _ e
    · intro o e
      have e : o ∈ x.1.oldNames := e
      rw [ho] at e
      exact List.mem_append_right _ (List.mem_flatMap.mpr ⟨r, List.mem_append_left _ hr, e⟩)
    · exact h.compatFits (k := x.1) (by rw [hp.name]; exact hN r hr) (by rw [hp.name]; exact hp.compat))
  refine ⟨i1.setType _ _, ?_⟩
  intro n hn
  obtain ⟨r, hr, rfl⟩ := List.mem_map.mp hn
  obtain ⟨x, hx, hp, _⟩ := hks.2 r hr
  have := i3 _ (List.mem_map.mpr ⟨x, hx, rfl⟩)
  rw [← hp.name]
  exact this

theorem insertLinked_safe (h : LoadFits l f N E Lv Fr Ky) {O : Str → Prop} {d : KanjiStore} (hd : SafeStore E O Lv Fr Ky d)
    (hj : ∀ n ∈ f.jouyou.map (·.name), d.Has n) (isOld : Bool) (name : Str) (hn : name ∈ linkedNames f) (link : KanjiRec) :
    Safe (insertLinked l isOld name link d) fun e => SafeStore E O Lv Fr Ky e ∧ Grows d e := by
  unfold insertLinked
  refine Safe.bind (makeLinked_safe h name (h.linked _ hn) link.kanji isOld) fun k _ hk => ?_
  obtain ⟨hp, hf, ho⟩ := hk
  obtain ⟨m1, m2⟩ := checkInsertType_maps d (if isOld then .linkedOld else .linkedJinmei) (l.record k) (l.findUcd name)
  have key := hd.checkInsert (l.record k) (l.findUcd name) (by
    intro hh
    have hh : ¬ d.Has k.name := hh
    refine ⟨fun e => ?_, fun e => ?_, fun e => ?_⟩
    · have e : Lv k.name := e
      exfalso
      rcases h.levelRows _ e with e1 | ⟨_, e1⟩
      · exact hh (hj _ e1)
      · exact e1 (by rw [hp.name]; exact hn)
    · show k.frequency ≠ 0; rw [hf, ← hp.name]; exact h.frequency _ e
    · show k.kyu.isSome; rw [hp.kyu, ← hp.name]; exact h.kyu _ e)
    (by intro o e; have e : o ∈ k.oldNames := e; rw [ho] at e; cases e)
    (h.compatFits (k := k) (by rw [hp.name]; exact h.linked _ hn) (by rw [hp.name]; exact hp.compat))
  refine ⟨key.congr m1 m2, ?_⟩
  intro n hh
  unfold KanjiStore.Has
  rw [m1]
  exact (has_checkInsert d _ _).2 n hh

theorem loadLinkedLines_safe (h : LoadFits l f N E Lv Fr Ky) {O : Str → Prop} (lines : List Str)
    (hl : ∀ x ∈ lines, x ∈ f.linkedJinmei) : ∀ d, SafeStore E O Lv Fr Ky d → (∀ n ∈ f.jouyou.map (·.name), d.Has n) →
    Safe (loadLinkedLines l lines d) fun e => SafeStore E O Lv Fr Ky e ∧ Grows d e := by
  induction lines with
  | nil => exact fun d hd _ => ⟨hd, fun n h => h⟩
  | cons line lines ih =>
    intro d hd hj
    unfold loadLinkedLines
    split
    · rename_i a b rest hf
      split
      · trivial
      · refine Safe.bind (insertLinked_safe h hd hj false b ?_ _) fun e _ he => ?_
        · refine List.mem_append_left _ (List.mem_flatMap.mpr ⟨line, hl _ (by simp), ?_⟩)
          unfold linkedIn cellsBetween
          rw [← fields_eq, hf]
          simp
        · exact (ih (fun x hx => hl x (List.mem_cons_of_mem _ hx)) e he.1 fun n hn => he.2 n (hj n hn)).mono
            fun e' he' => ⟨he'.1, fun n hn => he'.2 n (he.2 n hn)⟩
    · trivial

theorem loadOldNames_safe (h : LoadFits l f N E Lv Fr Ky) {O : Str → Prop} (link : KanjiRec) (names : List Str)
    (hn : ∀ n ∈ names, n ∈ linkedNames f) : ∀ d, SafeStore E O Lv Fr Ky d → (∀ n ∈ f.jouyou.map (·.name), d.Has n) →
    Safe (loadOldNames l link names d) fun e => SafeStore E O Lv Fr Ky e ∧ Grows d e := by
  induction names with
  | nil => exact fun d hd _ => ⟨hd, fun n h => h⟩
  | cons n names ih =>
    intro d hd hj
    have ih := ih fun x hx => hn x (List.mem_cons_of_mem _ hx)
    unfold loadOldNames
    split
    · exact ih d hd hj
    · refine Safe.bind (insertLinked_safe h hd hj true n (hn n (by simp)) link) fun e _ he => ?_
      exact (ih e he.1 fun n hn => he.2 n (hj n hn)).mono fun e' he' => ⟨he'.1, fun n hn => he'.2 n (he.2 n hn)⟩

theorem loadAllOldNames_safe (h : LoadFits l f N E Lv Fr Ky) {O : Str → Prop} (ks : List KanjiRec)
    (hk : ∀ k ∈ ks, ∀ n ∈ k.kanji.oldNames, n ∈ linkedNames f) : ∀ d, SafeStore E O Lv Fr Ky d →
    (∀ n ∈ f.jouyou.map (·.name), d.Has n) →
    Safe (loadAllOldNames l ks d) fun e => SafeStore E O Lv Fr Ky e ∧ Grows d e := by
  induction ks with
  | nil => exact fun d hd _ => ⟨hd, fun n h => h⟩
  | cons k ks ih =>
    intro d hd hj
    unfold loadAllOldNames
    refine Safe.bind (loadOldNames_safe h k _ (hk k (by simp)) d hd hj) fun e _ he => ?_
    exact (ih (fun x hx => hk x (List.mem_cons_of_mem _ hx)) e he.1 fun n hn => he.2 n (hj n hn)).mono
      fun e' he' => ⟨he'.1, fun n hn => he'.2 n (he.2 n hn)⟩

theorem mapOrder_mem {m : List (Str × KanjiRec)} {x : KanjiRec} (h : x ∈ mapOrder m) : ∃ p ∈ m, p.2 = x := by
  unfold mapOrder at h
  have : ∀ (m : List (Str × KanjiRec)) (r : List KanjiRec), x ∈ m.foldl (fun r p => insertByName p.2 r) r →
      x ∈ r ∨ ∃ p ∈ m, p.2 = x := by
    intro m
    induction m with
    | nil => exact fun r h => .inl h
    | cons p m ih =>
      intro r h
      rw [List.foldl_cons] at h
      rcases ih _ h with h | ⟨q, hq, e⟩
      · rcases (insertByName_mem _ _ _).mp h with rfl | h
        · exact .inr ⟨p, by simp, rfl⟩
        · exact .inl h
      · exact .inr ⟨q, List.mem_cons_of_mem _ hq, e⟩
  rcases this m [] h with h | h
  · cases h
  · exact h

theorem loadOfficialLinked_safe (h : LoadFits l f N E Lv Fr Ky) {d : KanjiStore}
    (hd : SafeStore E (· ∈ linkedNames f) Lv Fr Ky d) (hj : ∀ n ∈ f.jouyou.map (·.name), d.Has n) :
    Safe (loadOfficialLinked l f.linkedJinmei d) fun e => SafeStore E (fun _ => True) Lv Fr Ky e ∧ Grows d e := by
  unfold loadOfficialLinked
  refine Safe.bind (loadLinkedLines_safe h _ (fun x hx => hx) d hd hj) fun e _ he => ?_
  refine (loadAllOldNames_safe h _ ?_ e he.1 fun n hn => he.2 n (hj n hn)).mono fun e' he' =>
    ⟨he'.1.mono (fun _ _ => trivial) (fun _ h => h) (fun _ h => h) fun _ h => h, fun n hn => he'.2 n (he.2 n hn)⟩
  intro k hk
  obtain ⟨p, hp, rfl⟩ := mapOrder_mem hk
  exact he.1.old p hp

theorem loadJinmeiOld_safe (h : LoadFits l f N E Lv Fr Ky) {O : Str → Prop} (link : KanjiRec) (names : List Str)
    (hn : ∀ n ∈ names, n ∈ linkedNames f) : ∀ d, SafeStore E O Lv Fr Ky d → (∀ n ∈ f.jouyou.map (·.name), d.Has n) →
    Safe (loadJinmeiOld l link names d) fun e => SafeStore E O Lv Fr Ky e ∧ Grows d e := by
  induction names with
  | nil => exact fun d hd _ => ⟨hd, fun n h => h⟩
  | cons n names ih =>
    intro d hd hj
    unfold loadJinmeiOld
    refine Safe.bind (insertLinked_safe h hd hj false n (hn n (by simp)) link) fun e _ he => ?_
    exact (ih (fun x hx => hn x (List.mem_cons_of_mem _ hx)) e he.1 fun n hn => he.2 n (hj n hn)).mono
      fun e' he' => ⟨he'.1, fun n hn => he'.2 n (he.2 n hn)⟩

theorem loadJinmeiLoop_safe (h : LoadFits l f N E Lv Fr Ky) (ks : List KanjiRec)
    (hk : ∀ k ∈ ks, FitsLists Lv Fr Ky k.kanji ∧ CompatFits E k.kanji ∧ ∀ n ∈ k.kanji.oldNames, n ∈ linkedNames f) : ∀ d,
    SafeStore E (fun _ => True) Lv Fr Ky d → (∀ n ∈ f.jouyou.map (·.name), d.Has n) →
    Safe (loadJinmeiLoop l ks d) fun e => SafeStore E (fun _ => True) Lv Fr Ky e ∧ Grows d e ∧ ∀ k ∈ ks, e.Has k.kanji.name := by
  induction ks with
  | nil => exact fun d hd _ => ⟨hd, fun n h => h, fun k hk => (by cases hk)⟩
  | cons k ks ih =>
    intro d hd hj
    unfold loadJinmeiLoop
    obtain ⟨h1, h2, h3⟩ := hk k (by simp)
    obtain ⟨g1, g2⟩ := has_checkInsert d k (l.findUcd k.kanji.name)
    have hs := hd.checkInsert k (l.findUcd k.kanji.name) (fun _ => h1) (fun _ _ => trivial) h2
    refine Safe.bind (loadJinmeiOld_safe h k _ h3 (l.insert d k) hs fun n hn => g2 n (hj n hn)) fun e _ he => ?_
    refine (ih (fun x hx => hk x (List.mem_cons_of_mem _ hx)) e he.1 fun n hn => he.2 n (g2 n (hj n hn))).mono fun e' he' =>
      ⟨he'.1, fun n hn => he'.2.1 n (he.2 n (g2 n hn)), ?_⟩
    intro x hx
    rcases List.mem_cons.mp hx with rfl | hx
    · exact he'.2.1 _ (he.2 _ g1)
    · exact he'.2.2 x hx

theorem loadJinmei_safe (h : LoadFits l f N E Lv Fr Ky) {d : KanjiStore} (hd : SafeStore E (fun _ => True) Lv Fr Ky d)
    (hj : ∀ n ∈ f.jouyou.map (·.name), d.Has n) :
    Safe (loadJinmei l f.jinmei d) fun e => SafeStore E (fun _ => True) Lv Fr Ky e ∧ Grows d e ∧
      ∀ n ∈ f.jinmei.map (·.name), e.Has n := by
  unfold loadJinmei
  have hN : ∀ r ∈ f.jinmei, N r.name := fun r hr => h.rows _ (by simp [rowNames]; exact .inr (.inl ⟨r, hr, rfl⟩))
  refine Safe.bind (fromRows_safe fun r hr => jinmeiFromRow_safe h r (hN r hr)) fun ks _ hks => ?_
  refine Safe.bind (loadJinmeiLoop_safe h (ks.map fun k => l.record k.1) ?_ d hd hj) fun e _ he => ?_
  · intro k hk
    obtain ⟨x, hx, rfl⟩ := List.mem_map.mp hk
    obtain ⟨r, hr, ⟨hp, hl, hf, ho⟩⟩ := hks.1 x hx
    refine ⟨⟨fun e => ?_, fun e => ?_, fun e => ?_⟩, ?_, ?_⟩
    · show x.1.level.isSome; rw [hl, ← hp.name]; exact h.level _ e
    · show x.1.frequency ≠ 0; rw [hf, ← hp.name]; exact h.frequency _ e
    · show x.1.kyu.isSome; rw [hp.kyu, ← hp.name]; exact h.kyu _ e
    · exact h.compatFits (k := x.1) (by rw [hp.name]; exact hN r hr) (by rw [hp.name]; exact hp.compat)
    · intro o e
      have e : o ∈ x.1.oldNames := e
      rw [ho] at e
      exact List.mem_append_right _ (List.mem_flatMap.mpr ⟨r, List.mem_append_right _ hr, e⟩)
  · refine ⟨he.1.setType _ _, he.2.1, ?_⟩
    intro n hn
    obtain ⟨r, hr, rfl⟩ := List.mem_map.mp hn
    obtain ⟨x, hx, hp, _⟩ := hks.2 r hr
    rw [← hp.name]
    exact he.2.2 _ (List.mem_map.mpr ⟨x, hx, rfl⟩)

theorem loadExtra_safe (h : LoadFits l f N E Lv Fr Ky) {d : KanjiStore} (hd : SafeStore E (fun _ => True) Lv Fr Ky d)
    (hj : ∀ n ∈ f.jouyou.map (·.name), d.Has n) (hm : ∀ n ∈ f.jinmei.map (·.name), d.Has n) :
    Safe (loadExtra l f.extra d) fun e => SafeStore E (fun _ => True) Lv Fr Ky e ∧ Grows d e := by
  unfold loadExtra
  have hN : ∀ r ∈ f.extra, N r.name := fun r hr => h.rows _ (by simp [rowNames]; exact .inr (.inr ⟨r, hr, rfl⟩))
  refine Safe.bind (fromRows_safe fun r hr => extraFromRow_safe h r (hN r hr)) fun ks _ hks => ?_
  obtain ⟨i1, i2, _⟩ := insertAll_safe (l := l) (ks.map fun k => l.record k.1) d hd (by
    intro k hk
    obtain ⟨x, hx, rfl⟩ := List.mem_map.mp hk
    obtain ⟨r, hr, hp⟩ := hks.1 x hx
    refine ⟨fun hh => ⟨fun e => ?_, fun e => ?_, fun e => ?_⟩, fun _ _ => trivial, ?_⟩
    · exfalso
      have hh : ¬ d.Has x.1.name := hh
      rcases h.levelRows _ e with e1 | ⟨e1, _⟩
      · exact hh (hj _ e1)
      · exact hh (hm _ e1)
    · exact absurd (List.mem_map.mpr ⟨r, hr, hp.name.symm⟩) (h.frequencyRows _ e)
    · show x.1.kyu.isSome; rw [hp.kyu, ← hp.name]; exact h.kyu _ e
    · exact h.compatFits (k := x.1) (by rw [hp.name]; exact hN r hr) (by rw [hp.name]; exact hp.compat))
  exact ⟨i1.setType _ _, i2⟩

end KT
