import Verif.Model.LoadData
import Verif.Props.KanjiNames
import Verif.Props.KanjiRows
import Verif.Props.UcdData
/-!
# C172: readings and meanings of the loaded kanji

Model: `Verif/Model/LoadData.lean`.
-/
namespace KT
open Spec

/-! ## The entries of the Unicode file -/

theorem rowsDescribe_mem : ∀ {rows : List UcdRow} {us : List UcdRec}, RowsDescribe rows us → ∀ u ∈ us,
    ∃ row ∈ rows, DescribesUcd row u
  | [], [], _, u, hu => by cases hu
  | r :: rs, v :: vs, h, u, hu => by
    rcases List.mem_cons.mp hu with rfl | hu
    · exact ⟨r, by simp, h.1⟩
    · obtain ⟨row, hr, hd⟩ := rowsDescribe_mem h.2 u hu
      exact ⟨row, List.mem_cons_of_mem _ hr, hd⟩
  | [], _ :: _, h, _, _ => h.elim
  | _ :: _, [], h, _, _ => h.elim

theorem kanjiEntry_ne {code : Nat} {name : Str} (h : KanjiEntry code name) : name ≠ [] := by
  rintro rfl
  have := h.2.2
  rw [show decode [] = [] from by decide +kernel] at this
  cases this

theorem linksMatch_ne : ∀ {ns cs : List Str}, LinksMatch ns cs → ∀ n ∈ ns, n ≠ []
  | n :: ns, c :: cs, h, x, hx => by
    rcases List.mem_cons.mp hx with rfl | hx
    · obtain ⟨code, _, he⟩ := h.1
      exact kanjiEntry_ne he
    · exact linksMatch_ne h.2 x hx
  | [], _, _, x, hx => by cases hx
  | _ :: _, [], h, _, _ => h.elim

/-- Every entry is stored under its name, once, and has the values of a row. -/
theorem ucd_loaded {rows : List UcdRow} {d : UcdData} (h : UcdData.load rows {} = .ok d) :
    (d.map.map (·.1)).Nodup ∧ ∀ p ∈ d.map, p.1 = p.2.name ∧ d.map.lookup p.2.name = some p.2 ∧ ∃ row ∈ rows, DescribesUcd row p.2 := by
  rcases C95_load rows with ⟨us, d', h1, h2, h3, h4⟩ | ⟨_, h1⟩
  case inr => rw [h1] at h; cases h
  rw [h3] at h
  cases h
  have hn : (d.map.map (·.1)).Nodup := by rw [h4.map, List.map_map]; exact h2.1
  refine ⟨hn, fun p hp => ?_⟩
  have hl := lookup_of_mem_nodup d.map p hn hp
  rw [h4.map] at hp
  obtain ⟨u, hu, rfl⟩ := List.mem_map.mp hp
  exact ⟨rfl, hl, rowsDescribe_mem h1 u hu⟩

theorem findEntry_mem {d : UcdData} {name : Str} {e : UcdRec} (h : d.findEntry name = some e) : ∃ n, (n, e) ∈ d.map := by
  unfold UcdData.findEntry at h
  split at h
  · rename_i u hu
    subst h
    obtain ⟨v, _, hu⟩ := Res.bind_eq_ok hu
    split at hu
    · obtain ⟨n, _, hu⟩ := Res.bind_eq_ok hu
      split at hu
      · rename_i r _
        exact ⟨r, lookup_mem (Res.ok.inj hu)⟩
      · cases hu
    · have hu := Res.ok.inj hu
      exact ⟨name, lookup_mem hu⟩
  · cases h

theorem mem_insertUcd (u x : UcdRec) (l : List UcdRec) : x ∈ insertUcd u l ↔ x = u ∨ x ∈ l := by
  induction l with
  | nil => simp [insertUcd]
  | cons a l ih =>
    unfold insertUcd
    split
    · simp
    · simp only [List.mem_cons, ih]
      grind

theorem mem_ordered (d : UcdData) (x : UcdRec) : x ∈ d.ordered ↔ ∃ n, (n, x) ∈ d.map := by
  have : ∀ (m : List (Str × UcdRec)) (r : List UcdRec),
      x ∈ m.foldl (fun r p => insertUcd p.2 r) r ↔ x ∈ r ∨ ∃ n, (n, x) ∈ m := by
    intro m
    induction m with
    | nil => simp
    | cons p m ih =>
      intro r
      rw [List.foldl_cons, ih, mem_insertUcd]
      obtain ⟨a, b⟩ := p
      simp only [List.mem_cons, Prod.mk.injEq]
      grind
  unfold UcdData.ordered
  rw [this]
  simp

/-! ## The values given by the constructors -/

theorem makeOther_values {c : KanjiCtx} {t : KanjiType} {name : Str} {ucd : Option Ucd} {q : Option KenteiKyu} {n : UInt16}
    {k : Kanji} (h : Kanji.makeOther c t name ucd q n = .ok k) :
    ∃ u, ucd = some u ∧ k.compatName = c.compatName name ∧ k.pinyin = c.pinyin u ∧ k.reading = c.reading u ∧
      k.meaning = c.meaning u ∧ k.extra = none := by
  unfold Kanji.makeOther at h
  cases ucd with
  | none => cases h
  | some u =>
    obtain ⟨_, _, h⟩ := Res.bind_eq_ok h
    obtain ⟨rfl, _⟩ := construct_eq h
    exact ⟨u, rfl, rfl, rfl, rfl, rfl, rfl⟩

theorem makeLinked_values {c : KanjiCtx} {name : Str} {link k : Kanji} {o : Bool}
    (h : Kanji.makeLinked c name link o = .ok k) :
    ∃ u, c.findUcd name = some u ∧ k.compatName = c.compatName name ∧ k.pinyin = c.pinyin u ∧ k.reading = link.reading ∧
      k.meaning = link.meaning ∧ k.extra = none := by
  unfold Kanji.makeLinked at h
  split at h
  · cases h
  · split at h
    · cases h
    · rename_i u hu
      obtain ⟨_, _, h⟩ := Res.bind_eq_ok h
      obtain ⟨rfl, _⟩ := construct_eq h
      exact ⟨u, hu, rfl, rfl, rfl, rfl, rfl⟩

theorem jouyou_values {c : KanjiCtx} {row : CellRow} {k : Kanji} {i : NumberedInfo}
    (h : jouyouFromRow c row = .ok (k, i)) :
    k.compatName = c.compatName row.name ∧ k.pinyin = (c.findUcd row.name).bind c.pinyin ∧ k.reading = row.reading ∧
      k.meaning = row.meaning ∧ k.extra = some i.extraTypeInfo := by
  unfold jouyouFromRow at h
  obtain ⟨_, _, h⟩ := Res.bind_eq_ok h
  obtain ⟨_, _, h⟩ := Res.bind_eq_ok h
  obtain ⟨_, _, h⟩ := Res.bind_eq_ok h
  obtain ⟨_, _, h⟩ := Res.bind_eq_ok h
  obtain ⟨_, _, h⟩ := Res.bind_eq_ok h
  obtain ⟨_, _, h⟩ := Res.bind_eq_ok h
  obtain ⟨_, _, h⟩ := Res.bind_eq_ok h
  obtain ⟨k', hk, h⟩ := Res.bind_eq_ok h
  cases h
  unfold Kanji.makeJouyou at hk
  obtain ⟨_, _, hk⟩ := Res.bind_eq_ok hk
  obtain ⟨_, _, hk⟩ := Res.bind_eq_ok hk
  obtain ⟨rfl, _⟩ := construct_eq hk
  exact ⟨rfl, rfl, rfl, rfl, rfl⟩

theorem jinmei_values {c : KanjiCtx} {row : CellRow} {k : Kanji} {i : NumberedInfo}
    (h : jinmeiFromRow c row = .ok (k, i)) :
    ∃ u, c.findUcd row.name = some u ∧ k.compatName = c.compatName row.name ∧ k.pinyin = c.pinyin u ∧
      k.reading = row.reading ∧ k.meaning = c.meaning u ∧ k.extra = some i.extraTypeInfo := by
  unfold jinmeiFromRow at h
  obtain ⟨k', hk, h⟩ := Res.bind_eq_ok h
  obtain ⟨_, _, h⟩ := Res.bind_eq_ok h
  obtain ⟨_, _, h⟩ := Res.bind_eq_ok h
  split at h
  · cases h
    unfold Kanji.makeJinmei at hk
    obtain ⟨_, _, hk⟩ := Res.bind_eq_ok hk
    split at hk
    · cases hk
    · rename_i u hu
      obtain ⟨rfl, _⟩ := construct_eq hk
      exact ⟨u, hu, rfl, rfl, rfl, rfl, rfl⟩
  · cases h

theorem extra_values {c : KanjiCtx} {row : CellRow} {k : Kanji} {i : NumberedInfo}
    (h : extraFromRow c row = .ok (k, i)) :
    k.compatName = c.compatName row.name ∧ k.pinyin = (c.findUcd row.name).bind c.pinyin ∧ k.reading = row.reading ∧
      k.meaning = row.meaning ∧ k.extra = some i.extraTypeInfo ∧
      (k.newName = none ∨ k.oldNames = []) ∧ (∀ n ∈ k.oldNames, ∃ u, c.findUcd row.name = some u ∧ n ∈ u.links) := by
  unfold extraFromRow at h
  obtain ⟨_, _, h⟩ := Res.bind_eq_ok h
  obtain ⟨k', hk, h⟩ := Res.bind_eq_ok h
  obtain ⟨_, _, h⟩ := Res.bind_eq_ok h
  cases h
  have hc := C48_exclusive c k' (.extra _ _ hk)
  unfold Kanji.makeExtra at hk
  obtain ⟨_, _, hk⟩ := Res.bind_eq_ok hk
  obtain ⟨_, _, hk⟩ := Res.bind_eq_ok hk
  obtain ⟨rfl, _⟩ := construct_eq hk
  refine ⟨rfl, rfl, rfl, rfl, rfl, hc, fun n hn => ?_⟩
  simp only at hn
  split at hn
  · cases hu : c.findUcd row.name with
    | none => simp [hu, linkNames] at hn
    | some u =>
      rw [hu, linkNames_some] at hn
      exact ⟨u, rfl, hn⟩
  · cases hn

/-! ## C172 -/

theorem origin_jouyou {l : Loaded} {f : KanjiFiles} {x : KanjiRec} (h : Origin l f x) (ht : x.kanji.type = .jouyou) :
    ∃ row info k, row ∈ f.jouyou ∧ x = l.record k ∧ jouyouFromRow l.ctx row = .ok (k, info) := by
  cases h with
  | jouyou row info k hr hk => exact ⟨row, info, k, hr, rfl, hk⟩
  | jinmei row info k hr hk => exact absurd (ht.symm.trans (jinmei_row hk).1) (by decide)
  | extra row info k hr hk => exact absurd (ht.symm.trans (extra_row hk).1) (by decide)
  | line _ _ _ _ _ _ _ _ _ _ hk => exact absurd (ht.symm.trans (linked_facts hk).1) (by decide)
  | old _ _ _ _ _ hk => exact absurd (ht.symm.trans (linked_facts hk).1) (by decide)
  | jinmeiOld _ _ _ _ _ _ _ _ hk => exact absurd (ht.symm.trans (linked_facts hk).1) (by decide)
  | frequency _ _ _ _ hk => exact absurd (ht.symm.trans (newListKanji_name _ _ _ _ _ _ hk).2) (by decide)
  | kentei _ _ _ _ _ _ _ hk => exact absurd (ht.symm.trans (newListKanji_name _ _ _ _ _ _ hk).2) (by simp [ListKind.newType])
  | ucd _ _ _ hk => exact absurd (ht.symm.trans (makeOther_name _ _ _ _ _ _ _ hk).2.1) (by decide)

theorem origin_jinmei {l : Loaded} {f : KanjiFiles} {x : KanjiRec} (h : Origin l f x) (ht : x.kanji.type = .jinmei) :
    ∃ row info k, row ∈ f.jinmei ∧ x = l.record k ∧ jinmeiFromRow l.ctx row = .ok (k, info) := by
  cases h with
  | jinmei row info k hr hk => exact ⟨row, info, k, hr, rfl, hk⟩
  | jouyou row info k hr hk => exact absurd (ht.symm.trans (jouyou_row hk).1) (by decide)
  | extra row info k hr hk => exact absurd (ht.symm.trans (extra_row hk).1) (by decide)
  | line _ _ _ _ _ _ _ _ _ _ hk => exact absurd (ht.symm.trans (linked_facts hk).1) (by decide)
  | old _ _ _ _ _ hk => exact absurd (ht.symm.trans (linked_facts hk).1) (by decide)
  | jinmeiOld _ _ _ _ _ _ _ _ hk => exact absurd (ht.symm.trans (linked_facts hk).1) (by decide)
  | frequency _ _ _ _ hk => exact absurd (ht.symm.trans (newListKanji_name _ _ _ _ _ _ hk).2) (by decide)
  | kentei _ _ _ _ _ _ _ hk => exact absurd (ht.symm.trans (newListKanji_name _ _ _ _ _ _ hk).2) (by simp [ListKind.newType])
  | ucd _ _ _ hk => exact absurd (ht.symm.trans (makeOther_name _ _ _ _ _ _ _ hk).2.1) (by decide)

/-- The parts of the loading. -/
theorem loadTextData_ok {ltr : Bool} {f : DataFiles} {d : KanjiStore} {u : UcdData} {l : Loaded}
    (h : loadTextData ltr f = .ok (d, u, l)) :
    ∃ lists rad, loadListFiles (levelOrder.map fun l => (l, f.levels l)) (kyuOrder.map fun k => (k, f.kyus k)) f.frequency =
        .ok lists ∧
      UcdData.load f.ucd {} = .ok u ∧ RadicalData.load f.radicalCols f.radicals = .ok rad ∧
      l = loadedOf ltr lists u rad f.kanji.frequencyReadings ∧ loadKanji l f.kanji = .ok d := by
  unfold loadTextData at h
  obtain ⟨lists, h1, h⟩ := Res.bind_eq_ok h
  obtain ⟨u', h2, h⟩ := Res.bind_eq_ok h
  obtain ⟨rad, h3, h⟩ := Res.bind_eq_ok h
  obtain ⟨readings, h4, h⟩ := Res.bind_eq_ok h
  obtain ⟨d', h5, h⟩ := Res.bind_eq_ok h
  obtain ⟨rfl, _⟩ := (C107_readings _ _).mp h4
  cases h
  exact ⟨lists, rad, h1, h2, h3, rfl, h5⟩

/-- What is found for an entry. -/
theorem entry_values {ltr : Bool} {rows : List UcdRow} {u : UcdData} (hu : UcdData.load rows {} = .ok u) (lists : ListFiles)
    (rad : RadicalData) (readings : List (Str × Str)) {e : UcdRec} {n : Str} (he : (n, e) ∈ u.map) :
    (loadedOf ltr lists u rad readings).meaning e.toUcd = e.meaning ∧
    getReadingsAsKana ltr (some e) = .ok ((loadedOf ltr lists u rad readings).reading e.toUcd) := by
  have hl : u.entry e.toUcd = some e := ((ucd_loaded hu).2 _ he).2.1
  refine ⟨by simp [loadedOf, hl], ?_⟩
  have : ∃ r, getReadingsAsKana ltr (some e) = .ok r := by
    obtain ⟨K, hK⟩ := Classical.axiomOfChoice (C97_total ltr .katakana)
    obtain ⟨H, hH⟩ := Classical.axiomOfChoice (C97_total ltr .hiragana)
    exact ⟨_, (C97_readings ltr e K H hK hH).2⟩
  obtain ⟨r, hr⟩ := this
  simp [loadedOf, hl, hr]

theorem found_entry (ltr : Bool) (lists : ListFiles) (u : UcdData) (rad : RadicalData) (readings : List (Str × Str))
    {name : Str} {x : Ucd} (h : (loadedOf ltr lists u rad readings).findUcd name = some x) :
    ∃ e, u.findEntry name = some e ∧ x = e.toUcd := by
  have h : (u.findEntry name).map (·.toUcd) = some x := h
  obtain ⟨e, he, rfl⟩ := Option.map_eq_some_iff.mp h
  exact ⟨e, he, rfl⟩

/-- The row of the kanji that a linked kanji belongs to. -/
def LinkTexts (f : DataFiles) (u : UcdData) (k : Kanji) : Prop :=
  (∃ row ∈ f.kanji.jouyou, k.newName = some row.name ∧ k.reading = row.reading ∧ k.meaning = row.meaning) ∨
  (k.type = .linkedJinmei ∧ ∃ row ∈ f.kanji.jinmei, ∃ e, k.newName = some row.name ∧ u.findEntry row.name = some e ∧
    k.reading = row.reading ∧ k.meaning = e.meaning)

/-- Where the reading, the meaning and the additional text of a kanji come from. -/
def TextSources (ltr : Bool) (f : DataFiles) (u : UcdData) (k : Kanji) : Prop :=
  match k.type with
  | .jouyou => ∃ row ∈ f.kanji.jouyou, k.name = row.name ∧ k.reading = row.reading ∧ k.meaning = row.meaning ∧
      k.extra.isSome
  | .jinmei => ∃ row ∈ f.kanji.jinmei, ∃ e, k.name = row.name ∧ u.findEntry row.name = some e ∧ k.reading = row.reading ∧
      k.meaning = e.meaning ∧ k.extra.isSome
  | .extra => ∃ row ∈ f.kanji.extra, k.name = row.name ∧ k.reading = row.reading ∧ k.meaning = row.meaning ∧
      k.extra.isSome
  | .linkedJinmei | .linkedOld => LinkTexts f u k ∧ k.extra = none
  | .frequency => ∃ e, u.findEntry k.name = some e ∧ k.meaning = e.meaning ∧ k.extra = none ∧
      match f.kanji.frequencyReadings.lookup k.name with
      | some r => k.reading = r
      | none => getReadingsAsKana ltr (some e) = .ok k.reading
  | .kentei => ∃ e, u.findEntry k.name = some e ∧ k.meaning = e.meaning ∧ k.extra = none ∧
      getReadingsAsKana ltr (some e) = .ok k.reading
  | .ucd => ∃ e, u.map.lookup k.name = some e ∧ k.meaning = e.meaning ∧ k.extra = none ∧
      getReadingsAsKana ltr (some e) = .ok k.reading

/-- Readings and meanings: those of the row for Jouyou and Extra kanji; the reading of the row and the meaning of the Unicode
file for Jinmei kanji; both of the kanji it belongs to for a linked kanji; those of the Unicode file for other kanji, except
for readings that are in the file of frequency readings. -/
theorem C172_texts (ltr : Bool) (f : DataFiles) (d : KanjiStore) (u : UcdData) (l : Loaded)
    (h : loadTextData ltr f = .ok (d, u, l)) (k : KanjiRec) (hk : k ∈ d.all) : TextSources ltr f u k.kanji := by
  obtain ⟨lists, rad, _, hu, _, rfl, hd⟩ := loadTextData_ok h
  obtain ⟨_, _, _, _, _, _, _, hl, _⟩ := loadKanji_spec hd
  rw [hl.types.store.all_eq] at hk
  have entry := fun {e n} he => @entry_values ltr f.ucd u hu lists rad f.kanji.frequencyReadings e n he
  have jouyou : ∀ x, Origin (loadedOf ltr lists u rad f.kanji.frequencyReadings) f.kanji x → x.kanji.type = .jouyou →
      ∃ row ∈ f.kanji.jouyou, x.kanji.name = row.name ∧ x.kanji.reading = row.reading ∧ x.kanji.meaning = row.meaning := by
    intro x hx ht
    obtain ⟨row, info, k', hr, rfl, hk'⟩ := origin_jouyou hx ht
    obtain ⟨_, _, h1, h2, _⟩ := jouyou_values hk'
    exact ⟨row, hr, (jouyou_row hk').2.1, h1, h2⟩
  have jinmei : ∀ x, Origin (loadedOf ltr lists u rad f.kanji.frequencyReadings) f.kanji x → x.kanji.type = .jinmei →
      ∃ row ∈ f.kanji.jinmei, ∃ e, x.kanji.name = row.name ∧ u.findEntry row.name = some e ∧ x.kanji.reading = row.reading ∧
        x.kanji.meaning = e.meaning := by
    intro x hx ht
    obtain ⟨row, info, k', hr, rfl, hk'⟩ := origin_jinmei hx ht
    obtain ⟨y, hy, _, _, h1, h2, _⟩ := jinmei_values hk'
    obtain ⟨e, he, rfl⟩ := found_entry ltr lists u rad f.kanji.frequencyReadings hy
    obtain ⟨n, hn⟩ := findEntry_mem he
    exact ⟨row, hr, e, (jinmei_row hk').2.1, he, h1, h2.trans (entry hn).1⟩
  have ho := hl.origin k hk
  cases ho with
  | jouyou row info k' hr hk' =>
    have ht := jouyou_row hk'
    obtain ⟨_, _, h1, h2, h3⟩ := jouyou_values hk'
    show TextSources ltr f u k'
    unfold TextSources
    rw [ht.1]
    exact ⟨row, hr, ht.2.1, h1, h2, by rw [h3]; rfl⟩
  | jinmei row info k' hr hk' =>
    have ht := jinmei_row hk'
    obtain ⟨x, hx, _, _, h1, h2, h3⟩ := jinmei_values hk'
    obtain ⟨e, he, rfl⟩ := found_entry ltr lists u rad f.kanji.frequencyReadings hx
    obtain ⟨n, hn⟩ := findEntry_mem he
    show TextSources ltr f u k'
    unfold TextSources
    rw [ht.1]
    exact ⟨row, hr, e, ht.2.1, he, h1, h2.trans (entry hn).1, by rw [h3]; rfl⟩
  | extra row info k' hr hk' =>
    have ht := extra_row hk'
    obtain ⟨_, _, h1, h2, h3, _⟩ := extra_values hk'
    show TextSources ltr f u k'
    unfold TextSources
    rw [ht.1]
    exact ⟨row, hr, ht.2.1, h1, h2, by rw [h3]; rfl⟩
  | line line j linked rest link k' hm hf hlo hn hk' =>
    have ht := linked_facts hk'
    obtain ⟨_, _, _, _, h1, h2, h3⟩ := makeLinked_values hk'
    show TextSources ltr f u k'
    unfold TextSources
    rw [ht.1]
    refine ⟨?_, h3⟩
    rcases ht.2.2.2.2.2.2.2.2 with g | g
    · obtain ⟨row, hr, r1, r2, r3⟩ := jouyou link hlo g
      exact .inl ⟨row, hr, by rw [ht.2.2.1, r1], h1.trans r2, h2.trans r3⟩
    · obtain ⟨row, hr, e, r1, r2, r3, r4⟩ := jinmei link hlo g.1
      exact .inr ⟨ht.1, row, hr, e, by rw [ht.2.2.1, r1], r2, h1.trans r3, h2.trans r4⟩
  | old link o k' hlo hoo hk' =>
    have ht := linked_facts hk'
    obtain ⟨_, _, _, _, h1, h2, h3⟩ := makeLinked_values hk'
    show TextSources ltr f u k'
    unfold TextSources
    rw [ht.1]
    refine ⟨?_, h3⟩
    rcases ht.2.2.2.2.2.2.2.2 with g | g
    · obtain ⟨row, hr, r1, r2, r3⟩ := jouyou link hlo g
      exact .inl ⟨row, hr, by rw [ht.2.2.1, r1], h1.trans r2, h2.trans r3⟩
    · cases g.2
  | jinmeiOld row info link o k' hr hlink hoo hk' =>
    have ht := linked_facts hk'
    obtain ⟨_, _, _, _, h1, h2, h3⟩ := makeLinked_values hk'
    show TextSources ltr f u k'
    unfold TextSources
    rw [ht.1]
    have hj := jinmei_row hlink
    obtain ⟨x, hx, _, _, g1, g2, g3⟩ := jinmei_values hlink
    obtain ⟨e, he, rfl⟩ := found_entry ltr lists u rad f.kanji.frequencyReadings hx
    obtain ⟨n, hn⟩ := findEntry_mem he
    exact ⟨.inr ⟨ht.1, row, hr, e, by rw [ht.2.2.1, hj.2.1], he, h1.trans g1, (h2.trans g2).trans (entry hn).1⟩, h3⟩
  | frequency i name k' hi hk' =>
    have hn := newListKanji_name _ _ _ _ _ _ hk'
    unfold newListKanji at hk'
    obtain ⟨x, hx, hk'⟩ := Res.bind_eq_ok hk'
    cases hk'
    obtain ⟨y, hy, _, _, h1, h2, h3⟩ := makeOther_values hx
    obtain ⟨e, he, rfl⟩ := found_entry ltr lists u rad f.kanji.frequencyReadings hy
    obtain ⟨n, hm⟩ := findEntry_mem he
    show TextSources ltr f u x
    unfold TextSources
    rw [show x.type = .frequency from hn.2, show x.name = name from hn.1]
    refine ⟨e, he, h2.trans (entry hm).1, h3, ?_⟩
    have h1 : x.reading = (f.kanji.frequencyReadings.lookup name).getD _ := h1
    cases hf : f.kanji.frequencyReadings.lookup name with
    | some r => rw [hf] at h1; exact h1
    | none => rw [hf] at h1; rw [h1]; exact (entry hm).2
  | kentei q st i name k' hq hs hk' =>
    have hn := newListKanji_name _ _ _ _ _ _ hk'
    unfold newListKanji at hk'
    obtain ⟨x, hx, hk'⟩ := Res.bind_eq_ok hk'
    cases hk'
    obtain ⟨y, hy, _, _, h1, h2, h3⟩ := makeOther_values hx
    obtain ⟨e, he, rfl⟩ := found_entry ltr lists u rad f.kanji.frequencyReadings hy
    obtain ⟨n, hm⟩ := findEntry_mem he
    show TextSources ltr f u x
    unfold TextSources
    rw [show x.type = .kentei from hn.2, show x.name = name from hn.1]
    exact ⟨e, he, h2.trans (entry hm).1, h3, by rw [h1]; exact (entry hm).2⟩
  | ucd x k' hx hk' =>
    have hn := makeOther_name _ _ _ _ _ _ k' hk'
    obtain ⟨y, hy, _, _, h1, h2, h3⟩ := makeOther_values hk'
    cases hy
    have hx : x ∈ u.ordered.map (·.toUcd) := hx
    obtain ⟨e, he, rfl⟩ := List.mem_map.mp hx
    obtain ⟨n, hm⟩ := (mem_ordered u e).mp he
    show TextSources ltr f u k'
    unfold TextSources
    rw [hn.2.1, hn.1]
    exact ⟨e, ((ucd_loaded hu).2 _ hm).2.1, h2.trans (entry hm).1, h3, by rw [h1]; exact (entry hm).2⟩

end KT
