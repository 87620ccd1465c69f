import Verif.Props.LoadedProgram
import Verif.Props.Radical
/-!
# C173: radical, strokes, Pinyin and dictionary numbers of the loaded kanji

Model: `Verif/Model/LoadData.lean`.
-/
namespace KT
open Spec

/-! ## The values given by the constructors -/

theorem makeOther_parts {c : KanjiCtx} {t : KanjiType} {name : Str} {ucd : Option Ucd} {q : Option KenteiKyu} {n : UInt16}
    {k : Kanji} (h : Kanji.makeOther c t name ucd q n = .ok k) :
    ∃ u, ucd = some u ∧ k.strokes = u.strokes ∧ k.pinyin = c.pinyin u ∧
      c.ucdRadical u = .ok (k.radicalName, k.radicalNumber) ∧ k.linkedReadings = u.linkedReadings := by
  unfold Kanji.makeOther at h
  cases ucd with
  | none => cases h
  | some u =>
    obtain ⟨r, hr, h⟩ := Res.bind_eq_ok h
    obtain ⟨rfl, _⟩ := construct_eq h
    exact ⟨u, rfl, rfl, rfl, hr, rfl⟩

theorem makeLinked_parts {c : KanjiCtx} {name : Str} {link k : Kanji} {o : Bool}
    (h : Kanji.makeLinked c name link o = .ok k) :
    ∃ u, c.findUcd name = some u ∧ k.strokes = u.strokes ∧ k.pinyin = c.pinyin u ∧
      c.ucdRadical u = .ok (k.radicalName, k.radicalNumber) ∧ k.linkedReadings = true := by
  unfold Kanji.makeLinked at h
  split at h
  · cases h
  · split at h
    · cases h
    · rename_i u hu
      obtain ⟨r, hr, h⟩ := Res.bind_eq_ok h
      obtain ⟨rfl, _⟩ := construct_eq h
      exact ⟨u, hu, rfl, rfl, hr, rfl⟩

theorem jouyou_parts {c : KanjiCtx} {row : CellRow} {k : Kanji} {i : NumberedInfo}
    (h : jouyouFromRow c row = .ok (k, i)) :
    c.radicalByName row.radical = .ok (k.radicalName, k.radicalNumber) ∧ k.linkedReadings = false := by
  unfold jouyouFromRow at h
  obtain ⟨_, _, h⟩ := Res.bind_eq_ok h
  obtain ⟨_, _, h⟩ := Res.bind_eq_ok h
  obtain ⟨_, _, h⟩ := Res.bind_eq_ok h
  obtain ⟨_, _, h⟩ := Res.bind_eq_ok h
  obtain ⟨_, _, h⟩ := Res.bind_eq_ok h
  obtain ⟨_, _, h⟩ := Res.bind_eq_ok h
  obtain ⟨_, _, h⟩ := Res.bind_eq_ok h
  obtain ⟨k', hk, h⟩ := Res.bind_eq_ok h
  cases h
  unfold Kanji.makeJouyou at hk
  obtain ⟨_, _, hk⟩ := Res.bind_eq_ok hk
  obtain ⟨r, hr, hk⟩ := Res.bind_eq_ok hk
  obtain ⟨rfl, _⟩ := construct_eq hk
  exact ⟨hr, rfl⟩

theorem jinmei_parts {c : KanjiCtx} {row : CellRow} {k : Kanji} {i : NumberedInfo}
    (h : jinmeiFromRow c row = .ok (k, i)) :
    c.radicalByName row.radical = .ok (k.radicalName, k.radicalNumber) ∧ k.linkedReadings = false ∧
    ∃ u, c.findUcd row.name = some u ∧ k.strokes = u.strokes := by
  unfold jinmeiFromRow at h
  obtain ⟨k', hk, h⟩ := Res.bind_eq_ok h
  obtain ⟨_, _, h⟩ := Res.bind_eq_ok h
  obtain ⟨_, _, h⟩ := Res.bind_eq_ok h
  split at h
  · cases h
    unfold Kanji.makeJinmei at hk
    obtain ⟨r, hr, hk⟩ := Res.bind_eq_ok hk
    split at hk
    · cases hk
    · rename_i u hu
      obtain ⟨rfl, _⟩ := construct_eq hk
      exact ⟨hr, rfl, u, hu, rfl⟩
  · cases h

theorem extra_parts {c : KanjiCtx} {row : CellRow} {k : Kanji} {i : NumberedInfo}
    (h : extraFromRow c row = .ok (k, i)) :
    c.radicalByName row.radical = .ok (k.radicalName, k.radicalNumber) ∧ k.linkedReadings = false := by
  unfold extraFromRow at h
  obtain ⟨_, _, h⟩ := Res.bind_eq_ok h
  obtain ⟨k', hk, h⟩ := Res.bind_eq_ok h
  obtain ⟨_, _, h⟩ := Res.bind_eq_ok h
  cases h
  unfold Kanji.makeExtra at hk
  obtain ⟨_, _, hk⟩ := Res.bind_eq_ok hk
  obtain ⟨r, hr, hk⟩ := Res.bind_eq_ok hk
  obtain ⟨rfl, _⟩ := construct_eq hk
  exact ⟨hr, rfl⟩

/-! ## What the entries give -/

/-- The radical of an entry: the one with the number of the entry. -/
theorem ucdRadical_ok {ltr : Bool} {rows : List UcdRow} {u : UcdData} (hu : UcdData.load rows {} = .ok u) (lists : ListFiles)
    {cols : RadicalCols} {cf : ColumnFile} {rad : RadicalData} (h0 : cf.currentRow = 0)
    (hrad : RadicalData.load cols cf = .ok rad) (readings : List (Str × Str)) {e : UcdRec} {n : Str} (he : (n, e) ∈ u.map)
    {p : Str × Nat} (h : (loadedOf ltr lists u rad readings).ucdRadical e.toUcd = .ok p) :
    ∃ r ∈ rad.radicals, r.number = e.radical ∧ p = (r.name, r.number) := by
  have hl : u.entry e.toUcd = some e := ((ucd_loaded hu).2 _ he).2.1
  simp only [loadedOf, hl] at h
  obtain ⟨r, hr, h⟩ := Res.bind_eq_ok h
  obtain ⟨h1, h2⟩ := ((C47_number cols cf rad h0 hrad _).1 r).mp hr
  exact ⟨r, h1, h2, (Res.ok.inj h).symm⟩

/-- The radical of a row: one with the name in the row. -/
theorem radicalByName_ok {ltr : Bool} {u : UcdData} {lists : ListFiles} {cols : RadicalCols} {cf : ColumnFile}
    {rad : RadicalData} (h0 : cf.currentRow = 0) (hrad : RadicalData.load cols cf = .ok rad) {readings : List (Str × Str)}
    {name : Str} {p : Str × Nat} (h : (loadedOf ltr lists u rad readings).radicalByName name = .ok p) :
    ∃ r ∈ rad.radicals, r.name = name ∧ p = (r.name, r.number) := by
  have h : (rad.findName name).bind (fun r => Res.ok (radicalParts r)) = .ok p := h
  obtain ⟨r, hr, h⟩ := Res.bind_eq_ok h
  obtain ⟨h1, h2⟩ := C47_name cols cf rad h0 hrad name
  by_cases hx : ∃ r ∈ rad.radicals, r.name = name
  · obtain ⟨x, hx, hn, hf⟩ := h1 hx
    rw [hf] at hr
    cases hr
    exact ⟨r, hx, hn, (Res.ok.inj h).symm⟩
  · rw [h2 (fun r hr e => hx ⟨r, hr, e⟩)] at hr
    cases hr

/-- The Pinyin of an entry; an entry without one has an empty text. -/
def entryPinyin (e : UcdRec) : Option Str := if e.pinyin = [] then none else some e.pinyin

theorem pinyin_entry {ltr : Bool} {rows : List UcdRow} {u : UcdData} (hu : UcdData.load rows {} = .ok u) (lists : ListFiles)
    (rad : RadicalData) (readings : List (Str × Str)) {e : UcdRec} {n : Str} (he : (n, e) ∈ u.map) :
    (loadedOf ltr lists u rad readings).pinyin e.toUcd = entryPinyin e := by
  have hl : u.entry e.toUcd = some e := ((ucd_loaded hu).2 _ he).2.1
  simp only [loadedOf, hl, entryPinyin, Option.bind_some, List.isEmpty_iff]

theorem pinyin_found {ltr : Bool} {rows : List UcdRow} {u : UcdData} (hu : UcdData.load rows {} = .ok u) (lists : ListFiles)
    (rad : RadicalData) (readings : List (Str × Str)) (name : Str) :
    ((loadedOf ltr lists u rad readings).ctx.findUcd name).bind (loadedOf ltr lists u rad readings).ctx.pinyin =
      (u.findEntry name).bind entryPinyin := by
  show ((u.findEntry name).map (·.toUcd)).bind (loadedOf ltr lists u rad readings).pinyin = _
  cases he : u.findEntry name with
  | none => rfl
  | some e =>
    obtain ⟨n, hn⟩ := findEntry_mem he
    exact pinyin_entry hu lists rad readings hn

/-! ## C173 -/

/-- The values of an entry. -/
structure EntryValues (rad : RadicalData) (e : UcdRec) (k : Kanji) : Prop where
  strokes : k.strokes = e.strokes
  pinyin : k.pinyin = entryPinyin e
  radical : ∃ r ∈ rad.radicals, r.number = e.radical ∧ k.radicalName = r.name ∧ k.radicalNumber = r.number

/-- The radical with the name in a row. -/
def RowRadical (rad : RadicalData) (row : CellRow) (k : Kanji) : Prop :=
  ∃ r ∈ rad.radicals, r.name = row.radical ∧ k.radicalName = r.name ∧ k.radicalNumber = r.number

/-- The number in a cell as number of strokes. -/
def RowStrokes (row : CellRow) (k : Kanji) : Prop :=
  ∀ n, readNumber 10 row.strokes = some n → k.strokes.value.toNat = n ∧ k.strokes.variant = 0

/-- Where radical, strokes and Pinyin of a kanji come from. -/
def ValueSources (f : DataFiles) (u : UcdData) (rad : RadicalData) (k : Kanji) : Prop :=
  match k.type with
  | .jouyou => ∃ row ∈ f.kanji.jouyou, k.name = row.name ∧ RowRadical rad row k ∧ RowStrokes row k ∧
      k.pinyin = (u.findEntry row.name).bind entryPinyin ∧ k.linkedReadings = false
  | .jinmei => ∃ row ∈ f.kanji.jinmei, ∃ e, k.name = row.name ∧ RowRadical rad row k ∧ u.findEntry row.name = some e ∧
      k.strokes = e.strokes ∧ k.pinyin = entryPinyin e ∧ k.linkedReadings = false
  | .extra => ∃ row ∈ f.kanji.extra, k.name = row.name ∧ RowRadical rad row k ∧ RowStrokes row k ∧
      k.pinyin = (u.findEntry row.name).bind entryPinyin ∧ k.linkedReadings = false
  | .linkedJinmei | .linkedOld => ∃ e, u.findEntry k.name = some e ∧ EntryValues rad e k ∧ k.linkedReadings = true
  | .frequency | .kentei => ∃ e, u.findEntry k.name = some e ∧ EntryValues rad e k ∧ k.linkedReadings = e.linkedReadings
  | .ucd => ∃ e, u.map.lookup k.name = some e ∧ EntryValues rad e k ∧ k.linkedReadings = e.linkedReadings

theorem rowStrokes_jouyou {c : KanjiCtx} {row : CellRow} {k : Kanji} {i : NumberedInfo}
    (h : jouyouFromRow c row = .ok (k, i)) : RowStrokes row k := by
  intro n hn
  obtain ⟨s, hs, hm⟩ := (jouyou_row h).2.2.2.2.2.2.2.2.2.2.2
  rw [cellU8_number hn] at hs
  split at hs
  · rename_i hlt
    cases hs
    rw [strokes_make hlt] at hm
    split at hm
    · rw [← Res.ok.inj hm]
      exact ⟨by simpa using Nat.mod_eq_of_lt hlt, rfl⟩
    · cases hm
  · cases hs

theorem rowStrokes_extra {c : KanjiCtx} {row : CellRow} {k : Kanji} {i : NumberedInfo}
    (h : extraFromRow c row = .ok (k, i)) : RowStrokes row k := by
  intro n hn
  unfold extraFromRow at h
  obtain ⟨s, hs, h⟩ := Res.bind_eq_ok h
  obtain ⟨k', hk, h⟩ := Res.bind_eq_ok h
  obtain ⟨_, _, h⟩ := Res.bind_eq_ok h
  cases h
  unfold Kanji.makeExtra at hk
  obtain ⟨st, hm, hk⟩ := Res.bind_eq_ok hk
  obtain ⟨_, _, hk⟩ := Res.bind_eq_ok hk
  obtain ⟨rfl, _⟩ := construct_eq hk
  rw [cellU8_number hn] at hs
  split at hs
  · rename_i hlt
    cases hs
    rw [strokes_make hlt] at hm
    split at hm
    · cases hm
      exact ⟨by simpa using Nat.mod_eq_of_lt hlt, rfl⟩
    · cases hm
  · cases hs

/-- The dictionary numbers and the compatibility name of a kanji are those of its entry in the Unicode file, which is the one
found for its name. -/
def entryOf (u : UcdData) (k : Kanji) : Option UcdRec := if k.type = .ucd then u.map.lookup k.name else u.findEntry k.name

/-- The numbers of an entry; a kanji without entry has none. -/
structure IdValues (e : Option UcdRec) (k : KanjiRec) : Prop where
  morohashi : k.morohashiId = match e with | some e => e.morohashiId | none => {}
  nelson : k.nelsonIds = match e with | some e => getNelsonIds e.nelsonIds | none => []

theorem ids_found {ltr : Bool} {rows : List UcdRow} {u : UcdData} (hu : UcdData.load rows {} = .ok u) (lists : ListFiles)
    (rad : RadicalData) (readings : List (Str × Str)) (name : Str) (k : Kanji) :
    IdValues (u.findEntry name)
      ((loadedOf ltr lists u rad readings).ids.record ((loadedOf ltr lists u rad readings).findUcd name) k) := by
  have hf : (loadedOf ltr lists u rad readings).findUcd name = (u.findEntry name).map (·.toUcd) := rfl
  rw [hf]
  cases he : u.findEntry name with
  | none => exact ⟨rfl, rfl⟩
  | some e =>
    obtain ⟨n, hn⟩ := findEntry_mem he
    have hl : u.entry e.toUcd = some e := ((ucd_loaded hu).2 _ hn).2.1
    exact ⟨by simp [loadedOf, IdCtx.record, hl], by simp [loadedOf, IdCtx.record, hl]⟩

theorem linked_entry {ltr : Bool} {rows : List UcdRow} {u : UcdData} (hu : UcdData.load rows {} = .ok u) {lists : ListFiles}
    {cols : RadicalCols} {cf : ColumnFile} {rad : RadicalData} (h0 : cf.currentRow = 0)
    (hrad : RadicalData.load cols cf = .ok rad) {readings : List (Str × Str)} {name : Str} {link k : Kanji} {o : Bool}
    (h : Kanji.makeLinked (loadedOf ltr lists u rad readings).ctx name link o = .ok k) :
    ∃ e, u.findEntry k.name = some e ∧ EntryValues rad e k ∧ k.linkedReadings = true := by
  obtain ⟨x, hx, h1, h2, h3, h4⟩ := makeLinked_parts h
  obtain ⟨e, he, rfl⟩ := found_entry ltr lists u rad readings hx
  obtain ⟨n, hn⟩ := findEntry_mem he
  obtain ⟨r, hr, hr1, hr2⟩ := ucdRadical_ok (ltr := ltr) hu lists h0 hrad readings hn h3
  rw [← (linked_facts h).2.1] at he
  exact ⟨e, he, ⟨h1, h2.trans (pinyin_entry (ltr := ltr) hu lists rad readings hn), r, hr, hr1, (Prod.mk.inj hr2).1, (Prod.mk.inj hr2).2⟩, h4⟩

theorem other_entry {ltr : Bool} {rows : List UcdRow} {u : UcdData} (hu : UcdData.load rows {} = .ok u) {lists : ListFiles}
    {cols : RadicalCols} {cf : ColumnFile} {rad : RadicalData} (h0 : cf.currentRow = 0)
    (hrad : RadicalData.load cols cf = .ok rad) {readings : List (Str × Str)} {c : KanjiCtx}
    (hc : c.ucdRadical = (loadedOf ltr lists u rad readings).ucdRadical)
    (hp : c.pinyin = (loadedOf ltr lists u rad readings).pinyin) {t : KanjiType} {name : Str} {e : UcdRec} {n : Str}
    (he : (n, e) ∈ u.map) {q : Option KenteiKyu} {m : UInt16} {k : Kanji}
    (h : Kanji.makeOther c t name (some e.toUcd) q m = .ok k) : EntryValues rad e k ∧ k.linkedReadings = e.linkedReadings := by
  obtain ⟨x, hx, h1, h2, h3, h4⟩ := makeOther_parts h
  cases hx
  rw [hc] at h3
  rw [hp] at h2
  obtain ⟨r, hr, hr1, hr2⟩ := ucdRadical_ok (ltr := ltr) hu lists h0 hrad readings he h3
  exact ⟨⟨h1, h2.trans (pinyin_entry (ltr := ltr) hu lists rad readings he), r, hr, hr1, (Prod.mk.inj hr2).1, (Prod.mk.inj hr2).2⟩, h4⟩

/-- Radical, strokes, Pinyin and dictionary numbers: Jouyou and Extra kanji have radical and strokes of their row, Jinmei
kanji have the radical of their row, all other values are those of the entry in the Unicode file. -/
theorem C173_values (ltr : Bool) (f : DataFiles) (hf : f.radicals.currentRow = 0) (d : KanjiStore) (u : UcdData) (l : Loaded)
    (h : loadTextData ltr f = .ok (d, u, l)) :
    ∃ rad, RadicalData.load f.radicalCols f.radicals = .ok rad ∧ ∀ k ∈ d.all, ValueSources f u rad k.kanji ∧
      IdValues (entryOf u k.kanji) k := by
  obtain ⟨lists, rad, _, hu, hrad, rfl, hd⟩ := loadTextData_ok h
  refine ⟨rad, hrad, fun k hk => ?_⟩
  obtain ⟨_, _, _, _, _, _, _, hl, _⟩ := loadKanji_spec hd
  rw [hl.types.store.all_eq] at hk
  have ids := ids_found (ltr := ltr) hu lists rad f.kanji.frequencyReadings
  have record : ∀ x : Kanji, x.type ≠ .ucd → IdValues (entryOf u x)
      ((loadedOf ltr lists u rad f.kanji.frequencyReadings).record x) := by
    intro x hx
    unfold entryOf
    rw [if_neg hx]
    exact ids x.name x
  have ho := hl.origin k hk
  cases ho with
  | jouyou row info k' hr hk' =>
    have ht := jouyou_row hk'
    obtain ⟨p1, p2⟩ := jouyou_parts hk'
    obtain ⟨r, q1, q2, q3⟩ := radicalByName_ok (ltr := ltr) (u := u) (lists := lists) (readings := f.kanji.frequencyReadings) hf hrad p1
    refine ⟨?_, record k' (by rw [ht.1]; decide)⟩
    show ValueSources f u rad k'
    unfold ValueSources
    rw [ht.1]
    exact ⟨row, hr, ht.2.1, ⟨r, q1, q2, (Prod.mk.inj q3).1, (Prod.mk.inj q3).2⟩, rowStrokes_jouyou hk',
      (jouyou_values hk').2.1.trans (pinyin_found (ltr := ltr) hu lists rad f.kanji.frequencyReadings _), p2⟩
  | jinmei row info k' hr hk' =>
    have ht := jinmei_row hk'
    obtain ⟨p1, p2, y, hy, p3⟩ := jinmei_parts hk'
    obtain ⟨r, q1, q2, q3⟩ := radicalByName_ok (ltr := ltr) (u := u) (lists := lists) (readings := f.kanji.frequencyReadings) hf hrad p1
    obtain ⟨e, he, rfl⟩ := found_entry ltr lists u rad f.kanji.frequencyReadings hy
    obtain ⟨n, hn⟩ := findEntry_mem he
    obtain ⟨z, hz, _, g, _⟩ := jinmei_values hk'
    have hyz : some e.toUcd = some z := hy.symm.trans hz
    cases hyz
    refine ⟨?_, record k' (by rw [ht.1]; decide)⟩
    show ValueSources f u rad k'
    unfold ValueSources
    rw [ht.1]
    exact ⟨row, hr, e, ht.2.1, ⟨r, q1, q2, (Prod.mk.inj q3).1, (Prod.mk.inj q3).2⟩, he, p3, g.trans (pinyin_entry (ltr := ltr) hu lists rad f.kanji.frequencyReadings hn), p2⟩
  | extra row info k' hr hk' =>
    have ht := extra_row hk'
    obtain ⟨p1, p2⟩ := extra_parts hk'
    obtain ⟨r, q1, q2, q3⟩ := radicalByName_ok (ltr := ltr) (u := u) (lists := lists) (readings := f.kanji.frequencyReadings) hf hrad p1
    refine ⟨?_, record k' (by rw [ht.1]; decide)⟩
    show ValueSources f u rad k'
    unfold ValueSources
    rw [ht.1]
    exact ⟨row, hr, ht.2.1, ⟨r, q1, q2, (Prod.mk.inj q3).1, (Prod.mk.inj q3).2⟩, rowStrokes_extra hk',
      (extra_values hk').2.1.trans (pinyin_found (ltr := ltr) hu lists rad f.kanji.frequencyReadings _), p2⟩
  | line line j linked rest link k' hm hf' hlo hn hk' =>
    have ht := linked_facts hk'
    refine ⟨?_, record k' (by rw [ht.1]; decide)⟩
    show ValueSources f u rad k'
    unfold ValueSources
    rw [ht.1]
    exact linked_entry (ltr := ltr) (lists := lists) (readings := f.kanji.frequencyReadings) hu hf hrad hk'
  | old link o k' hlo hoo hk' =>
    have ht := linked_facts hk'
    refine ⟨?_, record k' (by rw [ht.1]; decide)⟩
    show ValueSources f u rad k'
    unfold ValueSources
    rw [ht.1]
    exact linked_entry (ltr := ltr) (lists := lists) (readings := f.kanji.frequencyReadings) hu hf hrad hk'
  | jinmeiOld row info link o k' hr hlink hoo hk' =>
    have ht := linked_facts hk'
    refine ⟨?_, record k' (by rw [ht.1]; decide)⟩
    show ValueSources f u rad k'
    unfold ValueSources
    rw [ht.1]
    exact linked_entry (ltr := ltr) (lists := lists) (readings := f.kanji.frequencyReadings) hu hf hrad hk'
  | frequency i name k' hi hk' =>
    have hn := newListKanji_name _ _ _ _ _ _ hk'
    unfold newListKanji at hk'
    obtain ⟨x, hx, hk'⟩ := Res.bind_eq_ok hk'
    cases hk'
    obtain ⟨y, hy, _⟩ := makeOther_parts hx
    obtain ⟨e, he, rfl⟩ := found_entry ltr lists u rad f.kanji.frequencyReadings hy
    obtain ⟨n, hm⟩ := findEntry_mem he
    unfold Kanji.makeFrequency at hx
    rw [hy] at hx
    have ht : x.type = .frequency := hn.2
    have hname : x.name = name := hn.1
    refine ⟨?_, ?_⟩
    · show ValueSources f u rad x
      unfold ValueSources
      rw [ht, hname]
      exact ⟨e, he, other_entry (ltr := ltr) (lists := lists) (readings := f.kanji.frequencyReadings) hu hf hrad rfl rfl hm hx⟩
    · show IdValues (entryOf u x) _
      unfold entryOf
      rw [if_neg (by rw [ht]; decide), hname]
      exact ids name x
  | kentei q st i name k' hq hs hk' =>
    have hn := newListKanji_name _ _ _ _ _ _ hk'
    unfold newListKanji at hk'
    obtain ⟨x, hx, hk'⟩ := Res.bind_eq_ok hk'
    cases hk'
    obtain ⟨y, hy, _⟩ := makeOther_parts hx
    obtain ⟨e, he, rfl⟩ := found_entry ltr lists u rad f.kanji.frequencyReadings hy
    obtain ⟨n, hm⟩ := findEntry_mem he
    unfold Kanji.makeKentei at hx
    rw [hy] at hx
    have ht : x.type = .kentei := hn.2
    have hname : x.name = name := hn.1
    refine ⟨?_, ?_⟩
    · show ValueSources f u rad x
      unfold ValueSources
      rw [ht, hname]
      exact ⟨e, he, other_entry (ltr := ltr) (lists := lists) (readings := f.kanji.frequencyReadings) hu hf hrad rfl rfl hm hx⟩
    · show IdValues (entryOf u x) _
      unfold entryOf
      rw [if_neg (by rw [ht]; decide), hname]
      exact ids name x
  | ucd x k' hx hk' =>
    have hn := makeOther_name _ _ _ _ _ _ k' hk'
    have hx : x ∈ u.ordered.map (·.toUcd) := hx
    obtain ⟨e, he, rfl⟩ := List.mem_map.mp hx
    obtain ⟨n, hm⟩ := (mem_ordered u e).mp he
    have hlk : u.map.lookup e.name = some e := ((ucd_loaded hu).2 _ hm).2.1
    refine ⟨?_, ?_⟩
    · show ValueSources f u rad k'
      unfold ValueSources
      rw [hn.2.1, hn.1]
      exact ⟨e, hlk, other_entry (ltr := ltr) (lists := lists) (readings := f.kanji.frequencyReadings) hu hf hrad rfl rfl hm hk'⟩
    · show IdValues (entryOf u k') _
      unfold entryOf
      rw [if_pos hn.2.1, hn.1]
      have hl : u.entry e.toUcd = some e := hlk
      have hlk' : u.map.lookup e.toUcd.name = some e := hlk
      rw [hlk']
      exact ⟨by simp [loadedOf, IdCtx.record, hl], by simp [loadedOf, IdCtx.record, hl]⟩

/-- The compatibility name is the name of the entry found for the name; without entry it is the name itself. -/
theorem C173_compatibility (ltr : Bool) (f : DataFiles) (d : KanjiStore) (u : UcdData) (l : Loaded)
    (h : loadTextData ltr f = .ok (d, u, l)) (k : KanjiRec) (hk : k ∈ d.all) :
    k.kanji.compatibilityName = match u.findEntry k.kanji.name with
      | some e => e.name
      | none => k.kanji.name := by
  obtain ⟨lists, rad, _, hu, _, rfl, hd⟩ := loadTextData_ok h
  obtain ⟨_, _, _, _, _, _, _, hl, _⟩ := loadKanji_spec hd
  rw [hl.types.store.all_eq] at hk
  obtain ⟨_, _, _, hc⟩ := origin_sound hu lists rad _ (hl.origin k hk)
  unfold Kanji.compatibilityName
  rw [hc]
  unfold KanjiCtx.compatName
  have hf : (loadedOf ltr lists u rad f.kanji.frequencyReadings).ctx.findUcd k.kanji.name =
      (u.findEntry k.kanji.name).map (·.toUcd) := rfl
  rw [hf]
  cases u.findEntry k.kanji.name with
  | none => rfl
  | some e =>
    simp only [Option.map_some]
    split
    · rfl
    · rename_i hn
      exact (Classical.not_not.mp hn).symm

end KT
