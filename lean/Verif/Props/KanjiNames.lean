import Verif.Props.TextKanjiData
import Verif.Props.Utf8Char
/-!
# C170: the names of kanji

Model: `Verif/Model/Kanji.lean`, `Verif/Model/TextKanjiData.lean`.
-/
namespace KT
open Spec

theorem checkName_eq_ok {name : Str} {u : Unit} (h : checkName name = .ok u) : utf8Size name = some 1 := by
  unfold checkName at h
  split at h
  · assumption
  · cases h

theorem construct_eq {k x : Kanji} (h : Kanji.construct k = .ok x) : x = k ∧ utf8Size x.name = some 1 := by
  obtain ⟨_, h1, h⟩ := Res.bind_eq_ok h
  cases h
  exact ⟨rfl, checkName_eq_ok h1⟩

theorem makeOther_size {c : KanjiCtx} {t : KanjiType} {name : Str} {u : Option Ucd} {q : Option KenteiKyu} {n : UInt16}
    {k : Kanji} (h : Kanji.makeOther c t name u q n = .ok k) : utf8Size k.name = some 1 := by
  unfold Kanji.makeOther at h
  split at h
  · cases h
  · obtain ⟨_, _, h⟩ := Res.bind_eq_ok h
    exact (construct_eq h).2

theorem makeLinked_size {c : KanjiCtx} {name : Str} {link k : Kanji} {o : Bool}
    (h : Kanji.makeLinked c name link o = .ok k) : utf8Size k.name = some 1 := by
  unfold Kanji.makeLinked at h
  split at h
  · cases h
  · split at h
    · cases h
    · obtain ⟨_, _, h⟩ := Res.bind_eq_ok h
      exact (construct_eq h).2

theorem jouyouFromRow_size {c : KanjiCtx} {row : CellRow} {k : Kanji} {i : NumberedInfo}
    (h : jouyouFromRow c row = .ok (k, i)) : utf8Size k.name = some 1 := by
  have hn := (jouyou_row h).2.1
  unfold jouyouFromRow at h
  obtain ⟨_, _, h⟩ := Res.bind_eq_ok h
  obtain ⟨_, _, h⟩ := Res.bind_eq_ok h
  obtain ⟨_, _, h⟩ := Res.bind_eq_ok h
  obtain ⟨_, h1, h⟩ := Res.bind_eq_ok h
  rw [hn]
  exact checkName_eq_ok h1

theorem jinmeiFromRow_size {c : KanjiCtx} {row : CellRow} {k : Kanji} {i : NumberedInfo}
    (h : jinmeiFromRow c row = .ok (k, i)) : utf8Size k.name = some 1 := by
  have hn := (jinmei_row h).2.1
  unfold jinmeiFromRow Kanji.makeJinmei at h
  obtain ⟨_, h, _⟩ := Res.bind_eq_ok h
  obtain ⟨_, _, h⟩ := Res.bind_eq_ok h
  split at h
  · cases h
  · obtain ⟨h1, h2⟩ := construct_eq h
    rw [h1] at h2
    rw [hn]
    exact h2

theorem extraFromRow_size {c : KanjiCtx} {row : CellRow} {k : Kanji} {i : NumberedInfo}
    (h : extraFromRow c row = .ok (k, i)) : utf8Size k.name = some 1 := by
  unfold extraFromRow Kanji.makeExtra at h
  obtain ⟨_, _, h⟩ := Res.bind_eq_ok h
  obtain ⟨k', h1, h⟩ := Res.bind_eq_ok h
  obtain ⟨_, _, h⟩ := Res.bind_eq_ok h
  cases h
  obtain ⟨_, _, h1⟩ := Res.bind_eq_ok h1
  obtain ⟨_, _, h1⟩ := Res.bind_eq_ok h1
  exact (construct_eq h1).2

theorem newListKanji_size {c : KanjiCtx} {ic : IdCtx} {kind : ListKind} {i : Nat} {name : Str} {k : KanjiRec}
    (h : newListKanji c ic kind i name = .ok k) : utf8Size k.kanji.name = some 1 := by
  unfold newListKanji at h
  split at h <;>
  · obtain ⟨_, h1, h⟩ := Res.bind_eq_ok h
    cases h
    exact makeOther_size h1

theorem origin_size {l : Loaded} {f : KanjiFiles} {k : KanjiRec} (h : Origin l f k) : utf8Size k.kanji.name = some 1 := by
  cases h with
  | jouyou _ _ _ _ h => exact jouyouFromRow_size h
  | jinmei _ _ _ _ h => exact jinmeiFromRow_size h
  | extra _ _ _ _ h => exact extraFromRow_size h
  | line _ _ _ _ _ _ _ _ _ _ h => exact makeLinked_size h
  | old _ _ _ _ _ h => exact makeLinked_size h
  | jinmeiOld _ _ _ _ _ _ _ _ h => exact makeLinked_size h
  | frequency _ _ _ _ h => exact newListKanji_size h
  | kentei _ _ _ _ _ _ _ h => exact newListKanji_size h
  | ucd _ _ _ h => exact makeOther_size h

/-- The name of every kanji that was loaded is one character. -/
theorem C170_loaded_partial (l : Loaded) (f : KanjiFiles) (d : KanjiStore) (h : loadKanji l f = .ok d) (k : KanjiRec) (hk : k ∈ d.all) :
    utf8Size k.kanji.name = some 1 := by
  obtain ⟨_, _, _, _, _, _, _, hl, _⟩ := loadKanji_spec h
  rw [hl.types.store.all_eq] at hk
  exact origin_size (hl.origin k hk)

/-! ## Rows with other names -/

/-- A row of a kanji file gives a kanji or is reported, whatever the texts of its cells are. -/
def C170_statement : Prop :=
  ∀ (c : KanjiCtx) (row : CellRow), (∀ s, c.radicalByName s ≠ .ub) →
    jouyouFromRow c row ≠ .ub ∧ jinmeiFromRow c row ≠ .ub ∧ extraFromRow c row ≠ .ub

/-- A row whose name is left empty: everything else is right. -/
def namelessRow : CellRow :=
  { number := u8!"1", name := [], radical := u8!"一", strokes := u8!"1", grade := u8!"1", reason := u8!"Names" }

theorem C170_violated : ¬ C170_statement := by
  intro h
  have h1 := h sampleLoaded.ctx namelessRow (by intro s hs; cases hs)
  exact h1.1 (by decide +kernel)

/-- The same for a name of two characters, in all files. -/
example : jouyouFromRow sampleLoaded.ctx { namelessRow with name := u8!"一二" } = .ub ∧
    jinmeiFromRow sampleLoaded.ctx { namelessRow with name := u8!"一二" } = .ub ∧
    extraFromRow sampleLoaded.ctx { namelessRow with name := u8!"one" } = .ub := by
  refine ⟨?_, ?_, ?_⟩ <;> decide +kernel

theorem Res.bind_eq_ub_iff {α β : Type} {x : Res α} {f : α → Res β} (hx : x ≠ .ub) :
    x.bind f = .ub ↔ ∃ a, x = .ok a ∧ f a = .ub := by
  cases x with
  | ok a => simp [Res.bind]
  | throw e => simp [Res.bind]
  | ub => exact absurd rfl hx

theorem Res.bind_ub_left {α β : Type} {x : Res α} {f : α → Res β} (h : x.bind f = .ub) (hf : ∀ a, f a ≠ .ub) :
    x = .ub := by
  cases x with
  | ok a => exact absurd h (hf a)
  | throw e => cases h
  | ub => rfl

theorem processU64_safe (s : Str) (max : Nat) : processU64 s max ≠ .ub := by
  unfold processU64
  split
  · intro h; cases h
  · split <;> (intro h; cases h)

theorem cellU8_safe (s : Str) : cellU8 s ≠ .ub := by
  intro h
  obtain ⟨_, _, h⟩ := (Res.bind_eq_ub_iff (processU64_safe _ _)).mp h
  cases h

theorem cellU16_safe (s : Str) : cellU16 s ≠ .ub := by
  intro h
  obtain ⟨_, _, h⟩ := (Res.bind_eq_ub_iff (processU64_safe _ _)).mp h
  cases h

theorem getYear_safe (s : Str) : getYear s ≠ .ub := by
  unfold getYear
  split
  · intro h; cases h
  · exact cellU16_safe s

theorem strokes_safe (v : UInt8) : Strokes.make v ≠ .ub := by
  unfold Strokes.make
  repeat' split
  all_goals (intro h; cases h)

theorem getGrade_safe (s : Str) : getGrade s ≠ .ub := by
  unfold getGrade gradeFromString
  split <;> (intro h; cases h)

/-- The cell of the strokes is accepted. -/
def StrokesCell (s : Str) : Prop := ∃ n v, cellU8 s = .ok n ∧ Strokes.make n = .ok v

theorem checkName_ub_iff (name : Str) : checkName name = .ub ↔ utf8Size name ≠ some 1 := by
  unfold checkName
  split <;> simp [*]

/-- A row is only neither accepted nor reported if its name isn't one character, and the cells that are read before the
name is looked at are right (for the Jinmei file: there is an entry of that name in the Unicode file). -/
theorem C170_rows_partial (c : KanjiCtx) (row : CellRow) (hc : ∀ s, c.radicalByName s ≠ .ub) :
    (jouyouFromRow c row = .ub ↔ utf8Size row.name ≠ some 1 ∧ StrokesCell row.strokes ∧
      ∃ r, c.radicalByName row.radical = .ok r) ∧
    (jinmeiFromRow c row = .ub ↔ utf8Size row.name ≠ some 1 ∧ (c.findUcd row.name).isSome ∧
      ∃ r, c.radicalByName row.radical = .ok r) ∧
    (extraFromRow c row = .ub ↔ utf8Size row.name ≠ some 1 ∧ StrokesCell row.strokes ∧
      ∃ r, c.radicalByName row.radical = .ok r) := by
  refine ⟨⟨fun h => ?_, fun h => ?_⟩, ⟨fun h => ?_, fun h => ?_⟩, ⟨fun h => ?_, fun h => ?_⟩⟩
  · unfold jouyouFromRow at h
    obtain ⟨n, h1, h⟩ := (Res.bind_eq_ub_iff (cellU8_safe _)).mp h
    obtain ⟨v, h2, h⟩ := (Res.bind_eq_ub_iff (strokes_safe _)).mp h
    obtain ⟨r, h3, h⟩ := (Res.bind_eq_ub_iff (hc _)).mp h
    refine ⟨fun hn => ?_, ⟨n, v, h1, h2⟩, r, h3⟩
    have hk : checkName row.name = .ok () := if_pos hn
    rw [hk] at h
    obtain ⟨_, _, h⟩ := (Res.bind_eq_ub_iff (by intro h; cases h)).mp h
    obtain ⟨_, _, h⟩ := (Res.bind_eq_ub_iff (cellU16_safe _)).mp h
    obtain ⟨_, _, h⟩ := (Res.bind_eq_ub_iff (getYear_safe _)).mp h
    obtain ⟨_, _, h⟩ := (Res.bind_eq_ub_iff (getGrade_safe _)).mp h
    simp [Kanji.makeJouyou, Kanji.construct, h2, h3, hk, Res.bind, withNumber] at h
  · obtain ⟨hn, ⟨n, v, h1, h2⟩, r, h3⟩ := h
    simp [jouyouFromRow, h1, h2, h3, (checkName_ub_iff _).mpr hn, Res.bind]
  · unfold jinmeiFromRow at h
    have hm := Res.bind_ub_left h (by
      intro k h
      obtain ⟨_, _, h⟩ := (Res.bind_eq_ub_iff (cellU16_safe _)).mp h
      obtain ⟨_, _, h⟩ := (Res.bind_eq_ub_iff (getYear_safe _)).mp h
      split at h <;> cases h)
    unfold Kanji.makeJinmei at hm
    obtain ⟨r, h3, hm⟩ := (Res.bind_eq_ub_iff (hc _)).mp hm
    have hm : (match c.findUcd row.name with | none => Res.throw Exc.domain | some u => Kanji.construct _) = .ub := hm
    split at hm
    · cases hm
    · rename_i u hu
      refine ⟨fun hn => ?_, by simp [hu], r, h3⟩
      have hk : checkName row.name = .ok () := if_pos hn
      simp [Kanji.construct, hk, Res.bind] at hm
  · obtain ⟨hn, h4, r, h3⟩ := h
    obtain ⟨u, h4⟩ := Option.isSome_iff_exists.mp h4
    simp [jinmeiFromRow, Kanji.makeJinmei, Kanji.construct, h3, h4, (checkName_ub_iff _).mpr hn, Res.bind]
  · unfold extraFromRow at h
    obtain ⟨n, h1, h⟩ := (Res.bind_eq_ub_iff (cellU8_safe _)).mp h
    have hm := Res.bind_ub_left h (by
      intro k h
      obtain ⟨_, _, h⟩ := (Res.bind_eq_ub_iff (cellU16_safe _)).mp h
      cases h)
    unfold Kanji.makeExtra at hm
    obtain ⟨v, h2, hm⟩ := (Res.bind_eq_ub_iff (strokes_safe _)).mp hm
    obtain ⟨r, h3, hm⟩ := (Res.bind_eq_ub_iff (hc _)).mp hm
    refine ⟨fun hn => ?_, ⟨n, v, h1, h2⟩, r, h3⟩
    have hk : checkName row.name = .ok () := if_pos hn
    simp [Kanji.construct, hk, Res.bind] at hm
  · obtain ⟨hn, ⟨n, v, h1, h2⟩, r, h3⟩ := h
    simp [extraFromRow, Kanji.makeExtra, Kanji.construct, h1, h2, h3, (checkName_ub_iff _).mpr hn, Res.bind]

/-- For a text of several characters this means: exactly one of them is neither ASCII, a variation selector nor a
combining mark of kana. -/
theorem C170_character_partial (cs : List Char) (h0 : ∀ c ∈ cs, c.toNat ≠ 0) :
    checkName (utf8Encode cs) = .ub ↔ (cs.filter (counted true)).length ≠ 1 := by
  rw [checkName_ub_iff, (C70_size cs h0 true).1]
  simp

end KT
