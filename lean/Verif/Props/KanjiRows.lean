import Verif.Props.TextKanjiData
import Verif.Props.ColumnFile
import Verif.Props.QuizLauncher
import Verif.Lemmas.Decimal
/-!
# C107: the cells of the rows of the kanji files

Model: `Verif/Model/TextKanjiData.lean`.
-/
namespace KT
open Spec

/-- What the cells of the column "Grade" mean. -/
def gradeCells : List (Str × KanjiGrade) :=
  [(u8!"1", .g1), (u8!"2", .g2), (u8!"3", .g3), (u8!"4", .g4), (u8!"5", .g5), (u8!"6", .g6), (u8!"S", .s)]

/-- The year of a cell, 0 if it is empty. -/
def yearCell (s : Str) : Option Nat := if s = [] then some 0 else readNumber 10 s

theorem processU64_number {s : Str} {n : Nat} (max : Nat) (hm : max ≠ 0) (hm' : max < 2 ^ 64)
    (h : readNumber 10 s = some n) : processU64 s max = if n ≤ max then .ok n else .throw .domain := by
  have := C22_partial [] [] s [] max n (by simp) (Or.inl rfl) h (by simp)
  simp only [List.nil_append, List.append_nil] at this
  rw [this]
  have e : (([] : Str) = u8!"-") = False := by simp
  simp only [e, if_false]
  by_cases hn : n ≤ max
  · rw [if_pos ⟨by omega, Or.inr hn⟩, if_pos hn]
  · rw [if_neg (by omega), if_neg hn]

theorem cellU16_number {s : Str} {n : Nat} (h : readNumber 10 s = some n) :
    cellU16 s = if n < 65536 then .ok (UInt16.ofNat n) else .throw .domain := by
  unfold cellU16
  rw [processU64_number 65535 (by decide) (by decide) h]
  by_cases hn : n < 65536
  · rw [if_pos (by omega), if_pos hn]; rfl
  · rw [if_neg (by omega), if_neg hn]; rfl

theorem cellU8_number {s : Str} {n : Nat} (h : readNumber 10 s = some n) :
    cellU8 s = if n < 256 then .ok (UInt8.ofNat n) else .throw .domain := by
  unfold cellU8
  rw [processU64_number 255 (by decide) (by decide) h]
  by_cases hn : n < 256
  · rw [if_pos (by omega), if_pos hn]; rfl
  · rw [if_neg (by omega), if_neg hn]; rfl

theorem getYear_number {s : Str} {y : Nat} (h : yearCell s = some y) :
    getYear s = if y < 65536 then .ok (UInt16.ofNat y) else .throw .domain := by
  unfold yearCell at h
  unfold getYear
  by_cases hs : s = []
  · rw [if_pos hs] at h; cases h; subst hs; rfl
  · rw [if_neg hs] at h
    rw [if_neg (by simpa using hs), cellU16_number h]

/-- Just these cells are grades. -/
theorem getGrade_cell (s : Str) :
    getGrade s = match gradeCells.lookup s with
      | some g => .ok g
      | none => .throw .domain := by
  unfold getGrade
  match s with
  | [] => decide
  | [b] =>
    have : ∀ n : Nat, n < 256 → gradeFromString (if (u8!"S").isPrefixOf [UInt8.ofNat n] then [UInt8.ofNat n]
        else u8!"G" ++ [UInt8.ofNat n]) = match gradeCells.lookup [UInt8.ofNat n] with
      | some g => .ok g
      | none => .throw .domain := by decide +kernel
    have hb := this b.toNat (UInt8.toNat_lt b)
    rwa [UInt8.ofNat_toNat] at hb
  | a :: b :: r =>
    have h1 : gradeCells.lookup (a :: b :: r) = none := by
      simp [gradeCells, List.lookup, show ∀ x : UInt8, ((a :: b :: r : Str) == [x]) = false by intro x; simp]
    rw [h1]
    have h2 : ∀ t : Str, (t = a :: b :: r ∧ a = 0x53 ∨ t = 0x47 :: a :: b :: r) →
        gradeValues.find? (·.toString == t) = none := by
      intro t ht
      rw [List.find?_eq_none]
      intro g _
      rcases ht with ⟨rfl, rfl⟩ | rfl
      · cases g <;> simp [KanjiGrade.toString]
      · cases g <;> simp [KanjiGrade.toString]
    unfold gradeFromString
    by_cases hp : (u8!"S").isPrefixOf (a :: b :: r) = true
    · rw [if_pos hp, h2 _ (Or.inl ⟨rfl, by simp [List.isPrefixOf] at hp; exact hp.symm⟩)]
    · rw [if_neg hp, show u8!"G" ++ (a :: b :: r) = 0x47 :: a :: b :: r from rfl, h2 _ (Or.inr rfl)]

theorem strokes_make {s : Nat} (h : s < 256) :
    Strokes.make (UInt8.ofNat s) = if 1 ≤ s ∧ s ≤ 64 then .ok ⟨UInt8.ofNat s, 0⟩ else .throw .range := by
  have : ∀ n : Nat, n < 256 → Strokes.make (UInt8.ofNat n) =
      if 1 ≤ n ∧ n ≤ 64 then .ok ⟨UInt8.ofNat n, 0⟩ else .throw .range := by decide +kernel
  exact this s h

theorem checkName_ok {name : Str} (h : utf8Size name = some 1) : checkName name = .ok () := if_pos h

theorem checkName_ub {name : Str} (h : utf8Size name ≠ some 1) : checkName name = .ub := if_neg h

/-- A row of the Jouyou file with numbers in its number columns is accepted exactly if the numbers are in
range, the grade is one of 1 to 6 and S, there is a radical of that name and the name is one character (see C170); then
the kanji has these values. -/
theorem C107_jouyou (c : KanjiCtx) (row : CellRow) (n s y : Nat) (hn : readNumber 10 row.number = some n)
    (hs : readNumber 10 row.strokes = some s) (hy : yearCell row.year = some y) :
    ((∃ r, jouyouFromRow c row = .ok r) ↔ n < 65536 ∧ 1 ≤ s ∧ s ≤ 64 ∧ y < 65536 ∧
      (∃ g, gradeCells.lookup row.grade = some g) ∧ (∃ r, c.radicalByName row.radical = .ok r) ∧
      utf8Size row.name = some 1) ∧
    ∀ k i, jouyouFromRow c row = .ok (k, i) → i.number.toNat = n ∧ i.year.toNat = y ∧ i.reason = none ∧
      k.strokes.value.toNat = s ∧ k.strokes.variant = 0 ∧ k.grade = gradeCells.lookup row.grade ∧
      c.radicalByName row.radical = .ok (k.radicalName, k.radicalNumber) := by
  unfold jouyouFromRow
  rw [cellU16_number hn, cellU8_number hs, getYear_number hy, getGrade_cell]
  by_cases h1 : s < 256
  · rw [if_pos h1]
    simp only [Res.bind, strokes_make h1]
    by_cases h2 : 1 ≤ s ∧ s ≤ 64
    · simp only [if_pos h2]
      cases h3 : c.radicalByName row.radical with
      | throw e => simp
      | ub => simp
      | ok r =>
        simp only
        by_cases hc : utf8Size row.name = some 1
        case neg => rw [checkName_ub hc]; simp [hc]
        rw [checkName_ok hc]
        simp only
        by_cases h4 : n < 65536
        · simp only [if_pos h4]
          by_cases h5 : y < 65536
          · simp only [if_pos h5]
            cases h6 : gradeCells.lookup row.grade with
            | none => simp
            | some g =>
              simp only [Kanji.makeJouyou, Kanji.construct, checkName_ok hc, strokes_make h1, if_pos h2, Res.bind, h3]
              refine ⟨⟨fun _ => ⟨h4, h2.1, h2.2, h5, ⟨g, rfl⟩, ⟨r, rfl⟩, hc⟩, fun _ => ⟨_, rfl⟩⟩, ?_⟩
              intro k i hk
              cases hk
              refine ⟨?_, ?_, rfl, ?_, rfl, rfl, rfl⟩
              · simp; omega
              · simp; omega
              · simp; omega
          · simp [h5]
        · simp [h4]
    · simp only [if_neg h2]
      refine ⟨⟨fun ⟨r, h⟩ => (by cases h), fun h => absurd ⟨h.2.1, h.2.2.1⟩ h2⟩, fun k i h => (by cases h)⟩
  · rw [if_neg h1]
    refine ⟨⟨fun ⟨r, h⟩ => (by cases h), fun h => absurd h.2.2.1 (by omega)⟩, fun k i h => (by cases h)⟩

/-- Likewise for the Jinmei file; there the strokes are those of the Unicode entry. -/
theorem C107_jinmei (c : KanjiCtx) (row : CellRow) (n y : Nat) (hn : readNumber 10 row.number = some n)
    (hy : yearCell row.year = some y) :
    ((∃ r, jinmeiFromRow c row = .ok r) ↔ n < 65536 ∧ y < 65536 ∧
      row.reason ∈ [u8!"Names", u8!"Print", u8!"Variant", u8!"Moved", u8!"Simple", u8!"Other"] ∧
      (∃ r, c.radicalByName row.radical = .ok r) ∧ (c.findUcd row.name).isSome ∧ utf8Size row.name = some 1) ∧
    ∀ k i, jinmeiFromRow c row = .ok (k, i) → i.number.toNat = n ∧ i.year.toNat = y ∧ i.reason = some row.reason ∧
      k.grade = none ∧ c.radicalByName row.radical = .ok (k.radicalName, k.radicalNumber) ∧
      ∀ u, c.findUcd row.name = some u → k.strokes = u.strokes := by
  unfold jinmeiFromRow Kanji.makeJinmei
  rw [cellU16_number hn, getYear_number hy]
  cases h3 : c.radicalByName row.radical with
  | throw e => simp [Res.bind]
  | ub => simp [Res.bind]
  | ok r =>
    cases h4 : c.findUcd row.name with
    | none => simp [Res.bind, h4]
    | some u =>
      simp only [Res.bind, h4]
      by_cases hc : utf8Size row.name = some 1
      case neg => simp [Kanji.construct, checkName_ub hc, Res.bind, hc]
      simp only [Kanji.construct, checkName_ok hc, Res.bind]
      by_cases h5 : n < 65536
      · simp only [if_pos h5]
        by_cases h6 : y < 65536
        · simp only [if_pos h6]
          by_cases h7 : row.reason ∈ allReasons
          · have h7' : allReasons.contains row.reason = true := by simpa using h7
            simp only [h7', if_true]
            refine ⟨⟨fun _ => ⟨h5, h6, h7, ⟨r, rfl⟩, rfl, hc⟩, fun _ => ⟨_, rfl⟩⟩, ?_⟩
            intro k i hk
            cases hk
            refine ⟨by simp; omega, by simp; omega, rfl, rfl, rfl, ?_⟩
            intro v hv; cases hv; rfl
          · have h7' : allReasons.contains row.reason = false := by simpa using h7
            simp only [h7', Bool.false_eq_true, if_false]
            refine ⟨⟨fun ⟨r, h⟩ => (by cases h), fun h => absurd h.2.2.1 h7⟩, fun k i h => (by cases h)⟩
        · simp [h6]
      · simp [h5]

/-- Likewise for the Extra file, which has neither year nor grade. -/
theorem C107_extra (c : KanjiCtx) (row : CellRow) (n s : Nat) (hn : readNumber 10 row.number = some n)
    (hs : readNumber 10 row.strokes = some s) :
    ((∃ r, extraFromRow c row = .ok r) ↔ n < 65536 ∧ 1 ≤ s ∧ s ≤ 64 ∧ (∃ r, c.radicalByName row.radical = .ok r) ∧
      utf8Size row.name = some 1) ∧
    ∀ k i, extraFromRow c row = .ok (k, i) → i.number.toNat = n ∧ i.year = 0 ∧ i.reason = none ∧
      k.strokes.value.toNat = s ∧ k.strokes.variant = 0 ∧ k.grade = none ∧
      c.radicalByName row.radical = .ok (k.radicalName, k.radicalNumber) := by
  unfold extraFromRow Kanji.makeExtra
  rw [cellU16_number hn, cellU8_number hs]
  by_cases h1 : s < 256
  · rw [if_pos h1]
    simp only [Res.bind, strokes_make h1]
    by_cases h2 : 1 ≤ s ∧ s ≤ 64
    · simp only [if_pos h2]
      cases h3 : c.radicalByName row.radical with
      | throw e => simp
      | ub => simp
      | ok r =>
        simp only
        by_cases hc : utf8Size row.name = some 1
        case neg => simp [Kanji.construct, checkName_ub hc, Res.bind, hc]
        simp only [Kanji.construct, checkName_ok hc, Res.bind]
        by_cases h4 : n < 65536
        · simp only [if_pos h4]
          refine ⟨⟨fun _ => ⟨h4, h2.1, h2.2, ⟨r, rfl⟩, hc⟩, fun _ => ⟨_, rfl⟩⟩, ?_⟩
          intro k i hk
          cases hk
          refine ⟨by simp; omega, rfl, rfl, by simp; omega, rfl, rfl, rfl⟩
        · simp [h4]
    · simp only [if_neg h2]
      refine ⟨⟨fun ⟨r, h⟩ => (by cases h), fun h => absurd ⟨h.2.1, h.2.2.1⟩ h2⟩, fun k i h => (by cases h)⟩
  · rw [if_neg h1]
    refine ⟨⟨fun ⟨r, h⟩ => (by cases h), fun h => absurd h.2.2.1 (by omega)⟩, fun k i h => (by cases h)⟩

/-- The text shown for such a kanji is made of the cells: '#' and the number, the year if there is one, and
the reason in brackets. -/
theorem C107_text (c : KanjiCtx) (row : CellRow) (n y : Nat) (hn : row.number = toDec n)
    (hy : row.year = [] ∧ y = 0 ∨ row.year = toDec y ∧ y ≠ 0) (k : Kanji) (i : NumberedInfo) :
    (∀ s, readNumber 10 row.strokes = some s → jouyouFromRow c row = .ok (k, i) →
      i.extraTypeInfo = u8!"#" ++ row.number ++ (if row.year = [] then [] else u8!" " ++ row.year)) ∧
    (jinmeiFromRow c row = .ok (k, i) → i.extraTypeInfo = u8!"#" ++ row.number ++
      (if row.year = [] then [] else u8!" " ++ row.year) ++ u8!" [" ++ row.reason ++ u8!"]") ∧
    (∀ s, readNumber 10 row.strokes = some s → extraFromRow c row = .ok (k, i) →
      i.extraTypeInfo = u8!"#" ++ row.number) := by
  have hdec : ∀ n, readNumber 10 (toDec n) = some n := by
    intro n
    rw [readNumber_digits _ (toDec_digits n) (toDec_ne_nil n), toDec_value]
  have hn' : readNumber 10 row.number = some n := by rw [hn, hdec]
  have hy' : yearCell row.year = some y := by
    rcases hy with ⟨h, rfl⟩ | ⟨h, _⟩
    · rw [h]; rfl
    · rw [h, yearCell, if_neg (toDec_ne_nil y), hdec]
  have hyear : ∀ (i : NumberedInfo) (x : Str), i.year.toNat = y →
      (if i.year ≠ 0 then x ++ u8!" " ++ toDec i.year.toNat else x) =
        x ++ (if row.year = [] then [] else u8!" " ++ row.year) := by
    intro i x hi
    rcases hy with ⟨h, rfl⟩ | ⟨h, h0⟩
    · have : i.year = 0 := UInt16.toNat_inj.mp hi
      simp [this, h]
    · have : i.year ≠ 0 := by rintro e; rw [e] at hi; exact h0 hi.symm
      rw [if_pos this, hi, h, if_neg (toDec_ne_nil y)]
      simp
  refine ⟨fun s hs h => ?_, fun h => ?_, fun s hs h => ?_⟩
  · obtain ⟨h1, h2, h3, _⟩ := (C107_jouyou c row n s y hn' hs hy').2 k i h
    unfold NumberedInfo.extraTypeInfo
    simp only [h3, h1, ← hn]
    exact hyear i _ h2
  · obtain ⟨h1, h2, h3, _⟩ := (C107_jinmei c row n y hn' hy').2 k i h
    unfold NumberedInfo.extraTypeInfo
    simp only [h3, h1, ← hn]
    rw [hyear i _ h2]
  · obtain ⟨h1, h2, h3, _⟩ := (C107_extra c row n s hn' hs).2 k i h
    unfold NumberedInfo.extraTypeInfo
    simp [h3, h1, ← hn, h2]

/-- The readings of frequency kanji are the rows of the file, which must have different names. -/
theorem C107_readings (rows m : List (Str × Str)) :
    (loadFrequencyReadings rows [] = .ok m ↔ m = rows ∧ (rows.map (·.1)).Nodup) := by
  have gen : ∀ (rows acc m : List (Str × Str)), (acc.map (·.1)).Nodup →
      (loadFrequencyReadings rows acc = .ok m ↔ m = acc ++ rows ∧ ((acc ++ rows).map (·.1)).Nodup) := by
    intro rows
    induction rows with
    | nil => intro acc m h; simp [loadFrequencyReadings, h, eq_comm]
    | cons r rows ih =>
      intro acc m h
      obtain ⟨name, reading⟩ := r
      unfold loadFrequencyReadings mapEmplace
      by_cases hl : name ∈ acc.map (·.1)
      · have : (acc.lookup name).isSome := by
          rw [List.lookup_isSome_iff]
          obtain ⟨p, hp, e⟩ := List.mem_map.mp hl
          exact ⟨p, hp, by simp [e]⟩
        rw [if_pos this]
        simp only
        constructor
        · intro h; cases h
        · rintro ⟨_, h2⟩
          rw [List.map_append, List.nodup_append] at h2
          exact absurd rfl (h2.2.2 name hl name (by simp))
      · have : ¬ (acc.lookup name).isSome := by
          rw [List.lookup_isSome_iff]
          rintro ⟨p, hp, e⟩
          exact hl (List.mem_map.mpr ⟨p, hp, (by simp at e; exact e.symm)⟩)
        rw [if_neg this]
        simp only
        rw [ih _ _ (by
          rw [List.map_append, List.nodup_append]
          refine ⟨h, by simp, ?_⟩
          intro a ha b hb; simp at hb; subst hb
          rintro rfl; exact hl ha)]
        simp
  simpa using gen rows [] m (by simp)

example :
    let row : CellRow := ⟨u8!"12", u8!"亜", u8!"一", [], u8!"2010", u8!"7", u8!"S", [], u8!"ア", u8!"sub-"⟩
    (jouyouFromRow sampleLoaded.ctx row).bind (fun r => .ok (r.1.extra, r.1.grade, r.1.reading, r.1.meaning)) =
      .ok (some (u8!"#12 2010"), some .s, u8!"ア", u8!"sub-") := by decide +kernel

end KT
