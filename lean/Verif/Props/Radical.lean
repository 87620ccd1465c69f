import Verif.Model.Radical
import Verif.Lemmas.ColumnFile
import Verif.Lemmas.Kana
/-!
# C47: radical lookups

Model: `Verif/Model/Radical.lean`.
-/
namespace KT

/-- What holds after any number of rows. -/
structure RadicalInv (d : RadicalData) : Prop where
  number : ∀ i r, d.radicals[i]? = some r → r.number = i + 1
  mapOk : ∀ s i, d.map.lookup s = some i → ∃ r, d.radicals[i]? = some r ∧ r.name = s
  mapAll : ∀ r ∈ d.radicals, (d.map.lookup r.name).isSome

theorem lookup_mapSet {α : Type} (m : List (Str × α)) (n s : Str) (v : α) :
    (mapSet m n v).lookup s = if s = n then some v else m.lookup s := by
  by_cases h : s = n
  · subst h; simp [mapSet]
  · have hb : (s == n) = false := by simpa using h
    rw [if_neg h, mapSet, List.lookup_cons, hb]
    show (m.filter _).lookup s = _
    induction m with
    | nil => rfl
    | cons p m ih =>
      obtain ⟨k, w⟩ := p
      by_cases hk : k = n
      · subst hk
        have : ((k, w).1 != k) = false := by simp
        rw [List.filter_cons_of_neg (by simp), ih, List.lookup_cons, hb]
      · rw [List.filter_cons_of_pos (by simpa using hk), List.lookup_cons, List.lookup_cons, ih]

theorem nextRow_true (cf cf' : ColumnFile) (h : cf.nextRow = (cf', .ok true)) :
    cf'.currentRow = cf.currentRow + 1 ∧ ∃ line, cf.lines = line :: cf'.lines := by
  unfold ColumnFile.nextRow at h
  cases hl : cf.lines with
  | nil => rw [hl] at h; cases h
  | cons line rest =>
    rw [hl] at h
    simp only at h
    repeat' split at h
    all_goals first
      | (cases h; done)
      | (cases h; exact ⟨rfl, line, rfl⟩)

theorem addRow_spec (cols : RadicalCols) (cf : ColumnFile) (d d' : RadicalData)
    (h : RadicalData.addRow cols cf d = .ok d') :
    ∃ r : Radical, r.number = cf.currentRow ∧ d'.radicals = d.radicals ++ [r] ∧
      d'.map = mapSet d.map r.name (r.number - 1) ∧
      cf.get cols.longName = .ok r.longName ∧ cf.get cols.reading = .ok r.reading ∧
      ∃ text, cf.get cols.name = .ok text ∧ (r.name, r.altForms) = radicalNames (fields 0x20 text) [] [] := by
  unfold RadicalData.addRow at h
  cases h1 : cf.getU64 cols.number 255 with
  | throw e => rw [h1] at h; cases h
  | ub => rw [h1] at h; cases h
  | ok n =>
    rw [h1, Res.bind_ok] at h
    by_cases hn : n ≠ cf.currentRow
    · rw [if_pos hn] at h; cases h
    · rw [if_neg hn] at h
      cases h2 : cf.get cols.name with
      | throw e => rw [h2] at h; cases h
      | ub => rw [h2] at h; cases h
      | ok names =>
        rw [h2, Res.bind_ok] at h
        simp only at h
        cases h3 : cf.get cols.longName with
        | throw e => rw [h3] at h; cases h
        | ub => rw [h3] at h; cases h
        | ok long =>
          rw [h3, Res.bind_ok] at h
          cases h4 : cf.get cols.reading with
          | throw e => rw [h4] at h; cases h
          | ub => rw [h4] at h; cases h
          | ok reading =>
            rw [h4, Res.bind_ok] at h
            cases h
            exact ⟨_, Classical.not_not.mp hn, rfl, rfl, rfl, rfl, _, rfl, rfl⟩

theorem addRow_inv (cols : RadicalCols) (cf : ColumnFile) (d d' : RadicalData)
    (h : RadicalData.addRow cols cf d = .ok d') (hi : RadicalInv d) (hr : cf.currentRow = d.radicals.length + 1) :
    RadicalInv d' ∧ d'.radicals.length = d.radicals.length + 1 := by
  obtain ⟨r, hn, h1, h2, _⟩ := addRow_spec cols cf d d' h
  have hlast : d'.radicals[r.number - 1]? = some r := by
    rw [h1, hn, hr]; simp
  refine ⟨⟨?_, ?_, ?_⟩, by rw [h1]; simp⟩
  · intro i x hx
    rw [h1, List.getElem?_append] at hx
    split at hx
    · exact hi.number i x hx
    · have : i = d.radicals.length := by
        have := (List.getElem?_eq_some_iff.mp hx).1
        simp at this; omega
      subst this
      simp at hx; subst hx; rw [hn, hr]
  · intro s i hs
    rw [h2, lookup_mapSet] at hs
    split at hs
    · rename_i e
      cases hs
      exact ⟨r, hlast, e.symm⟩
    · obtain ⟨x, hx, e⟩ := hi.mapOk s i hs
      refine ⟨x, ?_, e⟩
      rw [h1, List.getElem?_append_left (List.getElem?_eq_some_iff.mp hx).1]; exact hx
  · intro x hx
    rw [h2, lookup_mapSet]
    split
    · rfl
    · rename_i hne
      rw [h1, List.mem_append] at hx
      rcases hx with hx | hx
      · exact hi.mapAll x hx
      · simp at hx; subst hx; exact absurd rfl hne

theorem loadLoop_inv (cols : RadicalCols) (fuel : Nat) (cf : ColumnFile) (d d' : RadicalData)
    (hf : cf.lines.length < fuel)
    (h : RadicalData.loadLoop cols fuel cf d = .ok d') (hi : RadicalInv d) (hr : cf.currentRow = d.radicals.length) :
    RadicalInv d' ∧ d'.radicals.length = d.radicals.length + cf.lines.length := by
  induction fuel generalizing cf d with
  | zero => omega
  | succ fuel ih =>
    rw [RadicalData.loadLoop] at h
    split at h
    · rename_i cf1 hrow
      cases h
      refine ⟨hi, ?_⟩
      unfold ColumnFile.nextRow at hrow
      cases hl : cf.lines with
      | nil => rfl
      | cons line rest =>
        rw [hl] at hrow
        simp only at hrow
        repeat' split at hrow
        all_goals cases hrow
    · cases h
    · cases h
    · rename_i cf' hrow
      obtain ⟨e1, line, e2⟩ := nextRow_true cf cf' hrow
      cases ha : RadicalData.addRow cols cf' d with
      | throw e => rw [ha] at h; cases h
      | ub => rw [ha] at h; cases h
      | ok d1 =>
        rw [ha] at h
        obtain ⟨i1, l1⟩ := addRow_inv cols cf' d d1 ha hi (by omega)
        have := ih cf' d1 (by rw [e2] at hf; simp at hf; omega) h i1 (by omega)
        refine ⟨this.1, ?_⟩
        rw [this.2, e2, l1]; simp; omega

/-- There is one radical per line after the header, and the number of each is its position. -/
theorem C47_load (cols : RadicalCols) (cf : ColumnFile) (d : RadicalData) (h0 : cf.currentRow = 0)
    (h : RadicalData.load cols cf = .ok d) :
    d.radicals.length = cf.lines.length ∧ ∀ i r, d.radicals[i]? = some r → r.number = i + 1 := by
  obtain ⟨h1, h2⟩ := loadLoop_inv cols _ cf {} d (by omega) h ⟨by simp, by simp, by simp⟩ (by simpa using h0)
  exact ⟨by simpa using h2, h1.number⟩

/-- Looking up number `n` gives the radical with number `n`; every other number is rejected with a `DomainError`. -/
theorem C47_number (cols : RadicalCols) (cf : ColumnFile) (d : RadicalData) (h0 : cf.currentRow = 0)
    (h : RadicalData.load cols cf = .ok d) (n : Nat) :
    (∀ r, d.findNumber n = .ok r ↔ r ∈ d.radicals ∧ r.number = n) ∧
    ((∀ r ∈ d.radicals, r.number ≠ n) → d.findNumber n = .throw .domain) := by
  obtain ⟨h1, _⟩ := loadLoop_inv cols _ cf {} d (by omega) h ⟨by simp, by simp, by simp⟩ (by simpa using h0)
  have key : (n = 0 ∨ n > d.radicals.length) ∨ ∃ r, 0 < n ∧ d.radicals[n - 1]? = some r ∧ r.number = n := by
    by_cases hc : n = 0 ∨ n > d.radicals.length
    · exact .inl hc
    · right
      have hlt : n - 1 < d.radicals.length := by omega
      have := List.getElem?_eq_getElem hlt
      exact ⟨_, by omega, this, by rw [h1.number _ _ this]; omega⟩
  rcases key with hc | ⟨r, hn, hr, hnum⟩
  · have ht : d.findNumber n = .throw .domain := by
      unfold RadicalData.findNumber; rw [if_pos hc]; split <;> rfl
    refine ⟨fun r => ⟨fun hx => (by rw [ht] at hx; cases hx), ?_⟩, fun _ => ht⟩
    rintro ⟨hm, hnum⟩
    obtain ⟨i, hi⟩ := List.mem_iff_getElem?.mp hm
    have := h1.number i r hi
    have := (List.getElem?_eq_some_iff.mp hi).1
    omega
  · have hlt := (List.getElem?_eq_some_iff.mp hr).1
    have hok : d.findNumber n = .ok r := by
      unfold RadicalData.findNumber
      have : d.radicals.isEmpty = false := by
        cases hd : d.radicals with
        | nil => rw [hd] at hlt; simp at hlt
        | cons => rfl
      rw [this, if_neg (by simp), if_neg (by omega), hr]
    refine ⟨fun x => ⟨fun hx => ?_, ?_⟩, fun hall => absurd hnum (hall r (List.mem_of_getElem? hr))⟩
    · rw [hok] at hx; cases hx; exact ⟨List.mem_of_getElem? hr, hnum⟩
    · rintro ⟨hm, hx⟩
      obtain ⟨i, hi⟩ := List.mem_iff_getElem?.mp hm
      have := h1.number i x hi
      have : i = n - 1 := by omega
      subst this
      rw [hr] at hi; cases hi; exact hok

/-- Looking up a name gives a radical with that name; names of no radical are rejected with a `DomainError`. -/
theorem C47_name (cols : RadicalCols) (cf : ColumnFile) (d : RadicalData) (h0 : cf.currentRow = 0)
    (h : RadicalData.load cols cf = .ok d) (s : Str) :
    ((∃ r ∈ d.radicals, r.name = s) → ∃ r ∈ d.radicals, r.name = s ∧ d.findName s = .ok r) ∧
    ((∀ r ∈ d.radicals, r.name ≠ s) → d.findName s = .throw .domain) := by
  obtain ⟨h1, _⟩ := loadLoop_inv cols _ cf {} d (by omega) h ⟨by simp, by simp, by simp⟩ (by simpa using h0)
  constructor
  · rintro ⟨r, hr, rfl⟩
    have hs := h1.mapAll r hr
    obtain ⟨i, hi⟩ := Option.isSome_iff_exists.mp hs
    obtain ⟨x, hx, hn⟩ := h1.mapOk _ i hi
    refine ⟨x, List.mem_of_getElem? hx, hn, ?_⟩
    unfold RadicalData.findName
    have : d.radicals.isEmpty = false := by
      cases hd : d.radicals with
      | nil => rw [hd] at hr; simp at hr
      | cons => rfl
    rw [this, if_neg (by simp), hi]
    simp only [hx]
  · intro hall
    unfold RadicalData.findName
    split
    · rfl
    · cases hl : d.map.lookup s with
      | none => rfl
      | some i =>
        obtain ⟨x, hx, hn⟩ := h1.mapOk s i hl
        exact absurd hn (hall x (List.mem_of_getElem? hx))

/-- With different names each radical is found by its own name. -/
theorem C47_unique (cols : RadicalCols) (cf : ColumnFile) (d : RadicalData) (h0 : cf.currentRow = 0)
    (h : RadicalData.load cols cf = .ok d) (hn : (d.radicals.map (·.name)).Nodup) (r : Radical) (hr : r ∈ d.radicals) :
    d.findName r.name = .ok r := by
  obtain ⟨x, hx, e, hf⟩ := (C47_name cols cf d h0 h r.name).1 ⟨r, hr, rfl⟩
  have : x = r := by
    clear hf h
    revert hn hr hx
    generalize d.radicals = rs
    intro hn hr hx
    induction rs with
    | nil => cases hx
    | cons a l ih =>
      simp only [List.map_cons, List.nodup_cons, List.mem_map, not_exists, not_and] at hn
      rcases List.mem_cons.mp hx with h1 | h1 <;> rcases List.mem_cons.mp hr with h2 | h2
      · rw [h1, h2]
      · exact absurd (by rw [← h1, e]) (hn.1 r h2)
      · exact absurd (by rw [← h2, e]) (hn.1 x h1)
      · exact ih hn.2 h2 h1
  rw [hf, this]

example :
    let cols : RadicalCols := ⟨⟨u8!"Number", 0⟩, ⟨u8!"Name", 1⟩, ⟨u8!"LongName", 2⟩, ⟨u8!"Reading", 3⟩⟩
    let reg := [u8!"Number", u8!"Name", u8!"LongName", u8!"Reading"]
    (openColumnFile reg [u8!"Number	Name	LongName	Reading", u8!"1	一	L1	いち", u8!"2	丨 亅	L2	ぼう"]
      [cols.number, cols.name, cols.longName, cols.reading]).bind (fun cf =>
        (RadicalData.load cols cf).bind fun d => (d.findName (u8!"丨")).bind fun r => .ok (r.number, r.altForms)) =
      .ok (2, [u8!"亅"]) := by decide +kernel

end KT
