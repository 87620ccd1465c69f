import Verif.Lemmas.UcdMarks
/-! What the arrays of scripts/parseUcdAllFlat.sh have for a code. -/
namespace KT
open Spec

/-- The attributes `populateArrays` uses. -/
def populateFields : List UcdField := [.cp, .rsUnicode, .jSource, .joyo, .jinmei, .morohashi, .definition, .on, .kun]

theorem evalRecord_entry (unset : List UcdField) (x : UcdXml) (e : UcdEntry) (h : Records x e) (vars : UcdVars)
    (f : UcdField) (hf : f ∈ unset ∨ f ∈ requiredFields) : evalRecord unset x vars f = e.text f := by
  unfold evalRecord
  have h1 := h.1 f
  cases hx : x f with
  | some s => rw [hx] at h1; exact h1
  | none =>
    rw [hx] at h1
    rcases hf with hf | hf
    · simpa [hf] using h1
    · exact absurd hx (h.2 f hf)

theorem populate_fields (x : UcdXml) (e : UcdEntry) (h : Records x e) (vars : UcdVars) (f : UcdField)
    (hf : f ∈ populateFields) : evalRecord populateUnset x vars f = e.text f := by
  apply evalRecord_entry _ _ _ h
  revert hf
  cases f <;> decide

theorem lastEntry_cons (e : UcdEntry) (es : List UcdEntry) (p : UcdEntry → Bool) :
    lastEntry (e :: es) p = match lastEntry es p with
      | some d => some d
      | none => if e.kept = true ∧ p e = true then some e else none := by
  unfold lastEntry
  rw [List.filter_cons]
  by_cases hk : e.kept = true
  · rw [if_pos hk, List.reverse_cons, List.find?_append]
    cases ((es.filter UcdEntry.kept).reverse.find? p) with
    | some d => rfl
    | none =>
      by_cases hp : p e = true
      · simp [hk, hp]
      · simp [hk, hp]
  · rw [if_neg hk]
    cases ((es.filter UcdEntry.kept).reverse.find? p) with
    | some d => rfl
    | none => simp [hk]

/-- The last record that sets an element determines it. -/
theorem populate_last (proj : ScriptArrays → Str → Str) (c : Str) (p : UcdEntry → Bool) (g : UcdEntry → Str)
    (step : ∀ a v e, e.Fits → (∀ f ∈ populateFields, v f = e.text f) →
      proj (a.add v) c = if p e = true then g e else proj a c)
    (xs : List UcdXml) (es : List UcdEntry) (h : AllRecords xs es) (vars : UcdVars) (a : ScriptArrays) :
    proj (populateArrays xs vars a).1 c = match lastEntry es p with | some e => g e | none => proj a c := by
  induction xs generalizing es vars a with
  | nil =>
    cases es with
    | nil => rfl
    | cons => exact h.elim
  | cons x xs ih =>
    cases es with
    | nil => exact h.elim
    | cons e es =>
      obtain ⟨⟨hx, he⟩, ht⟩ := h
      have hf := populate_fields x e hx vars
      rw [populateArrays]
      rw [ih es ht, lastEntry_cons]
      cases lastEntry es p with
      | some d => rfl
      | none =>
        dsimp only
        rw [hf .rsUnicode (by decide), keepsRecord_entry]
        by_cases hk : e.kept = true
        · rw [if_pos hk, step _ _ e he hf]
          by_cases hp : p e = true
          · rw [if_pos hp, if_pos ⟨hk, hp⟩]
          · rw [if_neg hp, if_neg (fun h => hp h.2)]
        · rw [if_neg hk, if_neg (fun h => hk h.1)]

/-! ### One record -/

theorem addReadings_get (v : UcdVars) (cs : List Str) (a : ScriptArrays) (hcs : ∀ d ∈ cs, d ≠ []) (c : Str) :
    (a.addReadings v cs).on c = (if c ∈ cs then v .on else a.on c) ∧
    (a.addReadings v cs).kun c = (if c ∈ cs then v .kun else a.kun c) ∧
    (a.addReadings v cs).definition c = (if c ∈ cs then v .definition else a.definition c) ∧
    (a.addReadings v cs).morohashi = a.morohashi ∧ (a.addReadings v cs).jSource = a.jSource ∧
    (a.addReadings v cs).linkBack = a.linkBack := by
  induction cs generalizing a with
  | nil => exact ⟨rfl, rfl, rfl, rfl, rfl, rfl⟩
  | cons d cs ih =>
    have hd := hcs d (by simp)
    rw [ScriptArrays.addReadings]
    obtain ⟨i1, i2, i3, i4, i5, i6⟩ := ih { a with
      definition := arraySet a.definition d (v .definition), on := arraySet a.on d (v .on)
      kun := arraySet a.kun d (v .kun) } (fun x hx => hcs x (by simp [hx]))
    refine ⟨?_, ?_, ?_, i4, i5, i6⟩
    · rw [i1]
      dsimp only
      rw [arraySet_get]
      by_cases h1 : c ∈ cs
      · simp [h1]
      · by_cases h2 : c = d <;> simp [h1, h2, hd]
    · rw [i2]
      dsimp only
      rw [arraySet_get]
      by_cases h1 : c ∈ cs
      · simp [h1]
      · by_cases h2 : c = d <;> simp [h1, h2, hd]
    · rw [i3]
      dsimp only
      rw [arraySet_get]
      by_cases h1 : c ∈ cs
      · simp [h1]
      · by_cases h2 : c = d <;> simp [h1, h2, hd]

theorem readingFor_ne_nil (e : UcdEntry) (h : e.Fits) : ∀ d ∈ e.readingFor, d ≠ [] := by
  intro d hd
  unfold UcdEntry.readingFor at hd
  rcases List.mem_cons.mp hd with rfl | hd
  · exact h.cp.1
  · cases hj : e.joyo with
    | some j =>
      rw [hj] at hd
      cases j with
      | listed y => simp at hd
      | replaced c => simp at hd; subst hd; exact (h.joyo d hj).1
    | none =>
      rw [hj] at hd
      cases hm : e.jinmei with
      | none => rw [hm] at hd; simp at hd
      | some m =>
        rw [hm] at hd
        obtain ⟨y, l⟩ := m
        cases l with
        | none => simp at hd
        | some c => simp at hd; subst hd; exact (h.jinmei y d hm).1

theorem append_ne_nil_iff (a b : Str) : a ++ b ≠ [] ↔ (a != [] || b != []) = true := by
  cases a <;> cases b <;> simp

/-- What a record changes. -/
theorem add_entry (a : ScriptArrays) (v : UcdVars) (e : UcdEntry) (h : e.Fits)
    (hv : ∀ f ∈ populateFields, v f = e.text f) (c : Str) :
    (a.add v).on c = (if ((e.on != [] || e.kun != []) && e.readingFor.contains c) = true then e.on else a.on c) ∧
    (a.add v).kun c = (if ((e.on != [] || e.kun != []) && e.readingFor.contains c) = true then e.kun else a.kun c) ∧
    (a.add v).definition c = (if ((e.on != [] || e.kun != []) && e.readingFor.contains c) = true then e.definition
      else a.definition c) ∧
    (a.add v).morohashi c = (if (e.cp == c && !e.morohashi.isEmpty) = true then
      (e.morohashi.head?.map MorohashiRef.plain).getD [] else a.morohashi c) ∧
    (a.add v).jSource c = (if (e.cp == c && e.jSource != []) = true then e.jSource else a.jSource c) ∧
    (a.add v).linkBack c = (if (e.joyo.isNone && match e.jinmei with | some (_, some d) => d == c | _ => false) = true
      then e.cp else a.linkBack c) := by
  have v1 : v .cp = e.cp := hv _ (by decide)
  have v2 : v .morohashi = e.text .morohashi := hv _ (by decide)
  have v3 : v .jSource = e.jSource := hv _ (by decide)
  have v4 : v .joyo = e.text .joyo := hv _ (by decide)
  have v5 : v .jinmei = e.text .jinmei := hv _ (by decide)
  have v6 : v .definition = e.definition := hv _ (by decide)
  have v7 : v .on = e.on := hv _ (by decide)
  have v8 : v .kun = e.kun := hv _ (by decide)
  have hm : scriptMorohashi (v .morohashi) = (e.morohashi.head?.map MorohashiRef.plain).getD [] := by
    rw [v2]; exact scriptMorohashi_refs e.morohashi h.morohashi
  have hcond : (v .morohashi ≠ [] ∧ scriptMorohashi (v .morohashi) ≠ []) ↔ e.morohashi.isEmpty = false := by
    rw [hm, v2]
    cases hs : e.morohashi with
    | nil => simp [UcdEntry.text, hs]
    | cons r rs =>
      have hr := h.morohashi r (by simp [hs])
      obtain ⟨t, ht, -, -⟩ := spaced_cons r.text (rs.map MorohashiRef.text)
      simp [UcdEntry.text, hs, ht, plain_ne_nil r hr, (morohashi_word r hr).1]
  obtain ⟨j1, -⟩ := joyo_marks e
  obtain ⟨-, m2, m3⟩ := jinmei_marks e
  have hlink : (v .joyo = [] ∧ (v .jinmei).contains 0x55 = true) ↔
      e.joyo = none ∧ ∃ y d, e.jinmei = some (y, some d) := by
    rw [v4, v5, m2]
    have : e.text .joyo = [] ↔ e.joyo = none := by
      constructor
      · intro he; exact Classical.not_not.mp fun hn => j1.mpr hn he
      · intro he; exact Classical.not_not.mp fun hn => j1.mp hn he
    rw [this]
  -- the record before the readings
  have key : ∃ b : ScriptArrays, a.add v = (if v .on ++ v .kun ≠ [] then b.addReadings v (readingCodes v) else b) ∧
      b.on = a.on ∧ b.kun = a.kun ∧ b.definition = a.definition ∧
      b.morohashi = (if v .morohashi ≠ [] ∧ scriptMorohashi (v .morohashi) ≠ [] then
        arraySet a.morohashi (v .cp) (scriptMorohashi (v .morohashi)) else a.morohashi) ∧
      b.jSource = (if v .jSource ≠ [] then arraySet a.jSource (v .cp) (v .jSource) else a.jSource) ∧
      b.linkBack = (if v .joyo = [] ∧ (v .jinmei).contains 0x55 = true then
        arraySet a.linkBack (afterFirst 0x2b (v .jinmei)) (v .cp) else a.linkBack) := by
    refine ⟨_, rfl, ?_⟩
    by_cases c1 : v .morohashi ≠ [] ∧ scriptMorohashi (v .morohashi) ≠ [] <;> by_cases c2 : v .jSource ≠ [] <;>
      by_cases c3 : v .joyo = [] ∧ (v .jinmei).contains 0x55 = true <;> simp only [c1, c2, c3, if_true, if_false,
        and_self, ne_eq, not_false_eq_true]
  obtain ⟨b, hb, b1, b2, b3, b4, b5, b6⟩ := key
  have hne := readingFor_ne_nil e h
  have hr := readingCodes_entry e h v v1 v4 v5
  obtain ⟨r1, r2, r3, r4, r5, r6⟩ := addReadings_get v e.readingFor b hne c
  have hon : (v .on ++ v .kun ≠ []) ↔ (e.on != [] || e.kun != []) = true := by rw [v7, v8]; exact append_ne_nil_iff _ _
  have m4 : b.morohashi c = (if (e.cp == c && !e.morohashi.isEmpty) = true then
      (e.morohashi.head?.map MorohashiRef.plain).getD [] else a.morohashi c) := by
    rw [b4]
    by_cases hcd : v .morohashi ≠ [] ∧ scriptMorohashi (v .morohashi) ≠ []
    · rw [if_pos hcd, arraySet_get, v1, hm]
      have he := hcond.mp hcd
      by_cases hcc : c = e.cp
      · rw [if_pos ⟨h.cp.1, hcc⟩, if_pos (by simp [he, hcc])]
      · rw [if_neg (fun x => hcc x.2), if_neg (by simp [he]; exact fun x => hcc x.symm)]
    · rw [if_neg hcd]
      have he : ¬ e.morohashi.isEmpty = false := fun x => hcd (hcond.mpr x)
      rw [if_neg (by simp at he ⊢; intro _; exact he)]
  have m5 : b.jSource c = (if (e.cp == c && e.jSource != []) = true then e.jSource else a.jSource c) := by
    rw [b5, v3, v1]
    by_cases hcd : e.jSource ≠ []
    · rw [if_pos hcd, arraySet_get]
      by_cases hcc : c = e.cp
      · rw [if_pos ⟨h.cp.1, hcc⟩, if_pos (by simp [hcd, hcc])]
      · rw [if_neg (fun x => hcc x.2), if_neg (by simp [hcd]; exact fun x => hcc x.symm)]
    · rw [if_neg hcd, if_neg (by simp at hcd; simp [hcd])]
  have m6 : b.linkBack c = (if (e.joyo.isNone && match e.jinmei with | some (_, some d) => d == c | _ => false) = true
      then e.cp else a.linkBack c) := by
    rw [b6]
    by_cases hcd : v .joyo = [] ∧ (v .jinmei).contains 0x55 = true
    · rw [if_pos hcd, arraySet_get, v1, v5]
      obtain ⟨g1, y, d, g2⟩ := hlink.mp hcd
      rw [m3 y d g2, g1, g2]
      have hd := (h.jinmei y d g2).1
      by_cases hcc : c = d
      · rw [if_pos ⟨hd, hcc⟩, if_pos (by simp [hcc])]
      · rw [if_neg (fun x => hcc x.2), if_neg (by simp; exact fun x => hcc x.symm)]
    · rw [if_neg hcd, if_neg]
      intro hx
      apply hcd
      rw [hlink]
      rw [Bool.and_eq_true] at hx
      refine ⟨by simpa using hx.1, ?_⟩
      cases hj : e.jinmei with
      | none => rw [hj] at hx; simp at hx
      | some m =>
        obtain ⟨y, l⟩ := m
        cases l with
        | none => rw [hj] at hx; simp at hx
        | some d => exact ⟨y, d, rfl⟩
  rw [hb, hr]
  by_cases ho : v .on ++ v .kun ≠ []
  · have ho' := hon.mp ho
    rw [if_pos ho, r1, r2, r3, r4, r5, r6, b1, b2, b3, m4, m5, m6, v6, v7, v8, ho', Bool.true_and]
    simp only [List.contains_iff_mem, and_self]
  · have ho' : (e.on != [] || e.kun != []) = false := by
      cases hx : (e.on != [] || e.kun != [])
      · rfl
      · exact absurd (hon.mpr hx) ho
    rw [if_neg ho, b1, b2, b3, m4, m5, m6, ho', Bool.false_and]
    simp only [Bool.false_eq_true, if_false, and_self]

/-! ### All records -/

section arrays
variable (xs : List UcdXml) (es : List UcdEntry) (found : List (Str × List Str))

theorem scriptArrays_readings (h : AllRecords xs es) (c : Str) :
    ((scriptArrays xs found).definition c, (scriptArrays xs found).on c, (scriptArrays xs found).kun c) =
      readingsOf es c := by
  obtain ⟨o1, o2, o3, -⟩ := addLinks_other found (populateArrays xs (fun _ => []) {}).1
  unfold scriptArrays
  rw [o1, o2, o3]
  have p1 := populate_last ScriptArrays.on c _ UcdEntry.on (fun a v e he hv => (add_entry a v e he hv c).1) xs es h
    (fun _ => []) {}
  have p2 := populate_last ScriptArrays.kun c _ UcdEntry.kun (fun a v e he hv => (add_entry a v e he hv c).2.1) xs es h
    (fun _ => []) {}
  have p3 := populate_last ScriptArrays.definition c _ UcdEntry.definition
    (fun a v e he hv => (add_entry a v e he hv c).2.2.1) xs es h (fun _ => []) {}
  rw [p1, p2, p3]
  unfold readingsOf readingOf
  cases lastEntry es _ <;> rfl

theorem scriptArrays_morohashi (h : AllRecords xs es) (c : Str) :
    (scriptArrays xs found).morohashi c = morohashiOf es c := by
  obtain ⟨-, -, -, o4, -⟩ := addLinks_other found (populateArrays xs (fun _ => []) {}).1
  unfold scriptArrays
  rw [o4]
  have p := populate_last ScriptArrays.morohashi c _ (fun e => (e.morohashi.head?.map MorohashiRef.plain).getD [])
    (fun a v e he hv => (add_entry a v e he hv c).2.2.2.1) xs es h (fun _ => []) {}
  rw [p]
  rfl

theorem scriptArrays_jSource (h : AllRecords xs es) (c : Str) :
    (scriptArrays xs found).jSource c = jSourceOf es c := by
  obtain ⟨-, -, -, -, o5, -⟩ := addLinks_other found (populateArrays xs (fun _ => []) {}).1
  unfold scriptArrays
  rw [o5]
  have p := populate_last ScriptArrays.jSource c _ UcdEntry.jSource
    (fun a v e he hv => (add_entry a v e he hv c).2.2.2.2.1) xs es h (fun _ => []) {}
  rw [p]
  rfl

theorem scriptArrays_linkBack (h : AllRecords xs es) (c : Str) :
    (scriptArrays xs found).linkBack c = match linkedFrom es c with | some d => d.cp | none => [] := by
  obtain ⟨-, -, -, -, -, o6⟩ := addLinks_other found (populateArrays xs (fun _ => []) {}).1
  unfold scriptArrays
  rw [o6]
  have p := populate_last ScriptArrays.linkBack c _ UcdEntry.cp
    (fun a v e he hv => (add_entry a v e he hv c).2.2.2.2.2) xs es h (fun _ => []) {}
  rw [p]
  rfl

theorem lastEntry_some {es : List UcdEntry} {p : UcdEntry → Bool} {e : UcdEntry} (h : lastEntry es p = some e) :
    e ∈ es ∧ e.kept = true ∧ p e = true := by
  unfold lastEntry at h
  have h1 := List.mem_of_find?_eq_some h
  have h2 := List.find?_some h
  rw [List.mem_reverse, List.mem_filter] at h1
  exact ⟨h1.1, h1.2, h2⟩

theorem readingsOf_empty (c : Str) : (readingsOf es c).2.1 ++ (readingsOf es c).2.2 = [] ↔ readingOf es c = none := by
  unfold readingsOf
  cases hr : readingOf es c with
  | none => simp
  | some e =>
    have := (lastEntry_some hr).2.2
    rw [Bool.and_eq_true] at this
    have h2 := (append_ne_nil_iff e.on e.kun).mpr this.1
    simp only [reduceCtorEq, iff_false]
    exact h2

theorem scriptArrays_own (h : AllRecords xs es) (c : Str) :
    (scriptArrays xs found).on c ++ (scriptArrays xs found).kun c = [] ↔ readingOf es c = none := by
  have := scriptArrays_readings xs es found h c
  have h1 : (scriptArrays xs found).on c = (readingsOf es c).2.1 := by rw [← this]
  have h2 : (scriptArrays xs found).kun c = (readingsOf es c).2.2 := by rw [← this]
  rw [h1, h2]
  exact readingsOf_empty es c

theorem scriptArrays_hasReading (h : AllRecords xs es) (c : Str) :
    (scriptArrays xs found).hasReading c = (readingOf es c).isSome := by
  have := scriptArrays_own xs es found h c
  unfold ScriptArrays.hasReading
  cases hr : readingOf es c with
  | none => rw [hr] at this; simp [this]
  | some e => rw [hr] at this; simpa using this

theorem scriptArrays_hasJapanID (h : AllRecords xs es) (c : Str) :
    (scriptArrays xs found).hasJapanID c = inJapan es c := by
  unfold ScriptArrays.hasJapanID inJapan
  rw [scriptArrays_morohashi xs es found h, scriptArrays_jSource xs es found h]

/-! ### Links of definitions -/

theorem addLinks_manual (a : ScriptArrays) (c : Str) :
    (ScriptArrays.addLinks [] a).readingLink c = match manualLinks.lookup c with | some d => d | none => a.readingLink c := by
  rw [ScriptArrays.addLinks]
  dsimp only
  simp only [arraySet_get]
  unfold manualLinks
  by_cases h1 : c = u8!"6AA8"
  · subst h1; rfl
  by_cases h2 : c = u8!"9D25"
  · subst h2; rfl
  by_cases h3 : c = u8!"5ECF"
  · subst h3; rfl
  by_cases h4 : c = u8!"3D4E"
  · subst h4; rfl
  rw [if_neg (fun h => h1 h.2), if_neg (fun h => h2 h.2), if_neg (fun h => h3 h.2), if_neg (fun h => h4 h.2)]
  have : ∀ (k : Str), c ≠ k → (c == k) = false := fun k hk => by simp [hk]
  simp only [List.lookup, this _ h1, this _ h2, this _ h3, this _ h4]

theorem addLink_get (a : ScriptArrays) (l : Str × List Str) (c : Str) (hc : c ≠ []) :
    (a.addLink l.1 l.2).hasReading = a.hasReading ∧
    (a.addLink l.1 l.2).readingLink c =
      if a.readingLink c = [] ∧ l.1 = c then (l.2.find? a.hasReading).getD [] else a.readingLink c := by
  unfold ScriptArrays.addLink
  by_cases h1 : a.readingLink l.1 = []
  · rw [if_pos h1]
    cases hf : l.2.find? a.hasReading with
    | none =>
      refine ⟨rfl, ?_⟩
      dsimp only
      by_cases h2 : a.readingLink c = [] ∧ l.1 = c
      · rw [if_pos h2, h2.1]; rfl
      · rw [if_neg h2]
    | some d =>
      refine ⟨rfl, ?_⟩
      dsimp only
      rw [arraySet_get]
      by_cases h2 : l.1 = c
      · subst h2
        rw [if_pos ⟨hc, rfl⟩, if_pos ⟨h1, rfl⟩]
        rfl
      · rw [if_neg (fun h => h2 h.2.symm), if_neg (fun h => h2 h.2)]
  · rw [if_neg h1]
    refine ⟨rfl, ?_⟩
    rw [if_neg]
    rintro ⟨h2, rfl⟩
    exact h1 h2

theorem addLinks_get (ls : List (Str × List Str)) (a : ScriptArrays) (c : Str) (hc : c ≠ []) (he : a.hasReading [] = false) :
    (ScriptArrays.addLinks ls a).readingLink c = match manualLinks.lookup c with
      | some d => d
      | none => if a.readingLink c = [] then
          ((((ls.filter fun p => p.1 == c).flatMap fun p => p.2).find? a.hasReading).getD []) else a.readingLink c := by
  induction ls generalizing a with
  | nil =>
    rw [addLinks_manual]
    cases manualLinks.lookup c with
    | some d => rfl
    | none =>
      dsimp only
      by_cases h : a.readingLink c = []
      · rw [if_pos h, h]; rfl
      · rw [if_neg h]
  | cons l ls ih =>
    obtain ⟨g1, g2⟩ := addLink_get a l c hc
    rw [ScriptArrays.addLinks, ih _ (by rw [g1]; exact he), g1]
    cases manualLinks.lookup c with
    | some d => rfl
    | none =>
      dsimp only
      rw [List.filter_cons]
      by_cases h : a.readingLink c = []
      · by_cases h2 : l.1 = c
        · rw [if_pos ⟨h, h2⟩] at g2
          rw [if_pos h, g2, if_pos (show (l.1 == c) = true by simp [h2]), List.flatMap_cons, List.find?_append]
          cases hf : l.2.find? a.hasReading with
          | none => simp
          | some d =>
            have hd : d ≠ [] := by
              rintro rfl
              have := List.find?_some hf
              rw [he] at this; cases this
            simp [hd]
        · rw [if_neg (fun x => h2 x.2)] at g2
          rw [g2, if_pos h, if_pos h, if_neg (by simpa using h2)]
      · rw [if_neg (fun x => h x.1)] at g2
        rw [g2, if_neg h, if_neg h]

theorem readingOf_nil (h : AllRecords xs es) : readingOf es [] = none := by
  have hn := scriptArrays_noEmpty xs []
  rw [← scriptArrays_own xs es [] h, hn.2.2.1, hn.2.2.2.1]
  rfl

theorem scriptArrays_readingLink (h : AllRecords xs es) (c : Str) (hc : c ≠ []) :
    (scriptArrays xs found).readingLink c = (definitionLink es found c).getD [] := by
  have hh : (populateArrays xs (fun _ => []) {}).1.hasReading = fun d => (readingOf es d).isSome := by
    funext d
    have e := addLinks_other found (populateArrays xs (fun _ => []) {}).1
    rw [← scriptArrays_hasReading xs es found h d, scriptArrays, hasReading_congr e.1 e.2.1]
  unfold scriptArrays
  rw [addLinks_get _ _ c hc (by rw [hh]; simp [readingOf_nil xs es h]), populate_readingLink, hh]
  unfold definitionLink
  cases manualLinks.lookup c with
  | some d => rfl
  | none => simp

theorem manual_ne_nil (c d : Str) (h : manualLinks.lookup c = some d) : d ≠ [] := by
  have key : ∀ (l : List (Str × Str)), (∀ p ∈ l, p.2 ≠ []) → l.lookup c = some d → d ≠ [] := by
    intro l
    induction l with
    | nil => intro _ h; simp at h
    | cons p l ih =>
      intro hp h
      rw [List.lookup] at h
      split at h
      · cases h; exact hp p (by simp)
      · exact ih (fun q hq => hp q (by simp [hq])) h
  exact key manualLinks (by decide) h

theorem definitionLink_ne_nil (h : AllRecords xs es) (c d : Str) (hd : definitionLink es found c = some d) : d ≠ [] := by
  unfold definitionLink at hd
  cases hm : manualLinks.lookup c with
  | some x => rw [hm] at hd; cases hd; exact manual_ne_nil c _ hm
  | none =>
    rw [hm] at hd
    dsimp only at hd
    have := List.find?_some hd
    rintro rfl
    rw [readingOf_nil xs es h] at this
    cases this

theorem scriptArrays_canLoad (h : AllRecords xs es) (c : Str) (hc : c ≠ []) :
    (scriptArrays xs found).canLoadFrom c = loadable es found c := by
  unfold ScriptArrays.canLoadFrom loadable
  rw [scriptArrays_hasReading xs es found h, scriptArrays_readingLink xs es found h c hc]
  congr 1
  cases hd : definitionLink es found c with
  | none => rfl
  | some d => simp [definitionLink_ne_nil xs es found h c d hd]

end arrays
end KT
