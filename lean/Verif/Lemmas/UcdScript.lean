import Verif.Model.UcdScript
/-! Lemmas about the arrays and the rows of scripts/parseUcdAllFlat.sh. -/
namespace KT

/-- The arrays that `printResults` uses. -/
def scriptArrays (first : List UcdXml) (found : List (Str × List Str)) : ScriptArrays :=
  ScriptArrays.addLinks found (populateArrays first (fun _ => []) {}).1

/-- Nothing is stored under an empty index. -/
def NoEmptyKey (a : ScriptArrays) : Prop :=
  a.morohashi [] = [] ∧ a.jSource [] = [] ∧ a.on [] = [] ∧ a.kun [] = [] ∧ a.readingLink [] = [] ∧ a.linkBack [] = []

theorem arraySet_empty (m : Str → Str) (k v : Str) (h : m [] = []) : arraySet m k v [] = [] := by
  unfold arraySet
  by_cases hk : k = []
  · rw [if_pos hk, h]
  · rw [if_neg hk, if_neg (fun e => hk e.symm), h]

theorem arraySet_get (m : Str → Str) (k v x : Str) :
    arraySet m k v x = if k ≠ [] ∧ x = k then v else m x := by
  unfold arraySet
  by_cases hk : k = []
  · simp [hk]
  · simp [hk]

theorem addReadings_noEmpty (v : UcdVars) (cs : List Str) (a : ScriptArrays) (h : NoEmptyKey a) :
    NoEmptyKey (a.addReadings v cs) := by
  induction cs generalizing a with
  | nil => exact h
  | cons c cs ih =>
    rw [ScriptArrays.addReadings]
    exact ih _ ⟨h.1, h.2.1, arraySet_empty _ _ _ h.2.2.1, arraySet_empty _ _ _ h.2.2.2.1, h.2.2.2.2.1, h.2.2.2.2.2⟩

theorem add_noEmpty (a : ScriptArrays) (v : UcdVars) (h : NoEmptyKey a) : NoEmptyKey (a.add v) := by
  obtain ⟨h1, h2, h3, h4, h5, h6⟩ := h
  unfold ScriptArrays.add
  dsimp only
  repeat' split
  all_goals try apply addReadings_noEmpty
  all_goals
    refine ⟨?_, ?_, ?_, ?_, ?_, ?_⟩ <;> first | assumption | (apply arraySet_empty; assumption)

theorem populate_noEmpty (xs : List UcdXml) (vars : UcdVars) (a : ScriptArrays) (h : NoEmptyKey a) :
    NoEmptyKey (populateArrays xs vars a).1 := by
  induction xs generalizing vars a with
  | nil => exact h
  | cons x xs ih =>
    rw [populateArrays]
    apply ih
    split
    · exact add_noEmpty _ _ h
    · exact h

theorem addLink_noEmpty (a : ScriptArrays) (cp : Str) (cs : List Str) (h : NoEmptyKey a) :
    NoEmptyKey (a.addLink cp cs) := by
  unfold ScriptArrays.addLink
  split
  · split
    · exact ⟨h.1, h.2.1, h.2.2.1, h.2.2.2.1, arraySet_empty _ _ _ h.2.2.2.2.1, h.2.2.2.2.2⟩
    · exact h
  · exact h

theorem addLinks_noEmpty (ls : List (Str × List Str)) (a : ScriptArrays) (h : NoEmptyKey a) :
    NoEmptyKey (a.addLinks ls) := by
  induction ls generalizing a with
  | nil =>
    refine ⟨h.1, h.2.1, h.2.2.1, h.2.2.2.1, ?_, h.2.2.2.2.2⟩
    rw [ScriptArrays.addLinks]
    dsimp only
    iterate 4 apply arraySet_empty
    exact h.2.2.2.2.1
  | cons l ls ih => exact ih _ (addLink_noEmpty _ _ _ h)

theorem scriptArrays_noEmpty (first : List UcdXml) (found : List (Str × List Str)) :
    NoEmptyKey (scriptArrays first found) :=
  addLinks_noEmpty _ _ (populate_noEmpty _ _ _ ⟨rfl, rfl, rfl, rfl, rfl, rfl⟩)

/-- The links found in definitions change nothing else. -/
theorem addLinks_other (ls : List (Str × List Str)) (a : ScriptArrays) :
    (a.addLinks ls).on = a.on ∧ (a.addLinks ls).kun = a.kun ∧ (a.addLinks ls).definition = a.definition ∧
    (a.addLinks ls).morohashi = a.morohashi ∧ (a.addLinks ls).jSource = a.jSource ∧
    (a.addLinks ls).linkBack = a.linkBack := by
  induction ls generalizing a with
  | nil => exact ⟨rfl, rfl, rfl, rfl, rfl, rfl⟩
  | cons l ls ih =>
    rw [ScriptArrays.addLinks]
    have e : (a.addLink l.1 l.2).on = a.on ∧ (a.addLink l.1 l.2).kun = a.kun ∧
        (a.addLink l.1 l.2).definition = a.definition ∧ (a.addLink l.1 l.2).morohashi = a.morohashi ∧
        (a.addLink l.1 l.2).jSource = a.jSource ∧ (a.addLink l.1 l.2).linkBack = a.linkBack := by
      unfold ScriptArrays.addLink
      split
      · split <;> exact ⟨rfl, rfl, rfl, rfl, rfl, rfl⟩
      · exact ⟨rfl, rfl, rfl, rfl, rfl, rfl⟩
    have := ih (a.addLink l.1 l.2)
    obtain ⟨i1, i2, i3, i4, i5, i6⟩ := this
    obtain ⟨e1, e2, e3, e4, e5, e6⟩ := e
    exact ⟨i1.trans e1, i2.trans e2, i3.trans e3, i4.trans e4, i5.trans e5, i6.trans e6⟩

/-- Every link from a definition leads to a code with a reading. -/
def ReadingLinksSound (a : ScriptArrays) : Prop := ∀ c, a.readingLink c ≠ [] → a.hasReading (a.readingLink c) = true

/-- The targets of the links that are set by hand. -/
def manualTargets : List Str := [u8!"6F97", u8!"5ED0", u8!"9D2A", u8!"69D8"]

theorem hasReading_congr {a b : ScriptArrays} (h1 : a.on = b.on) (h2 : a.kun = b.kun) (c : Str) :
    a.hasReading c = b.hasReading c := by simp [ScriptArrays.hasReading, h1, h2]

theorem arraySet_sound (m : Str → Str) (k v : Str) (P : Str → Prop) (hm : ∀ c, m c ≠ [] → P (m c)) (hv : P v) :
    ∀ c, arraySet m k v c ≠ [] → P (arraySet m k v c) := by
  intro c
  rw [arraySet_get]
  split
  · intro _; exact hv
  · exact hm c

theorem addLinks_sound (ls : List (Str × List Str)) (a : ScriptArrays) (h : ReadingLinksSound a)
    (hm : ∀ c ∈ manualTargets, a.hasReading c = true) : ReadingLinksSound (a.addLinks ls) := by
  induction ls generalizing a with
  | nil =>
    intro c hc
    have e := hasReading_congr (a := a.addLinks []) (b := a) rfl rfl
    rw [e]
    rw [ScriptArrays.addLinks] at hc ⊢
    dsimp only at hc ⊢
    exact arraySet_sound _ _ _ (fun x => a.hasReading x = true) (arraySet_sound _ _ _ (fun x => a.hasReading x = true)
      (arraySet_sound _ _ _ (fun x => a.hasReading x = true) (arraySet_sound _ _ _ (fun x => a.hasReading x = true)
      h (hm _ (by decide))) (hm _ (by decide))) (hm _ (by decide))) (hm _ (by decide)) c hc
  | cons l ls ih =>
    rw [ScriptArrays.addLinks]
    have key : ReadingLinksSound (a.addLink l.1 l.2) ∧ (a.addLink l.1 l.2).on = a.on ∧ (a.addLink l.1 l.2).kun = a.kun := by
      unfold ScriptArrays.addLink
      split
      · split
        · rename_i c hc
          refine ⟨?_, rfl, rfl⟩
          intro x hx
          exact arraySet_sound _ _ _ (fun x => a.hasReading x = true) h (List.find?_some hc) x hx
        · exact ⟨h, rfl, rfl⟩
      · exact ⟨h, rfl, rfl⟩
    exact ih _ key.1 (fun c hc => by rw [hasReading_congr key.2.1 key.2.2]; exact hm c hc)

theorem addReadings_readingLink (v : UcdVars) (cs : List Str) (a : ScriptArrays) :
    (a.addReadings v cs).readingLink = a.readingLink := by
  induction cs generalizing a with
  | nil => rfl
  | cons c cs ih => rw [ScriptArrays.addReadings, ih]

theorem populate_readingLink (xs : List UcdXml) (vars : UcdVars) (a : ScriptArrays) :
    (populateArrays xs vars a).1.readingLink = a.readingLink := by
  induction xs generalizing vars a with
  | nil => rfl
  | cons x xs ih =>
    rw [populateArrays, ih]
    split
    · unfold ScriptArrays.add
      dsimp only
      repeat' split
      all_goals first | rfl | (rw [addReadings_readingLink])
    · rfl

theorem scriptArrays_sound (first : List UcdXml) (found : List (Str × List Str))
    (hm : ∀ c ∈ manualTargets, (scriptArrays first found).hasReading c = true) :
    ReadingLinksSound (scriptArrays first found) := by
  have e := addLinks_other found (populateArrays first (fun _ => []) {}).1
  apply addLinks_sound
  · intro c hc
    rw [populate_readingLink] at hc
    exact absurd rfl hc
  · intro c hc
    have := hm c hc
    rw [scriptArrays, hasReading_congr e.1 e.2.1] at this
    exact this

/-! ## Rows -/

/-- The variables while a record is processed. -/
def VarsOf (unset : List UcdField) (x : UcdXml) (v : UcdVars) : Prop :=
  ∀ f, (∀ s, x f = some s → v f = s) ∧ (x f = none → f ∈ unset → v f = [])

theorem evalRecord_varsOf (unset : List UcdField) (x : UcdXml) (vars : UcdVars) :
    VarsOf unset x (evalRecord unset x vars) := by
  intro f
  unfold evalRecord
  constructor
  · intro s h; simp [h]
  · intro h hm; simp [h, hm]

/-- Every row belongs to a record. -/
theorem printUcdRows_mem (a : ScriptArrays) (xs : List UcdXml) (vars : UcdVars) (r : ScriptRow)
    (h : r ∈ (printUcdRows a xs vars).1) :
    ∃ x ∈ xs, ∃ v, VarsOf printUnset x v ∧ keepsRecord (v .rsUnicode) = true ∧
      processRecord a v = .ok (some r) := by
  induction xs generalizing vars with
  | nil => simp [printUcdRows] at h
  | cons x xs ih =>
    rw [printUcdRows] at h
    dsimp only at h
    have lift : ∀ vars', r ∈ (printUcdRows a xs vars').1 → ∃ y ∈ x :: xs, ∃ v, VarsOf printUnset y v ∧
        keepsRecord (v .rsUnicode) = true ∧ processRecord a v = .ok (some r) := by
      intro vars' h'
      obtain ⟨y, hy, hv⟩ := ih vars' h'
      exact ⟨y, List.mem_cons_of_mem _ hy, hv⟩
    by_cases hk : keepsRecord (evalRecord printUnset x vars .rsUnicode) = true
    · rw [if_pos hk] at h
      cases hp : processRecord a (evalRecord printUnset x vars) with
      | ok o =>
        rw [hp] at h
        cases o with
        | some r' =>
          dsimp only at h
          rcases List.mem_cons.mp h with rfl | h
          · exact ⟨x, by simp, _, evalRecord_varsOf _ _ _, hk, hp⟩
          · exact lift _ h
        | none => exact lift _ h
      | throw e => rw [hp] at h; simp at h
      | ub => rw [hp] at h; simp at h
    · rw [if_neg hk] at h; exact lift _ h

/-- When the script goes on to the end, every record that is kept and has a row is among the rows. -/
theorem printUcdRows_complete (a : ScriptArrays) (xs : List UcdXml) (vars : UcdVars)
    (hend : (printUcdRows a xs vars).2 = true) (x : UcdXml) (hx : x ∈ xs) :
    ∃ v, VarsOf printUnset x v ∧ (keepsRecord (v .rsUnicode) = true →
      (∃ r ∈ (printUcdRows a xs vars).1, processRecord a v = .ok (some r)) ∨ processRecord a v = .ok none) := by
  induction xs generalizing vars with
  | nil => simp at hx
  | cons y xs ih =>
    rw [printUcdRows] at hend ⊢
    dsimp only at hend ⊢
    by_cases hk : keepsRecord (evalRecord printUnset y vars .rsUnicode) = true
    · rw [if_pos hk] at hend ⊢
      cases hp : processRecord a (evalRecord printUnset y vars) with
      | ok o =>
        rw [hp] at hend
        cases o with
        | some r' =>
          dsimp only at hend ⊢
          rcases List.mem_cons.mp hx with rfl | hx
          · exact ⟨_, evalRecord_varsOf _ _ _, fun _ => .inl ⟨r', by simp, hp⟩⟩
          · obtain ⟨v, hv, h⟩ := ih _ hend hx
            refine ⟨v, hv, fun hkv => ?_⟩
            rcases h hkv with ⟨r, hr, e⟩ | e
            · exact .inl ⟨r, by simp [hr], e⟩
            · exact .inr e
        | none =>
          dsimp only at hend ⊢
          rcases List.mem_cons.mp hx with rfl | hx
          · exact ⟨_, evalRecord_varsOf _ _ _, fun _ => .inr hp⟩
          · exact ih _ hend hx
      | throw e => rw [hp] at hend; simp at hend
      | ub => rw [hp] at hend; simp at hend
    · rw [if_neg hk] at hend ⊢
      rcases List.mem_cons.mp hx with rfl | hx
      · exact ⟨_, evalRecord_varsOf _ _ _, fun h => absurd h hk⟩
      · exact ih _ hend hx

end KT
