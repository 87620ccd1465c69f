import Verif.Lemmas.UcdArrays
/-! The links that scripts/parseUcdAllFlat.sh selects. -/
namespace KT
open Spec

/-! ### Lists without repetitions -/

theorem eraseDups_filter (p : Str → Bool) : ∀ (n : Nat) (l : List Str), l.length ≤ n →
    (l.filter p).eraseDups = l.eraseDups.filter p := by
  intro n
  induction n with
  | zero => intro l h; cases l with | nil => rfl | cons => simp at h
  | succ n ih =>
    intro l h
    cases l with
    | nil => rfl
    | cons a l =>
      have hl : (l.filter fun b => !b == a).length ≤ n :=
        Nat.le_trans (List.length_filter_le _ _) (by simp at h; omega)
      have key := ih _ hl
      rw [List.eraseDups_cons, List.filter_cons]
      by_cases hp : p a = true
      · rw [if_pos hp, List.eraseDups_cons, List.filter_cons, if_pos hp, ← key, List.filter_filter, List.filter_filter]
        congr 3
        funext x
        exact Bool.and_comm _ _
      · rw [if_neg hp, List.filter_cons, if_neg hp, ← key, List.filter_filter]
        congr 1
        apply List.filter_congr
        intro x _
        cases hx : p x
        · rfl
        · have : x ≠ a := by rintro rfl; exact hp hx
          simp [this]

theorem eraseDups_mem (a : Str) : ∀ (n : Nat) (l : List Str), l.length ≤ n → (a ∈ l.eraseDups ↔ a ∈ l) := by
  intro n
  induction n with
  | zero => intro l h; cases l with | nil => rfl | cons => simp at h
  | succ n ih =>
    intro l h
    cases l with
    | nil => rfl
    | cons b l =>
      have hl : (l.filter fun x => !x == b).length ≤ n :=
        Nat.le_trans (List.length_filter_le _ _) (by simp at h; omega)
      rw [List.eraseDups_cons, List.mem_cons, ih _ hl, List.mem_filter, List.mem_cons]
      by_cases h : a = b <;> simp [h]

theorem mem_otherCodes (cp : Str) (cs : List Str) (c : Str) : c ∈ otherCodes cp cs ↔ c ∈ cs ∧ c ≠ cp := by
  unfold otherCodes
  rw [eraseDups_mem c _ _ (Nat.le_refl _), List.mem_filter]
  simp

theorem otherCodes_filter (cp : Str) (cs : List Str) (p : Str → Bool) :
    (otherCodes cp cs).filter p = (cs.filter fun c => c != cp && p c).eraseDups := by
  unfold otherCodes
  rw [← eraseDups_filter p _ _ (Nat.le_refl _), List.filter_filter]
  congr 2
  funext x
  exact Bool.and_comm _ _

theorem eraseDups_head (l : List Str) : l.eraseDups.head? = l.head? := by
  cases l with
  | nil => rfl
  | cons a l => rw [List.eraseDups_cons]; rfl

theorem otherCodes_first (cp : Str) (cs : List Str) (p : Str → Bool) :
    ((otherCodes cp cs).filter p).take 1 = (cs.find? fun c => c != cp && p c).toList := by
  have h1 : ∀ l : List Str, l.take 1 = l.head?.toList := by intro l; cases l <;> rfl
  rw [otherCodes_filter, h1, eraseDups_head]
  rw [List.head?_filter]

theorem filter_first (cs : List Str) (p : Str → Bool) : (cs.filter p).take 1 = (cs.find? p).toList := by
  have h1 : ∀ l : List Str, l.take 1 = l.head?.toList := by intro l; cases l <;> rfl
  rw [h1, List.head?_filter]

theorem traditionalLinks_eq (test : Str → Bool) (cp : Str) (ss links : List Str) :
    traditionalLinks test cp ss links =
      links ++ ((ss.map (afterFirst 0x2b)).filter fun c => decide (c ∉ cp :: links) && test c).eraseDups := by
  induction ss generalizing links with
  | nil => simp [traditionalLinks]
  | cons s ss ih =>
    rw [traditionalLinks]
    rw [ih, List.map_cons, List.filter_cons]
    by_cases h : afterFirst 0x2b s ∉ cp :: links ∧ test (afterFirst 0x2b s) = true
    · rw [if_pos h, if_pos (by simpa using h), List.eraseDups_cons, List.append_assoc]
      congr 1
      rw [List.singleton_append, List.filter_filter]
      congr 2
      apply List.filter_congr
      intro x _
      by_cases h1 : x = afterFirst 0x2b s
      · simp [h1]
      · have e : decide (x ∉ cp :: (links ++ [afterFirst 0x2b s])) = decide (x ∉ cp :: links) := by
          simp [h1]
        rw [e]
        simp [h1]
    · rw [if_neg h, if_neg (by simpa using h)]

/-! ### Choices -/

section choice
variable (xs : List UcdXml) (es : List UcdEntry) (found : List (Str × List Str))

theorem filter_loadable (h : AllRecords xs es) (cs : List Str) (hcs : ∀ c ∈ cs, UcdCode c) (q : Str → Bool) :
    (cs.filter fun c => q c && (scriptArrays xs found).canLoadFrom c) = cs.filter fun c => q c && loadable es found c := by
  apply List.filter_congr
  intro c hc
  rw [scriptArrays_canLoad xs es found h c (hcs c hc).1]

theorem traditional_load (h : AllRecords xs es) (e : UcdEntry) (he : e.Fits) :
    traditionalLinks (scriptArrays xs found).canLoadFrom e.cp (shWords (e.text .traditional)) [] =
      (otherCodes e.cp e.traditional).filter (loadable es found) := by
  have hc : (shWords (e.text .traditional)).map (afterFirst 0x2b) = e.traditional := codes_spaced _ he.traditional
  rw [traditionalLinks_eq, hc, List.nil_append, filter_loadable xs es found h _ he.traditional, otherCodes_filter]
  congr 2
  funext c
  by_cases hx : c = e.cp <;> simp [hx]

theorem traditional_japan (h : AllRecords xs es) (e : UcdEntry) (he : e.Fits) :
    traditionalLinks (scriptArrays xs found).hasJapanID e.cp (shWords (e.text .traditional)) [] =
      (otherCodes e.cp e.traditional).filter (inJapan es) := by
  have hc : (shWords (e.text .traditional)).map (afterFirst 0x2b) = e.traditional := codes_spaced _ he.traditional
  have hj : (scriptArrays xs found).hasJapanID = inJapan es := funext (scriptArrays_hasJapanID xs es found h)
  rw [traditionalLinks_eq, hc, List.nil_append, hj, otherCodes_filter]
  congr 2
  funext c
  by_cases hx : c = e.cp <;> simp [hx]

theorem traditional_more (h : AllRecords xs es) (e : UcdEntry) (he : e.Fits) :
    traditionalLinks (scriptArrays xs found).hasJapanID e.cp (shWords (e.text .traditional))
        ((otherCodes e.cp e.traditional).filter (loadable es found)) =
      (otherCodes e.cp e.traditional).filter (loadable es found) ++
        (otherCodes e.cp e.traditional).filter fun c => !loadable es found c && inJapan es c := by
  have hc : (shWords (e.text .traditional)).map (afterFirst 0x2b) = e.traditional := codes_spaced _ he.traditional
  have hj : (scriptArrays xs found).hasJapanID = inJapan es := funext (scriptArrays_hasJapanID xs es found h)
  rw [traditionalLinks_eq, hc, hj, otherCodes_filter (p := fun c => !loadable es found c && inJapan es c)]
  congr 2
  apply List.filter_congr
  intro c hc
  have : (c ∉ e.cp :: (otherCodes e.cp e.traditional).filter (loadable es found)) ↔
      c ≠ e.cp ∧ loadable es found c = false := by
    rw [List.mem_cons, List.mem_filter, mem_otherCodes]
    simp only [hc, true_and, not_or, not_and]
    constructor
    · rintro ⟨h1, h2⟩
      exact ⟨h1, by simpa using h2 h1⟩
    · rintro ⟨h1, h2⟩
      exact ⟨h1, fun _ => by simp [h2]⟩
  have d : decide (c ∉ e.cp :: (otherCodes e.cp e.traditional).filter (loadable es found)) =
      (c != e.cp && !loadable es found c) := by
    rw [Bool.eq_iff_iff, decide_eq_true_iff, this]
    simp
  rw [d, Bool.and_assoc]

theorem simplified_load (h : AllRecords xs es) (e : UcdEntry) (he : e.Fits) :
    ((shWords (e.text .simplified)).map (afterFirst 0x2b)).find?
        (fun c => c != e.cp && (scriptArrays xs found).canLoadFrom c) =
      e.simplified.find? fun c => c != e.cp && loadable es found c := by
  have hc : (shWords (e.text .simplified)).map (afterFirst 0x2b) = e.simplified := codes_spaced _ he.simplified
  rw [hc, ← List.head?_filter, filter_loadable xs es found h _ he.simplified, List.head?_filter]

theorem simplified_japan (h : AllRecords xs es) (e : UcdEntry) (he : e.Fits) :
    ((shWords (e.text .simplified)).map (afterFirst 0x2b)).find?
        (fun c => c != e.cp && (scriptArrays xs found).hasJapanID c) =
      e.simplified.find? fun c => c != e.cp && inJapan es c := by
  have hc : (shWords (e.text .simplified)).map (afterFirst 0x2b) = e.simplified := codes_spaced _ he.simplified
  have hj : (scriptArrays xs found).hasJapanID = inJapan es := funext (scriptArrays_hasJapanID xs es found h)
  rw [hc, hj]

theorem semantic_load (h : AllRecords xs es) (e : UcdEntry) (he : e.Fits) :
    (e.semantic.map (·.1)).find? (scriptArrays xs found).canLoadFrom =
      (e.semantic.map (·.1)).find? (loadable es found) := by
  have hw : ∀ c ∈ e.semantic.map (·.1), UcdCode c := by
    intro c hc
    obtain ⟨p, hp, rfl⟩ := List.mem_map.mp hc
    exact (he.semantic p hp).1
  have := filter_loadable xs es found h _ hw (fun _ => true)
  simp only [Bool.true_and] at this
  rw [← List.head?_filter, ← List.head?_filter]
  exact congrArg List.head? this

/-- The attributes `processRecord` uses for links. -/
def linkFields : List UcdField := [.cp, .joyo, .jinmei, .traditional, .simplified, .compatibility, .semantic]

theorem any_filter (l : List Str) (p : Str → Bool) : l.any p = true ↔ l.filter p ≠ [] := by
  rw [List.any_eq_true]
  constructor
  · rintro ⟨x, hx, hp⟩ h
    have : x ∈ l.filter p := List.mem_filter.mpr ⟨hx, hp⟩
    rw [h] at this
    cases this
  · intro h
    cases hf : l.filter p with
    | nil => exact absurd hf h
    | cons x y =>
      have : x ∈ l.filter p := by rw [hf]; simp
      exact ⟨x, (List.mem_filter.mp this).1, (List.mem_filter.mp this).2⟩

theorem toList_isEmpty (o : Option Str) : o.toList.isEmpty = o.isNone := by cases o <;> rfl

theorem scriptLinks_load (h : AllRecords xs es) (e : UcdEntry) (he : e.Fits) (v : UcdVars)
    (hv : ∀ f ∈ linkFields, v f = e.text f) :
    scriptLinks (scriptArrays xs found) .canLoadFrom v
        ((scriptArrays xs found).on e.cp ++ (scriptArrays xs found).kun e.cp) =
      (((linkChoices es found e).take 5).find? fun p => !p.2.1.isEmpty).map fun p => (p.2.1, p.1) := by
  have v1 : v .cp = e.cp := hv _ (by decide)
  have v2 : v .traditional = e.text .traditional := hv _ (by decide)
  have v3 : v .simplified = e.text .simplified := hv _ (by decide)
  have v4 : v .compatibility = e.text .compatibility := hv _ (by decide)
  have v5 : v .semantic = e.text .semantic := hv _ (by decide)
  unfold scriptLinks linkChoices LinkMode.test
  rw [v1, v2, v3, v4, v5]
  dsimp only
  rw [traditional_load xs es found h e he, traditional_more xs es found h e he, simplified_load xs es found h e he,
    semantic_codes e he, semantic_load xs es found h e he, otherCodes_first, filter_first,
    scriptArrays_readingLink xs es found h e.cp he.cp.1]
  simp only [List.take, List.find?, toList_isEmpty, if_true]
  by_cases ht : (otherCodes e.cp e.traditional).filter (loadable es found) = []
  · rw [if_neg (by simpa using ht), 
      if_neg (show ¬ (otherCodes e.cp e.traditional).any (loadable es found) = true by rw [any_filter]; simpa using ht)]
    dsimp only [List.isEmpty_nil, Bool.not_true]
    cases hs : e.simplified.find? fun c => c != e.cp && loadable es found c with
    | some c => rfl
    | none =>
      dsimp only [Option.isNone_none, Bool.not_true]
      obtain ⟨c1, c2⟩ := compatibility_marks e
      have hcomp : ((e.text .compatibility).contains 0x55 = true ∧
          (scriptArrays xs found).canLoadFrom (afterFirst 0x2b (e.text .compatibility)) = true) ↔
          ∃ c, e.compatibility = some c ∧ loadable es found c = true := by
        constructor
        · rintro ⟨a1, a2⟩
          obtain ⟨c, hc⟩ := c1.mp a1
          rw [c2 c hc, scriptArrays_canLoad xs es found h c (he.compatibility c hc).1] at a2
          exact ⟨c, hc, a2⟩
        · rintro ⟨c, hc, hl⟩
          refine ⟨c1.mpr ⟨c, hc⟩, ?_⟩
          rw [c2 c hc, scriptArrays_canLoad xs es found h c (he.compatibility c hc).1]
          exact hl
      by_cases hk : ∃ c, e.compatibility = some c ∧ loadable es found c = true
      · rw [if_pos (hcomp.mpr hk)]
        obtain ⟨c, hc, hl⟩ := hk
        rw [c2 c hc]
        simp [hc, hl]
      · rw [if_neg (fun x => hk (hcomp.mp x))]
        have hk' : e.compatibility.toList.filter (loadable es found) = [] := by
          cases hc : e.compatibility with
          | none => rfl
          | some c =>
            have : ¬ loadable es found c = true := fun hl => hk ⟨c, hc, hl⟩
            simp [this]
        rw [hk']
        dsimp only [List.isEmpty_nil, Bool.not_true]
        cases hd : definitionLink es found e.cp with
        | some d =>
          have := definitionLink_ne_nil xs es found h _ d hd
          simp [this]
        | none =>
          dsimp only [Option.isNone_none, Bool.not_true, Option.getD_none]
          rw [if_neg (by simp)]
          have ho := scriptArrays_own xs es found h e.cp
          by_cases hr : readingOf es e.cp = none
          · rw [if_pos (ho.mpr hr), hr]
            dsimp only [Option.isSome_none]
            rw [if_neg (by simp), toList_isEmpty]
            cases (e.semantic.map (·.1)).find? (loadable es found) with
            | some c => rfl
            | none => rfl
          · rw [if_neg (fun x => hr (ho.mp x)), if_pos (by cases hx : readingOf es e.cp; exact absurd hx hr; rfl)]
            rfl
  · rw [if_pos ht, if_pos (show (otherCodes e.cp e.traditional).any (loadable es found) = true by rw [any_filter]; exact ht)]
    have : ((otherCodes e.cp e.traditional).filter (loadable es found) ++
        (otherCodes e.cp e.traditional).filter fun c => !loadable es found c && inJapan es c).isEmpty = false := by
      rw [List.isEmpty_eq_false_iff]
      intro hx
      exact ht (List.append_eq_nil_iff.mp hx).1
    rw [this]
    rfl

theorem scriptLinks_japan (h : AllRecords xs es) (e : UcdEntry) (he : e.Fits) (v : UcdVars) (r : Str)
    (hv : ∀ f ∈ linkFields, v f = e.text f) :
    scriptLinks (scriptArrays xs found) .hasJapanID v r =
      (((linkChoices es found e).drop 5).find? fun p => !p.2.1.isEmpty).map fun p => (p.2.1, p.1) := by
  have v1 : v .cp = e.cp := hv _ (by decide)
  have v2 : v .traditional = e.text .traditional := hv _ (by decide)
  have v3 : v .simplified = e.text .simplified := hv _ (by decide)
  unfold scriptLinks linkChoices LinkMode.test
  rw [v1, v2, v3]
  dsimp only
  rw [traditional_japan xs es found h e he, simplified_japan xs es found h e he]
  simp only [List.drop, List.find?, otherCodes_first, toList_isEmpty]
  by_cases ht : (otherCodes e.cp e.traditional).filter (inJapan es) = []
  · rw [if_neg (by simpa using ht), ht]
    dsimp only [List.isEmpty_nil, Bool.not_true]
    cases hs : e.simplified.find? fun c => c != e.cp && inJapan es c with
    | some c => rfl
    | none => rw [if_neg (by decide)]; rfl
  · rw [if_pos ht, if_neg (by decide)]
    have : ((otherCodes e.cp e.traditional).filter (inJapan es)).isEmpty = false := by
      rw [List.isEmpty_eq_false_iff]; exact ht
    rw [this]
    rfl

/-- The choices are either for readings (the first five) or not. -/
theorem linkChoices_flags : (∀ p ∈ (linkChoices es found e).take 5, p.2.2 = true) ∧
    (∀ p ∈ (linkChoices es found e).drop 5, p.2.2 = false) := by
  constructor
  · intro p hp
    simp only [linkChoices, List.take, List.mem_cons, List.not_mem_nil, or_false] at hp
    rcases hp with rfl | rfl | rfl | rfl | rfl <;> rfl
  · intro p hp
    simp only [linkChoices, List.drop, List.mem_cons, List.not_mem_nil, or_false] at hp
    rcases hp with rfl | rfl <;> rfl

theorem headD_getD (l : List Str) : l.headD [] = l.head?.getD [] := by cases l <;> rfl

/-- The links of a record. -/
theorem recordLinks_entry (h : AllRecords xs es) (e : UcdEntry) (he : e.Fits) (v : UcdVars)
    (hv : ∀ f ∈ linkFields, v f = e.text f) :
    recordLinks (scriptArrays xs found) v =
      { joyo := (match e.joyo with | some (.listed _) => true | _ => false)
        links := (linksOf es found e).2.1, type := (linksOf es found e).1
        loadFrom := (linksOf es found e).2.2.getD [] } := by
  have v1 : v .cp = e.cp := hv _ (by decide)
  have v2 : v .joyo = e.text .joyo := hv _ (by decide)
  have v3 : v .jinmei = e.text .jinmei := hv _ (by decide)
  obtain ⟨j1, j2⟩ := joyo_marks e
  obtain ⟨m1, m2, m3⟩ := jinmei_marks e
  unfold recordLinks linksOf
  rw [v1, v2, v3]
  cases hj : e.joyo with
  | some j =>
    rw [if_pos (j1.mpr (by simp [hj]))]
    cases j with
    | listed y =>
      have : (e.text .joyo).contains 0x55 = false := by
        cases hx : (e.text .joyo).contains 0x55
        · rfl
        · obtain ⟨c, hc⟩ := j2.mp hx; rw [hj] at hc; cases hc
      rw [this]; rfl
    | replaced c => rw [j2.mpr ⟨c, hj⟩]; rfl
  | none =>
    rw [if_neg (by rw [j1]; simp [hj])]
    cases hm : e.jinmei with
    | some m =>
      obtain ⟨y, l⟩ := m
      rw [if_pos (m1.mpr (by simp [hm]))]
      dsimp only
      cases l with
      | some c =>
        rw [if_pos (m2.mpr ⟨y, c, hm⟩), if_pos (m2.mpr ⟨y, c, hm⟩), m3 y c hm]
        have hn : noLinkCodes = reversedLinks := rfl
        rw [hn]
        have hc := (he.jinmei y c hm).1
        by_cases hr : e.cp ∈ reversedLinks
        · rw [if_pos hr, if_pos rfl]; simp only [hr, if_true, Option.getD_some]
        · rw [if_neg hr, if_neg hc]; simp only [hr, if_false, Option.getD_some]
      | none =>
        have hn : ¬ (e.text .jinmei).contains 0x55 = true := by rw [m2]; simp [hm]
        rw [if_neg hn, if_neg hn, scriptArrays_linkBack xs es found h]
        cases hl : linkedFrom es e.cp with
        | none => rfl
        | some d =>
          dsimp only
          have hd : d.cp ≠ [] := by
            have hmem := (lastEntry_some hl).1
            have : ∀ (xs : List UcdXml) (es : List UcdEntry), AllRecords xs es → ∀ d ∈ es, d.Fits := by
              intro xs
              induction xs with
              | nil => intro es h d hd; cases es with | nil => cases hd | cons => exact h.elim
              | cons x xs ih =>
                intro es h d hd
                cases es with
                | nil => cases hd
                | cons e es =>
                  rcases List.mem_cons.mp hd with rfl | hd
                  · exact h.1.2
                  · exact ih es h.2 d hd
            exact (this xs es h d hmem).cp.1
          rw [if_neg hd]
          rfl
    | none =>
      rw [if_neg (by rw [m1]; simp [hm]), scriptLinks_load xs es found h e he v hv,
        scriptLinks_japan xs es found h e he v _ hv]
      dsimp only
      obtain ⟨f1, f2⟩ := linkChoices_flags (e := e) es found
      have hsplit : linkChoices es found e = (linkChoices es found e).take 5 ++ (linkChoices es found e).drop 5 :=
        (List.take_append_drop 5 _).symm
      generalize hA : (linkChoices es found e).take 5 = A at *
      generalize hB : (linkChoices es found e).drop 5 = B at *
      rw [hsplit, List.find?_append]
      cases ha : A.find? fun p => !p.2.1.isEmpty with
      | some p =>
        obtain ⟨t, l, b⟩ := p
        have hb : b = true := f1 _ (List.mem_of_find?_eq_some ha)
        subst hb
        show ({ links := l, type := t, loadFrom := l.headD [] } : RecordLinks) = _
        rw [headD_getD]
        rfl
      | none =>
        cases hb : B.find? fun p => !p.2.1.isEmpty with
        | some p =>
          obtain ⟨t, l, b⟩ := p
          have hb : b = false := f2 _ (List.mem_of_find?_eq_some hb)
          subst hb
          rfl
        | none => rfl

end choice
end KT
