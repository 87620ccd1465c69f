import Verif.Lemmas.UcdTotals
/-!
# C198: the summary of scripts/parseUcdAllFlat.sh

Model: `Verif/Model/UcdTotals.lean`.
-/
namespace KT
open Spec

/-! ## One record -/

/-- A Joyo kanji. -/
def isListed (e : UcdEntry) : Bool := match e.joyo with | some (.listed _) => true | _ => false

/-- A Jinmei kanji without a link. -/
def standsAlone (es : List UcdEntry) (found : List (Str × List Str)) (e : UcdEntry) : Bool :=
  e.joyo.isNone && e.jinmei.isSome && (linksOf es found e).2.1.isEmpty

def addMarks (es : List UcdEntry) (found : List (Str × List Str)) (t : ScriptTotals) (e : UcdEntry) : ScriptTotals :=
  { t with joyo := t.joyo + if isListed e then 1 else 0
           jinmei := t.jinmei + if standsAlone es found e then 1 else 0 }

/-- What a row adds. -/
def addRow (es : List UcdEntry) (t : ScriptTotals) (r : UcdRow) : ScriptTotals :=
  { t with
    links := fun s => t.links s + if s ∈ scriptLinkTypes ∧ (r.linkType == s || r.linkType == s ++ u8!"*") = true then 1 else 0
    meaning := t.meaning + if (r.meaning != []) = true then 1 else 0
    pinyin := t.pinyin + if (r.pinyin != []) = true then 1 else 0
    reading := t.reading + if hasReadings r = true then 1 else 0
    direct := t.direct + if (readingOf es r.code).isSome = true then 1 else 0
    linked := t.linked + if borrows r = true then 1 else 0
    jSources := setKey t.jSources r.jSource
    morohashis := setKey t.morohashis r.morohashiId
    nelsons := (cellNumbers r.nelsonIds).foldl setKey t.nelsons
    wrote := t.wrote + 1 }

theorem setKey_guard (l : List Str) (s : Str) : (if s ≠ [] then setKey l s else l) = setKey l s := by
  by_cases h : s = []
  · rw [if_neg (by simpa using h)]; simp [setKey, h]
  · rw [if_pos h]

theorem foldl_cell (l ws : List Str) (h : ∀ w ∈ ws, 0x2c ∉ w) : ws.foldl setKey l = (cellNumbers (commas ws)).foldl setKey l := by
  rw [cellNumbers_commas ws h]
  cases ws with
  | nil => simp [setKey]
  | cons w ws => rfl

theorem countMarks_entry (xs : List UcdXml) (es : List UcdEntry) (found : List (Str × List Str)) (h : AllRecords xs es)
    (e : UcdEntry) (he : e.Fits) (v : UcdVars) (hv : ∀ f ∈ printFields, v f = e.text f) (t : ScriptTotals) :
    t.countMarks (recordLinks (scriptArrays xs found) v) v = addMarks es found t e := by
  have hl := recordLinks_entry xs es found h e he v (fun f hf => hv f (by revert hf; cases f <;> decide))
  obtain ⟨j1, j2⟩ := joyo_marks e
  have m1 := (jinmei_marks e).1
  have v2 : v .joyo = e.text .joyo := hv _ (by decide)
  have v3 : v .jinmei = e.text .jinmei := hv _ (by decide)
  unfold ScriptTotals.countMarks addMarks
  rw [hl, v2, v3]
  cases hj : e.joyo with
  | some j =>
    rw [if_pos (j1.mpr (by simp [hj]))]
    cases j with
    | listed y =>
      have : (e.text .joyo).contains 0x55 = false := by
        cases hx : (e.text .joyo).contains 0x55
        · rfl
        · obtain ⟨c, hc⟩ := j2.mp hx; rw [hj] at hc; cases hc
      rw [this]
      simp [isListed, standsAlone, hj]
    | replaced c =>
      rw [j2.mpr ⟨c, hj⟩]
      simp [isListed, standsAlone, hj]
  | none =>
    rw [if_neg (by rw [j1]; simp [hj])]
    cases hm : e.jinmei with
    | none =>
      rw [if_neg (by rw [m1]; simp [hm])]
      simp [isListed, standsAlone, hj, hm]
    | some m =>
      rw [if_pos (m1.mpr (by simp [hm]))]
      dsimp only
      by_cases hx : (linksOf es found e).2.1 = []
      · rw [if_pos hx]; simp [isListed, standsAlone, hj, hm, hx]
      · rw [if_neg hx]; simp [isListed, standsAlone, hj, hm, hx]

theorem linkTypes_star : ∀ s ∈ scriptLinkTypes, s ≠ [] ∧ s.getLast? ≠ some 0x2a := by decide

/-- The type of a row and the type of the links. -/
theorem linkType_is (type s : Str) (b : Bool) (hs : s ∈ scriptLinkTypes) (ht : type = [] ∨ type ∈ scriptLinkTypes) :
    ((type ++ if b then u8!"*" else []) == s || (type ++ if b then u8!"*" else []) == s ++ u8!"*") = decide (type = s) := by
  obtain ⟨s0, s1⟩ := linkTypes_star s hs
  have t1 : type.getLast? ≠ some 0x2a := by
    rcases ht with rfl | ht
    · simp
    · exact (linkTypes_star type ht).2
  rw [Bool.eq_iff_iff]
  simp only [Bool.or_eq_true, beq_iff_eq, decide_eq_true_eq]
  cases b with
  | false =>
    simp only [Bool.false_eq_true, if_false, List.append_nil]
    constructor
    · rintro (h | h)
      · exact h
      · exfalso; apply t1; rw [h]; simp
    · exact .inl
  | true =>
    simp only [if_true]
    constructor
    · rintro (h | h)
      · exfalso; apply s1; rw [← h]; simp
      · exact List.append_cancel_right h
    · rintro rfl; exact .inr rfl

theorem borrows_is (type : Str) (b : Bool) (ht : type = [] ∨ type ∈ scriptLinkTypes) :
    ((type ++ if b then u8!"*" else []).getLast? == some 0x2a) = b := by
  have t1 : type.getLast? ≠ some 0x2a := by
    rcases ht with rfl | ht
    · simp
    · exact (linkTypes_star type ht).2
  cases b with
  | false => simpa using t1
  | true => simp

theorem countRecord_entry (xs : List UcdXml) (es : List UcdEntry) (found : List (Str × List Str)) (h : AllRecords xs es)
    (e : UcdEntry) (he : e.Fits) (hc : ∀ p ∈ e.nelson, 0x2c ∉ p.2) (v : UcdVars) (hv : ∀ f ∈ printFields, v f = e.text f)
    (t : ScriptTotals) :
    t.countRecord (scriptArrays xs found) v =
      match ucdEntryRow es found e with
      | none => addMarks es found t e
      | some r => addRow es (addMarks es found t e) r := by
  have v1 : v .cp = e.cp := hv _ (by decide)
  have v5 : v .mandarin = spaced e.mandarin := hv _ (by decide)
  have v6 : v .nelson = spaced (e.nelson.map fun p => List.replicate p.1 0x30 ++ p.2) := hv _ (by decide)
  have hl := recordLinks_entry xs es found h e he v (fun f hf => hv f (by revert hf; cases f <;> decide))
  have hmk := countMarks_entry xs es found h e he v hv t
  have hf := linksOf_facts xs es found h e he
  have ho := scriptArrays_own xs es found h e.cp
  unfold ScriptTotals.countRecord
  dsimp only
  rw [hmk, hl]
  dsimp only
  rw [recordReadings_entry xs es found h e he v v1]
  unfold ucdEntryRow
  have ht : (linksOf es found e).1 = [] ∨ (linksOf es found e).1 ∈ scriptLinkTypes := by
    rcases hf.2.1 with x | x
    · exact .inl x.1
    · exact .inr x.1
  cases hr : entryReadings es found e with
  | none => rfl
  | some r =>
    obtain ⟨⟨meaning, on, kun⟩, linked⟩ := r
    simp only [Option.map_some]
    -- where the readings come from
    have hd : ((scriptArrays xs found).on e.cp ++ (scriptArrays xs found).kun e.cp ≠ []) ↔ (readingOf es e.cp).isSome = true := by
      rw [ne_eq, ho]; cases readingOf es e.cp <;> simp
    have hlk : (readingOf es e.cp).isSome = false → (((linksOf es found e).2.2.getD [] ≠ []) ↔ linked = true) := by
      intro hx
      unfold entryReadings at hr
      rw [hx] at hr
      simp only [Bool.false_eq_true, if_false] at hr
      cases hy : (linksOf es found e).2.2 with
      | some c =>
        rw [hy] at hr
        have hb : true = linked := congrArg Prod.snd (Option.some.inj hr)
        rw [← hb]
        simp [hf.2.2 c hy]
      | none =>
        rw [hy] at hr
        simp only [] at hr
        cases hz : givenReadings.lookup e.cp with
        | some g => rw [hz] at hr; cases hr; simp
        | none =>
          rw [hz] at hr
          simp only [] at hr
          by_cases hj : inJapan es e.cp = true
          · rw [if_pos hj] at hr; cases hr; simp
          · rw [if_neg hj] at hr; cases hr
    have hown : (readingOf es e.cp).isSome = true → linked = false := by
      intro hx
      unfold entryReadings at hr
      rw [if_pos hx] at hr
      exact (congrArg Prod.snd (Option.some.inj hr)).symm
    have hman : spaced e.mandarin ≠ [] ↔ e.mandarin.headD [] ≠ [] := by
      cases hm : e.mandarin with
      | nil => simp [spaced]
      | cons w ws =>
        have := (he.mandarin w (by rw [hm]; simp)).1
        constructor
        · intro _; exact this
        · intro _ hx
          have h2 := beforeFirst_spaced w ws (he.mandarin w (by rw [hm]; simp))
          rw [hx] at h2
          exact this h2.symm
    have hcm : ∀ w ∈ e.nelson.map (·.2), 0x2c ∉ w := by
      intro w hw
      obtain ⟨p, hp, rfl⟩ := List.mem_map.mp hw
      exact hc p hp
    generalize addMarks es found t e = t0
    have hbool : ∀ s : Str, s ≠ [] ↔ (s != []) = true := fun s => by simp
    unfold ScriptTotals.countReadings addRow
    dsimp only
    rw [v1, v5, v6, nelson_words _ he.nelson, scriptArrays_morohashi xs es found h, scriptArrays_jSource xs es found h,
      setKey_guard, setKey_guard, foldl_cell _ _ hcm]
    have e1 : countLinkType t0.links (linksOf es found e).1 = fun s => t0.links s +
        if s ∈ scriptLinkTypes ∧ (((linksOf es found e).1 ++ if linked then u8!"*" else []) == s ||
          ((linksOf es found e).1 ++ if linked then u8!"*" else []) == s ++ u8!"*") = true then 1 else 0 := by
      unfold countLinkType
      by_cases hx : (linksOf es found e).1 ∈ scriptLinkTypes
      · rw [if_pos hx]
        funext s
        by_cases hs : s = (linksOf es found e).1
        · rw [if_pos hs, if_pos ⟨hs ▸ hx, by rw [linkType_is _ _ _ (hs ▸ hx) ht]; simp [hs]⟩]
        · rw [if_neg hs, if_neg]; rfl
          rintro ⟨hm, hh⟩
          rw [linkType_is _ _ _ hm ht] at hh
          exact hs (of_decide_eq_true hh).symm
      · rw [if_neg hx]
        funext s
        rw [if_neg]; rfl
        rintro ⟨hm, hh⟩
        rw [linkType_is _ _ _ hm ht] at hh
        exact hx (by rw [of_decide_eq_true hh]; exact hm)
    have e2 : (if (scriptArrays xs found).on e.cp ++ (scriptArrays xs found).kun e.cp ≠ [] then t0.direct + 1 else t0.direct) =
        t0.direct + if (readingOf es e.cp).isSome = true then 1 else 0 := by
      by_cases hx : (readingOf es e.cp).isSome = true
      · rw [if_pos (hd.mpr hx), if_pos hx]
      · rw [if_neg (fun y => hx (hd.mp y)), if_neg hx]; rfl
    have e3 : (if (scriptArrays xs found).on e.cp ++ (scriptArrays xs found).kun e.cp ≠ [] then t0.linked
        else if (linksOf es found e).2.2.getD [] ≠ [] then t0.linked + 1 else t0.linked) =
        t0.linked + if linked = true then 1 else 0 := by
      by_cases hx : (readingOf es e.cp).isSome = true
      · rw [if_pos (hd.mpr hx), hown hx]; rfl
      · rw [if_neg (fun y => hx (hd.mp y))]
        have := hlk (by simpa using hx)
        by_cases hy : linked = true
        · rw [if_pos (this.mpr hy), if_pos hy]
        · rw [if_neg (fun z => hy (this.mp z)), if_neg hy]; rfl
    have e4 : ∀ (n : Nat) (c : Prop) [Decidable c] (d : Bool), (c ↔ d = true) → (if c then n + 1 else n) = n + if d = true then 1 else 0 := by
      intro n c _ d hcd
      by_cases hx : c
      · rw [if_pos hx, if_pos (hcd.mp hx)]
      · rw [if_neg hx, if_neg (fun y => hx (hcd.mpr y))]; rfl
    rw [e1, e2, e3, e4 t0.meaning _ _ (hbool meaning), e4 t0.pinyin _ (e.mandarin.headD [] != []) (hman.trans (hbool _)),
      e4 t0.reading (on ++ kun ≠ []) (on != [] || kun != []) (by simp; grind)]
    unfold hasReadings borrows
    rw [borrows_is _ _ ht]

/-! ## All records -/

def addEntry (es : List UcdEntry) (found : List (Str × List Str)) (t : ScriptTotals) (e : UcdEntry) : ScriptTotals :=
  match ucdEntryRow es found e with
  | none => addMarks es found t e
  | some r => addRow es (addMarks es found t e) r

theorem count_entries (xs : List UcdXml) (es : List UcdEntry) (found : List (Str × List Str)) (h : AllRecords xs es) :
    ∀ (ys : List UcdXml) (fs : List UcdEntry), AllRecords ys fs → (∀ e ∈ fs, ∀ p ∈ e.nelson, 0x2c ∉ p.2) →
    ∀ (vars : UcdVars) (t : ScriptTotals),
      ScriptTotals.count (scriptArrays xs found) ys vars t = (fs.filter UcdEntry.kept).foldl (addEntry es found) t
  | [], [], _, _, _, _ => rfl
  | [], _ :: _, h2, _, _, _ => h2.elim
  | _ :: _, [], h2, _, _, _ => h2.elim
  | y :: ys, e :: fs, ⟨⟨hy, he⟩, ht⟩, hc, vars, t => by
    have hf := print_fields y e hy vars
    rw [ScriptTotals.count]
    rw [hf .rsUnicode (by decide), keepsRecord_entry, List.filter_cons,
      count_entries xs es found h ys fs ht fun d hd => hc d (List.mem_cons_of_mem _ hd)]
    by_cases hk : e.kept = true
    · rw [if_pos hk, if_pos hk, List.foldl_cons,
        countRecord_entry xs es found h e he (hc e List.mem_cons_self) _ hf]
      rfl
    · rw [if_neg hk, if_neg hk]

/-- The rows of entries. -/
def rowsOfEntries (es : List UcdEntry) (found : List (Str × List Str)) (l : List UcdEntry) : List UcdRow :=
  l.filterMap (ucdEntryRow es found)

theorem addEntry_fold (es : List UcdEntry) (found : List (Str × List Str)) (l : List UcdEntry) : ∀ t : ScriptTotals,
    l.foldl (addEntry es found) t =
      { joyo := t.joyo + l.countP isListed
        jinmei := t.jinmei + l.countP (standsAlone es found)
        links := fun s => t.links s + if s ∈ scriptLinkTypes then linkRows (rowsOfEntries es found l) s else 0
        meaning := t.meaning + (rowsOfEntries es found l).countP fun r => r.meaning != []
        pinyin := t.pinyin + (rowsOfEntries es found l).countP fun r => r.pinyin != []
        reading := t.reading + (rowsOfEntries es found l).countP hasReadings
        direct := t.direct + (rowsOfEntries es found l).countP fun r => (readingOf es r.code).isSome
        linked := t.linked + (rowsOfEntries es found l).countP borrows
        jSources := ((rowsOfEntries es found l).map (·.jSource)).foldl setKey t.jSources
        morohashis := ((rowsOfEntries es found l).map (·.morohashiId)).foldl setKey t.morohashis
        nelsons := ((rowsOfEntries es found l).flatMap fun r => cellNumbers r.nelsonIds).foldl setKey t.nelsons
        wrote := t.wrote + (rowsOfEntries es found l).length } := by
  induction l with
  | nil => intro t; simp [rowsOfEntries, linkRows]
  | cons e l ih =>
    intro t
    rw [List.foldl_cons, ih, List.countP_cons, List.countP_cons]
    unfold addEntry
    cases hr : ucdEntryRow es found e with
    | none =>
      have : rowsOfEntries es found (e :: l) = rowsOfEntries es found l := by
        unfold rowsOfEntries; rw [List.filterMap_cons, hr]
      rw [this]
      unfold addMarks
      simp only [ScriptTotals.mk.injEq, and_true]
      exact ⟨by omega, by omega⟩
    | some r =>
      have : rowsOfEntries es found (e :: l) = r :: rowsOfEntries es found l := by
        unfold rowsOfEntries; rw [List.filterMap_cons, hr]
      rw [this]
      unfold addMarks addRow linkRows
      simp only [List.countP_cons, List.map_cons, List.flatMap_cons, List.foldl_cons, List.foldl_append, List.length_cons,
        ScriptTotals.mk.injEq, true_and]
      refine ⟨by omega, by omega, ?_, by omega, by omega, by omega, by omega, by omega, by omega⟩
      funext s
      by_cases hs : s ∈ scriptLinkTypes
      · simp only [hs, if_true, true_and]; omega
      · simp only [hs, if_false, false_and]

theorem takeWhile_every {α : Type} (p : α → Bool) : ∀ l : List α, (∀ a ∈ l, p a = true) → l.takeWhile p = l
  | [], _ => rfl
  | a :: l, h => by
    rw [List.takeWhile_cons, if_pos (h a List.mem_cons_self), takeWhile_every p l fun b hb => h b (List.mem_cons_of_mem _ hb)]

/-- The totals, for any records. -/
theorem C198_totals (first second : List UcdXml) (es fs : List UcdEntry) (found : List (Str × List Str))
    (h1 : AllRecords first es) (h2 : AllRecords second fs) (hc : ∀ e ∈ fs, ∀ p ∈ e.nelson, 0x2c ∉ p.2)
    (hx : (ucdScript first second found).2 = true) :
    let t := ucdTotals first second found
    let rows := (ucdScript first second found).1.map ScriptRow.row
    let kept := fs.filter UcdEntry.kept
    t.joyo = kept.countP isListed ∧ t.jinmei = kept.countP (standsAlone es found) ∧
    (∀ s ∈ scriptLinkTypes, t.links s = linkRows rows s) ∧
    t.meaning = rows.countP (fun r => r.meaning != []) ∧ t.pinyin = rows.countP (fun r => r.pinyin != []) ∧
    t.reading = rows.countP hasReadings ∧ t.direct = rows.countP (fun r => (readingOf es r.code).isSome) ∧
    t.linked = rows.countP borrows ∧
    t.jSources.length = differentValues (rows.map (·.jSource)) ∧
    t.morohashis.length = differentValues (rows.map (·.morohashiId)) ∧
    t.nelsons.length = differentValues (rows.flatMap fun r => cellNumbers r.nelsonIds) ∧ t.wrote = rows.length := by
  obtain ⟨r1, r2⟩ := C193_rows first second es fs found h1 h2
  have hm := r2.mp hx
  have hp : ucdPrinted es found fs = fs.filter UcdEntry.kept := by
    unfold ucdPrinted
    apply takeWhile_every
    intro e he
    obtain ⟨h3, h4⟩ := List.mem_filter.mp he
    simpa using hm e h3 h4
  have hrows : (ucdScript first second found).1.map ScriptRow.row = rowsOfEntries es found (fs.filter UcdEntry.kept) := by
    rw [r1, hp]; rfl
  have ht : ucdTotals first second found = _ := (count_entries first es found h1 second fs h2 hc _ {}).trans
    (addEntry_fold es found (fs.filter UcdEntry.kept) {})
  intro t rows kept
  have htt : t = ucdTotals first second found := rfl
  have hrr : rows = rowsOfEntries es found kept := hrows
  rw [htt, ht, hrr]
  refine ⟨by simp [kept], by simp [kept], ?_, by simp [kept], by simp [kept], by simp [kept], by simp [kept], by simp [kept],
    setKeys_length _, setKeys_length _, setKeys_length _, by simp [kept]⟩
  intro s hs
  simp [hs, kept]

end KT
