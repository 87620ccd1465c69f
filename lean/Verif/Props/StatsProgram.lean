import Verif.Lemmas.Tally
import Verif.Props.StatsTotals
import Verif.Props.Percent
import Verif.Props.KanjiArgs
import Verif.Props.Furigana
/-!
# kanjiStats from its arguments to its output (C175)
-/
namespace KT
open Spec

/-! ## What is read -/

theorem stringsOf_eq (joined : Bool) (content : Str) : fileStrings joined content = .ok (stringsOf joined content) := by
  obtain ⟨r, h, _⟩ := C51_content joined content
  rw [stringsOf, h]

/-- The texts of an event. -/
def eventTexts (joined : Bool) : CountEvent → List (Str × Str)
  | .file name content => (stringsOf joined content).map fun s => (s, name)
  | .dir => []
  | .name name => [(name, name)]

/-- A text with its tag. -/
def tagged (addTag : Bool) (t : Str × Str) : Str × Option Str := (t.1, if addTag then some t.2 else none)

theorem eventCalls_eq (joined addTag : Bool) (es : List CountEvent) :
    eventCalls joined addTag es = .ok ((es.flatMap (eventTexts joined)).map (tagged addTag)) := by
  induction es with
  | nil => rfl
  | cons e es ih =>
    cases e with
    | file name content =>
      rw [eventCalls, stringsOf_eq, ih]
      simp [Res.bind, eventTexts, tagged, Function.comp_def]
    | dir => rw [eventCalls, ih]; simp [eventTexts]
    | name name =>
      rw [eventCalls, ih]
      simp [Res.bind, eventTexts, tagged]

theorem addEntries_cons (name : Str) (n : Node) (rest : Entries) :
    addEntries true (.cons name n rest) true = addNode true name n true ++ addEntries true rest true := by
  cases n <;> simp [addEntries, addNode]

mutual
theorem node_texts (joined : Bool) (name : Str) (n : Node) :
    (addNode true name n true).flatMap (eventTexts joined) = nodeTexts joined name n := by
  cases n with
  | file c => simp [addNode, nodeTexts, eventTexts]
  | dir es => simp [addNode, nodeTexts, eventTexts, entry_texts joined es]
  | link t => simp [addNode, nodeTexts]
  | other => simp [addNode, nodeTexts]

theorem entry_texts (joined : Bool) (es : Entries) :
    (addEntries true es true).flatMap (eventTexts joined) = entryTexts joined es := by
  cases es with
  | nil => simp [addEntries, entryTexts]
  | cons name n rest =>
    rw [addEntries_cons, List.flatMap_append, entryTexts, entry_texts joined rest, node_texts joined name n]
end

mutual
theorem node_size (name : Str) (n : Node) :
    ((addNode true name n true).countP (·.isFile), (addNode true name n true).countP (·.isDir)) = nodeSize n := by
  cases n with
  | file c => simp [addNode, nodeSize, CountEvent.isFile, CountEvent.isDir]
  | dir es =>
    have := entries_size es
    rw [Prod.ext_iff] at this
    simp only at this
    simp [addNode, nodeSize, List.countP_append, CountEvent.isFile, CountEvent.isDir, ← this.1, ← this.2]
  | link t => simp [addNode, nodeSize]
  | other => simp [addNode, nodeSize]

theorem entries_size (es : Entries) :
    ((addEntries true es true).countP (·.isFile), (addEntries true es true).countP (·.isDir)) = entriesSize es := by
  cases es with
  | nil => simp [addEntries, entriesSize]
  | cons name n rest =>
    have h1 := entries_size rest
    have h2 := node_size name n
    rw [Prod.ext_iff] at h1 h2
    simp only at h1 h2
    rw [addEntries_cons, List.countP_append, List.countP_append, entriesSize, ← h1.1, ← h1.2, ← h2.1, ← h2.2]
end

/-- The events at a path. -/
theorem addFile_eq (name : Str) (node : Option Node) :
    addFile true true name node = match atPath node with
      | none => .throw .domain
      | some n => .ok (addNode true name n true) := by
  cases node with
  | none => rfl
  | some n =>
    cases n with
    | link t => cases t <;> rfl
    | file c => rfl
    | dir es => rfl
    | other => rfl

/-! ## What is counted -/

theorem addTokens_lists (allow : Str → Bool) (tag : Option Str) (ts : List Str) (st : CountState) (n : Nat) :
    (ts.foldl (CountState.addToken allow tag) (st, n)).1.map = (ts.filter allow).foldl mapInc st.map ∧
    (ts.foldl (CountState.addToken allow tag) (st, n)).1.tags =
      (ts.filter allow).foldl (fun m c => tagIncOpt m c tag) st.tags := by
  induction ts generalizing st n with
  | nil => exact ⟨rfl, rfl⟩
  | cons t ts ih =>
    rw [List.foldl_cons, CountState.addToken]
    by_cases h : allow t = true
    · simp only [h, if_true, List.filter_cons_of_pos, List.foldl_cons]
      exact ih _ _
    · rw [if_neg h, List.filter_cons_of_neg h]
      exact ih _ _

theorem addAll_lists (find : Option (Str → Str)) (allow : Str → Bool) (calls : List (Str × Option Str)) :
    ∀ (st st' : CountState) (n : Nat), st.addAll find allow calls = some (st', n) →
    st'.map = ((countedChars find allow calls).map (·.1)).foldl mapInc st.map ∧
    st'.tags = (countedChars find allow calls).foldl (fun m c => tagIncOpt m c.1 c.2) st.tags := by
  induction calls with
  | nil =>
    intro st st' n h
    rw [CountState.addAll] at h
    cases h
    exact ⟨rfl, rfl⟩
  | cons c calls ih =>
    obtain ⟨s, tag⟩ := c
    intro st st' n h
    rw [CountState.addAll] at h
    cases ha : st.add find allow s tag with
    | none => rw [ha] at h; cases h
    | some p =>
      obtain ⟨st1, n1⟩ := p
      rw [ha] at h
      cases hr : st1.addAll find allow calls with
      | none => simp only [hr] at h; cases h
      | some q =>
        obtain ⟨st2, n2⟩ := q
        simp only [hr] at h
        cases h
        obtain ⟨h1, h2⟩ := ih st1 _ _ hr
        rw [h1, h2, counted_cons, List.map_append, List.foldl_append, List.foldl_append]
        have e : replaced find s = (find.getD id) s := by cases find <;> rfl
        simp only [CountState.add, e] at ha
        unfold charsOf
        cases hu : utf8Chars ((find.getD id) s) with
        | none => rw [hu] at ha; cases ha
        | some u =>
          obtain ⟨ts, cst⟩ := u
          rw [hu] at ha
          simp only [Option.some.injEq, Prod.mk.injEq] at ha
          obtain ⟨g1, g2⟩ := addTokens_lists allow tag ts
            { st with replacements := st.replacements + if (find.getD id) s = s then 0 else 1 } 0
          rw [← ha.1]
          simp only [g1, g2, Option.map_some, Option.getD_some, List.map_map, List.foldl_map, Function.comp_def]
          exact ⟨trivial, trivial⟩

/-- The sources of a character in the map of tags. -/
theorem tagsOf_eq (l : List (Str × Str)) (c : Str) (m : List (Str × List (Str × Nat))) :
    (l.foldl (fun m x => tagInc m x.1 x.2) m).lookup c =
      if l.filter (fun x => x.1 == c) = [] then m.lookup c
      else some (((l.filter fun x => x.1 == c).map (·.2)).foldl mapInc ((m.lookup c).getD [])) := by
  have one : ∀ (m : List (Str × List (Str × Nat))) (k t : Str),
      (tagInc m k t).lookup c = if k == c then some (mapInc ((m.lookup c).getD []) t) else m.lookup c := by
    intro m k t
    induction m with
    | nil =>
      rw [tagInc, lookup_single]
      by_cases h : k = c
      · subst h; simp [mapInc]
      · simp [h]
    | cons p m ih =>
      obtain ⟨a, b⟩ := p
      rw [tagInc]
      by_cases hk : a = k
      · subst hk
        by_cases hc : a = c
        · subst hc; simp
        · have : (c == a) = false := by simpa using Ne.symm hc
          simp [hc, List.lookup_cons, this]
      · have e : (a == k) = false := by simpa using hk
        simp only [e, Bool.false_eq_true, if_false, List.lookup_cons]
        rw [ih]
        cases hc : c == a with
        | false => rfl
        | true =>
          have := eq_of_beq hc
          subst this
          have : (k == c) = false := by simpa using Ne.symm hk
          simp [this]
  induction l generalizing m with
  | nil => simp
  | cons x l ih =>
    rw [List.foldl_cons, ih, one]
    by_cases h : x.1 = c
    · have h' : (x.1 == c) = true := by simpa using h
      rw [List.filter_cons_of_pos (by simpa using h)]
      simp only [h', if_true, Option.getD_some, List.map_cons, List.foldl_cons, reduceCtorEq, if_false]
      split
      · next he => rw [he]; simp
      · rfl
    · have h' : (x.1 == c) = false := by simpa using h
      rw [List.filter_cons_of_neg (by simpa using h)]
      simp [h']

theorem counted_eq (furigana addTag : Bool) (allow : Str → Bool) (texts : List (Str × Str)) :
    countedChars (if !furigana then some furiganaFind else none) allow (texts.map (tagged addTag)) =
      (charsIn furigana allow texts).map (tagged addTag) := by
  have e : (if (!furigana) = true then some furiganaFind else none) = (if furigana then none else some furiganaFind) := by
    cases furigana <;> rfl
  rw [e]
  induction texts with
  | nil => rfl
  | cons t texts ih =>
    rw [List.map_cons, tagged, counted_cons, ih]
    simp [charsIn, tagged, Function.comp_def]

/-- What is known after everything at a path has been read. -/
theorem countRun_eq (furigana addTag : Bool) (allow : Str → Bool) (path : Str) (node : Option Node) :
    (atPath node = none → countRun (!furigana) addTag allow path node = .throw .domain) ∧
    ∀ n, atPath node = some n →
      let texts := nodeTexts (!furigana) (pathFilename path) n
      let cs := charsIn furigana allow texts
      let find := if !furigana then some furiganaFind else none
      ∃ st, countRun (!furigana) addTag allow path node =
          .ok ⟨(nodeSize n).1, (nodeSize n).2, st, (DebugState.addAll furiganaFind {} (texts.map (tagged addTag))).out⟩ ∧
        st.map = incAll (cs.map (·.1)) ∧
        (addTag = true → st.tags = cs.foldl (fun m x => tagInc m x.1 x.2) []) ∧
        st.errors = (texts.map fun c => (endState find c.1).errors).sum ∧
        st.variants = (texts.map fun c => (endState find c.1).variants).sum ∧
        st.combiningMarks = (texts.map fun c => (endState find c.1).combiningMarks).sum ∧
        st.replacements = texts.countP fun c => (find.getD id) c.1 != c.1 := by
  constructor
  · intro h
    rw [countRun, addFile_eq, h]
    rfl
  · intro n h texts cs find
    have hc := counted_eq furigana addTag allow texts
    obtain ⟨st, h1, _⟩ := C50_counts find allow (texts.map (tagged addTag))
    obtain ⟨h2, h3⟩ := addAll_lists _ _ _ _ _ _ h1
    obtain ⟨h4, h5, h6, h7⟩ := C50_counters _ _ _ _ _ h1
    refine ⟨st, ?_, ?_, ?_, ?_, ?_, ?_, ?_⟩
    · rw [countRun, addFile_eq, h]
      simp only [Res.bind]
      rw [eventCalls_eq, node_texts]
      simp only
      have hs := node_size (pathFilename path) n
      rw [Prod.ext_iff] at hs
      simp only at hs
      rw [hs.1, hs.2]
      show (match CountState.addAll find allow {} (texts.map (tagged addTag)) with
        | none => Res.ub
        | some (st, _) => _) = _
      rw [h1]
    · rw [h2, hc, List.map_map]; rfl
    · intro ht
      rw [h3, hc, List.foldl_map]
      subst ht
      rfl
    · rw [h4, List.map_map]; rfl
    · rw [h5, List.map_map]; rfl
    · rw [h6, List.map_map]; rfl
    · rw [h7, List.countP_map]; rfl

/-- The lines changed. -/
theorem debug_eq (texts : List (Str × Str)) (st : DebugState) :
    (DebugState.addAll furiganaFind st (texts.map (tagged true))).out =
      st.out ++ replacementList (st.replacements + 1) st.lastReplaceTag texts := by
  induction texts generalizing st with
  | nil => simp [DebugState.addAll, replacementList]
  | cons t texts ih =>
    obtain ⟨s, source⟩ := t
    rw [List.map_cons, DebugState.addAll, List.foldl_cons]
    have ih := ih (st.add s (furiganaFind s) (some source))
    rw [DebugState.addAll] at ih
    simp only [tagged, if_true] at ih ⊢
    rw [ih, replacementList, DebugState.add]
    by_cases h : furiganaFind s = s
    · simp [h]
    · rw [if_neg h, if_neg h]
      by_cases hs : source = st.lastReplaceTag
      · subst hs; simp
      · simp [hs]

/-! ## The texts -/

theorem examples_eq (l : List StatCount) :
    exampleTexts l = (List.intersperse (u8!", ") (l.map fun c => c.name ++ u8!" " ++ toDec c.count)).flatten := by
  induction l with
  | nil => rfl
  | cons c l ih =>
    cases l with
    | nil => simp [exampleTexts]
    | cons c' l => rw [exampleTexts, ih] <;> simp

theorem mostFrequent_eq (l : List Str) (h : l ≠ []) : highestTag (tally l) = mostFrequent l := by
  have hpos : ∃ t ∈ tally l, 0 < t.2 := by
    obtain ⟨x, r, rfl⟩ := List.exists_cons_of_ne_nil h
    exact ⟨(x, (x :: r).count x), (tally_mem _ _).mpr ⟨by simp, rfl⟩, by simp⟩
  obtain ⟨before, n, after, h1, h2, h3, h4⟩ := C121_highest (tally l) hpos
  generalize highestTag (tally l) = x at h1
  have hd : different l = before.map (·.1) ++ x :: after.map (·.1) := by
    have : (tally l).map (·.1) = different l := by simp [tally, Function.comp_def]
    rw [← this, h1]; simp
  have hcount : ∀ p ∈ tally l, p.2 = l.count p.1 := fun p hp => ((tally_mem l p).mp hp).2
  have hx : n = l.count x := hcount (x, n) (by rw [h1]; simp)
  rw [mostFrequent, hd, List.find?_append]
  have hnone : (before.map (·.1)).find? (fun s => (before.map (·.1) ++ x :: after.map (·.1)).all fun t => l.count t ≤ l.count s) =
      none := by
    rw [List.find?_eq_none]
    intro s hs
    obtain ⟨p, hp, rfl⟩ := List.mem_map.mp hs
    have e := hcount p (by rw [h1]; simp [hp])
    have := h3 p hp
    simp only [List.all_eq_true, decide_eq_true_eq]
    intro hall
    have := hall x (by simp)
    omega
  rw [hnone, Option.none_or, List.find?_cons_of_pos]
  · rfl
  · simp only [List.all_eq_true, decide_eq_true_eq, List.mem_append, List.mem_cons, List.mem_map]
    rintro t (⟨p, hp, rfl⟩ | rfl | ⟨p, hp, rfl⟩)
    · have e := hcount p (by rw [h1]; simp [hp])
      have := h3 p hp
      omega
    · exact Nat.le_refl _
    · have e := hcount p (by rw [h1]; simp [hp])
      have := h4 p hp
      omega

/-- The values of a type: as many as the characters of this type. -/
theorem ofType_tally (find : Str → Option Kanji) (names : List Str) (t : Option KanjiType) :
    countSum (ofType t (predCounts find true (tally names))) = (names.filter fun c => (find c).map (·.type) = t).length ∧
    (ofType t (predCounts find true (tally names))).length =
      (different (names.filter fun c => (find c).map (·.type) = t)).length := by
  have e : ofType t (predCounts find true (tally names)) =
      predCounts find true ((tally names).filter fun p => (find p.1).map (·.type) = t) := by
    simp only [ofType, predCounts, List.filter_map]
    congr 1
    refine List.filter_congr fun p _ => ?_
    rw [Bool.eq_iff_iff]
    simp [StatCount.typeOf]
  have e2 : (tally names).filter (fun p => (find p.1).map (·.type) = t) =
      tally (names.filter fun c => (find c).map (·.type) = t) := by
    refine increasing_ext (·.1) ((tally_sorted _).filter _) (tally_sorted _) ?_
    intro p
    simp only [List.mem_filter, tally_mem, decide_eq_true_eq]
    constructor
    · rintro ⟨⟨h1, h2⟩, h3⟩
      refine ⟨⟨h1, h3⟩, ?_⟩
      rw [h2, List.count_filter (by simpa using h3)]
    · rintro ⟨⟨h1, h3⟩, h2⟩
      refine ⟨⟨h1, ?_⟩, h3⟩
      rw [h2, List.count_filter (by simpa using h3)]
  rw [e, e2]
  generalize names.filter (fun c => (find c).map (·.type) = t) = mine
  constructor
  · have := byKey_total mine
    rw [byKey_incAll, predTotal, foldl_add_sum, Nat.zero_add] at this
    simp only [countSum, predCounts, List.map_map, Function.comp_def]
    exact this
  · simp [predCounts, tally]

/-- The lines for the types. -/
theorem typeLines_eq (m : UInt16) (find : Str → Option Kanji) (names : List Str) (shown : List StatCount)
    (h : SetBuilt (StatCount.lt m) (predCounts find true (tally names)) shown) :
    (typeLines percentText names.length shown).flatten = allKanjiTypes.flatMap (typeSummary find names shown) := by
  have hnd : ((predCounts find true (tally names)).map (·.name)).Nodup := by
    have e : (predCounts find true (tally names)).map (·.name) = different names := by
      simp [predCounts, tally, Function.comp_def]
    rw [e]
    refine (different_sorted names).imp ?_
    intro a b hab e
    rw [e, strLt_total.irrefl] at hab
    exact absurd hab (by simp)
  have hp := C117_all m h hnd
  rw [C117_types]
  generalize allKanjiTypes = ts
  induction ts with
  | nil => rfl
  | cons t ts ih =>
    rw [List.flatMap_cons, ← ih]
    obtain ⟨h1, h2⟩ := ofType_tally find names t
    have hpt : (ofType t shown).Perm (ofType t (predCounts find true (tally names))) := hp.filter _
    have h1' : countSum (ofType t shown) = (names.filter fun c => (find c).map (·.type) = t).length := by
      rw [← h1, countSum, countSum, (hpt.map _).sum_nat]
    have h2' : (ofType t shown).length = (different (names.filter fun c => (find c).map (·.type) = t)).length := by
      rw [← h2, hpt.length_eq]
    unfold typeSummary
    by_cases hm : names.filter (fun c => (find c).map (·.type) = t) = []
    · have : ofType t shown = [] := by
        rw [← List.length_eq_zero_iff, h2', hm]; rfl
      rw [List.filter_cons_of_neg (by simpa using this)]
      simp only [hm, if_true, List.nil_append]
    · have : ofType t shown ≠ [] := by
        intro he
        rw [he] at h2'
        obtain ⟨x, r, hx⟩ := List.exists_cons_of_ne_nil hm
        have hx : x ∈ different (names.filter fun c => (find c).map (·.type) = t) := by
          rw [different_mem, hx]; simp
        rw [List.eq_nil_of_length_eq_zero h2'.symm] at hx
        simp at hx
      rw [List.filter_cons_of_pos (by simpa using this), List.map_cons, List.flatten_cons]
      have ef : shown.filter (fun c => c.entry.map (·.type) = t) = ofType t shown := by
        refine List.filter_congr fun p _ => ?_
        rw [Bool.eq_iff_iff]
        simp [StatCount.typeOf]
      congr 1
      rw [if_neg hm, typeLine, h1', h2', ef, examples_eq, fewExamples, totalAndUnique, summary]

/-- The list of all characters. -/
theorem breakdown_eq (breakdown : Bool) (cs : List (Str × Str)) (tags : Str → Option (List (Str × Nat)))
    (ht : ∀ s, tags s = ((cs.foldl (fun m x => tagInc m x.1 x.2) []).lookup s).map byKey) (shown : List StatCount)
    (hs : ∀ c ∈ shown, c.name ∈ cs.map (·.1)) :
    breakdownLines breakdown tags shown = (shown.zipIdx 1).map fun p => listLine breakdown cs p.2 p.1 := by
  unfold breakdownLines
  refine List.map_congr_left ?_
  rintro ⟨c, rank⟩ hm
  have hc : c ∈ shown := by
    obtain ⟨_, _, e⟩ := List.mem_zipIdx hm
    rw [e]
    exact List.getElem_mem _
  have hne : (cs.filter fun x => x.1 == c.name) ≠ [] := by
    obtain ⟨x, hx, e⟩ := List.mem_map.mp (hs c hc)
    intro h0
    have : x ∈ cs.filter fun x => x.1 == c.name := List.mem_filter.mpr ⟨hx, by simpa using e⟩
    rw [h0] at this
    simp at this
  have htag : tags c.name = some (tally ((cs.filter fun x => x.1 == c.name).map (·.2))) := by
    rw [ht, tagsOf_eq, if_neg hne, Option.map_some]
    congr 1
    exact byKey_incAll _
  unfold breakdownLine listLine
  have hne' : (cs.filter fun x => x.1 == c.name).map (·.2) ≠ [] := fun e => hne (List.map_eq_nil_iff.mp e)
  rw [htag]
  simp only [mostFrequent_eq _ hne', Option.isNone_iff_eq_none]

/-- What is said about a category by its name. -/
structure CategoryNamed (c : Category) : Prop where
  furigana : (decide (c.name = u8!"Hiragana") || decide (c.name = u8!"Katakana") || decide (c.name = u8!"MB-Letter")) =
    !c.furigana
  kanji : predIsKanji c.name = c.kanji
  listed : decide (c.name = u8!"Unrecognized") = c.listed
  common : (c.kanji && (u8!"Common").isPrefixOf c.name) = c.common
  known : (!(u8!"Non-UCD").isPrefixOf c.name) = (c.name != u8!"Non-UCD Kanji")

theorem categories_named (ucd : Str → Bool) : ∀ c ∈ categories ucd, CategoryNamed c := by
  simp only [categories, List.mem_cons, List.not_mem_nil, or_false]
  rintro c (rfl | rfl | rfl | rfl | rfl | rfl | rfl | rfl | rfl) <;> constructor <;> rfl

/-- The part of the report for a category. -/
theorem report_eq (d : StatsData) (m : UInt16) (hset : ∀ xs, SetBuilt (StatCount.lt m) xs (d.set xs)) (c : Category)
    (hc : CategoryNamed c) (breakdown : Bool) (cs : List (Str × Str)) (tags : Str → Option (List (Str × Nat)))
    (ht : c.kanji = true ∨ c.listed = true →
      ∀ s, tags s = ((cs.foldl (fun m x => tagInc m x.1 x.2) []).lookup s).map byKey) :
    predText percentText c.name breakdown tags cs.length (d.set (predCounts d.findByName c.kanji (tally (cs.map (·.1))))) =
      c.report d breakdown cs := by
  have hnd : ((tally (cs.map (·.1))).map (·.1)).Nodup := by
    refine List.pairwise_map.mpr ((tally_sorted _).imp ?_)
    intro a b hab e
    rw [e, strLt_total.irrefl] at hab
    exact absurd hab (by simp)
  have hb := hset (predCounts d.findByName c.kanji (tally (cs.map (·.1))))
  obtain ⟨h1, _, h3⟩ := C117_numbers m d.findByName c.kanji _ hnd hb
  have h1 : (d.set (predCounts d.findByName c.kanji (tally (cs.map (·.1))))).length = (different (cs.map (·.1))).length := by
    rw [h1]; simp [tally]
  unfold predText Category.report
  rw [hc.kanji]
  simp only [hc.listed, hc.common]
  by_cases h0 : cs = []
  · simp [h0]
  rw [if_neg (by simpa using h0), if_neg h0, h1]
  have hshown : (d.set ((tally (cs.map (·.1))).map fun p => ⟨p.2, p.1, if c.kanji then d.findByName p.1 else none⟩)) =
      d.set (predCounts d.findByName c.kanji (tally (cs.map (·.1)))) := rfl
  rw [hshown]
  have hmem : ∀ x ∈ d.set (predCounts d.findByName c.kanji (tally (cs.map (·.1)))), x.name ∈ cs.map (·.1) := by
    intro x hx
    exact ((tally_mem _ _).mp ((h3 x).mp hx).1).1
  congr 1
  · congr 1
    cases hcom : c.common with
    | true =>
      have hk : c.kanji = true := by
        have := hc.common
        rw [hcom, Bool.and_eq_true] at this
        exact this.1
      rw [if_pos rfl, if_pos rfl]
      congr 1
      rw [hk] at hb ⊢
      have := typeLines_eq m d.findByName (cs.map (·.1)) _ hb
      rw [List.length_map] at this
      exact this
    | false =>
      simp only [Bool.false_eq_true, if_false]
      cases c.kanji with
      | true =>
        simp only [if_true, rareExamples, examples_eq]
        rfl
      | false => rfl
  · cases hl : c.listed with
    | true =>
      simp only [Bool.true_or, if_true]
      rw [breakdown_eq breakdown cs tags (ht (.inr hl)) _ hmem, breakdownHeading, hc.known]
    | false =>
      cases hk : c.kanji with
      | false => simp
      | true =>
        cases breakdown with
        | false => simp
        | true =>
          simp only [Bool.true_and, Bool.or_true, if_true]
          rw [hk] at hmem
          rw [breakdown_eq true cs tags (ht (.inl hk)) _ hmem, breakdownHeading, hc.known]
          simp only [List.append_assoc, Bool.true_and]

/-- One category of the report. -/
theorem pred_eq (d : StatsData) (m : UInt16) (hset : ∀ xs, SetBuilt (StatCount.lt m) xs (d.set xs)) (c : Category)
    (hc : CategoryNamed c) (breakdown verbose first : Bool) (path : Str) (node : Option Node) :
    (atPath node = none → predRun d c.name c.allow breakdown verbose first path node = .throw .domain) ∧
    ∀ n, atPath node = some n → (first = true → c.furigana = false) →
      let texts := nodeTexts true (pathFilename path) n
      predRun d c.name c.allow breakdown verbose first path node =
        .ok ((if decide (c.name = u8!"Hiragana") && verbose then
            u8!">>> Showing all Furigana replacements:\n" ++ replacementList 1 [] texts else []) ++
          (if first then heading (shownPath path) n texts else []) ++
          c.report d breakdown (c.chars (pathFilename path) n), (c.chars (pathFilename path) n).length) := by
  unfold predRun
  simp only [hc.furigana, hc.kanji, hc.listed]
  constructor
  · intro h
    rw [(countRun_eq c.furigana _ c.allow path node).1 h]
    rfl
  · intro n hn hfirst
    obtain ⟨st, h1, h2, h3, h4, h5, h6, h7⟩ :=
      (countRun_eq c.furigana (c.kanji || c.listed || decide (c.name = u8!"Hiragana") && verbose) c.allow path node).2 n hn
    rw [h1]
    simp only [Res.bind, Res.ok.injEq, Prod.mk.injEq]
    have hchars : charsIn c.furigana c.allow (nodeTexts (!c.furigana) (pathFilename path) n) =
        c.chars (pathFilename path) n := rfl
    rw [hchars] at h2 h3
    have ht : predTotal (byKey st.map) = (c.chars (pathFilename path) n).length := by
      rw [h2, byKey_total, List.length_map]
    refine ⟨?_, ht⟩
    congr 1
    · congr 1
      · cases hh : decide (c.name = u8!"Hiragana") && verbose with
        | false => rfl
        | true =>
          rw [Bool.and_eq_true] at hh
          have hf : c.furigana = false := by
            have := hc.furigana
            rw [hh.1] at this
            simpa using this.symm
          simp only [if_true, Bool.or_true, hf, Bool.not_false]
          rw [debug_eq]
          rfl
      · cases hf : first with
        | false => rfl
        | true =>
          have hfu := hfirst hf
          rw [if_pos rfl, if_pos rfl, C119_partial]
          simp only [hfu, Bool.not_false, if_true] at h4 h5 h6 h7
          unfold heading
          simp only [h4, h5, h6, h7]
          rfl
    · rw [ht, h2, byKey_incAll]
      refine report_eq d m hset c hc breakdown _ _ ?_
      intro hk s
      have : (c.kanji || c.listed || decide (c.name = u8!"Hiragana") && verbose) = true := by
        rcases hk with h | h <;> simp [h]
      rw [CountState.tagsOf, h3 this]

/-! ## Paths -/

theorem pathFilename_snoc (p : Str) (b : UInt8) :
    pathFilename (p ++ [b]) = if b = 0x2f then [] else pathFilename p ++ [b] := by
  unfold pathFilename
  rw [List.reverse_append]
  by_cases h : b = 0x2f
  · subst h; rfl
  · simp [h]

theorem parts_cons (a : UInt8) (p : Str) :
    pathParts (a :: p) = if a = 0x2f then [] :: pathParts p else (pathParts p).modifyHead (a :: ·) := by
  unfold pathParts List.splitOn
  rw [List.splitOnP_cons_eq_if_modifyHead]
  by_cases h : a = 0x2f
  · subst h; rfl
  · simp [h]

theorem parts_snoc (p : Str) (b : UInt8) :
    ∃ front last, pathParts p = front ++ [last] ∧
      pathParts (p ++ [b]) = if b = 0x2f then front ++ [last, []] else front ++ [last ++ [b]] := by
  have e0 : pathParts [] = [[]] := by decide
  induction p with
  | nil =>
    refine ⟨[], [], e0, ?_⟩
    rw [List.nil_append, parts_cons, e0]
    rfl
  | cons a p ih =>
    obtain ⟨front, last, h1, h2⟩ := ih
    rw [List.cons_append, parts_cons, parts_cons, h1, h2]
    by_cases ha : a = 0x2f
    · refine ⟨[] :: front, last, by simp [ha], ?_⟩
      by_cases hb : b = 0x2f <;> simp [ha, hb]
    · cases front with
      | nil =>
        refine ⟨[], a :: last, by simp [ha], ?_⟩
        by_cases hb : b = 0x2f <;> simp [ha, hb]
      | cons f front =>
        refine ⟨(a :: f) :: front, last, by simp [ha], ?_⟩
        by_cases hb : b = 0x2f <;> simp [ha, hb]

theorem pathFilename_eq (p : Str) : pathFilename p = lastPart p := by
  refine snoc_induction (P := fun p => pathFilename p = lastPart p) (by decide) ?_ p
  intro p b ih
  obtain ⟨front, last, h1, h2⟩ := parts_snoc p b
  rw [pathFilename_snoc, ih, lastPart, lastPart, h1, h2]
  by_cases hb : b = 0x2f <;> simp [hb]

theorem shownPath_eq (p : Str) : shownPath p = lastName p := by
  have key : ∀ p : Str, shownPath p = parentFilename p := by
    intro p
    unfold shownPath
    split
    · next h =>
      have : p.reverse.dropWhile (· == 0x2f) = p.reverse := by
        unfold pathFilename at h
        cases hr : p.reverse with
        | nil => rfl
        | cons b r =>
          rw [hr] at h
          rw [List.dropWhile_cons_of_neg]
          intro hb
          have : b = 0x2f := by simpa using hb
          subst this
          exact h (by rw [List.takeWhile_cons_of_neg (by decide)]; rfl)
      rw [parentFilename, this, List.reverse_reverse]
    · rfl
  rw [key]
  refine snoc_induction (P := fun p => parentFilename p = lastName p) (by decide) ?_ p
  intro p b ih
  obtain ⟨front, last, h1, h2⟩ := parts_snoc p b
  by_cases hb : b = 0x2f
  · rw [parentFilename, List.reverse_append, hb]
    show parentFilename p = _
    rw [hb] at h2
    rw [ih, lastName, lastName, h1, h2]
    simp [List.filter_append]
  · rw [← key, shownPath, pathFilename_snoc, if_neg hb, if_pos (by simp), pathFilename_eq, lastPart, h1, lastName, h2,
      if_neg hb, List.filter_append]
    simp

/-! ## The report -/

theorem each_values {α β : Type} (f : α → Res β) (g : α → β) (l : List α) (h : ∀ a ∈ l, f a = .ok (g a)) :
    Res.each f l = .ok (l.map g) := by
  induction l with
  | nil => rfl
  | cons a l ih =>
    rw [Res.each, h a (by simp), ih fun b hb => h b (by simp [hb])]
    rfl

theorem each_map {α β γ : Type} (f : β → Res γ) (g : α → β) (l : List α) :
    Res.each f (l.map g) = Res.each (fun a => f (g a)) l := by
  induction l with
  | nil => rfl
  | cons a l ih => rw [List.map_cons, Res.each, Res.each, ih]

theorem countKanji_none (d : StatsData) (breakdown verbose : Bool) (path : Str) (node : Option Node)
    (h : atPath node = none) : countKanji d breakdown verbose path node = .throw .domain := by
  unfold countKanji predRun countRun
  rw [addFile_eq, h]
  rfl

/-- The report for a file or directory is the one specified. -/
theorem C175_report (d : StatsData) (m : UInt16) (hset : ∀ xs, SetBuilt (StatCount.lt m) xs (d.set xs))
    (breakdown verbose : Bool) (path : Str) (node : Option Node) (n : Node) (hn : atPath node = some n) :
    countKanji d breakdown verbose path node = .ok (statsReport d breakdown verbose path n) := by
  let first (p : Category × Nat) : Str × (Str → Bool) × Bool := (p.1.name, p.1.allow, p.2 == 0)
  let run (q : Str × (Str → Bool) × Bool) : Res (Str × Nat) := predRun d q.1 q.2.1 breakdown verbose q.2.2 path node
  have e1 : Res.each (fun p : Str × Nat => predRun d p.1 (statAllow d.ucd p.2) breakdown verbose (p.2 == 0) path node)
      predNames.zipIdx = Res.each (fun p => run (first p)) (categories d.ucd).zipIdx := by
    rw [← each_map run first]
    have : (categories d.ucd).zipIdx.map first =
        predNames.zipIdx.map fun p => (p.1, statAllow d.ucd p.2, p.2 == 0) := rfl
    rw [this, each_map]
  let texts := nodeTexts true (lastPart path) n
  let result (p : Category × Nat) : Str × Nat :=
    ((if decide (p.1.name = u8!"Hiragana") && verbose then
        u8!">>> Showing all Furigana replacements:\n" ++ replacementList 1 [] texts else []) ++
      (if p.2 == 0 then heading (lastName path) n texts else []) ++
      p.1.report d breakdown (p.1.chars (lastPart path) n), (p.1.chars (lastPart path) n).length)
  have e2 : Res.each (fun p => run (first p)) (categories d.ucd).zipIdx = .ok ((categories d.ucd).zipIdx.map result) := by
    refine each_values _ _ _ ?_
    rintro ⟨c, i⟩ hm
    have hc : c ∈ categories d.ucd := by
      obtain ⟨_, _, e⟩ := List.mem_zipIdx hm
      rw [e]
      exact List.getElem_mem _
    have := (pred_eq d m hset c (categories_named d.ucd c hc) breakdown verbose (i == 0) path node).2 n hn (by
      intro h0
      have h0 : i = 0 := by simpa using h0
      subst h0
      obtain ⟨_, _, e⟩ := List.mem_zipIdx hm
      rw [e]
      rfl)
    rw [pathFilename_eq, shownPath_eq] at this
    exact this
  have e3 : (((categories d.ucd).zipIdx.map result).map (·.1)).flatten =
      (if verbose then u8!">>> Showing all Furigana replacements:\n" ++ replacementList 1 [] texts else []) ++
      heading (lastName path) n texts ++
      (categories d.ucd).flatMap (fun c => c.report d breakdown (c.chars (lastPart path) n)) := by
    have hh : ∀ s ∈ predNames.drop 1, decide (s = u8!"Hiragana") = false := by decide
    simp only [predNames, List.drop_succ_cons, List.drop_zero, List.mem_cons, List.not_mem_nil, or_false, forall_eq_or_imp,
      forall_eq] at hh
    obtain ⟨x1, x2, x3, x4, x5, x6, x7, x8⟩ := hh
    simp only [categories, List.zipIdx_cons, List.zipIdx_nil, List.map_cons, List.map_nil, result, x1, x2, x3, x4, x5, x6, x7,
      x8, List.flatMap_cons, List.flatMap_nil, List.flatten_cons, List.flatten_nil]
    simp
  have e4 : predNames.zip (((categories d.ucd).zipIdx.map result).map (·.2)) =
      predNames.zip ((categories d.ucd).map fun c => (c.chars (lastPart path) n).length) := rfl
  unfold countKanji statsReport
  rw [e1, e2]
  simp only [Res.bind]
  rw [e3, e4]
  have e5 : ∀ count : Category → Nat, (((categories d.ucd).filter (·.kanji)).map count).sum =
      count ⟨u8!"Common Kanji", fun x => isCommonKanji x && d.ucd x, true, true, true, false⟩ +
      count ⟨u8!"Rare Kanji", fun x => isRareKanji x && d.ucd x, true, true, false, false⟩ +
      count ⟨u8!"Non-UCD Kanji", fun x => isKanji x && !d.ucd x, true, true, false, false⟩ := by
    intro count
    simp only [categories, List.filter_cons, Bool.false_eq_true, if_false, if_true, List.filter_nil, List.map_cons,
      List.map_nil, List.sum_cons, List.sum_nil]
    omega
  rw [e5]
  simp only [categories, List.map_cons, List.map_nil]
  rw [C120_text]
  rfl

/-! ## The program -/

theorem statsLoopWhy_end (args : List Str) (b v : Bool) (files : List Str) :
    statsLoopWhy args b true v files = .ok (.count (files ++ args) b v) := by
  induction args generalizing files with
  | nil => simp [statsLoopWhy]
  | cons a r ih => rw [statsLoopWhy, if_neg (by simp), ih]; simp

/-- The arguments with the messages: the same decisions as before (C79). -/
theorem statsLoopWhy_eq (args : List Str) (b v : Bool) (files : List Str) :
    statsLoopWhy args b false v files = match otherOption args with
      | some a => if a = u8!"-h" then .ok .help else .error (u8!"illegal option '" ++ a ++ u8!"' use -h for help")
      | none => .ok (.count (files ++ (optionPart args).filter (fun a => !isOption a) ++ filePart args)
          (b || (optionPart args).contains (u8!"-b")) (v || (optionPart args).contains (u8!"-v"))) := by
  induction args generalizing b v files with
  | nil => simp [statsLoopWhy, otherOption, optionPart, filePart]
  | cons a r ih =>
    rw [statsLoopWhy]
    by_cases hd : a = u8!"--"
    · subst hd
      rw [if_pos (by decide), if_neg (by decide), if_neg (by decide), if_neg (by decide), if_pos rfl,
        statsLoopWhy_end]
      simp [otherOption, optionPart, filePart]
    · have ho : optionPart (a :: r) = a :: optionPart r := by
        simp [optionPart, hd]
      have hf : filePart (a :: r) = filePart r := by
        simp [filePart, hd]
      by_cases hm : (u8!"-").isPrefixOf a = true
      · rw [if_pos (by simp [hm])]
        by_cases h1 : a = u8!"-h"
        · subst h1; simp only [otherOption, ho]; rw [List.find?_cons_of_pos (by decide)]; rfl
        · rw [if_neg h1]
          by_cases h2 : a = u8!"-b"
          · subst h2
            rw [if_pos rfl, ih]
            simp only [otherOption, ho, hf]
            rw [List.find?_cons_of_neg (by decide), List.filter_cons_of_neg (by decide)]
            simp
          · rw [if_neg h2]
            by_cases h3 : a = u8!"-v"
            · subst h3
              rw [if_pos rfl, ih]
              simp only [otherOption, ho, hf]
              rw [List.find?_cons_of_neg (by decide), List.filter_cons_of_neg (by decide)]
              simp
            · rw [if_neg h3, if_neg hd]
              simp only [otherOption, ho]
              rw [List.find?_cons_of_pos (by simp [isOption, hm, h2, h3])]
              simp only [if_neg h1]
      · have e1 : isOption a = false := by simpa only [isOption, Bool.not_eq_true] using hm
        have e2 : a ≠ u8!"-b" := by rintro rfl; exact hm (by decide)
        have e3 : a ≠ u8!"-v" := by rintro rfl; exact hm (by decide)
        rw [if_neg (by simp [hm]), ih]
        simp only [otherOption, ho, hf]
        rw [List.find?_cons_of_neg (by simp [e1]), List.filter_cons_of_pos (by simp [e1])]
        simp [Ne.symm e2, Ne.symm e3]

/-- What the program writes for its arguments, and the message it ends with, if any. -/
def statsOutput (d : StatsData) (debug : Bool) (fs : Str → Option Node) (args : List Str) : Str × Option Str :=
  match otherOption args with
  | some a =>
    if a = u8!"-h" then (textOf statsHelp, none)
    else ([], some (u8!"illegal option '" ++ a ++ u8!"' use -h for help"))
  | none =>
    let files := (optionPart args).filter (fun a => !isOption a) ++ filePart args
    if debug = false ∧ files = [] then ([], some (u8!"please specify at least one option or '-h' for help"))
    else statsReports d ((optionPart args).contains (u8!"-b")) ((optionPart args).contains (u8!"-v")) fs files

/-- The reports up to the first path that doesn't exist, whose name is in the message. -/
theorem C175_files (d : StatsData) (m : UInt16) (hset : ∀ xs, SetBuilt (StatCount.lt m) xs (d.set xs))
    (breakdown verbose : Bool) (fs : Str → Option Node) (files : List Str) :
    statsFiles d breakdown verbose fs files =
      .ok ((statsReports d breakdown verbose fs files).1, match (statsReports d breakdown verbose fs files).2 with
        | none => .ok ()
        | some m => .error m) := by
  induction files with
  | nil => rfl
  | cons f r ih =>
    rw [statsFiles, statsReports]
    cases h : atPath (fs f) with
    | none => rw [countKanji_none d breakdown verbose f (fs f) h]
    | some n =>
      rw [C175_report d m hset breakdown verbose f (fs f) n h]
      simp only [ih, Res.bind]

/-- The program writes what is specified for its arguments. -/
theorem C175_program (d : StatsData) (m : UInt16) (hset : ∀ xs, SetBuilt (StatCount.lt m) xs (d.set xs)) (debug : Bool)
    (fs : Str → Option Node) (args : List Str) :
    runStats d debug fs args = .ok ((statsOutput d debug fs args).1, match (statsOutput d debug fs args).2 with
      | none => .ok ()
      | some m => .error m) := by
  unfold runStats statsOutput statsWhy
  rw [statsLoopWhy_eq]
  cases otherOption args with
  | some a => by_cases h : a = u8!"-h" <;> simp [h]
  | none =>
    simp only [List.nil_append, Bool.false_or]
    generalize (optionPart args).filter (fun a => !isOption a) ++ filePart args = files
    by_cases h1 : debug = false ∧ files = []
    · rw [if_pos h1, if_pos (by simp [h1])]
    · rw [if_neg h1, if_neg (by
        intro h
        apply h1
        simpa using h)]
      exact C175_files d m hset _ _ fs files

/-- From the command line to the output and the exit code; the program doesn't crash. -/
theorem C175_main (d : StatsData) (m : UInt16) (hset : ∀ xs, SetBuilt (StatCount.lt m) xs (d.set xs)) (debug : Bool)
    (fs : Str → Option Node) (argv : List Str) (hn : argv.length < 65535) :
    mainStats d debug fs argv =
      let o := statsOutput d debug fs (programArgs false (argv.drop 1))
      some (.ok (o.1, match o.2 with
        | none => ([], 0)
        | some m => (m ++ u8!"\n", 1))) := by
  unfold mainStats
  rw [C45_args_partial argv (by omega) (by omega) _ (by omega)]
  simp only [Option.map_some, Res.bind]
  rw [C175_program d m hset]
  cases (statsOutput d debug fs (programArgs false (argv.drop 1))).2 <;> rfl

end KT
