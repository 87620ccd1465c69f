import Verif.Model.LoadReport
import Verif.Props.TextKanjiData
import Verif.Props.KanjiErrors
import Verif.Props.QuizScreen
/-!
# C140, C141, C142: texts printed while loading

Model: `Verif/Model/LoadReport.lean`.
-/
namespace KT

/-! ## C140 -/

theorem addToList_lists {kind : ListKind} {d d' : KanjiStore} {k : KanjiRec} (h : d.addToList kind k = .ok d') :
    d'.nameMap = d.nameMap ∧ d'.compatMap = d.compatMap := by
  unfold KanjiStore.addToList at h
  cases kind with
  | kyu q =>
    simp only [KanjiStore.addToKyus] at h
    split at h
    · cases h; exact ⟨rfl, rfl⟩
    · cases h
  | level l =>
    simp only [KanjiStore.addToLevels] at h
    split at h
    · cases h; exact ⟨rfl, rfl⟩
    · cases h
  | frequency =>
    simp only [KanjiStore.addToFrequencies] at h
    obtain ⟨f, _, h⟩ := Res.bind_eq_ok h
    cases h; exact ⟨rfl, rfl⟩

/-- The kanji loaded don't depend on what is logged. -/
theorem C140_store (c : KanjiCtx) (ic : IdCtx) (kind : ListKind) (debug : Bool) (names : List Str) (i : Nat)
    (d : KanjiStore) (log : ListLog) :
    ((KanjiStore.processListLog c ic kind debug i names d log).bind fun r => .ok r.1) =
      KanjiStore.processList c ic kind i names d := by
  induction names generalizing i d log with
  | nil => rfl
  | cons n ns ih =>
    rw [KanjiStore.processListLog, KanjiStore.processList]
    cases d.findByName n with
    | some k =>
      simp only
      cases d.addToList kind k with
      | ok d' => exact ih _ _ _
      | throw e => rfl
      | ub => rfl
    | none =>
      simp only
      cases newListKanji c ic kind i n with
      | throw e => rfl
      | ub => rfl
      | ok k =>
        simp only [Res.bind]
        cases (d.checkInsertType kind.newType k (c.findUcd k.kanji.name)).1.addToList kind k with
        | ok d' => exact ih _ _ _
        | throw e => rfl
        | ub => rfl

/-- Nothing is logged for kyu lists or without debug mode. -/
theorem C140_silent (c : KanjiCtx) (ic : IdCtx) (kind : ListKind) (debug : Bool) (names : List Str) (i : Nat)
    (d d' : KanjiStore) (log log' : ListLog) (hq : debug = false ∨ ∃ q, kind = .kyu q)
    (h : KanjiStore.processListLog c ic kind debug i names d log = .ok (d', log')) : log' = log := by
  have hf : ∀ t n, log.addFound debug kind t n = log := by
    intro t n
    unfold ListLog.addFound
    rw [if_neg]
    rintro ⟨a, b, _⟩
    rcases hq with e | e
    · rw [a] at e; cases e
    · obtain ⟨q, rfl⟩ := e; cases b
  have hc : ∀ n, log.addCreated debug kind n = log := by
    intro n
    unfold ListLog.addCreated
    rw [if_neg]
    rintro ⟨a, b⟩
    rcases hq with e | e
    · rw [a] at e; cases e
    · obtain ⟨q, rfl⟩ := e; cases b
  induction names generalizing i d with
  | nil => cases h; rfl
  | cons n ns ih =>
    rw [KanjiStore.processListLog] at h
    cases hfn : d.findByName n with
    | some k =>
      rw [hfn] at h
      obtain ⟨d1, _, h⟩ := Res.bind_eq_ok h
      rw [hf] at h
      exact ih _ _ h
    | none =>
      rw [hfn] at h
      obtain ⟨k, _, h⟩ := Res.bind_eq_ok h
      obtain ⟨d1, _, h⟩ := Res.bind_eq_ok h
      rw [hc] at h
      exact ih _ _ h

/-- The kanji found for the entries of a list, each when it is its turn. -/
inductive EntriesFound (c : KanjiCtx) (ic : IdCtx) (kind : ListKind) :
    Nat → KanjiStore → List Str → List (Str × Option KanjiRec) → Prop
  | nil (i d) : EntriesFound c ic kind i d [] []
  | cons (i d d' n ns es) : KanjiStore.processList c ic kind i [n] d = .ok d' → EntriesFound c ic kind (i + 1) d' ns es →
      EntriesFound c ic kind i d (n :: ns) ((n, d.findByName n) :: es)

theorem EntriesFound.names {c : KanjiCtx} {ic : IdCtx} {kind : ListKind} {i : Nat} {d : KanjiStore} {ns : List Str}
    {es : List (Str × Option KanjiRec)} (h : EntriesFound c ic kind i d ns es) : es.map (·.1) = ns := by
  induction h with
  | nil => rfl
  | cons i d d' n ns es _ _ ih => rw [List.map_cons, ih]

/-- In debug mode `created` are the entries for which there was no kanji and `found` those with a kanji of the type, except
for Jouyou, in the order of the list. -/
theorem C140_log (c : KanjiCtx) (ic : IdCtx) (kind : ListKind) (names : List Str) (i : Nat)
    (d d' : KanjiStore) (log log' : ListLog) (hq : kind.isKyu = false)
    (h : KanjiStore.processListLog c ic kind true i names d log = .ok (d', log')) :
    ∃ es, EntriesFound c ic kind i d names es ∧
      log'.created = log.created ++ (es.filter fun e => e.2.isNone).map (·.1) ∧
      ∀ t, log'.found t = log.found t ++
        (es.filter fun e => t ≠ .jouyou ∧ e.2.map (·.kanji.type) = some t).map (·.1) := by
  induction names generalizing i d log with
  | nil => cases h; exact ⟨[], .nil _ _, by simp, by simp⟩
  | cons n ns ih =>
    rw [KanjiStore.processListLog] at h
    cases hfn : d.findByName n with
    | some k =>
      rw [hfn] at h
      obtain ⟨d1, h1, h⟩ := Res.bind_eq_ok h
      obtain ⟨es, g1, g2, g3⟩ := ih _ _ _ h
      refine ⟨(n, d.findByName n) :: es, .cons i d d1 n ns es ?_ g1, ?_, ?_⟩
      · rw [KanjiStore.processList, hfn]
        simp only [h1]
        rfl
      · rw [g2, hfn]
        have : (log.addFound true kind k.kanji.type n).created = log.created := by
          unfold ListLog.addFound; split <;> rfl
        rw [this, List.filter_cons_of_neg (by simp)]
      · intro t
        rw [g3, hfn]
        unfold ListLog.addFound
        by_cases hj : k.kanji.type = .jouyou
        · rw [if_neg (by simp [hj]), List.filter_cons_of_neg]
          rintro e
          simp only [Option.map_some, hj, decide_eq_true_eq] at e
          exact e.1 (Option.some.inj e.2).symm
        · rw [if_pos (by simp [hj, hq])]
          simp only [enumPush]
          by_cases ht : t = k.kanji.type
          · subst ht
            rw [if_pos rfl, List.filter_cons_of_pos (by simp [hj])]
            simp
          · rw [if_neg ht, List.filter_cons_of_neg]
            simp only [Option.map_some, decide_eq_true_eq]
            rintro ⟨_, e⟩
            exact ht (Option.some.inj e).symm
    | none =>
      rw [hfn] at h
      obtain ⟨k, h0, h⟩ := Res.bind_eq_ok h
      obtain ⟨d1, h1, h⟩ := Res.bind_eq_ok h
      obtain ⟨es, g1, g2, g3⟩ := ih _ _ _ h
      refine ⟨(n, d.findByName n) :: es, .cons i d d1 n ns es ?_ g1, ?_, ?_⟩
      · rw [KanjiStore.processList, hfn]
        simp only [h0, Res.bind, h1]
        rfl
      · rw [g2, hfn]
        unfold ListLog.addCreated
        rw [if_pos (by simp [hq]), List.filter_cons_of_pos (by simp)]
        simp
      · intro t
        rw [g3, hfn, List.filter_cons_of_neg (by simp)]
        have : (log.addCreated true kind n).found = log.found := by
          unfold ListLog.addCreated; split <;> rfl
        rw [this]

/-- The text for the frequency list: the entries of each kind after their number, Jinmei kanji by whether they have a JLPT
level. -/
theorem C140_frequency (level : Str → Option JlptLevel) (name : Str) (log : ListLog) :
    printListData true level .frequency name log =
      printList (log.found .linkedOld) (u8!"Linked Old") name ++
      printList log.created (u8!"non-Jouyou/Jinmei/JLPT") name ++
      printList ((log.found .jinmei).filter fun j => (level j).isSome) (u8!"JLPT Jinmei") name ++
      printList ((log.found .jinmei).filter fun j => !(level j).isSome) (u8!"non-JLPT Jinmei") name ++
      printList ((log.found .linkedJinmei).filter fun j => (level j).isSome) (u8!"JLPT Linked Jinmei") name ++
      printList ((log.found .linkedJinmei).filter fun j => !(level j).isSome) (u8!"non-JLPT Linked Jinmei") name := by
  have hn : ∀ l : List Str, (l.filter fun j => (level j).isNone) = l.filter fun j => !(level j).isSome := by
    intro l; congr 1; funext j; cases level j <;> rfl
  simp only [printListData, printJinmeiParts, ListKind.isKyu, ListKind.isLevel, if_true, and_self, hn, List.append_assoc]
  rfl

/-- The text for the list of a level. -/
theorem C140_level (level : Str → Option JlptLevel) (l : JlptLevel) (name : Str) (log : ListLog) :
    printListData true level (.level l) name log =
      printList (log.found .linkedOld) (u8!"Linked Old") name ++
      printList log.created (u8!"non-Jouyou/Jinmei") name ++
      printList (log.found .jinmei) (u8!"Jinmei") name ++
      printList (log.found .linkedJinmei) (u8!"Linked Jinmei") name := by
  simp only [printListData, ListKind.isKyu, ListKind.isLevel, if_true, List.append_assoc]
  rfl

/-- A line of the text: none for an empty list. -/
theorem C140_line (l : List Str) (type group : Str) (hg : group ≠ []) :
    printList l type group = if l = [] then [] else
      u8!">>> Found " ++ toDec l.length ++ u8!" " ++ type ++ u8!" in " ++ group ++ u8!":" ++
        (l.map fun x => u8!" " ++ x).flatten ++ u8!"\n" := by
  unfold printList
  cases l with
  | nil => rfl
  | cons x l =>
    have : group.isEmpty = false := by cases group with
      | nil => exact absurd rfl hg
      | cons => rfl
    simp only [List.isEmpty_cons, Bool.false_eq_true, if_false, this, reduceCtorEq, List.append_assoc]

/-- What a kanji of a list must have. -/
theorem processList_one {c : KanjiCtx} {ic : IdCtx} {kind : ListKind} {i : Nat} {n : Str} {d d' : KanjiStore}
    (h : KanjiStore.processList c ic kind i [n] d = .ok d') :
    (∀ k, d.findByName n = some k → ∃ d1, d.addToList kind k = .ok d1) ∧
    (d.findByName n = none → ∃ k d1 d2, newListKanji c ic kind i n = .ok k ∧ KanjiStore.addToList kind d1 k = .ok d2) := by
  rw [KanjiStore.processList] at h
  constructor
  · intro k hk
    rw [hk] at h
    obtain ⟨d1, h1, _⟩ := Res.bind_eq_ok h
    exact ⟨d1, h1⟩
  · intro hk
    rw [hk] at h
    obtain ⟨k, h0, h⟩ := Res.bind_eq_ok h
    obtain ⟨d1, h1, _⟩ := Res.bind_eq_ok h
    exact ⟨k, _, d1, h0, h1⟩

/-- For the list of a level no kanji is created: one that is created has no level. -/
theorem C140_level_created (c : KanjiCtx) (ic : IdCtx) (l : JlptLevel) (i : Nat) (d : KanjiStore) (names : List Str)
    (es : List (Str × Option KanjiRec)) (h : EntriesFound c ic (.level l) i d names es) :
    (es.filter fun e => e.2.isNone) = [] ∧ ∀ e ∈ es, ∀ k, e.2 = some k → k.kanji.level ≠ none := by
  induction h with
  | nil => exact ⟨rfl, by simp⟩
  | cons i d d' n ns es h1 h2 ih =>
    obtain ⟨p1, p2⟩ := processList_one h1
    cases hfn : d.findByName n with
    | none =>
      obtain ⟨k, d1, d2, q1, q2⟩ := p2 hfn
      exfalso
      unfold newListKanji at q1
      obtain ⟨k', q3, q1⟩ := Res.bind_eq_ok q1
      cases q1
      unfold Kanji.makeFrequency Kanji.makeOther at q3
      split at q3
      · cases q3
      · obtain ⟨r, _, q3⟩ := Res.bind_eq_ok q3
        obtain ⟨_, _, q3⟩ := Res.bind_eq_ok q3; cases q3
        simp [KanjiStore.addToList, KanjiStore.addToLevels, IdCtx.record] at q2
    | some k =>
      obtain ⟨d1, q⟩ := p1 k hfn
      refine ⟨by rw [List.filter_cons_of_neg (by simp)]; exact ih.1, fun e he k' hk' => ?_⟩
      rcases List.mem_cons.mp he with rfl | he
      · cases hk'
        intro hl
        simp [KanjiStore.addToList, KanjiStore.addToLevels, hl] at q
      · exact ih.2 e he k' hk'

/-- A kanji found for an entry of the frequency list has a frequency. -/
theorem C140_frequency_found (c : KanjiCtx) (ic : IdCtx) (i : Nat) (d : KanjiStore) (names : List Str)
    (es : List (Str × Option KanjiRec)) (h : EntriesFound c ic .frequency i d names es) :
    ∀ e ∈ es, ∀ k, e.2 = some k → k.kanji.frequency ≠ 0 := by
  induction h with
  | nil => simp
  | cons i d d' n ns es h1 h2 ih =>
    obtain ⟨p1, _⟩ := processList_one h1
    intro e he k hk
    rcases List.mem_cons.mp he with rfl | he
    · obtain ⟨d1, q⟩ := p1 k hk
      intro hl
      simp [KanjiStore.addToList, KanjiStore.addToFrequencies, FreqData.add, hl, Res.bind] at q
    · exact ih e he k hk

/-- Kanji with a level are Jouyou or Jinmei kanji, those with a frequency are neither of type Extra, Kentei nor Ucd. -/
def ListTypes (k : KanjiRec) : Prop :=
  (k.kanji.level ≠ none → k.kanji.type = .jouyou ∨ k.kanji.type = .jinmei) ∧
  (k.kanji.frequency ≠ 0 → k.kanji.type ≠ .extra ∧ k.kanji.type ≠ .kentei ∧ k.kanji.type ≠ .ucd)

theorem origin_types {l : Loaded} {f : KanjiFiles} {k : KanjiRec} (h : Origin l f k) : ListTypes k := by
  unfold ListTypes
  cases h with
  | jouyou row info k _ h =>
    have := (jouyou_row h).1
    constructor
    · intro _; exact .inl this
    · intro _; show k.type ≠ _ ∧ k.type ≠ _ ∧ k.type ≠ _; rw [this]; decide
  | jinmei row info k _ h =>
    have := (jinmei_row h).1
    constructor
    · intro _; exact .inr this
    · intro _; show k.type ≠ _ ∧ k.type ≠ _ ∧ k.type ≠ _; rw [this]; decide
  | extra row info k _ h =>
    obtain ⟨h1, _, h2, h3, _⟩ := extra_row h
    exact ⟨fun g => absurd h3 g, fun g => absurd h2 g⟩
  | line line j li r link k _ _ _ _ h =>
    obtain ⟨h1, _, _, _, _, h3, _⟩ := linked_facts h
    refine ⟨fun g => absurd h3 g, fun _ => ?_⟩
    show k.type ≠ _ ∧ k.type ≠ _ ∧ k.type ≠ _
    rw [h1]; decide
  | old link o k _ _ h =>
    obtain ⟨h1, _, _, _, _, h3, _⟩ := linked_facts h
    refine ⟨fun g => absurd h3 g, fun _ => ?_⟩
    show k.type ≠ _ ∧ k.type ≠ _ ∧ k.type ≠ _
    rw [h1]; decide
  | jinmeiOld row info link o k _ _ _ h =>
    obtain ⟨h1, _, _, _, _, h3, _⟩ := linked_facts h
    refine ⟨fun g => absurd h3 g, fun _ => ?_⟩
    show k.type ≠ _ ∧ k.type ≠ _ ∧ k.type ≠ _
    rw [h1]; decide
  | frequency i name k _ h =>
    unfold newListKanji at h
    obtain ⟨k', q3, h⟩ := Res.bind_eq_ok h
    cases h
    unfold Kanji.makeFrequency Kanji.makeOther at q3
    split at q3
    · cases q3
    · obtain ⟨r, _, q3⟩ := Res.bind_eq_ok q3
      obtain ⟨_, _, q3⟩ := Res.bind_eq_ok q3; cases q3
      simp [IdCtx.record]
  | kentei q st i name k _ _ h =>
    unfold newListKanji at h
    obtain ⟨k', q3, h⟩ := Res.bind_eq_ok h
    cases h
    unfold Kanji.makeKentei Kanji.makeOther at q3
    split at q3
    · cases q3
    · obtain ⟨r, _, q3⟩ := Res.bind_eq_ok q3
      obtain ⟨_, _, q3⟩ := Res.bind_eq_ok q3; cases q3
      simp [IdCtx.record]
  | ucd u k _ h =>
    unfold Kanji.makeUcd Kanji.makeOther at h
    simp only at h
    obtain ⟨r, _, h⟩ := Res.bind_eq_ok h
    obtain ⟨_, _, h⟩ := Res.bind_eq_ok h; cases h
    simp [IdCtx.record]

/-- The kanji found for the entries of a list were loaded before or made for the list. -/
theorem entries_types {c : KanjiCtx} {ic : IdCtx} {kind : ListKind} {i : Nat} {d : KanjiStore} {names : List Str}
    {es : List (Str × Option KanjiRec)} (h : EntriesFound c ic kind i d names es) (A : List KanjiRec) (hs : StoreInv d A)
    (hA : ∀ k ∈ A, ListTypes k) : ∀ e ∈ es, ∀ k, e.2 = some k → ListTypes k := by
  induction h generalizing A with
  | nil => simp
  | cons i d d' n ns es h1 h2 ih =>
    intro e he k hk
    rcases List.mem_cons.mp he with rfl | he
    · exact hA k (findByName_some hs n k hk).1
    · obtain ⟨new, g1, _, g2⟩ := processList_new c ic kind [n] i d d' A hs h1
      refine ih (A ++ new) g1 (fun x hx => ?_) e he k hk
      rcases List.mem_append.mp hx with hx | hx
      · exact hA x hx
      · obtain ⟨⟨j, name, _, hm⟩, _⟩ := g2 x hx
        have other : ∀ c t nm u q fr y, (t = .frequency ∨ fr = 0) → Kanji.makeOther c t nm u q fr = .ok y →
            ∀ o : Option Ucd, ListTypes (ic.record o y) := by
          intro c t nm u q fr y ht hy o
          unfold Kanji.makeOther at hy
          split at hy
          · cases hy
          · obtain ⟨r, _, hy⟩ := Res.bind_eq_ok hy
            obtain ⟨_, _, hy⟩ := Res.bind_eq_ok hy; cases hy
            refine ⟨fun g => absurd rfl g, fun g => ?_⟩
            rcases ht with rfl | rfl
            · exact ⟨by simp [IdCtx.record], by simp [IdCtx.record], by simp [IdCtx.record]⟩
            · exact absurd rfl g
        unfold newListKanji at hm
        split at hm
        · obtain ⟨y, hy, hm⟩ := Res.bind_eq_ok hm
          cases hm
          exact other _ _ _ _ _ _ _ (.inr rfl) hy _
        · obtain ⟨y, hy, hm⟩ := Res.bind_eq_ok hm
          cases hm
          exact other _ _ _ _ _ _ _ (.inl rfl) hy _

/-- While the files are loaded, the text for the list of a level is at most the line for Jinmei kanji. -/
theorem C140_level_text (l : Loaded) (f : KanjiFiles) (level : JlptLevel) (name : Str) (names : List Str)
    (d d' : KanjiStore) (log : ListLog)
    (h : KanjiStore.processListLog l.ctx l.ids (.level level) true 0 names d {} = .ok (d', log))
    (A : List KanjiRec) (hl : Loading l f d d.types A) :
    printListData true l.lists.level (.level level) name log = printList (log.found .jinmei) (u8!"Jinmei") name := by
  obtain ⟨es, h1, h2, h3⟩ := C140_log l.ctx l.ids (.level level) names 0 d d' {} log rfl h
  have ho := entries_types h1 A hl.types.store fun k hk => origin_types (hl.origin k hk)
  obtain ⟨h4, h5⟩ := C140_level_created l.ctx l.ids level 0 d names es h1
  have hempty : ∀ t, t ≠ .jouyou → t ≠ .jinmei → log.found t = [] := by
    intro t t1 t2
    rw [h3 t, List.nil_append, List.map_eq_nil_iff, List.filter_eq_nil_iff]
    intro e he
    simp only [decide_eq_true_eq]
    rintro ⟨_, e2⟩
    cases hk : e.2 with
    | none => rw [hk] at e2; cases e2
    | some k =>
      rw [hk] at e2
      have e3 : k.kanji.type = t := Option.some.inj e2
      rcases (ho e he k hk).1 (h5 e he k hk) with g | g
      · exact t1 (e3 ▸ g)
      · exact t2 (e3 ▸ g)
  have hc : log.created = [] := by rw [h2, h4]; rfl
  rw [C140_level, hempty .linkedOld (by decide) (by decide), hempty .linkedJinmei (by decide) (by decide), hc]
  simp [printList]

/-- While the files are loaded, every entry of the frequency list that is neither a Jouyou kanji nor an entry that was found
among those the list itself has created is in one of the lists printed. -/
theorem C140_frequency_all (l : Loaded) (f : KanjiFiles) (names : List Str)
    (d d' : KanjiStore) (log : ListLog)
    (h : KanjiStore.processListLog l.ctx l.ids .frequency true 0 names d {} = .ok (d', log))
    (A : List KanjiRec) (hl : Loading l f d d.types A) :
    ∃ es, EntriesFound l.ctx l.ids .frequency 0 d names es ∧ ∀ e ∈ es,
      e.1 ∈ log.created ∨ e.1 ∈ log.found .jinmei ∨ e.1 ∈ log.found .linkedJinmei ∨ e.1 ∈ log.found .linkedOld ∨
      ∃ k, e.2 = some k ∧ (k.kanji.type = .jouyou ∨ k.kanji.type = .frequency) := by
  obtain ⟨es, h1, h2, h3⟩ := C140_log l.ctx l.ids .frequency names 0 d d' {} log rfl h
  have ho := entries_types h1 A hl.types.store fun k hk => origin_types (hl.origin k hk)
  refine ⟨es, h1, fun e he => ?_⟩
  cases hk : e.2 with
  | none =>
    left
    rw [h2, List.nil_append, List.mem_map]
    exact ⟨e, List.mem_filter.mpr ⟨he, by simp [hk]⟩, rfl⟩
  | some k =>
    have ht := (ho e he k hk).2 (C140_frequency_found _ _ _ _ _ _ h1 e he k hk)
    have hin : ∀ t, t ≠ .jouyou → k.kanji.type = t → e.1 ∈ log.found t := by
      intro t t1 t2
      rw [h3 t, List.nil_append, List.mem_map]
      exact ⟨e, List.mem_filter.mpr ⟨he, by simp [hk, t1, t2]⟩, rfl⟩
    cases hty : k.kanji.type with
    | jouyou => exact .inr (.inr (.inr (.inr ⟨k, rfl, .inl hty⟩)))
    | jinmei => exact .inr (.inl (hin _ (by decide) hty))
    | linkedJinmei => exact .inr (.inr (.inl (hin _ (by decide) hty)))
    | linkedOld => exact .inr (.inr (.inr (.inl (hin _ (by decide) hty))))
    | frequency => exact .inr (.inr (.inr (.inr ⟨k, rfl, .inr hty⟩)))
    | extra => exact absurd hty ht.1
    | kentei => exact absurd hty ht.2.1
    | ucd => exact absurd hty ht.2.2

/-! ## C141 -/

/-- A name is listed for a type exactly if a kanji of the type with the name has a number of strokes that isn't the one of
the entry found for the name. -/
theorem C141_listed (findUcd : Str → Option Ucd) (ks : List KanjiRec) (n : Str) :
    n ∈ differentStrokes findUcd ks ↔
      ∃ k ∈ ks, k.kanji.name = n ∧ ∃ u, findUcd n = some u ∧ k.kanji.strokes.value ≠ u.strokes.value := by
  unfold differentStrokes
  rw [List.mem_map]
  constructor
  · rintro ⟨k, hk, rfl⟩
    obtain ⟨h1, h2⟩ := List.mem_filter.mp hk
    refine ⟨k, h1, rfl, ?_⟩
    cases hu : findUcd k.kanji.name with
    | none => rw [hu] at h2; cases h2
    | some u => rw [hu] at h2; exact ⟨u, rfl, by simpa using h2⟩
  · rintro ⟨k, hk, rfl, u, hu, hs⟩
    exact ⟨k, List.mem_filter.mpr ⟨hk, by rw [hu]; simpa using hs⟩, rfl⟩

/-- The kanji of a type that aren't Jouyou or Extra have the strokes of the entry found for their name. -/
theorem origin_strokes {l : Loaded} {f : KanjiFiles} {k : KanjiRec} (h : Origin l f k)
    (hu : ∀ u ∈ l.ucds, l.findUcd u.name = some u) (h1 : k.kanji.type ≠ .jouyou) (h2 : k.kanji.type ≠ .extra) :
    ∃ u, l.findUcd k.kanji.name = some u ∧ k.kanji.strokes = u.strokes := by
  have linked : ∀ (name : Str) (link k : Kanji) (o : Bool), Kanji.makeLinked l.ctx name link o = .ok k →
      ∃ u, l.findUcd k.name = some u ∧ k.strokes = u.strokes := by
    intro name link k o h
    unfold Kanji.makeLinked at h
    split at h
    · cases h
    · split at h
      · cases h
      · rename_i u hu
        obtain ⟨r, _, h⟩ := Res.bind_eq_ok h
        obtain ⟨_, _, h⟩ := Res.bind_eq_ok h; cases h
        exact ⟨u, hu, rfl⟩
  cases h with
  | jouyou row info k _ h => exact absurd (jouyou_row h).1 h1
  | extra row info k _ h => exact absurd (extra_row h).1 h2
  | jinmei row info k _ h =>
    unfold jinmeiFromRow at h
    obtain ⟨k', h7, h⟩ := Res.bind_eq_ok h
    obtain ⟨num, h4, h⟩ := Res.bind_eq_ok h
    obtain ⟨year, h5, h⟩ := Res.bind_eq_ok h
    split at h
    · cases h
      unfold Kanji.makeJinmei at h7
      obtain ⟨r, _, h7⟩ := Res.bind_eq_ok h7
      split at h7
      · cases h7
      · rename_i u hu
        obtain ⟨_, _, h7⟩ := Res.bind_eq_ok h7; cases h7
        exact ⟨u, hu, rfl⟩
    · cases h
  | line line j li r link k _ _ _ _ h => exact linked _ _ _ _ h
  | old link o k _ _ h => exact linked _ _ _ _ h
  | jinmeiOld row info link o k _ _ _ h => exact linked _ _ _ _ h
  | frequency i name k _ h =>
    unfold newListKanji at h
    obtain ⟨k', q3, h⟩ := Res.bind_eq_ok h
    cases h
    unfold Kanji.makeFrequency Kanji.makeOther at q3
    split at q3
    · cases q3
    · rename_i u hu
      obtain ⟨r, _, q3⟩ := Res.bind_eq_ok q3
      obtain ⟨_, _, q3⟩ := Res.bind_eq_ok q3; cases q3
      exact ⟨u, hu, rfl⟩
  | kentei q st i name k _ _ h =>
    unfold newListKanji at h
    obtain ⟨k', q3, h⟩ := Res.bind_eq_ok h
    cases h
    unfold Kanji.makeKentei Kanji.makeOther at q3
    split at q3
    · cases q3
    · rename_i u hu
      obtain ⟨r, _, q3⟩ := Res.bind_eq_ok q3
      obtain ⟨_, _, q3⟩ := Res.bind_eq_ok q3; cases q3
      exact ⟨u, hu, rfl⟩
  | ucd u k hm h =>
    unfold Kanji.makeUcd Kanji.makeOther at h
    simp only at h
    obtain ⟨r, _, h⟩ := Res.bind_eq_ok h
    obtain ⟨_, _, h⟩ := Res.bind_eq_ok h; cases h
    exact ⟨u, hu u hm, rfl⟩

/-- After loading, only Jouyou and Extra kanji can have different strokes (the comment in the code). -/
theorem C141_types (l : Loaded) (f : KanjiFiles) (d : KanjiStore) (h : loadKanji l f = .ok d)
    (hu : ∀ u ∈ l.ucds, l.findUcd u.name = some u) (t : KanjiType) (h1 : t ≠ .jouyou) (h2 : t ≠ .extra) :
    differentStrokes l.findUcd (d.types t) = [] := by
  have ho : ∀ k ∈ d.types t, k.kanji.type = t ∧ Origin l f k := by
    intro k hk
    obtain ⟨_, g⟩ := C101_types l f d h
    refine ⟨((g t).2.2 k hk).1, ?_⟩
    by_cases ht : t ∈ rowTypes
    · have : t = .jinmei := by
        have : t = .jouyou ∨ t = .jinmei ∨ t = .extra := by simpa [rowTypes] using ht
        rcases this with e | e | e
        · exact absurd e h1
        · exact e
        · exact absurd e h2
      subst this
      obtain ⟨_, ⟨ks, r1, r2⟩, _⟩ := C101_rows l f d h
      rw [r2, List.mem_map] at hk
      obtain ⟨x, hx, rfl⟩ := hk
      have : (Res.ok x) ∈ f.jinmei.map (jinmeiFromRow l.ctx) := by rw [r1]; exact List.mem_map_of_mem hx
      obtain ⟨row, q1, q2⟩ := List.mem_map.mp this
      exact .jinmei row x.2 x.1 q1 q2
    · rw [(g t).2.1 ht] at hk
      obtain ⟨jouyou, line, old, jinmei, extra, lists, ucd, hl, _⟩ := loadKanji_spec h
      rw [hl.types.store.all_eq] at hk
      exact hl.origin k (List.mem_filter.mp hk).1
  unfold differentStrokes
  rw [List.map_eq_nil_iff, List.filter_eq_nil_iff]
  intro k hk
  obtain ⟨e, o⟩ := ho k hk
  obtain ⟨u, u1, u2⟩ := origin_strokes o hu (by rw [e]; exact h1) (by rw [e]; exact h2)
  rw [u1, u2]
  simp

/-- The text after loading: a line for Jouyou and a line for Extra kanji, none for a type without differences. -/
theorem C141_text (l : Loaded) (f : KanjiFiles) (d : KanjiStore) (h : loadKanji l f = .ok d)
    (hu : ∀ u ∈ l.ucds, l.findUcd u.name = some u) :
    checkStrokes l.findUcd d =
      printList (differentStrokes l.findUcd (d.types .jouyou)) (u8!"Jouyou Kanji with different strokes") (u8!"_ucd") ++
      printList (differentStrokes l.findUcd (d.types .extra)) (u8!"Extra Kanji with different strokes") (u8!"_ucd") := by
  have e : ∀ t g, printList [] t g = [] := fun _ _ => rfl
  have en : differentStrokes l.findUcd [] = [] := rfl
  have hj : anyTypeText (some .jouyou) ++ u8!" Kanji with different strokes" = u8!"Jouyou Kanji with different strokes" := rfl
  have he : anyTypeText (some .extra) ++ u8!" Kanji with different strokes" = u8!"Extra Kanji with different strokes" := rfl
  unfold checkStrokes allKanjiTypes
  simp only [List.map_cons, List.map_nil, List.flatten_cons, List.flatten_nil, hj, he,
    C141_types l f d h hu .jinmei (by decide) (by decide), C141_types l f d h hu .linkedJinmei (by decide) (by decide),
    C141_types l f d h hu .linkedOld (by decide) (by decide), C141_types l f d h hu .frequency (by decide) (by decide),
    C141_types l f d h hu .kentei (by decide) (by decide), C141_types l f d h hu .ucd (by decide) (by decide),
    e, en, List.nil_append, List.append_nil]

/-! ## C142 -/

/-- There is a message exactly for a kanji that contradicts its entry. -/
theorem C142_contradicts (k : Kanji) (ucd : Option Ucd) : (sanityMessage k ucd).isSome = true ↔ Contradicts k ucd := by
  have : (sanityMessage k ucd).toList.length = sanityErrors k ucd := by
    unfold sanityMessage sanityErrors
    cases ucd with
    | none => rfl
    | some u => simp only; repeat' split <;> try rfl
  rw [sanityErrors_eq] at this
  by_cases h : Contradicts k ucd
  · rw [if_pos h] at this
    cases hm : sanityMessage k ucd with
    | none => rw [hm] at this; cases this
    | some m => simp [h]
  · rw [if_neg h] at this
    cases hm : sanityMessage k ucd with
    | none => simp [h]
    | some m => rw [hm] at this; cases this

/-- The text: name, code points, the name without variation selector for a variant, and what is wrong. -/
theorem C142_text (k : Kanji) (ucd : Option Ucd) (m : Str) (h : sanityMessage k ucd = some m) :
    ∃ s, m = k.name ++ u8!" " ++ toUnicodeStr k.name .square ++
        (if k.variant then u8!" (non-variant: " ++ (noVariationSelector k.name).getD [] ++ u8!")" else []) ++ u8!" " ++ s ++
        u8!" in _ucd" ∧
      ((ucd = none ∧ s = u8!"not found") ∨
       ∃ u, ucd = some u ∧
        ((k.type = .jouyou ∧ u.isJoyo = false ∧ s = u8!"not marked as 'Joyo'") ∨
         (k.type = .jinmei ∧ u.isJinmei = false ∧ s = u8!"not marked as 'Jinmei'") ∨
         (k.type = .linkedJinmei ∧ u.isJinmei = false ∧ s = u8!"with link not marked as 'Jinmei'") ∨
         (k.type = .linkedJinmei ∧ u.isJinmei = true ∧ u.hasLinks = false ∧
            s = u8!"missing 'JinmeiLink' for " ++ codeAndName u.name))) := by
  unfold sanityMessage at h
  cases ucd with
  | none => cases h; exact ⟨_, rfl, .inl ⟨rfl, rfl⟩⟩
  | some u =>
    simp only at h
    split at h
    · rename_i hc; cases h
      exact ⟨_, rfl, .inr ⟨u, rfl, .inl ⟨hc.1, by simpa using hc.2, rfl⟩⟩⟩
    · split at h
      · rename_i hc; cases h
        exact ⟨_, rfl, .inr ⟨u, rfl, .inr (.inl ⟨hc.1, by simpa using hc.2, rfl⟩)⟩⟩
      · split at h
        · rename_i hc; cases h
          exact ⟨_, rfl, .inr ⟨u, rfl, .inr (.inr (.inl ⟨hc.1, by simpa using hc.2, rfl⟩))⟩⟩
        · rename_i hn
          split at h
          · rename_i hc; cases h
            refine ⟨_, rfl, .inr ⟨u, rfl, .inr (.inr (.inr ⟨hc.1, ?_, by simpa using hc.2, rfl⟩))⟩⟩
            cases hj : u.isJinmei with
            | true => rfl
            | false => exact absurd ⟨hc.1, by simp [hj]⟩ hn
          · cases h

/-- The messages of an insertion after a history of insertions. -/
theorem C142_messages (hist : List (KanjiRec × Option Ucd)) (k : KanjiRec) (ucd : Option Ucd) :
    insertMessages (KanjiStore.insertAll {} hist) k ucd =
      if ∃ x ∈ hist, x.1.kanji.name = k.kanji.name then [u8!"failed to insert '" ++ k.kanji.name ++ u8!"' into map"]
      else (sanityMessage k.kanji ucd).toList ++
        if k.kanji.variant = true ∧ ∃ x ∈ firstByName (hist.map (·.1)), x.kanji.variant = true ∧
            x.kanji.compatibilityName = k.kanji.compatibilityName
        then [u8!"failed to insert variant '" ++ k.kanji.name ++ u8!"' into map"] else [] := by
  have hi := insertAll_inv hist
  have hmem : (∃ x ∈ hist, x.1.kanji.name = k.kanji.name) ↔
      ∃ x ∈ firstByName (hist.map (·.1)), x.kanji.name = k.kanji.name := by
    have gen : ∀ (l A : List KanjiRec), (∃ x ∈ l.foldl (fun acc k =>
        if acc.all (·.kanji.name != k.kanji.name) then acc ++ [k] else acc) A, x.kanji.name = k.kanji.name) ↔
        (∃ x ∈ A, x.kanji.name = k.kanji.name) ∨ ∃ x ∈ l, x.kanji.name = k.kanji.name := by
      intro l
      induction l with
      | nil => intro A; simp
      | cons y l ih =>
        intro A
        rw [List.foldl_cons, ih]
        have : (∃ x ∈ (if A.all (·.kanji.name != y.kanji.name) then A ++ [y] else A), x.kanji.name = k.kanji.name) ↔
            (∃ x ∈ A, x.kanji.name = k.kanji.name) ∨ y.kanji.name = k.kanji.name := by
          split
          · constructor
            · rintro ⟨x, hx, e⟩
              rcases List.mem_append.mp hx with hx | hx
              · exact .inl ⟨x, hx, e⟩
              · rw [List.mem_singleton] at hx; subst hx; exact .inr e
            · rintro (⟨x, hx, e⟩ | e)
              · exact ⟨x, List.mem_append_left _ hx, e⟩
              · exact ⟨y, by simp, e⟩
          · rename_i hn
            constructor
            · exact .inl
            · rintro (g | e)
              · exact g
              · have hn : A.all (·.kanji.name != y.kanji.name) = false := by simpa using hn
                obtain ⟨z, hz, e2⟩ := List.all_eq_false.mp hn
                exact ⟨z, hz, by rw [← e]; simpa using e2⟩
        rw [this, or_assoc]
        simp
    have := gen (hist.map (·.1)) []
    unfold firstByName
    rw [this]
    simp
  simp only [hmem]
  generalize firstByName (hist.map (·.1)) = A at hi
  generalize KanjiStore.insertAll {} hist = d at hi
  have hl : d.nameMap.lookup k.kanji.name = A.find? (·.kanji.name == k.kanji.name) := by
    rw [hi.nameMap, any_name_iff]
  have e1 : ((mapEmplace d.nameMap k.kanji.name k).2 = false) ↔ ∃ x ∈ A, x.kanji.name = k.kanji.name := by
    unfold mapEmplace
    rw [hl]
    have : (A.find? (·.kanji.name == k.kanji.name)).isSome = true ↔ ∃ x ∈ A, x.kanji.name = k.kanji.name := by
      rw [List.find?_isSome]; simp
    rw [← this]
    split <;> simp_all
  have e2 : ((mapEmplace d.compatMap k.kanji.compatibilityName k.kanji.name).2 = false) ↔
      ∃ x ∈ A, x.kanji.variant = true ∧ x.kanji.compatibilityName = k.kanji.compatibilityName := by
    unfold mapEmplace
    rw [hi.compat]
    have : ((A.find? fun x => x.kanji.variant && x.kanji.compatibilityName == k.kanji.compatibilityName).map
        (·.kanji.name)).isSome = true ↔
        ∃ x ∈ A, x.kanji.variant = true ∧ x.kanji.compatibilityName = k.kanji.compatibilityName := by
      rw [Option.isSome_map, List.find?_isSome]; simp
    rw [← this]
    split <;> simp_all
  unfold insertMessages
  simp only [e1, e2]

/-- As many messages as errors are counted. -/
theorem C142_count (d : KanjiStore) (k : KanjiRec) (ucd : Option Ucd) :
    (d.checkInsert k ucd).1.errors = d.errors + (insertMessages d k ucd).length := by
  have hs : (sanityMessage k.kanji ucd).toList.length = sanityErrors k.kanji ucd := by
    unfold sanityMessage sanityErrors
    cases ucd with
    | none => rfl
    | some u => simp only; repeat' split <;> try rfl
  unfold KanjiStore.checkInsert insertMessages
  rcases mapEmplace d.nameMap k.kanji.name k with ⟨m, _ | _⟩
  · rw [if_pos rfl]; rfl
  · simp only [Bool.true_eq_false, if_false, List.length_append]
    cases hv : k.kanji.variant
    · simp [hs]
    · simp only [if_true, true_and]
      rcases mapEmplace d.compatMap k.kanji.compatibilityName k.kanji.name with ⟨m2, _ | _⟩
      · simp only [Bool.false_eq_true, if_false, if_true, List.length_singleton]; omega
      · simp [hs]

/-- The number of errors of a history is the number of messages. -/
theorem C142_all (hist : List (KanjiRec × Option Ucd)) (d : KanjiStore) :
    (KanjiStore.insertAll d hist).errors = d.errors + (allMessages hist d).length := by
  induction hist generalizing d with
  | nil => rfl
  | cons x xs ih =>
    show (KanjiStore.insertAll (d.checkInsert x.1 x.2).1 xs).errors = _
    rw [ih, C142_count, allMessages, List.length_append]; omega

/-- The messages are printed in order, one per line, and numbered one after the other. -/
theorem C142_numbers (count : Nat) (ms : List Str) :
    printErrors count ms =
      (ms.zipIdx.map fun p => u8!"ERROR[" ++ setwZero 4 (toDec (count + p.2 + 1)) ++ u8!"] --- " ++ p.1 ++ u8!"\n").flatten := by
  have gen : ∀ (ms : List Str) (count i : Nat), printErrors (count + i) ms =
      ((ms.zipIdx i).map fun p => u8!"ERROR[" ++ setwZero 4 (toDec (count + p.2 + 1)) ++ u8!"] --- " ++ p.1 ++
        u8!"\n").flatten := by
    intro ms
    induction ms with
    | nil => intro _ _; rfl
    | cons m ms ih =>
      intro count i
      rw [printErrors, List.zipIdx_cons, List.map_cons, List.flatten_cons, Nat.add_assoc count i 1, ih count (i + 1)]
      rfl
  exact gen ms count 0

/-- The number has four digits, as long as there are fewer than ten thousand errors, and is read back by the decimal
reader. -/
theorem C142_width (n : Nat) (h : n < 10000) : (setwZero 4 (toDec n)).length = 4 := by
  have : (toDec n).length ≤ 4 := toDec_length n 4 (by omega) (by omega)
  unfold setwZero
  rw [List.length_append, List.length_replicate]
  omega

/-! ## Examples -/

example : printListData true (fun s => if s = u8!"丑" then some .n1 else none) .frequency (u8!"Frequency")
    ⟨[u8!"呟"], fun t => if t = .jinmei then [u8!"之", u8!"丑"] else []⟩ =
    u8!">>> Found 1 non-Jouyou/Jinmei/JLPT in Frequency: 呟\n>>> Found 1 JLPT Jinmei in Frequency: 丑\n>>> Found 1 non-JLPT Jinmei in Frequency: 之\n" := by
  decide +kernel

example : printList [u8!"foo", u8!"bar"] (u8!"items") [] = u8!">>> Found 2 items: foo bar\n" := by decide +kernel
example : printList [u8!"a", u8!"b", u8!"c"] (u8!"items") (u8!"bag") = u8!">>> Found 3 items in bag: a b c\n" := by
  decide +kernel

example : printError 0 (u8!"failed to insert '亜' into map") = u8!"ERROR[0001] --- failed to insert '亜' into map\n" := by
  decide +kernel

example : sanityMessage { type := .jouyou, name := u8!"亜", radicalName := u8!"二", radicalNumber := 7, strokes := ⟨7, 0⟩ }
    none = some (u8!"亜 [4E9C] not found in _ucd") := by decide +kernel

/-- Entries for all names that have the strokes of the only entry of the file. -/
def sameStrokes : Loaded := { sampleLoaded with findUcd := fun s => some ⟨s, 0x4e, .none, [], ⟨3, 0⟩⟩, ucds := [⟨u8!"三", 0x4e, .none, [], ⟨3, 0⟩⟩] }

/-- A Jouyou kanji with other strokes than its entry. -/
example : (∀ u ∈ sameStrokes.ucds, sameStrokes.findUcd u.name = some u) ∧
    (match loadKanji sameStrokes { jouyou := [sampleRow (u8!"亜") (u8!"8") []] } with
    | .ok d => checkStrokes sameStrokes.findUcd d
    | _ => []) = u8!">>> Found 1 Jouyou Kanji with different strokes in _ucd: 亜\n" := by
  constructor
  · intro u hu; simp [sameStrokes] at hu ⊢; subst hu; rfl
  · decide +kernel

end KT
