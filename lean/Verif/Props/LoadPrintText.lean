import Verif.Spec.LoadPrint
import Verif.Props.LoadPrint
import Verif.Props.LoadData
/-!
# Everything printed while the kanji are loaded (C184)
-/
namespace KT
open Spec

/-! ## Lists -/

/-- Putting the entries of a list into the store, one after the other; `es` has the kanji found for each when it is its
turn. -/
theorem entries_exist (c : KanjiCtx) (ic : IdCtx) (kind : ListKind) : ∀ (names : List Str) (i : Nat) (d d' : KanjiStore),
    KanjiStore.processList c ic kind i names d = .ok d' → ∃ es, EntriesFound c ic kind i d names es
  | [], i, d, _, _ => ⟨[], .nil i d⟩
  | n :: ns, i, d, d', h => by
    have : ∃ d1, KanjiStore.processList c ic kind i [n] d = .ok d1 ∧ KanjiStore.processList c ic kind (i + 1) ns d1 = .ok d' := by
      simp only [KanjiStore.processList] at h ⊢
      rcases hf : d.findByName n with _ | k <;> rw [hf] at h
      case some =>
        obtain ⟨d1, h1, h⟩ := Res.bind_eq_ok h
        exact ⟨d1, by simp only [h1, Res.bind], h⟩
      case none =>
        obtain ⟨k, h0, h⟩ := Res.bind_eq_ok h
        obtain ⟨d1, h1, h⟩ := Res.bind_eq_ok h
        exact ⟨d1, by simp only [h0, h1, Res.bind], h⟩
    obtain ⟨d1, h1, h2⟩ := this
    obtain ⟨es, he⟩ := entries_exist c ic kind ns (i + 1) d1 d' h2
    exact ⟨_, .cons i d d1 n ns es h1 he⟩

/-- The text for the lists `fs`, which are put into the store `d` one after the other. -/
inductive ListTexts (l : Loaded) : KanjiStore → List (ListKind × List Str) → Str → Prop
  | nil (d) : ListTexts l d [] []
  | cons (d d' kind names es fs s) : EntriesFound l.ctx l.ids kind 0 d names es →
      KanjiStore.processList l.ctx l.ids kind 0 names d = .ok d' → ListTexts l d' fs s →
      ListTexts l d ((kind, names) :: fs) (listText l.lists.level kind es ++ s)

theorem printList_line (names : List Str) (what list : Str) (h : list ≠ []) :
    printList names what list = foundLine names what list := C140_line names what list h

theorem entries_unique {c : KanjiCtx} {ic : IdCtx} {kind : ListKind} {i : Nat} {d : KanjiStore} {ns : List Str}
    {es es' : List (Str × Option KanjiRec)} (h : EntriesFound c ic kind i d ns es) (h' : EntriesFound c ic kind i d ns es') :
    es = es' := by
  induction h generalizing es' with
  | nil => cases h'; rfl
  | cons i d d1 n ns es h1 _ ih =>
    cases h' with
    | cons _ _ d2 _ _ es' h2 h3 =>
      rw [h1] at h2
      cases h2
      rw [ih h3]

/-- The text of one list. -/
theorem listData_text {l : Loaded} {f : KanjiFiles} {kind : ListKind} {names : List Str} {d d' : KanjiStore} {log : ListLog}
    (h : KanjiStore.processListLog l.ctx l.ids kind true 0 names d {} = .ok (d', log)) {A : List KanjiRec}
    (hl : Loading l f d d.types A) {es : List (Str × Option KanjiRec)} (he : EntriesFound l.ctx l.ids kind 0 d names es) :
    printListData true l.lists.level kind kind.listName log = listText l.lists.level kind es := by
  cases kind with
  | kyu q =>
    have := C140_silent l.ctx l.ids (.kyu q) true names 0 d d' {} log (.inr ⟨q, rfl⟩) h
    subst this
    rfl
  | level q =>
    have hne : (ListKind.level q).listName ≠ [] := by cases q <;> decide
    rw [C140_level_text l f q _ names d d' log h A hl, printList_line _ _ _ hne]
    obtain ⟨es', h1, _, h3⟩ := C140_log l.ctx l.ids (.level q) names 0 d d' {} log rfl h
    rw [← entries_unique he h1] at h3
    rw [h3 .jinmei]
    simp [listText, ListKind.listName, entriesOfType]
  | frequency =>
    have hnm : ListKind.frequency.listName = u8!"Frequency" := rfl
    obtain ⟨es', h1, h2, h3⟩ := C140_log l.ctx l.ids .frequency names 0 d d' {} log rfl h
    rw [← entries_unique he h1] at h2 h3
    have hf : ∀ t, t ≠ .jouyou → log.found t = entriesOfType es t := by
      intro t ht
      rw [h3 t]
      simp [entriesOfType, ht]
    have hc : log.created = entriesNew es := by rw [h2]; rfl
    rw [C140_frequency, hnm, hf _ (by decide), hf _ (by decide), hf _ (by decide), hc]
    simp only [printList_line _ _ (u8!"Frequency") (by decide), listText]

theorem Printing.bind_out {α β : Type} {r : Printing α} {a : α} (h : r.result = .ok a) (g : α → Printing β) :
    (r.bind g).prints.out = r.prints.out ++ (g a).prints.out := by
  unfold Printing.bind; rw [h]; rfl

/-- Lists print nothing to `_out` before `printListData`. -/
theorem processList_out (c : KanjiCtx) (ic : IdCtx) (kind : ListKind) (debug : Bool) : ∀ (names : List Str) (i : Nat)
    (d : KanjiStore) (log : ListLog), (processListPrinting c ic kind debug i names d log).prints.out = []
  | [], _, _, _ => rfl
  | name :: names, i, d, log => by
    rw [processListPrinting]
    rcases d.findByName name with _ | k
    case some =>
      simp only [Printing.bind, quietly]
      cases d.addToList kind k with
      | ok d1 => simp only [Prints.add, List.nil_append]; exact processList_out c ic kind debug names _ _ _
      | throw _ => rfl
      | ub => rfl
    case none =>
      simp only [Printing.bind, quietly]
      cases newListKanji c ic kind i name with
      | throw _ => rfl
      | ub => rfl
      | ok k =>
        simp only [Prints.add, List.nil_append]
        cases (d.checkInsertType kind.newType k (c.findUcd k.kanji.name)).1.addToList kind k with
        | ok d1 => simp only [List.nil_append]; exact processList_out c ic kind debug names _ _ _
        | throw _ => rfl
        | ub => rfl

theorem processLists_text {l : Loaded} {f : KanjiFiles} : ∀ (fs : List (ListKind × List Str)) (d d' : KanjiStore)
    (A : List KanjiRec), Loading l f d d.types A → FromLists l fs → processLists l fs d = .ok d' →
    ListTexts l d fs (processListsPrinting .full l fs d).prints.out
  | [], d, _, _, _, _, _ => .nil d
  | (kind, names) :: fs, d, d', A, hl, hfs, h => by
    have h0 := h
    rw [processLists] at h
    obtain ⟨d1, h1, h2⟩ := Res.bind_eq_ok h
    have h1' := h1
    rw [← C140_store l.ctx l.ids kind true names 0 d {}] at h1
    obtain ⟨⟨d1', log⟩, h3, h1⟩ := Res.bind_eq_ok h1
    obtain rfl : d1' = d1 := Res.ok.inj h1
    obtain ⟨es, he⟩ := entries_exist _ _ _ _ _ _ _ h1'
    obtain ⟨new, hl1, _⟩ := processLists_spec [(kind, names)] d d1' A hl
      (fun x hx => hfs x (by rw [List.mem_singleton.mp hx]; exact List.mem_cons_self))
      (by simp only [processLists, h1', Res.bind])
    have ih := processLists_text fs d1' d' _ hl1 (fun x hx => hfs x (List.mem_cons_of_mem _ hx)) h2
    have hr : (processListPrinting l.ctx l.ids kind (DebugMode.full ≠ .none) 0 names d {}).result = .ok (d1', log) := by
      rw [processList_result]; exact h3
    rw [processListsPrinting, Printing.bind_out hr, processList_out, List.nil_append]
    show ListTexts l d _ (printListData true l.lists.level kind kind.listName log ++
      (processListsPrinting .full l fs d1').prints.out)
    rw [listData_text h3 hl he]
    exact .cons d d1' kind names es fs _ he h1' ih

/-- Without full debug nothing is printed for the lists. -/
theorem processLists_quiet {mode : DebugMode} (hm : mode ≠ .full) (l : Loaded) : ∀ (fs : List (ListKind × List Str))
    (d : KanjiStore), (processListsPrinting mode l fs d).prints.out = []
  | [], _ => rfl
  | (kind, names) :: fs, d => by
    rw [processListsPrinting]
    unfold Printing.bind
    cases (processListPrinting l.ctx l.ids kind (mode ≠ .none) 0 names d {}).result with
    | throw _ => exact processList_out ..
    | ub => exact processList_out ..
    | ok r =>
      simp only [printing, Prints.add, printListData, hm, decide_false, Bool.false_eq_true, if_false, processList_out,
        List.nil_append]
      exact processLists_quiet hm l fs r.1

/-! ## The other files print nothing -/

/-- Nothing is printed to `_out`. -/
def Silent {α : Type} (r : Printing α) : Prop := r.prints.out = []

theorem Silent.bind {α β : Type} {r : Printing α} {g : α → Printing β} (h : Silent r) (hg : ∀ a, Silent (g a)) :
    Silent (r.bind g) := by
  unfold Silent Printing.bind
  cases r.result with
  | ok a => simp only [Prints.add, show r.prints.out = [] from h, show (g a).prints.out = [] from hg a, List.nil_append]
  | throw _ => exact h
  | ub => exact h

theorem silent_quietly {α : Type} (r : Res α) : Silent (quietly r) := rfl

theorem silent_insert {α : Type} (ms : List Str) (r : Res α) : Silent ⟨⟨[], ms⟩, r⟩ := rfl

theorem insertRows_silent (l : Loaded) : ∀ (ks : List KanjiRec) (d : KanjiStore), Silent (insertRowsPrinting l ks d)
  | [], _ => rfl
  | _ :: ks, _ => (silent_insert _ _).bind fun d => insertRows_silent l ks d

theorem insertLinked_silent (l : Loaded) (isOld : Bool) (name : Str) (link : KanjiRec) (d : KanjiStore) :
    Silent (insertLinkedPrinting l isOld name link d) := (silent_quietly _).bind fun _ => rfl

theorem loadLinkedLines_silent (l : Loaded) : ∀ (lines : List Str) (d : KanjiStore), Silent (loadLinkedLinesPrinting l lines d)
  | [], _ => rfl
  | line :: lines, d => by
    rw [loadLinkedLinesPrinting]
    split
    · split
      · rfl
      · exact (insertLinked_silent ..).bind fun d => loadLinkedLines_silent l lines d
    · rfl

theorem loadOldNames_silent (l : Loaded) (link : KanjiRec) : ∀ (js : List Str) (d : KanjiStore),
    Silent (loadOldNamesPrinting l link js d)
  | [], _ => rfl
  | j :: js, d => by
    rw [loadOldNamesPrinting]
    split
    · exact loadOldNames_silent l link js d
    · exact (insertLinked_silent ..).bind fun d => loadOldNames_silent l link js d

theorem loadAllOldNames_silent (l : Loaded) : ∀ (ks : List KanjiRec) (d : KanjiStore), Silent (loadAllOldNamesPrinting l ks d)
  | [], _ => rfl
  | k :: ks, d => by
    rw [loadAllOldNamesPrinting]
    exact (loadOldNames_silent ..).bind fun d => loadAllOldNames_silent l ks d

theorem loadJinmeiOld_silent (l : Loaded) (link : KanjiRec) : ∀ (js : List Str) (d : KanjiStore),
    Silent (loadJinmeiOldPrinting l link js d)
  | [], _ => rfl
  | j :: js, d => by
    rw [loadJinmeiOldPrinting]
    exact (insertLinked_silent ..).bind fun d => loadJinmeiOld_silent l link js d

theorem loadJinmeiLoop_silent (l : Loaded) : ∀ (ks : List KanjiRec) (d : KanjiStore), Silent (loadJinmeiLoopPrinting l ks d)
  | [], _ => rfl
  | k :: ks, d => by
    rw [loadJinmeiLoopPrinting]
    exact ((silent_insert _ _).bind fun d => loadJinmeiOld_silent ..).bind fun d => loadJinmeiLoop_silent l ks d

theorem processUcd_silent (c : KanjiCtx) (ic : IdCtx) : ∀ (us : List Ucd) (d : KanjiStore), Silent (processUcdPrinting c ic us d)
  | [], _ => rfl
  | u :: us, d => by
    rw [processUcdPrinting]
    split
    · exact processUcd_silent c ic us d
    · exact (silent_quietly _).bind fun k => (silent_insert _ _).bind fun d => processUcd_silent c ic us d

theorem loadJouyou_silent (l : Loaded) (rows : List CellRow) (d : KanjiStore) : Silent (loadJouyouPrinting l rows d) :=
  (silent_quietly _).bind fun _ => (insertRows_silent ..).bind fun _ => rfl

theorem loadExtra_silent (l : Loaded) (rows : List CellRow) (d : KanjiStore) : Silent (loadExtraPrinting l rows d) :=
  (silent_quietly _).bind fun _ => (insertRows_silent ..).bind fun _ => rfl

theorem loadJinmei_silent (l : Loaded) (rows : List CellRow) (d : KanjiStore) : Silent (loadJinmeiPrinting l rows d) :=
  (silent_quietly _).bind fun _ => (loadJinmeiLoop_silent ..).bind fun _ => rfl

theorem loadOfficialLinked_silent (l : Loaded) (lines : List Str) (d : KanjiStore) :
    Silent (loadOfficialLinkedPrinting l lines d) :=
  (loadLinkedLines_silent ..).bind fun _ => loadAllOldNames_silent ..

theorem loadKanji_quiet {mode : DebugMode} (hm : mode ≠ .full) (l : Loaded) (f : KanjiFiles) :
    Silent (loadKanjiPrinting mode l f) :=
  (silent_quietly _).bind fun _ => (loadJouyou_silent ..).bind fun _ => (loadOfficialLinked_silent ..).bind fun _ =>
  (loadJinmei_silent ..).bind fun _ => (loadExtra_silent ..).bind fun _ =>
  Silent.bind (processLists_quiet hm l _ _) fun _ => processUcd_silent ..

/-- The kanji before the lists are those of the files with rows and of the links. -/
theorem loadKanji_text {l : Loaded} {f : KanjiFiles} {d : KanjiStore} (h : loadKanji l f = .ok d) :
    ∃ d0 d1, (∃ A, StoreInv d0 A ∧ ∃ more, StoreInv d (A ++ more) ∧
        (∀ k ∈ A, k.kanji.type ≠ .frequency ∧ k.kanji.type ≠ .kentei ∧ k.kanji.type ≠ .ucd) ∧
        ∀ k ∈ more, k.kanji.type = .frequency ∨ k.kanji.type = .kentei ∨ k.kanji.type = .ucd) ∧
      processLists l l.lists.processOrder d0 = .ok d1 ∧
      ListTexts l d0 l.lists.processOrder (loadKanjiPrinting .full l f).prints.out := by
  unfold loadKanji at h
  obtain ⟨x0, h0, h⟩ := Res.bind_eq_ok h
  obtain ⟨d1, h1, h⟩ := Res.bind_eq_ok h
  obtain ⟨d2, h2, h⟩ := Res.bind_eq_ok h
  obtain ⟨d3, h3, h⟩ := Res.bind_eq_ok h
  obtain ⟨d4, h4, h⟩ := Res.bind_eq_ok h
  obtain ⟨d5, h5, h6⟩ := Res.bind_eq_ok h
  obtain ⟨A, a1, a2, a3, a4⟩ := loadJouyou_spec (f := f) h1
  obtain ⟨n1, n2, b1, b2, b3, b4, b5, b6, b7⟩ := loadOfficialLinked_spec a1 h2
  have h1' := h1
  unfold loadJouyou at h1'
  obtain ⟨jks, j1, h1'⟩ := Res.bind_eq_ok h1'
  have other : ∀ t, t ≠ .jouyou → d1.types t = [] := by
    intro t ht
    cases h1'
    obtain ⟨_, _, _, _, e, _⟩ := Loading.rows .jouyou (by decide) (jks.map fun k => l.record k.1) {}
      ({} : KanjiStore).types [] (loading_empty l f)
      (by
        intro k hk
        obtain ⟨p, hp, rfl⟩ := List.mem_map.mp hk
        obtain ⟨r, _, hr⟩ := (fromRows_mem j1).1 p hp
        exact (jouyou_row hr).1)
      (by
        intro k hk
        obtain ⟨p, hp, rfl⟩ := List.mem_map.mp hk
        obtain ⟨r, hr', hr⟩ := (fromRows_mem j1).1 p hp
        exact .jouyou r p.2 p.1 hr' hr)
    simp only [KanjiStore.setType, if_neg ht, e]
  obtain ⟨n3, c1, c2, c3, c4, c5, c6, c7⟩ := loadJinmei_spec b1
    (by rw [b2 .jinmei (by decide)]; exact other _ (by decide)) h3
  obtain ⟨n4, e1, e2, e3, e4, e5, e6, e7⟩ := loadExtra_spec c1
    (by rw [c4, b2 .extra (by decide)]; exact other _ (by decide)) h4
  obtain ⟨n5, g1, g2, g3, g4, g5⟩ := processLists_spec _ d4 d5 _ e1 (processOrder_fromLists l) h5
  obtain ⟨n6, i1, i2, i3, i4, i5, i6, i7, i8, i9⟩ := processUcd_spec g1 h6
  refine ⟨d4, d5, ⟨_, e1.types.store, n5 ++ n6, by rw [← List.append_assoc]; exact i1.types.store, ?_, ?_⟩, h5, ?_⟩
  · intro k hk
    simp only [List.mem_append] at hk
    have : k.kanji.type = .jouyou ∨ k.kanji.type = .linkedJinmei ∨ k.kanji.type = .linkedOld ∨ k.kanji.type = .jinmei ∨
        k.kanji.type = .extra := by
      rcases hk with ((hk | hk | hk) | hk) | hk
      · exact .inl (a2 k hk)
      · exact .inr (.inl (b4 k hk).1)
      · exact .inr (.inr (.inl (b7 k hk).1))
      · rcases c6 k hk with e | e
        · exact .inr (.inr (.inr (.inl e)))
        · exact .inr (.inl e)
      · exact .inr (.inr (.inr (.inr (e6 k hk))))
    rcases this with e | e | e | e | e <;> rw [e] <;> decide
  · intro k hk
    rcases List.mem_append.mp hk with hk | hk
    · rcases g4 k hk with e | e
      · exact .inl e
      · exact .inr (.inl e)
    · exact .inr (.inr (i4 k hk).1)
  · have ht := processLists_text l.lists.processOrder d4 d5 _ e1 (processOrder_fromLists l) h5
    have : (loadKanjiPrinting .full l f).prints.out =
        (processListsPrinting .full l l.lists.processOrder d4).prints.out := by
      unfold loadKanjiPrinting
      rw [Printing.bind_out (r := quietly _) h0,
        Printing.bind_out (by rw [loadJouyou_result]; exact h1), show (loadJouyouPrinting l f.jouyou {}).prints.out = [] from loadJouyou_silent ..,
        Printing.bind_out (by rw [loadOfficialLinked_result]; exact h2), show (loadOfficialLinkedPrinting l f.linkedJinmei d1).prints.out = [] from loadOfficialLinked_silent ..,
        Printing.bind_out (by rw [loadJinmei_result]; exact h3), show (loadJinmeiPrinting l f.jinmei d2).prints.out = [] from loadJinmei_silent ..,
        Printing.bind_out (by rw [loadExtra_result]; exact h4), show (loadExtraPrinting l f.extra d3).prints.out = [] from loadExtra_silent ..,
        Printing.bind_out (by rw [processLists_result]; exact h5), show (processUcdPrinting l.ctx l.ids l.ucds d5).prints.out = [] from processUcd_silent ..]
      simp [quietly]
    rw [this]
    exact ht

end KT
