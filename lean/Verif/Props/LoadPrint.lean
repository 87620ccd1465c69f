import Verif.Model.LoadPrint
import Verif.Props.LoadReport
import Verif.Props.UcdReport
import Verif.Props.KanjiErrors
import Verif.Props.LoadSafe
/-!
# C184: everything printed while the kanji are loaded

Model: `Verif/Model/LoadPrint.lean`.
-/
namespace KT
open Spec

/-! ## Printing changes nothing -/

theorem Printing.bind_result {α β : Type} (r : Printing α) (f : α → Printing β) :
    (r.bind f).result = r.result.bind fun a => (f a).result := by
  unfold Printing.bind
  cases r.result <;> rfl

theorem quietly_bind_result {α β : Type} (r : Res α) (f : α → Printing β) :
    ((quietly r).bind f).result = r.bind fun a => (f a).result := Printing.bind_result _ _

theorem insertRows_result (l : Loaded) : ∀ (ks : List KanjiRec) (d : KanjiStore),
    (insertRowsPrinting l ks d).result = .ok (ks.foldl l.insert d)
  | [], _ => rfl
  | k :: ks, d => by
    rw [insertRowsPrinting, Printing.bind_result]
    exact insertRows_result l ks _

theorem loadJouyou_result (l : Loaded) (rows : List CellRow) (d : KanjiStore) :
    (loadJouyouPrinting l rows d).result = loadJouyou l rows d := by
  unfold loadJouyouPrinting loadJouyou
  rw [quietly_bind_result]
  congr 1
  funext ks
  simp only [Printing.bind_result, insertRows_result]
  rfl

theorem loadExtra_result (l : Loaded) (rows : List CellRow) (d : KanjiStore) :
    (loadExtraPrinting l rows d).result = loadExtra l rows d := by
  unfold loadExtraPrinting loadExtra
  rw [quietly_bind_result]
  congr 1
  funext ks
  simp only [Printing.bind_result, insertRows_result]
  rfl

theorem insertLinked_result (l : Loaded) (isOld : Bool) (name : Str) (link : KanjiRec) (d : KanjiStore) :
    (insertLinkedPrinting l isOld name link d).result = insertLinked l isOld name link d := by
  unfold insertLinkedPrinting insertLinked
  rw [quietly_bind_result]

theorem loadLinkedLines_result (l : Loaded) : ∀ (lines : List Str) (d : KanjiStore),
    (loadLinkedLinesPrinting l lines d).result = loadLinkedLines l lines d
  | [], _ => rfl
  | line :: lines, d => by
    rw [loadLinkedLinesPrinting, loadLinkedLines]
    rcases fields 0x09 line with _ | ⟨jouyou, _ | ⟨linked, rest⟩⟩
    · rfl
    · rfl
    · simp only
      cases d.nameMap.lookup jouyou with
      | none => rfl
      | some k =>
        simp only
        rw [Printing.bind_result, insertLinked_result]
        congr 1
        funext d
        exact loadLinkedLines_result l lines d

theorem loadOldNames_result (l : Loaded) (link : KanjiRec) : ∀ (js : List Str) (d : KanjiStore),
    (loadOldNamesPrinting l link js d).result = loadOldNames l link js d
  | [], _ => rfl
  | j :: js, d => by
    rw [loadOldNamesPrinting, loadOldNames]
    rcases d.findByName j with _ | k
    case some => exact loadOldNames_result l link js d
    case none =>
      rw [Printing.bind_result, insertLinked_result]
      congr 1
      funext d
      exact loadOldNames_result l link js d

theorem loadAllOldNames_result (l : Loaded) : ∀ (ks : List KanjiRec) (d : KanjiStore),
    (loadAllOldNamesPrinting l ks d).result = loadAllOldNames l ks d
  | [], _ => rfl
  | k :: ks, d => by
    rw [loadAllOldNamesPrinting, loadAllOldNames, Printing.bind_result, loadOldNames_result]
    congr 1
    funext d
    exact loadAllOldNames_result l ks d

theorem loadOfficialLinked_result (l : Loaded) (lines : List Str) (d : KanjiStore) :
    (loadOfficialLinkedPrinting l lines d).result = loadOfficialLinked l lines d := by
  unfold loadOfficialLinkedPrinting loadOfficialLinked
  rw [Printing.bind_result, loadLinkedLines_result]
  congr 1
  funext d
  exact loadAllOldNames_result l _ d

theorem loadJinmeiOld_result (l : Loaded) (link : KanjiRec) : ∀ (js : List Str) (d : KanjiStore),
    (loadJinmeiOldPrinting l link js d).result = loadJinmeiOld l link js d
  | [], _ => rfl
  | j :: js, d => by
    rw [loadJinmeiOldPrinting, loadJinmeiOld, Printing.bind_result, insertLinked_result]
    congr 1
    funext d
    exact loadJinmeiOld_result l link js d

theorem loadJinmeiLoop_result (l : Loaded) : ∀ (ks : List KanjiRec) (d : KanjiStore),
    (loadJinmeiLoopPrinting l ks d).result = loadJinmeiLoop l ks d
  | [], _ => rfl
  | k :: ks, d => by
    rw [loadJinmeiLoopPrinting, loadJinmeiLoop, Printing.bind_result, Printing.bind_result]
    simp only [Res.bind, loadJinmeiOld_result]
    congr 1
    funext d
    exact loadJinmeiLoop_result l ks d

theorem loadJinmei_result (l : Loaded) (rows : List CellRow) (d : KanjiStore) :
    (loadJinmeiPrinting l rows d).result = loadJinmei l rows d := by
  unfold loadJinmeiPrinting loadJinmei
  rw [quietly_bind_result]
  congr 1
  funext ks
  simp only [Printing.bind_result, loadJinmeiLoop_result]
  rfl

theorem processList_result (c : KanjiCtx) (ic : IdCtx) (kind : ListKind) (debug : Bool) : ∀ (names : List Str) (i : Nat)
    (d : KanjiStore) (log : ListLog), (processListPrinting c ic kind debug i names d log).result =
      KanjiStore.processListLog c ic kind debug i names d log
  | [], _, _, _ => rfl
  | name :: names, i, d, log => by
    rw [processListPrinting, KanjiStore.processListLog]
    rcases d.findByName name with _ | k
    case some =>
      simp only
      rw [quietly_bind_result]
      congr 1
      funext d
      exact processList_result c ic kind debug names _ _ _
    case none =>
      simp only
      rw [quietly_bind_result]
      congr 1
      funext k
      rw [Printing.bind_result]
      congr 1
      funext d
      exact processList_result c ic kind debug names _ _ _

theorem processLists_result (mode : DebugMode) (l : Loaded) : ∀ (fs : List (ListKind × List Str)) (d : KanjiStore),
    (processListsPrinting mode l fs d).result = processLists l fs d
  | [], _ => rfl
  | (kind, names) :: fs, d => by
    rw [processListsPrinting, processLists, Printing.bind_result, processList_result,
      ← C140_store l.ctx l.ids kind (mode ≠ .none) names 0 d {}]
    cases KanjiStore.processListLog l.ctx l.ids kind (mode ≠ .none) 0 names d {} with
    | ok r =>
      simp only [Res.bind, Printing.bind_result, printing]
      exact processLists_result mode l fs r.1
    | throw _ => rfl
    | ub => rfl

theorem processUcd_result (c : KanjiCtx) (ic : IdCtx) : ∀ (us : List Ucd) (d : KanjiStore),
    (processUcdPrinting c ic us d).result = KanjiStore.processUcd c ic us d
  | [], _ => rfl
  | u :: us, d => by
    rw [processUcdPrinting, KanjiStore.processUcd]
    rcases d.findByName u.name with _ | k
    case some => exact processUcd_result c ic us d
    case none =>
      simp only
      rw [quietly_bind_result]
      congr 1
      funext k
      rw [Printing.bind_result]
      exact processUcd_result c ic us _

theorem loadKanji_result (mode : DebugMode) (l : Loaded) (f : KanjiFiles) :
    (loadKanjiPrinting mode l f).result = loadKanji l f := by
  unfold loadKanjiPrinting loadKanji
  simp only [Printing.bind_result, loadJouyou_result, loadOfficialLinked_result, loadJinmei_result, loadExtra_result,
    processLists_result, processUcd_result]
  rfl

/-! ## What is inserted -/

/-- The stores have the same maps of names and the same number of errors. -/
def SameMaps (d d' : KanjiStore) : Prop := d'.nameMap = d.nameMap ∧ d'.compatMap = d.compatMap ∧ d'.errors = d.errors

theorem SameMaps.refl (d : KanjiStore) : SameMaps d d := ⟨rfl, rfl, rfl⟩

theorem SameMaps.trans {a b c : KanjiStore} (h1 : SameMaps a b) (h2 : SameMaps b c) : SameMaps a c :=
  ⟨h2.1.trans h1.1, h2.2.1.trans h1.2.1, h2.2.2.trans h1.2.2⟩

theorem insertMessages_same {d d' : KanjiStore} (h : SameMaps d d') (k : KanjiRec) (u : Option Ucd) :
    insertMessages d' k u = insertMessages d k u := by
  unfold insertMessages
  rw [h.1, h.2.1]

theorem checkInsert_same {d d' : KanjiStore} (h : SameMaps d d') (k : KanjiRec) (u : Option Ucd) :
    SameMaps (d.checkInsert k u).1 (d'.checkInsert k u).1 := by
  obtain ⟨h1, h2, h3⟩ := h
  unfold KanjiStore.checkInsert
  rw [h1]
  rcases mapEmplace d.nameMap k.kanji.name k with ⟨m, _ | _⟩
  · exact ⟨rfl, h2, by simp only [h3]⟩
  · refine ⟨rfl, ?_, ?_⟩
    · simp only [h2]
    · simp only [h2, h3]

theorem checkInsertType_same (d : KanjiStore) (t : KanjiType) (k : KanjiRec) (u : Option Ucd) :
    SameMaps (d.checkInsert k u).1 (d.checkInsertType t k u).1 := by
  unfold KanjiStore.checkInsertType
  rcases d.checkInsert k u with ⟨d1, _ | _⟩ <;> exact ⟨rfl, rfl, rfl⟩

theorem addToList_same {kind : ListKind} {d d' : KanjiStore} {k : KanjiRec} (h : d.addToList kind k = .ok d') :
    SameMaps d d' := by
  have := addToList_lists h
  refine ⟨this.1, this.2, ?_⟩
  unfold KanjiStore.addToList at h
  cases kind with
  | kyu q =>
    simp only [KanjiStore.addToKyus] at h
    split at h
    · cases h; rfl
    · cases h
  | level q =>
    simp only [KanjiStore.addToLevels] at h
    split at h
    · cases h; rfl
    · cases h
  | frequency =>
    simp only [KanjiStore.addToFrequencies] at h
    obtain ⟨_, _, h⟩ := Res.bind_eq_ok h
    cases h; rfl

theorem insertAll_same (hist : List (KanjiRec × Option Ucd)) : ∀ {d d' : KanjiStore}, SameMaps d d' →
    SameMaps (KanjiStore.insertAll d hist) (KanjiStore.insertAll d' hist) := by
  induction hist with
  | nil => exact fun h => h
  | cons x xs ih => exact fun h => ih (checkInsert_same h x.1 x.2)

theorem allMessages_same (hist : List (KanjiRec × Option Ucd)) : ∀ {d d' : KanjiStore}, SameMaps d d' →
    allMessages hist d' = allMessages hist d := by
  induction hist with
  | nil => exact fun _ => rfl
  | cons x xs ih =>
    intro d d' h
    rw [allMessages, allMessages, insertMessages_same h, ih (checkInsert_same h x.1 x.2)]

theorem allMessages_append (a b : List (KanjiRec × Option Ucd)) : ∀ d : KanjiStore,
    allMessages (a ++ b) d = allMessages a d ++ allMessages b (KanjiStore.insertAll d a) := by
  induction a with
  | nil => exact fun _ => rfl
  | cons x xs ih =>
    intro d
    rw [List.cons_append, allMessages, allMessages, ih, List.append_assoc]
    rfl

theorem insertAll_append (d : KanjiStore) (a b : List (KanjiRec × Option Ucd)) :
    KanjiStore.insertAll d (a ++ b) = KanjiStore.insertAll (KanjiStore.insertAll d a) b := by
  simp [KanjiStore.insertAll, List.foldl_append]

/-- Every kanji in the store comes from the files. -/
def PrintKnown (l : Loaded) (f : KanjiFiles) (d : KanjiStore) : Prop := ∀ p ∈ d.nameMap, Origin l f p.2 ∧ p.1 = p.2.kanji.name

theorem known_insert {l : Loaded} {f : KanjiFiles} {d : KanjiStore} (h : PrintKnown l f d) {k : KanjiRec} (hk : Origin l f k)
    (u : Option Ucd) : PrintKnown l f (d.checkInsert k u).1 := by
  unfold KanjiStore.checkInsert mapEmplace
  split
  · rename_i e
    split at e
    · exact h
    · exact h
  · rename_i e
    split at e
    · cases e
    · cases e
      intro p hp
      rcases List.mem_append.mp hp with hp | hp
      · exact h p hp
      · simp only [List.mem_singleton] at hp
        subst hp
        exact ⟨hk, rfl⟩

theorem known_all {l : Loaded} {f : KanjiFiles} (hist : List (KanjiRec × Option Ucd)) : ∀ {d : KanjiStore}, PrintKnown l f d →
    (∀ x ∈ hist, Origin l f x.1) → PrintKnown l f (KanjiStore.insertAll d hist) := by
  induction hist with
  | nil => exact fun h _ => h
  | cons x xs ih =>
    exact fun h hx => ih (known_insert h (hx x List.mem_cons_self) x.2) fun y hy => hx y (List.mem_cons_of_mem _ hy)

/-- The errors printed are the messages for kanji of the files that are inserted one after the other, and the store has
these kanji in the end (unless the program crashes). -/
def PrintOffers (l : Loaded) (f : KanjiFiles) {α : Type} (g : α → KanjiStore) (d : KanjiStore) (r : Printing α) : Prop :=
  r.result ≠ .ub → ∃ hist : List (KanjiRec × Option Ucd), r.prints.errors = allMessages hist d ∧
    (∀ x ∈ hist, Origin l f x.1 ∧ x.2 = l.findUcd x.1.kanji.name) ∧
    ∀ a, r.result = .ok a → SameMaps (KanjiStore.insertAll d hist) (g a)

section
variable {l : Loaded} {f : KanjiFiles} {α β : Type}

theorem PrintOffers.bind {g : α → KanjiStore} {g' : β → KanjiStore} {d : KanjiStore} {r : Printing α} {h : α → Printing β}
    (hk : PrintKnown l f d) (h1 : PrintOffers l f g d r) (h2 : ∀ a, r.result = .ok a → PrintKnown l f (g a) → PrintOffers l f g' (g a) (h a)) :
    PrintOffers l f g' d (r.bind h) := by
  unfold Printing.bind
  intro hne
  cases hr : r.result with
  | throw x =>
    obtain ⟨hist, e1, e2, e3⟩ := h1 (by rw [hr]; simp)
    exact ⟨hist, e1, e2, by simp⟩
  | ub => rw [hr] at hne; exact absurd rfl hne
  | ok a =>
    rw [hr] at hne
    obtain ⟨hist, e1, e2, e3⟩ := h1 (by rw [hr]; simp)
    have hs := e3 a hr
    have hka : PrintKnown l f (g a) := by
      intro p hp
      rw [hs.1] at hp
      exact known_all hist hk (fun x hx => (e2 x hx).1) p hp
    obtain ⟨hist', q1, q2, q3⟩ := h2 a hr hka hne
    refine ⟨hist ++ hist', ?_, ?_, ?_⟩
    · show r.prints.errors ++ (h a).prints.errors = _
      rw [allMessages_append, e1, q1, allMessages_same hist' hs]
    · intro x hx
      rcases List.mem_append.mp hx with hx | hx
      · exact e2 x hx
      · exact q2 x hx
    · intro b hb
      rw [insertAll_append]
      exact (insertAll_same hist' hs).trans (q3 b hb)

theorem PrintOffers.quiet {g : α → KanjiStore} {d : KanjiStore} {r : Res α} (h : ∀ a, r = .ok a → SameMaps d (g a)) :
    PrintOffers l f g d (quietly r) := fun _ => ⟨[], rfl, by simp, h⟩

/-- Something that doesn't change the store. -/
theorem PrintOffers.other {d : KanjiStore} {r : Res α} : PrintOffers l f (fun _ => d) d (quietly r) :=
  .quiet fun _ _ => .refl d

theorem PrintOffers.insert {g : α → KanjiStore} {d : KanjiStore} {k : KanjiRec} (hk : Origin l f k) {r : Res α} {u : Option Ucd}
    (hu : u = l.findUcd k.kanji.name) {s : Str} (h : ∀ a, r = .ok a → SameMaps (d.checkInsert k u).1 (g a)) :
    PrintOffers l f g d ⟨⟨s, insertMessages d k u⟩, r⟩ := by
  subst hu
  refine fun _ => ⟨[(k, l.findUcd k.kanji.name)], by simp [allMessages], ?_, h⟩
  intro x hx
  simp only [List.mem_singleton] at hx
  subst hx
  exact ⟨hk, rfl⟩

theorem PrintOffers.print {d : KanjiStore} {s : Str} : PrintOffers l f (fun _ : Unit => d) d (printing s) :=
  fun _ => ⟨[], rfl, by simp, fun _ _ => .refl d⟩

/-! ## The parts of loading -/

theorem insertRows_offers (ks : List KanjiRec) : ∀ {d : KanjiStore}, PrintKnown l f d → (∀ k ∈ ks, Origin l f k) →
    PrintOffers l f (fun d => d) d (insertRowsPrinting l ks d) := by
  induction ks with
  | nil => exact fun _ _ => .quiet fun a h => by cases h; exact .refl _
  | cons k ks ih =>
    intro d hd ho
    rw [insertRowsPrinting]
    exact .bind hd (.insert (g := fun d => d) (ho k List.mem_cons_self) rfl (fun a h => by cases h; exact .refl _))
      fun a _ hka => ih hka fun x hx => ho x (List.mem_cons_of_mem _ hx)

theorem setType_same (d : KanjiStore) (t : KanjiType) (ks : List KanjiRec) : SameMaps d (d.setType t ks) := ⟨rfl, rfl, rfl⟩

theorem loadJouyou_offers {d : KanjiStore} (hd : PrintKnown l f d) :
    PrintOffers l f (fun d => d) d (loadJouyouPrinting l f.jouyou d) := by
  unfold loadJouyouPrinting
  refine .bind hd .other fun ks hks hk => ?_
  refine .bind hk (insertRows_offers _ hk ?_) fun a _ _ => .quiet fun b hb => by cases hb; exact setType_same _ _ _
  intro k hk
  obtain ⟨p, hp, rfl⟩ := List.mem_map.mp hk
  obtain ⟨r, hr', hr⟩ := (fromRows_mem hks).1 p hp
  exact .jouyou r p.2 p.1 hr' hr

theorem loadExtra_offers {d : KanjiStore} (hd : PrintKnown l f d) :
    PrintOffers l f (fun d => d) d (loadExtraPrinting l f.extra d) := by
  unfold loadExtraPrinting
  refine .bind hd .other fun ks hks hk => ?_
  refine .bind hk (insertRows_offers _ hk ?_) fun a _ _ => .quiet fun b hb => by cases hb; exact setType_same _ _ _
  intro k hk
  obtain ⟨p, hp, rfl⟩ := List.mem_map.mp hk
  obtain ⟨r, hr', hr⟩ := (fromRows_mem hks).1 p hp
  exact .extra r p.2 p.1 hr' hr

theorem insertLinked_offers {d : KanjiStore} (hd : PrintKnown l f d) (isOld : Bool) (name : Str) (link : KanjiRec)
    (ho : ∀ k, Kanji.makeLinked l.ctx name link.kanji isOld = .ok k → Origin l f (l.record k)) :
    PrintOffers l f (fun d => d) d (insertLinkedPrinting l isOld name link d) := by
  unfold insertLinkedPrinting
  refine .bind hd .other fun k hk _ => .insert (ho k hk) ?_ fun a h => by cases h; exact checkInsertType_same _ _ _ _
  have : k.name = name := (linked_facts hk).2.1
  show _ = l.findUcd k.name
  rw [this]

theorem loadLinkedLines_offers (lines : List Str) : ∀ {d : KanjiStore}, PrintKnown l f d → (∀ x ∈ lines, x ∈ f.linkedJinmei) →
    PrintOffers l f (fun d => d) d (loadLinkedLinesPrinting l lines d) := by
  induction lines with
  | nil => exact fun _ _ => .quiet fun a h => by cases h; exact .refl _
  | cons line lines ih =>
    intro d hd hl
    rw [loadLinkedLinesPrinting]
    rcases hf : fields 0x09 line with _ | ⟨jouyou, _ | ⟨linked, rest⟩⟩
    · exact .quiet fun a h => by cases h
    · exact .quiet fun a h => by cases h
    · simp only
      cases hn : d.nameMap.lookup jouyou with
      | none => exact .quiet fun a h => by cases h
      | some k =>
        have hm := mem_of_lookup hn
        refine .bind hd (insertLinked_offers hd false linked k fun k' hk' => ?_) fun a _ hka =>
          ih hka fun x hx => hl x (List.mem_cons_of_mem _ hx)
        exact .line line jouyou linked rest k k' (hl line List.mem_cons_self) hf (hd _ hm).1 (hd _ hm).2.symm hk'

theorem loadOldNames_offers (link : KanjiRec) (hlink : Origin l f link) (js : List Str) : ∀ {d : KanjiStore}, PrintKnown l f d →
    (∀ j ∈ js, j ∈ link.kanji.oldNames) → PrintOffers l f (fun d => d) d (loadOldNamesPrinting l link js d) := by
  induction js with
  | nil => exact fun _ _ => .quiet fun a h => by cases h; exact .refl _
  | cons j js ih =>
    intro d hd hl
    have hl' : ∀ j ∈ js, j ∈ link.kanji.oldNames := fun x hx => hl x (List.mem_cons_of_mem _ hx)
    rw [loadOldNamesPrinting]
    rcases d.findByName j with _ | k
    case some => exact ih hd hl'
    case none =>
      exact .bind hd (insertLinked_offers hd true j link fun k' hk' => .old link j k' hlink (hl j List.mem_cons_self) hk')
        fun a _ hka => ih hka hl'

theorem loadAllOldNames_offers (ks : List KanjiRec) : ∀ {d : KanjiStore}, PrintKnown l f d → (∀ k ∈ ks, Origin l f k) →
    PrintOffers l f (fun d => d) d (loadAllOldNamesPrinting l ks d) := by
  induction ks with
  | nil => exact fun _ _ => .quiet fun a h => by cases h; exact .refl _
  | cons k ks ih =>
    intro d hd hl
    rw [loadAllOldNamesPrinting]
    exact .bind hd (loadOldNames_offers k (hl k List.mem_cons_self) _ hd fun _ h => h)
      fun a _ hka => ih hka fun x hx => hl x (List.mem_cons_of_mem _ hx)

theorem loadOfficialLinked_offers {d : KanjiStore} (hd : PrintKnown l f d) :
    PrintOffers l f (fun d => d) d (loadOfficialLinkedPrinting l f.linkedJinmei d) := by
  unfold loadOfficialLinkedPrinting
  refine .bind hd (loadLinkedLines_offers _ hd fun _ h => h) fun a _ hka => loadAllOldNames_offers _ hka fun k hk => ?_
  obtain ⟨p, hp, rfl⟩ := mapOrder_mem hk
  exact (hka p hp).1

theorem loadJinmeiOld_offers (row : CellRow) (hrow : row ∈ f.jinmei) (k : Kanji) (info : NumberedInfo)
    (hk : jinmeiFromRow l.ctx row = .ok (k, info)) (js : List Str) : ∀ {d : KanjiStore}, PrintKnown l f d →
    (∀ j ∈ js, j ∈ k.oldNames) → PrintOffers l f (fun d => d) d (loadJinmeiOldPrinting l (l.record k) js d) := by
  induction js with
  | nil => exact fun _ _ => .quiet fun a h => by cases h; exact .refl _
  | cons j js ih =>
    intro d hd hl
    rw [loadJinmeiOldPrinting]
    exact .bind hd (insertLinked_offers hd false j (l.record k)
      fun k' hk' => .jinmeiOld row info k j k' hrow hk (hl j List.mem_cons_self) hk')
        fun a _ hka => ih hka fun x hx => hl x (List.mem_cons_of_mem _ hx)

theorem loadJinmeiLoop_offers (ks : List (Kanji × NumberedInfo)) : ∀ {d : KanjiStore}, PrintKnown l f d →
    (∀ k ∈ ks, ∃ row ∈ f.jinmei, jinmeiFromRow l.ctx row = .ok k) →
    PrintOffers l f (fun d => d) d (loadJinmeiLoopPrinting l (ks.map fun k => l.record k.1) d) := by
  induction ks with
  | nil => exact fun _ _ => .quiet fun a h => by cases h; exact .refl _
  | cons k ks ih =>
    intro d hd hl
    obtain ⟨row, hr, hk⟩ := hl k List.mem_cons_self
    rw [List.map_cons, loadJinmeiLoopPrinting]
    refine .bind hd (.bind hd (.insert (g := fun d => d) (.jinmei row k.2 k.1 hr hk) rfl ?_)
      fun a _ hka => loadJinmeiOld_offers row hr k.1 k.2 hk _ hka fun _ h => h)
        fun a _ hka => ih hka fun x hx => hl x (List.mem_cons_of_mem _ hx)
    intro a h; cases h; exact .refl _

theorem loadJinmei_offers {d : KanjiStore} (hd : PrintKnown l f d) :
    PrintOffers l f (fun d => d) d (loadJinmeiPrinting l f.jinmei d) := by
  unfold loadJinmeiPrinting
  refine .bind hd .other fun ks hks hk => ?_
  refine .bind hk (loadJinmeiLoop_offers ks hk fun p hp => ?_) fun a _ _ => .quiet fun b hb => by cases hb; exact setType_same _ _ _
  obtain ⟨r, hr', hr⟩ := (fromRows_mem hks).1 p hp
  exact ⟨r, hr', hr⟩

theorem processList_offers (kind : ListKind) (debug : Bool) (names : List Str) : ∀ (i : Nat) {d : KanjiStore}
    (log : ListLog), PrintKnown l f d →
    (∀ j name k, names[j]? = some name → newListKanji l.ctx l.ids kind (i + j) name = .ok k →
      (∀ q, kind = .level q → k.kanji.level ≠ none) → Origin l f k) →
    PrintOffers l f (fun r => r.1) d (processListPrinting l.ctx l.ids kind debug i names d log) := by
  induction names with
  | nil => exact fun _ _ _ _ _ => .quiet fun a h => by cases h; exact .refl _
  | cons name names ih =>
    intro i d log hd ho
    have ho' : ∀ j name k, names[j]? = some name → newListKanji l.ctx l.ids kind (i + 1 + j) name = .ok k →
        (∀ q, kind = .level q → k.kanji.level ≠ none) → Origin l f k := by
      intro j n k hj
      have g := ho (j + 1) n k hj
      rwa [show i + (j + 1) = i + 1 + j by omega] at g
    rw [processListPrinting]
    rcases d.findByName name with _ | k
    case some =>
      exact .bind hd (.quiet (g := fun d => d) fun a h => addToList_same h) fun a _ hka => ih _ _ hka ho'
    case none =>
      refine .bind hd .other fun k hk _ => ?_
      by_cases hub : (d.checkInsertType kind.newType k (l.ctx.findUcd k.kanji.name)).1.addToList kind k = .ub
      · intro hne
        refine absurd ?_ hne
        rw [Printing.bind_result]
        simp only [hub, Res.bind]
      · refine .bind (g := fun d => d) hd (.insert ?_ rfl fun a h => (checkInsertType_same _ _ _ _).trans (addToList_same h))
          fun a _ hka => ih _ _ hka ho'
        refine ho 0 name k rfl hk fun q hq hlv => hub ?_
        subst hq
        simp only [KanjiStore.addToList, KanjiStore.addToLevels, hlv]

theorem processLists_offers (mode : DebugMode) (fs : List (ListKind × List Str)) : ∀ {d : KanjiStore}, PrintKnown l f d →
    FromLists l fs → PrintOffers l f (fun d => d) d (processListsPrinting mode l fs d) := by
  induction fs with
  | nil => exact fun _ _ => .quiet fun a h => by cases h; exact .refl _
  | cons p fs ih =>
    obtain ⟨kind, names⟩ := p
    intro d hd hfs
    rw [processListsPrinting]
    refine .bind hd (processList_offers kind _ names 0 {} hd ?_) fun a _ hka =>
      .bind hka .print fun _ _ _ => ih hka fun x hx => hfs x (List.mem_cons_of_mem _ hx)
    intro j name k hj hm hlev
    rw [Nat.zero_add] at hm
    have hfs0 := hfs (kind, names) (by simp)
    cases kind with
    | frequency =>
      exact .frequency j name k (by rw [← show names = _ from hfs0]; exact hj) hm
    | level x =>
      exact absurd (newListKanji_level hm) (hlev x rfl)
    | kyu q =>
      obtain ⟨st, hst, e⟩ := hfs0
      exact .kentei q st j name k hst (by rw [← show names = _ from e]; exact List.mem_of_getElem? hj) hm

theorem processUcd_offers (us : List Ucd) : ∀ {d : KanjiStore}, PrintKnown l f d → (∀ u ∈ us, u ∈ l.ucds) →
    PrintOffers l f (fun d => d) d (processUcdPrinting l.ctx l.ids us d) := by
  induction us with
  | nil => exact fun _ _ => .quiet fun a h => by cases h; exact .refl _
  | cons u us ih =>
    intro d hd hu
    have hu' : ∀ u ∈ us, u ∈ l.ucds := fun x hx => hu x (List.mem_cons_of_mem _ hx)
    rw [processUcdPrinting]
    rcases d.findByName u.name with _ | k
    case some => exact ih hd hu'
    case none =>
      refine .bind hd .other fun k hk _ => .bind (g := fun d => d) hd (.insert (.ucd u k (hu u List.mem_cons_self) hk) rfl
        fun a h => ?_) fun a _ hka => ih hka hu'
      cases h; exact checkInsertType_same _ _ _ _

theorem loadKanji_offers (mode : DebugMode) : PrintOffers l f (fun d => d) {} (loadKanjiPrinting mode l f) := by
  have h0 : PrintKnown l f {} := fun p hp => by cases hp
  unfold loadKanjiPrinting
  refine .bind h0 .other fun _ _ h => ?_
  refine .bind h (loadJouyou_offers h) fun _ _ h => ?_
  refine .bind h (loadOfficialLinked_offers h) fun _ _ h => ?_
  refine .bind h (loadJinmei_offers h) fun _ _ h => ?_
  refine .bind h (loadExtra_offers h) fun _ _ h => ?_
  refine .bind h (processLists_offers mode _ h (processOrder_fromLists l)) fun _ _ h => ?_
  exact processUcd_offers _ h fun _ h => h

end

end KT
