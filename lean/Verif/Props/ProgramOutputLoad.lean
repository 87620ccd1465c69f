import Verif.Model.ProgramOutput
import Verif.Props.QuizPrintAll
import Verif.Props.DataDirectory
/-!
# Everything printed while the files of the data directory are read (for C188 and C189)

What is printed is what is printed for the rows and texts of the files.
-/
namespace KT
open Spec

theorem Prints.nil_add (p : Prints) : Prints.add {} p = p := by
  cases p; simp [Prints.add]

theorem Prints.add_nil (p : Prints) : p.add {} = p := by
  cases p; simp [Prints.add]

theorem Prints.add_assoc (a b c : Prints) : (a.add b).add c = a.add (b.add c) := by
  simp [Prints.add, List.append_assoc]

theorem quietly_ok_bind {α β : Type} (a : α) (f : α → Printing β) : (quietly (.ok a)).bind f = f a := by
  simp only [quietly, Printing.bind, Prints.nil_add]

theorem Printing.bind_pure {α : Type} (r : Printing α) : r.bind (fun a => quietly (.ok a)) = r := by
  obtain ⟨p, r⟩ := r
  cases r <;> simp [Printing.bind, quietly, Prints.add_nil]

theorem Printing.bind_assoc' {α β γ : Type} (r : Printing α) (f : α → Printing β) (g : β → Printing γ) :
    (r.bind f).bind g = r.bind fun a => (f a).bind g := by
  obtain ⟨p, r⟩ := r
  cases r with
  | throw e => rfl
  | ub => rfl
  | ok a =>
    unfold Printing.bind
    dsimp only
    cases (f a).result <;> simp [Prints.add_assoc]

theorem Printing.bind_congr_ok {α β : Type} {r : Printing α} {f g : α → Printing β}
    (h : ∀ a, r.result = .ok a → f a = g a) : r.bind f = r.bind g := by
  unfold Printing.bind
  cases hr : r.result with
  | ok a => dsimp only; rw [h a hr]
  | throw e => rfl
  | ub => rfl

/-! ## Tables -/

/-- Carry along what is printed. -/
def carryPrints {α : Type} (body : ColumnFile → α → Printing α) (cf : ColumnFile) (s : α × Prints) : Res (α × Prints) :=
  (body cf s.1).result.bind fun a => .ok (a, s.2.add (body cf s.1).prints)

theorem tableLoopPrinting_result {α : Type} (body : ColumnFile → α → Printing α) (fuel : Nat) (cf : ColumnFile) (a : α) :
    (tableLoopPrinting body fuel cf a).result = tableLoop (fun cf a => (body cf a).result) fuel cf a := by
  induction fuel generalizing cf a with
  | zero => rfl
  | succ fuel ih =>
    simp only [tableLoopPrinting, tableLoop]
    rcases cf.nextRow with ⟨cf', r⟩
    cases r with
    | throw e => rfl
    | ub => rfl
    | ok b =>
      cases b with
      | false => rfl
      | true =>
        simp only [Printing.bind_result]
        congr 1
        funext a
        exact ih _ _

theorem readTablePrinting_result {α : Type} (reg names : List Str) (body : List Column → ColumnFile → α → Printing α)
    (text : Str) (a : α) :
    (readTablePrinting reg names body text a).result =
      readTable reg names (fun cols cf a => (body cols cf a).result) text a := by
  unfold readTablePrinting readTable
  rw [quietly_bind_result]
  congr 1
  funext t
  exact tableLoopPrinting_result _ _ _ _

theorem tableLoop_carry {α : Type} (body : ColumnFile → α → Printing α) (fuel : Nat) (cf : ColumnFile) (a : α) (p : Prints) :
    tableLoop (carryPrints body) fuel cf (a, p) =
      (tableLoopPrinting body fuel cf a).result.bind fun b => .ok (b, p.add (tableLoopPrinting body fuel cf a).prints) := by
  induction fuel generalizing cf a p with
  | zero => simp [tableLoop, tableLoopPrinting, quietly, Res.bind, Prints.add_nil]
  | succ fuel ih =>
    simp only [tableLoop, tableLoopPrinting]
    rcases cf.nextRow with ⟨cf', r⟩
    cases r with
    | throw e => rfl
    | ub => rfl
    | ok b =>
      cases b with
      | false => simp [quietly, Res.bind, Prints.add_nil]
      | true =>
        dsimp only
        unfold carryPrints Printing.bind
        cases (body cf' a).result with
        | throw e => rfl
        | ub => rfl
        | ok b =>
          refine (ih cf' b (p.add (body cf' a).prints)).trans ?_
          simp only [Prints.add_assoc]

theorem readTable_carry {α : Type} (reg names : List Str) (body : List Column → ColumnFile → α → Printing α) (text : Str)
    (a : α) :
    readTable reg names (fun cols => carryPrints (body cols)) text (a, {}) =
      (readTablePrinting reg names body text a).result.bind fun b =>
        .ok (b, (readTablePrinting reg names body text a).prints) := by
  unfold readTable readTablePrinting
  cases openTable reg names text with
  | throw e => rfl
  | ub => rfl
  | ok t =>
    rw [quietly_ok_bind]
    simp only [Res.bind]
    rw [tableLoop_carry, Prints.nil_add]
    rfl

/-- Rows one after the other, with what is printed. -/
def foldRowsPrinting {α : Type} (f : (Str → Str) → α → Printing α) : List (Str → Str) → α → Printing α
  | [], a => quietly (.ok a)
  | r :: rs, a => (f r a).bind (foldRowsPrinting f rs)

theorem foldRows_carry {α : Type} (f : (Str → Str) → α → Printing α) (n : Nat) (rows : List (Str → Str)) (a : α) (p : Prints) :
    foldRows (fun _ r (s : α × Prints) => (f r s.1).result.bind fun a => .ok (a, s.2.add (f r s.1).prints)) n rows (a, p) =
      (foldRowsPrinting f rows a).result.bind fun b => .ok (b, p.add (foldRowsPrinting f rows a).prints) := by
  induction rows generalizing n a p with
  | nil => simp [foldRows, foldRowsPrinting, quietly, Res.bind, Prints.add_nil]
  | cons r rs ih =>
    simp only [foldRows, foldRowsPrinting]
    unfold Printing.bind
    cases (f r a).result with
    | throw e => rfl
    | ub => rfl
    | ok b =>
      refine (ih (n + 1) b (p.add (f r a).prints)).trans ?_
      simp only [Prints.add_assoc]

/-- A table that is read without error: what is printed is what is printed for its rows. -/
theorem readTablePrinting_ok {α : Type} (reg names : List Str) (hreg : reg.Nodup) (hnames : names.Nodup) (hne : names ≠ [])
    (body : List Column → ColumnFile → α → Printing α) (f : (Str → Str) → α → Printing α)
    (hb : ∀ header cols n line cf a, header.Perm (cols.map Column.name) → cols.map Column.name = names →
      AtRow header cols n line cf → body cols cf a = f (cellOf header line) a) (text : Str) (a b : α)
    (ht : TableText names text) (h : (foldRowsPrinting f (tableRows text) a).result = .ok b) :
    readTablePrinting reg names body text a = foldRowsPrinting f (tableRows text) a := by
  have key := (C180_read reg names hreg hnames hne (fun cols => carryPrints (body cols))
    (fun _ r (s : α × Prints) => (f r s.1).result.bind fun a => .ok (a, s.2.add (f r s.1).prints))
    (fun header cols n line cf s hp hn hat => by unfold carryPrints; rw [hb header cols n line cf s.1 hp hn hat])
    text (a, {}) (b, (foldRowsPrinting f (tableRows text) a).prints)).mpr
      ⟨ht, by rw [foldRows_carry, h, Prints.nil_add]; rfl⟩
  rw [readTable_carry] at key
  obtain ⟨b', hb', e⟩ := Res.bind_eq_ok key
  simp only [Res.ok.injEq, Prod.mk.injEq] at e
  obtain ⟨rfl, e⟩ := e
  cases h1 : readTablePrinting reg names body text a
  cases h2 : foldRowsPrinting f (tableRows text) a
  rw [h1] at hb' e
  rw [h2] at h e
  simp only at hb' e h
  rw [hb', h, e]

theorem meaningText_same (reg : List Str) (hreg : reg.Nodup) (find : Str → Option KanjiRec) (text : Str) (m : MeaningGroups)
    (h : loadMeaningText reg find text = .ok m) :
    loadMeaningTextPrinting reg find text = loadMeaningPrinting find ((tableRows text).map groupRowOf) {} := by
  obtain ⟨ht, hm⟩ := ((C180_groups reg hreg find text).1 m).mp h
  have e : ∀ (rows : List (Str → Str)) (d : MeaningGroups),
      foldRowsPrinting (fun r (d : MeaningGroups) => (readGroupPrinting find .meaning (groupRowOf r)).bind fun g =>
        quietly (.ok (d.add g))) rows d = loadMeaningPrinting find (rows.map groupRowOf) d := by
    intro rows
    induction rows with
    | nil => intro d; rfl
    | cons r rs ih =>
      intro d
      simp only [foldRowsPrinting, List.map_cons, loadMeaningPrinting, Printing.bind_assoc', quietly_ok_bind, ih]
  unfold loadMeaningTextPrinting
  rw [← e]
  refine readTablePrinting_ok reg groupColumns hreg (by decide) (by decide) _ _ ?_ text {} m ht ?_
  · intro header cols n line cf d hp hn hat
    rw [readGroupRow_eq (hat.cells hp hn), quietly_ok_bind]
  · rw [e, loadMeaningPrinting_result]
    exact hm

theorem patternText_same (reg : List Str) (hreg : reg.Nodup) (find : Str → Option KanjiRec) (text : Str) (m : PatternGroups)
    (h : loadPatternText reg find text = .ok m) :
    loadPatternTextPrinting reg find text = loadPatternPrinting find ((tableRows text).map groupRowOf) {} := by
  obtain ⟨ht, hm⟩ := ((C180_groups reg hreg find text).2 m).mp h
  have e : ∀ (rows : List (Str → Str)) (d : PatternGroups),
      foldRowsPrinting (fun r (d : PatternGroups) => (readGroupPrinting find .pattern (groupRowOf r)).bind fun g =>
        ⟨⟨[], alreadyMessages g g.members d⟩, .ok (d.add g)⟩) rows d = loadPatternPrinting find (rows.map groupRowOf) d := by
    intro rows
    induction rows with
    | nil => intro d; rfl
    | cons r rs ih =>
      intro d
      simp only [foldRowsPrinting, List.map_cons, loadPatternPrinting, Printing.bind_assoc']
      congr 1
      funext g
      congr 1
      funext d
      exact ih d
  unfold loadPatternTextPrinting
  rw [← e]
  refine readTablePrinting_ok reg groupColumns hreg (by decide) (by decide) _ _ ?_ text {} m ht ?_
  · intro header cols n line cf d hp hn hat
    rw [readGroupRow_eq (hat.cells hp hn), quietly_ok_bind]
  · rw [e, loadPatternPrinting_result]
    exact hm

/-! ## Kanji -/

theorem jouyouPrinting_result (reg : List Str) (l : Loaded) (text : Str) (s : KanjiStore) :
    (loadJouyouTextPrinting reg l text s).result = loadJouyouText reg l text s := by
  unfold loadJouyouTextPrinting loadJouyouText
  rw [quietly_bind_result]
  congr 1
  funext ks
  simp only [Printing.bind_result, insertRows_result]
  rfl

theorem jinmeiPrinting_result (reg : List Str) (l : Loaded) (text : Str) (s : KanjiStore) :
    (loadJinmeiTextPrinting reg l text s).result = loadJinmeiText reg l text s := by
  unfold loadJinmeiTextPrinting loadJinmeiText
  rw [quietly_bind_result]
  congr 1
  funext ks
  simp only [Printing.bind_result, loadJinmeiLoop_result]
  rfl

theorem extraPrinting_result (reg : List Str) (l : Loaded) (text : Str) (s : KanjiStore) :
    (loadExtraTextPrinting reg l text s).result = loadExtraText reg l text s := by
  unfold loadExtraTextPrinting loadExtraText
  rw [quietly_bind_result]
  congr 1
  funext ks
  simp only [Printing.bind_result, insertRows_result]
  rfl

theorem jouyouText_same (reg : List Str) (hreg : reg.Nodup) (l : Loaded) (text : Str) (s d : KanjiStore)
    (h : loadJouyouText reg l text s = .ok d) :
    loadJouyouTextPrinting reg l text s = loadJouyouPrinting l ((tableRows text).map jouyouRowOf) s := by
  unfold loadJouyouText at h
  obtain ⟨ks, hk, _⟩ := Res.bind_eq_ok h
  have := (C180_kanji reg hreg jouyouRequired (by decide) readJouyouRow jouyouRowOf (fun _ _ _ h => readJouyouRow_eq h) _ _
    _).mp hk
  unfold loadJouyouTextPrinting loadJouyouPrinting
  rw [hk, this.2]

theorem jinmeiText_same (reg : List Str) (hreg : reg.Nodup) (l : Loaded) (text : Str) (s d : KanjiStore)
    (h : loadJinmeiText reg l text s = .ok d) :
    loadJinmeiTextPrinting reg l text s = loadJinmeiPrinting l ((tableRows text).map jinmeiRowOf) s := by
  unfold loadJinmeiText at h
  obtain ⟨ks, hk, _⟩ := Res.bind_eq_ok h
  have := (C180_kanji reg hreg jinmeiRequired (by decide) readJinmeiRow jinmeiRowOf (fun _ _ _ h => readJinmeiRow_eq h) _ _
    _).mp hk
  unfold loadJinmeiTextPrinting loadJinmeiPrinting
  rw [hk, this.2]

theorem extraText_same (reg : List Str) (hreg : reg.Nodup) (l : Loaded) (text : Str) (s d : KanjiStore)
    (h : loadExtraText reg l text s = .ok d) :
    loadExtraTextPrinting reg l text s = loadExtraPrinting l ((tableRows text).map extraRowOf) s := by
  unfold loadExtraText at h
  obtain ⟨ks, hk, _⟩ := Res.bind_eq_ok h
  have := (C180_kanji reg hreg extraRequired (by decide) readExtraRow extraRowOf (fun _ _ _ h => readExtraRow_eq h) _ _
    _).mp hk
  unfold loadExtraTextPrinting loadExtraPrinting
  rw [hk, this.2]

/-- If loading fails then so does loading with printing. -/
def FailsAs {α β : Type} (p : Printing α) (r : Res β) : Prop :=
  (∀ e, r = .throw e → p.result = .throw e) ∧ (r = .ub → p.result = .ub)

theorem FailsAs.ok {α β : Type} (p : Printing α) (b : β) : FailsAs p (.ok b) := ⟨by simp, by simp⟩

theorem FailsAs.bind {α β γ : Type} {p : Printing α} {r : Res α} (h : p.result = r) {f : α → Printing β} {g : α → Res γ}
    (hf : ∀ a, FailsAs (f a) (g a)) : FailsAs (p.bind f) (r.bind g) := by
  unfold FailsAs
  rw [Printing.bind_result, h]
  cases r with
  | throw e => exact ⟨fun _ h => by simpa [Res.bind] using h, by simp [Res.bind]⟩
  | ub => exact ⟨by simp [Res.bind], by simp [Res.bind]⟩
  | ok a => exact hf a

theorem FailsAs.after {β γ : Type} {s : Str} {f : Unit → Printing β} {r : Res γ} (h : FailsAs (f ()) r) :
    FailsAs ((printing s).bind f) r := by
  unfold FailsAs
  rw [Printing.bind_result]
  exact h

/-- If the files can't be loaded then printing doesn't change how loading ends. -/
theorem textFrom_fails (mode : DebugMode) (sort : List KanjiRec → List KanjiRec) (reg : List Str) (ltr : Bool) (x : Disk)
    (dir : Str) : FailsAs (loadTextDataPrintingFrom mode sort reg ltr x dir) (loadTextDataFrom reg ltr x dir) := by
  unfold loadTextDataPrintingFrom loadTextDataFrom
  refine .after ?_
  exact .bind rfl fun lists => .bind rfl fun _ => .bind rfl fun u => .bind rfl fun _ => .bind rfl fun rad =>
    .bind rfl fun _ => .bind rfl fun readings => .bind rfl fun _ => .bind (jouyouPrinting_result _ _ _ _) fun d =>
    .bind rfl fun _ => .bind (loadOfficialLinked_result _ _ _) fun d =>
    .bind rfl fun _ => .bind (jinmeiPrinting_result _ _ _ _) fun d =>
    .bind rfl fun _ => .bind (extraPrinting_result _ _ _ _) fun d =>
    .bind (processLists_result _ _ _ _) fun d => .bind (processUcd_result _ _ _ _) fun d => .ok _ _

/-- What is printed for the files is what is printed for their rows and texts. -/
theorem textFrom_printed (mode : DebugMode) (sort : List KanjiRec → List KanjiRec) (reg : List Str) (hreg : reg.Nodup) (ltr : Bool)
    (x : Disk) (dir : Str) (t : KanjiStore × UcdData × Loaded) (h : loadTextDataFrom reg ltr x dir = .ok t) :
    ∃ rad, RadicalData.load (dirData x dir).radicalCols (dirData x dir).radicals = .ok rad ∧
      loadTextDataPrintingFrom mode sort reg ltr x dir =
        (loadTextDataPrinting mode sort ltr (dirData x dir)).bind fun t => quietly (.ok (t, formatAfterKanji mode rad t.1)) := by
  have hu := registered_nodup reg hreg [ucdColumns]
  have hr := registered_nodup _ hu [radicalColumns]
  have hq := registered_nodup _ hr [readingColumns]
  have hj := registered_nodup _ hq [numberedColumns ++ jouyouRequired]
  have hm := registered_nodup _ hj [numberedColumns ++ jinmeiRequired]
  unfold loadTextDataFrom at h
  obtain ⟨lists, a1, h⟩ := Res.bind_eq_ok h
  obtain ⟨_, a2, h⟩ := Res.bind_eq_ok h
  obtain ⟨u, a3, h⟩ := Res.bind_eq_ok h
  obtain ⟨_, a4, h⟩ := Res.bind_eq_ok h
  obtain ⟨rad, a5, h⟩ := Res.bind_eq_ok h
  obtain ⟨_, a6, h⟩ := Res.bind_eq_ok h
  obtain ⟨readings, a7, h⟩ := Res.bind_eq_ok h
  obtain ⟨_, a8, h⟩ := Res.bind_eq_ok h
  obtain ⟨d1, a9, h⟩ := Res.bind_eq_ok h
  obtain ⟨_, a10, h⟩ := Res.bind_eq_ok h
  obtain ⟨d2, a11, h⟩ := Res.bind_eq_ok h
  obtain ⟨_, a12, h⟩ := Res.bind_eq_ok h
  obtain ⟨d3, a13, h⟩ := Res.bind_eq_ok h
  obtain ⟨_, a14, h⟩ := Res.bind_eq_ok h
  obtain ⟨d4, a15, h⟩ := Res.bind_eq_ok h
  have e2 := ((file_ok x dir (u8!"ucd") _ (by decide +kernel)).mp a2).2.2
  have e4 := ((file_ok x dir (u8!"radicals") _ (by decide +kernel)).mp a4).2.2
  have e6 := ((file_ok x dir (u8!"frequency-readings") _ (by decide +kernel)).mp a6).2.2
  have e8 := ((file_ok x dir (u8!"jouyou") _ (by decide +kernel)).mp a8).2.2
  have e10 := ((file_ok x dir (u8!"linked-jinmei") _ (by decide +kernel)).mp a10).2.2
  have e12 := ((file_ok x dir (u8!"jinmei") _ (by decide +kernel)).mp a12).2.2
  have e14 := ((file_ok x dir (u8!"extra") _ (by decide +kernel)).mp a14).2.2
  subst e2 e4 e6 e8 e10 e12 e14
  have b1 := ((C180_lists x dir lists).mp a1).2
  have b3 : UcdData.load (dirData x dir).ucd {} = .ok u := ((C180_ucd reg hreg _ _).mp a3).2
  have b5 : RadicalData.load (dirData x dir).radicalCols (dirData x dir).radicals = .ok rad :=
    ((radicals_loaded _ hu _ _).mp a5).2
  have b7 : loadFrequencyReadings (dirData x dir).kanji.frequencyReadings [] = .ok readings :=
    ((C180_readings _ hr _ _).mp a7).2
  refine ⟨rad, b5, ?_⟩
  have s9 := jouyouText_same _ hq _ _ _ _ a9
  have s13 := jinmeiText_same _ hj _ _ _ _ a13
  have s15 := extraText_same _ hm _ _ _ _ a15
  have r9 := jouyouPrinting_result _ _ _ _ ▸ a9
  have r11 := loadOfficialLinked_result _ _ _ ▸ a11
  have r13 := jinmeiPrinting_result _ _ _ _ ▸ a13
  have r15 := extraPrinting_result _ _ _ _ ▸ a15
  unfold loadTextDataPrintingFrom loadTextDataPrinting loadKanjiPrinting
  simp only [a1, a2, a3, a4, a5, a6, a7, a8, a10, a12, a14, b1, b3, b5, b7, quietly_ok_bind, Printing.bind_assoc', s9]
  refine Printing.bind_congr_ok fun _ _ => Printing.bind_congr_ok fun d1' c1 => ?_
  rw [s9] at r9
  obtain rfl : d1' = d1 := by rw [r9] at c1; cases c1; rfl
  rw [show fields 0x0a (dirText x dir (u8!"linked-jinmei")) = (dirData x dir).kanji.linkedJinmei from textLines_eq _] at *
  refine Printing.bind_congr_ok fun d2' c2 => ?_
  obtain rfl : d2' = d2 := by rw [r11] at c2; cases c2; rfl
  rw [s13]
  refine Printing.bind_congr_ok fun d3' c3 => ?_
  rw [s13] at r13
  obtain rfl : d3' = d3 := by rw [r13] at c3; cases c3; rfl
  rw [s15]
  rfl

/-! ## All data -/

theorem jukugoFilesPrinting_result (debug : Bool) (x : Disk) (dir : Str) (fs : List (Str × KanjiGrade)) (st : JukugoStore) :
    (loadJukugoFilesPrinting debug x dir fs st).result = loadJukugoFiles x dir fs st := by
  induction fs generalizing st with
  | nil => rfl
  | cons f fs ih =>
    obtain ⟨n, g⟩ := f
    simp only [loadJukugoFilesPrinting, loadJukugoFiles]
    rw [quietly_bind_result]
    congr 1
    funext text
    rw [quietly_bind_result]
    congr 1
    funext st'
    rw [Printing.bind_result]
    exact ih st'

theorem jukugoFiles_printed (debug : Bool) (x : Disk) (dir : Str) (fs : List (Str × KanjiGrade))
    (hf : ∀ f ∈ fs, hasExtension f.1 = false) (st r : JukugoStore) (h : loadJukugoFiles x dir fs st = .ok r) :
    loadJukugoFilesPrinting debug x dir fs st =
      loadJukugoPrintingFiles debug (fs.map fun f => (dirText x dir f.1, f.2)) st := by
  induction fs generalizing st with
  | nil => rfl
  | cons f fs ih =>
    obtain ⟨n, g⟩ := f
    simp only [loadJukugoFiles] at h
    obtain ⟨t, a1, h'⟩ := Res.bind_eq_ok h
    obtain ⟨st', a2, h''⟩ := Res.bind_eq_ok h'
    have e1 := ((file_ok x dir n _ (hf (n, g) (by simp))).mp a1).2.2
    subst e1
    simp only [loadJukugoFilesPrinting, List.map_cons, loadJukugoPrintingFiles, a1, a2, quietly_ok_bind]
    refine Printing.bind_congr_ok fun _ _ => ih (fun f hx => hf f (List.mem_cons_of_mem _ hx)) st' h''

theorem jukugoFrom_result (debug : Bool) (f : OutFormat) (typeOf : Str → Option KanjiType) (x : Disk) (dir : Str) :
    (loadJukugoPrintingFrom debug f typeOf x dir).result = loadJukugoFiles x dir jukugoFiles {} := by
  unfold loadJukugoPrintingFrom
  rw [Printing.bind_result]
  show Printing.result _ = _
  rw [Printing.bind_result, jukugoFilesPrinting_result]
  simp only [Printing.bind_result]
  cases loadJukugoFiles x dir jukugoFiles {} <;> rfl

theorem jukugoFrom_same (debug : Bool) (f : OutFormat) (typeOf : Str → Option KanjiType) (x : Disk) (dir : Str)
    (r : JukugoStore) (h : loadJukugoFiles x (joinPath dir (u8!"jukugo")) jukugoFiles {} = .ok r) :
    loadJukugoPrintingFrom debug f typeOf x (joinPath dir (u8!"jukugo")) =
      loadJukugoPrinting debug f typeOf (dirData x dir).jukugo := by
  unfold loadJukugoPrintingFrom loadJukugoPrinting
  rw [jukugoFiles_printed debug x _ jukugoFiles (by decide +kernel) _ _ h]
  rfl

theorem meaningPrinting_result (reg : List Str) (find : Str → Option KanjiRec) (text : Str) :
    (loadMeaningTextPrinting reg find text).result = loadMeaningText reg find text := by
  unfold loadMeaningTextPrinting loadMeaningText
  rw [readTablePrinting_result]
  simp only [Printing.bind_result, readGroupPrinting_result]
  rfl

theorem patternPrinting_result (reg : List Str) (find : Str → Option KanjiRec) (text : Str) :
    (loadPatternTextPrinting reg find text).result = loadPatternText reg find text := by
  unfold loadPatternTextPrinting loadPatternText
  rw [readTablePrinting_result]
  simp only [Printing.bind_result, readGroupPrinting_result]
  rfl

/-- The fill character after loading. -/
def fillAfter (mode : DebugMode) (rad : RadicalData) (d : DetailStore) : UInt8 :=
  (printGroupData mode (formatAfterKanji mode rad d.store) d.detail.meanings d.detail.patterns d.store).2.fill

/-- What is printed for the files is what is printed for their rows and texts. -/
theorem dataFrom_printed (mode : DebugMode) (sort : List KanjiRec → List KanjiRec) (reg : List Str) (hreg : reg.Nodup) (ltr : Bool)
    (x : Disk) (dir : Str) (d : DetailStore) (h : loadDataFrom reg ltr x dir = .ok d) :
    ∃ rad, RadicalData.load (dirData x dir).radicalCols (dirData x dir).radicals = .ok rad ∧
      loadDataPrintingFrom mode sort reg ltr x dir =
        (loadDataPrinting mode sort ltr (dirData x dir)).bind fun d => quietly (.ok (d, fillAfter mode rad d)) := by
  have h1 := registered_nodup reg hreg [ucdColumns, radicalColumns, readingColumns, numberedColumns ++ jouyouRequired,
    numberedColumns ++ jinmeiRequired, numberedColumns ++ extraRequired]
  have h2 := registered_nodup _ h1 [groupColumns]
  unfold loadDataFrom at h
  obtain ⟨t, a1, h⟩ := Res.bind_eq_ok h
  obtain ⟨_, a2, h⟩ := Res.bind_eq_ok h
  obtain ⟨m, a3, h⟩ := Res.bind_eq_ok h
  obtain ⟨_, a4, h⟩ := Res.bind_eq_ok h
  obtain ⟨p, a5, h⟩ := Res.bind_eq_ok h
  obtain ⟨j, a6, h⟩ := Res.bind_eq_ok h
  have e2 := ((file_ok x dir (u8!"meaning-groups") _ (by decide +kernel)).mp a2).2.2
  have e4 := ((file_ok x dir (u8!"pattern-groups") _ (by decide +kernel)).mp a4).2.2
  subst e2 e4
  obtain ⟨rad, b1, b2⟩ := textFrom_printed mode sort reg hreg ltr x dir t a1
  have s3 := meaningText_same _ h1 _ _ _ a3
  have s5 := patternText_same _ h2 _ _ _ a5
  refine ⟨rad, b1, ?_⟩
  unfold loadDataPrintingFrom loadDataPrinting
  simp only [b2, a2, a4, b1, quietly_ok_bind, Printing.bind_assoc']
  refine Printing.bind_congr_ok fun t' c1 => ?_
  obtain rfl : t' = t := by
    have hl := ((C180_text_data reg hreg ltr x dir t).mp a1).2
    have hm := (C184_result mode sort ltr (dirData x dir)).2.2 t.1 t.2.1 t.2.2 hl
    by_cases hn : NoVariantEntry t.2.1 t.1
    · by_cases hf : mode = .full
      · rw [hm.2 hf hn] at c1; cases c1
      · rw [(C184_result mode sort ltr (dirData x dir)).1 hf, hl] at c1; cases c1; rfl
    · rw [hm.1 hn] at c1; cases c1; rfl
  rw [s3]
  refine Printing.bind_congr_ok fun m' c2 => ?_
  rw [s5]
  refine Printing.bind_congr_ok fun p' c3 => ?_
  refine Printing.bind_congr_ok fun _ _ => ?_
  rw [jukugoFrom_same _ _ _ x dir j a6]
  rfl

/-- If the files can't be loaded then printing doesn't change how loading ends, unless printing throws an exception. -/
theorem dataFrom_fails (mode : DebugMode) (sort : List KanjiRec → List KanjiRec) (reg : List Str) (hreg : reg.Nodup)
    (ltr : Bool) (x : Disk) (dir : Str)
    (hv : mode = .full → ∀ d u l, loadTextData ltr (dirData x dir) = .ok (d, u, l) → ¬ NoVariantEntry u d) :
    FailsAs (loadDataPrintingFrom mode sort reg ltr x dir) (loadDataFrom reg ltr x dir) := by
  unfold loadDataPrintingFrom loadDataFrom
  cases ht : loadTextDataFrom reg ltr x dir with
  | throw e =>
    have := (textFrom_fails mode sort reg ltr x dir).1 e ht
    unfold FailsAs
    rw [Printing.bind_result, this]
    exact ⟨fun _ h => by simpa [Res.bind] using h, by simp [Res.bind]⟩
  | ub =>
    have := (textFrom_fails mode sort reg ltr x dir).2 ht
    unfold FailsAs
    rw [Printing.bind_result, this]
    exact ⟨by simp [Res.bind], by simp [Res.bind]⟩
  | ok t =>
    obtain ⟨rad, _, b2⟩ := textFrom_printed mode sort reg hreg ltr x dir t ht
    have hl := ((C180_text_data reg hreg ltr x dir t).mp ht).2
    have hr : (loadTextDataPrintingFrom mode sort reg ltr x dir).result = .ok (t, formatAfterKanji mode rad t.1) := by
      rw [b2, Printing.bind_result]
      have : (loadTextDataPrinting mode sort ltr (dirData x dir)).result = .ok t := by
        by_cases hf : mode = .full
        · exact ((C184_result mode sort ltr (dirData x dir)).2.2 t.1 t.2.1 t.2.2 hl).1 (hv hf _ _ _ hl)
        · rw [(C184_result mode sort ltr (dirData x dir)).1 hf, hl]
      rw [this]
      rfl
    show FailsAs _ (Res.bind _ _)
    unfold FailsAs
    rw [Printing.bind_result, hr]
    show FailsAs _ _
    exact .bind rfl fun _ => .bind (meaningPrinting_result _ _ _) fun m => .bind rfl fun _ =>
      .bind (patternPrinting_result _ _ _) fun p => .after (.bind (jukugoFrom_result _ _ _ _ _) fun j => .ok _ _)

/-! ## Without debug option -/

theorem tableLoopPrinting_silent {α : Type} (body : ColumnFile → α → Printing α) (hb : ∀ cf a, Silent (body cf a)) (fuel : Nat)
    (cf : ColumnFile) (a : α) : Silent (tableLoopPrinting body fuel cf a) := by
  induction fuel generalizing cf a with
  | zero => rfl
  | succ fuel ih =>
    simp only [tableLoopPrinting]
    rcases cf.nextRow with ⟨cf', r⟩
    cases r with
    | throw e => rfl
    | ub => rfl
    | ok b =>
      cases b with
      | false => rfl
      | true => exact (hb _ _).bind fun a => ih _ _

theorem readTablePrinting_silent {α : Type} (reg names : List Str) (body : List Column → ColumnFile → α → Printing α)
    (hb : ∀ cols cf a, Silent (body cols cf a)) (text : Str) (a : α) : Silent (readTablePrinting reg names body text a) :=
  (silent_quietly _).bind fun _ => tableLoopPrinting_silent _ (hb _) _ _ _

theorem textFrom_silent (sort : List KanjiRec → List KanjiRec) (reg : List Str) (ltr : Bool) (x : Disk) (dir : Str) :
    Silent (loadTextDataPrintingFrom .none sort reg ltr x dir) := by
  unfold loadTextDataPrintingFrom
  refine Silent.bind rfl fun _ => ?_
  refine (silent_quietly _).bind fun lists => (silent_quietly _).bind fun _ => (silent_quietly _).bind fun u =>
    (silent_quietly _).bind fun _ => (silent_quietly _).bind fun rad => (silent_quietly _).bind fun _ =>
    (silent_quietly _).bind fun readings => (silent_quietly _).bind fun _ => ?_
  refine Silent.bind ((silent_quietly _).bind fun _ => (insertRows_silent _ _ _).bind fun _ => rfl) fun d => ?_
  refine (silent_quietly _).bind fun _ => ?_
  refine Silent.bind ((loadLinkedLines_silent _ _ _).bind fun _ => loadAllOldNames_silent _ _ _) fun d => ?_
  refine (silent_quietly _).bind fun _ => ?_
  refine Silent.bind ((silent_quietly _).bind fun _ => (loadJinmeiLoop_silent _ _ _).bind fun _ => rfl) fun d => ?_
  refine (silent_quietly _).bind fun _ => ?_
  refine Silent.bind ((silent_quietly _).bind fun _ => (insertRows_silent _ _ _).bind fun _ => rfl) fun d => ?_
  refine Silent.bind (processLists_quiet (by decide) _ _ _) fun d => ?_
  refine (processUcd_silent _ _ _ _).bind fun d => ?_
  exact Silent.bind rfl fun _ => Silent.bind rfl fun _ => Silent.bind rfl fun _ => rfl

theorem jukugoFrom_silent (f : OutFormat) (typeOf : Str → Option KanjiType) (x : Disk) (dir : Str) :
    Silent (loadJukugoPrintingFrom false f typeOf x dir) := by
  have : ∀ (fs : List (Str × KanjiGrade)) (st : JukugoStore), Silent (loadJukugoFilesPrinting false x dir fs st) := by
    intro fs
    induction fs with
    | nil => intro st; rfl
    | cons g fs ih =>
      intro st
      exact (silent_quietly _).bind fun _ => (silent_quietly _).bind fun _ => Silent.bind rfl fun _ => ih _
  exact Silent.bind rfl fun _ => (this _ _).bind fun _ => Silent.bind rfl fun _ => rfl

theorem dataFrom_silent (sort : List KanjiRec → List KanjiRec) (reg : List Str) (ltr : Bool) (x : Disk) (dir : Str) :
    Silent (loadDataPrintingFrom .none sort reg ltr x dir) := by
  unfold loadDataPrintingFrom
  refine (textFrom_silent _ _ _ _ _).bind fun t => (silent_quietly _).bind fun _ => ?_
  refine Silent.bind (r := loadMeaningTextPrinting _ _ _) ?_ fun m => (silent_quietly _).bind fun _ => ?_
  · refine readTablePrinting_silent _ _ _ (fun _ _ _ => ?_) _ _
    exact (silent_quietly _).bind fun _ => (readGroupPrinting_silent _ _ _).bind fun _ => silent_quietly _
  refine Silent.bind (r := loadPatternTextPrinting _ _ _) ?_ fun p => ?_
  · refine readTablePrinting_silent _ _ _ (fun _ _ _ => ?_) _ _
    exact (silent_quietly _).bind fun _ => (readGroupPrinting_silent _ _ _).bind fun _ => silent_insert _ _
  exact Silent.bind rfl fun _ => (jukugoFrom_silent _ _ _ _).bind fun _ => rfl

end KT
