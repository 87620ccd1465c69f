import Verif.Props.LoadSafeData
import Verif.Props.DataDirectoryExample
/-!
# C181: loading a data directory ends with the data or an exception
-/
namespace KT
open Spec

theorem Safe.via {α : Type} {r r' : Res α} {P : α → Prop} (h : Safe r' P) (hr : r ≠ .ub) (he : ∀ a, r = .ok a → r' = .ok a) :
    Safe r P := Safe.of hr fun a ha => by rw [he a ha] at h; exact h

theorem Safe.inner {α β γ : Type} {r : Res α} {f : α → Res β} {g : β → Res γ} (h : Safe (r.bind f) fun _ => True)
    (hg : ∀ b, g b ≠ .ub) : Safe (r.bind fun a => (f a).bind g) fun _ => True := by
  cases r with
  | ok a => exact Safe.bind (r := f a) h fun b _ _ => Safe.any (hg b)
  | throw e => trivial
  | ub => exact h

/-! ## Tables -/

theorem foldLines_safe {α : Type} (header : List Str) (f : Nat → (Str → Str) → α → Res α) (I : α → Prop)
    (ls : List Str) (hf : ∀ n l a, l ∈ ls → I a → Safe (f n (cellOf header l) a) I) : ∀ n a, I a →
    Safe (foldLines header f n ls a) I := by
  induction ls with
  | nil => exact fun _ _ h => h
  | cons l ls ih =>
    intro n a ha
    unfold foldLines
    split
    · exact Safe.bind (hf n l a (by simp) ha) fun b _ hb => ih (fun n x a hx => hf n x a (List.mem_cons_of_mem _ hx)) _ b hb
    · trivial

/-- Reading a table is safe if the function for its rows is. -/
theorem readTable_safe {α : Type} (reg names : List Str) (hreg : reg.Nodup) (hnames : names.Nodup) (hne : names ≠ [])
    (body : List Column → ColumnFile → α → Res α) (f : Nat → (Str → Str) → α → Res α)
    (hb : ∀ header cols n line cf a, header.Perm (cols.map Column.name) → cols.map Column.name = names →
      AtRow header cols n line cf → body cols cf a = f n (cellOf header line) a) (text : Str) (a : α)
    (hf : ∀ n r a, r ∈ tableRows text → f n r a ≠ .ub) : readTable reg names body text a ≠ .ub := by
  rw [C180_table reg names hreg hnames hne body f hb]
  split
  · refine (foldLines_safe _ f (fun _ => True) _ (fun n l a hl _ => Safe.any (hf n _ a ?_)) 1 a trivial).noub
    exact List.mem_map.mpr ⟨l, hl, rfl⟩
  · exact fun h => by cases h

theorem ucdText_safe (reg : List Str) (hreg : reg.Nodup) (text : Str) :
    Safe (loadUcdText reg text) (UcdFrom ((tableRows text).map ucdRowOf)) := by
  rw [loadUcdText, C180_table reg ucdColumns hreg (by decide) (by decide) _
    (fun _ r (d : UcdData) => d.loadRow (ucdRowOf r)) ?_]
  · split
    · refine foldLines_safe _ _ (UcdFrom ((tableRows text).map ucdRowOf)) _ (fun n l d hl hd => ?_) 1 {} (ucdFrom_empty _)
      exact loadRow_safe _ _ (List.mem_map.mpr ⟨_, List.mem_map.mpr ⟨l, hl, rfl⟩, rfl⟩) d hd
    · trivial
  · intro header cols n line cf d hp hn h
    rw [readUcdRow_eq (h.cells hp hn)]
    rfl

theorem radicalText_safe (reg : List Str) (hreg : reg.Nodup) (text : Str) : loadRadicalText reg text ≠ .ub := by
  have e : loadRadicalText reg text =
      readTable reg radicalColumns (fun cols => RadicalData.addRow (radicalCols cols)) text {} := by
    simp only [loadRadicalText, readTable, RadicalData.load, loadLoop_table]
  rw [e]
  refine readTable_safe reg radicalColumns hreg (by decide) (by decide) _ (fun n r => radicalStep n (radicalRowOf r)) ?_ text {} ?_
  · intro header cols n line cf d hp hn h
    exact addRow_step (h.cells hp hn) h.row d
  · intro n r d _
    unfold radicalStep
    refine (Safe.bind (Q := fun _ => True) (Safe.any (processU64_safe _ _)) fun v _ _ => ?_).noub
    split <;> trivial

theorem readingText_safe (reg : List Str) (hreg : reg.Nodup) (text : Str) : loadReadingText reg text ≠ .ub := by
  unfold loadReadingText
  refine readTable_safe reg readingColumns hreg (by decide) (by decide) _
    (fun _ r m => match mapEmplace m (readingRowOf r).1 (readingRowOf r).2 with
      | (m, true) => .ok m
      | (_, false) => .throw .domain) ?_ text [] ?_
  · intro header cols n line cf d hp hn h
    have hc := h.cells hp hn
    rw [hc (u8!"Name") (by decide), hc (u8!"Reading") (by decide)]
    rfl
  · intro n r m _
    split <;> exact fun h => by cases h

theorem fromText_safe {β : Type} (reg : List Str) (hreg : reg.Nodup) (required : List Str)
    (hnd : (numberedColumns ++ required).Nodup) (read : List Column → ColumnFile → Res CellRow)
    (row : (Str → Str) → CellRow)
    (hread : ∀ cols cf cell, (∀ n ∈ numberedColumns ++ required, cf.cell cols n = .ok (cell n)) →
      read cols cf = .ok (row cell))
    (make : CellRow → Res β) (text : Str) (hm : ∀ r ∈ (tableRows text).map row, make r ≠ .ub) :
    fromText reg required read make text ≠ .ub := by
  unfold fromText
  refine readTable_safe reg (numberedColumns ++ required) hreg hnd (by simp [numberedColumns]) _
    (fun _ r ks => (make (row r)).bind fun k => .ok (ks ++ [k])) ?_ text [] ?_
  · intro header cols n line cf d hp hn h
    rw [hread cols cf _ (h.cells hp hn)]
    rfl
  · intro n r ks hr
    refine (Safe.bind (Q := fun _ => True) (Safe.any (hm _ (List.mem_map.mpr ⟨r, hr, rfl⟩))) fun _ _ _ => ?_).noub
    trivial

variable {l : Loaded} {f : KanjiFiles} {N E Lv Fr Ky : Str → Prop}

theorem jouyouText_safe (h : LoadFits l f N E Lv Fr Ky) (reg : List Str) (hreg : reg.Nodup) (text : Str)
    (hf : f.jouyou = (tableRows text).map jouyouRowOf) : loadJouyouText reg l text {} ≠ .ub := by
  unfold loadJouyouText
  refine (Safe.bind (Q := fun _ => True) (Safe.any (fromText_safe reg hreg jouyouRequired (by decide) readJouyouRow
    jouyouRowOf (fun _ _ _ h => readJouyouRow_eq h) _ text fun r hr => ?_)) fun _ _ _ => ?_).noub
  · rw [← hf] at hr
    exact (jouyouFromRow_safe h r (h.rows _ (List.mem_map.mpr ⟨r, by simp [hr], rfl⟩))).noub
  · trivial

theorem extraText_safe (h : LoadFits l f N E Lv Fr Ky) (reg : List Str) (hreg : reg.Nodup) (text : Str) (d : KanjiStore)
    (hf : f.extra = (tableRows text).map extraRowOf) : loadExtraText reg l text d ≠ .ub := by
  unfold loadExtraText
  refine (Safe.bind (Q := fun _ => True) (Safe.any (fromText_safe reg hreg extraRequired (by decide) readExtraRow
    extraRowOf (fun _ _ _ h => readExtraRow_eq h) _ text fun r hr => ?_)) fun _ _ _ => ?_).noub
  · rw [← hf] at hr
    exact (extraFromRow_safe h r (h.rows _ (List.mem_map.mpr ⟨r, by simp [hr], rfl⟩))).noub
  · trivial

theorem jinmeiText_safe (h : LoadFits l f N E Lv Fr Ky) (reg : List Str) (hreg : reg.Nodup) (text : Str) (d : KanjiStore)
    (hf : f.jinmei = (tableRows text).map jinmeiRowOf) (hd : loadJinmei l f.jinmei d ≠ .ub) :
    loadJinmeiText reg l text d ≠ .ub := by
  unfold loadJinmeiText
  refine (Safe.bind (Q := fun _ => True) (Safe.any (fromText_safe reg hreg jinmeiRequired (by decide) readJinmeiRow
    jinmeiRowOf (fun _ _ _ h => readJinmeiRow_eq h) _ text fun r hr => ?_)) fun ks hk _ => ?_).noub
  · rw [← hf] at hr
    exact (jinmeiFromRow_safe h r (h.rows _ (List.mem_map.mpr ⟨r, by simp [hr], rfl⟩))).noub
  · have hk := ((C180_kanji reg hreg jinmeiRequired (by decide) readJinmeiRow jinmeiRowOf
      (fun _ _ _ h => readJinmeiRow_eq h) _ text ks).mp hk).2
    rw [← hf] at hk
    unfold loadJinmei at hd
    rw [hk] at hd
    exact Safe.any hd

theorem groupText_safe (reg : List Str) (hreg : reg.Nodup) (find : Str → Option KanjiRec) (text : Str) :
    loadMeaningText reg find text ≠ .ub ∧ loadPatternText reg find text ≠ .ub := by
  constructor
  · unfold loadMeaningText
    refine readTable_safe reg groupColumns hreg (by decide) (by decide) _
      (fun _ r (d : MeaningGroups) => (readGroup find .meaning (groupRowOf r)).bind fun g => .ok (d.add g)) ?_ text {} ?_
    · intro header cols n line cf d hp hn h
      rw [readGroupRow_eq (h.cells hp hn)]
      rfl
    · intro n r d _
      refine (Safe.bind (Q := fun _ => True) (Safe.any (readGroup_safe find .meaning _)) fun _ _ _ => ?_).noub
      trivial
  · unfold loadPatternText
    refine readTable_safe reg groupColumns hreg (by decide) (by decide) _
      (fun _ r (d : PatternGroups) => (readGroup find .pattern (groupRowOf r)).bind fun g => .ok (d.add g)) ?_ text {} ?_
    · intro header cols n line cf d hp hn h
      rw [readGroupRow_eq (h.cells hp hn)]
      rfl
    · intro n r d _
      refine (Safe.bind (Q := fun _ => True) (Safe.any (readGroup_safe find .pattern _)) fun _ _ _ => ?_).noub
      trivial

/-! ## Files -/

theorem file_safe (x : Disk) (dir file : Str) : x.file dir file ≠ .ub := by
  unfold Disk.file
  split <;> exact fun h => by cases h

theorem list_safe (x : Disk) (p : Str) : x.list p ≠ .ub := by
  unfold Disk.list
  split <;> exact fun h => by cases h

theorem typedFiles_safe {τ : Type} (x : Disk) (fs : List (τ × Str)) : ∀ names, loadTypedFiles x names fs ≠ .ub := by
  induction fs with
  | nil => exact fun _ h => by cases h
  | cons f fs ih =>
    intro names
    obtain ⟨t, p⟩ := f
    unfold loadTypedFiles
    refine (Safe.bind (Q := fun _ => True) (Safe.any (list_safe x p)) fun text _ _ => ?_).noub
    have hl := listFile_safe false true names text
    split
    · refine Safe.bind (Safe.any (ih _)) fun _ _ _ => ?_
      trivial
    · trivial
    · rename_i e; rw [e] at hl; exact absurd rfl hl

theorem listsFrom_safe (x : Disk) (dir : Str) : Safe (loadListsFrom x dir) (ListsFrom (dirData x dir)) := by
  refine Safe.of ?_ fun l h => listsFrom ((C180_lists x dir l).mp h).2
  refine Safe.noub (P := fun _ => True) ?_
  unfold loadListsFrom
  refine Safe.bind (Safe.any (typedFiles_safe x _ _)) fun _ _ _ => ?_
  refine Safe.bind (Safe.any (typedFiles_safe x _ _)) fun _ _ _ => ?_
  refine Safe.bind (Safe.any (list_safe x _)) fun text _ _ => ?_
  have hl := listFile_safe true false [] text
  split
  · trivial
  · trivial
  · rename_i e; rw [e] at hl; exact absurd rfl hl

theorem jukugoFiles_safe (x : Disk) (dir : Str) (fs : List (Str × KanjiGrade)) : ∀ st, JInv st →
    loadJukugoFiles x dir fs st ≠ .ub := by
  induction fs with
  | nil => exact fun _ _ h => by cases h
  | cons f fs ih =>
    intro st hst
    obtain ⟨file, g⟩ := f
    unfold loadJukugoFiles
    refine (Safe.bind (Q := fun _ => True) (Safe.any (file_safe x dir file)) fun text _ _ => ?_).noub
    refine Safe.bind (P := JInv) ?_ fun s _ hs => Safe.any (ih s hs)
    rw [loadFile_eq hst (text, g)]
    cases hw : fileWords (text, g) with
    | none => trivial
    | some ws =>
      rcases addWords_cases ws (fileWords_valid _ _ hw) hst with ⟨s, h1, h2⟩ | h1
      · simp only [runWords, h1]; exact h2
      · simp only [runWords, h1]; trivial

/-! ## The directory -/

/-- The constructor of `TextKanjiData` ends with data or an exception. -/
theorem textDataFrom_safe (reg : List Str) (hreg : reg.Nodup) (ltr : Bool) (x : Disk) (dir : Str)
    (hf : NamesFit (dirData x dir)) : loadTextDataFrom reg ltr x dir ≠ .ub := by
  have hu := registered_nodup reg hreg [ucdColumns]
  have hr := registered_nodup _ hu [radicalColumns]
  have hq := registered_nodup _ hr [readingColumns]
  have hj := registered_nodup _ hq [numberedColumns ++ jouyouRequired]
  have hm := registered_nodup _ hj [numberedColumns ++ jinmeiRequired]
  have text : ∀ file t, hasExtension file = false → x.file dir file = .ok t → t = dirText x dir file :=
    fun file t he h => ((file_ok x dir file t he).mp h).2.2
  refine Safe.noub (P := fun _ => True) ?_
  unfold loadTextDataFrom
  refine Safe.bind (listsFrom_safe x dir) fun lists _ hl => ?_
  refine Safe.bind (Safe.any (file_safe x dir _)) fun t ht _ => ?_
  cases text _ t (by decide +kernel) ht
  refine Safe.bind (ucdText_safe reg hreg _) fun u _ hu' => ?_
  refine Safe.bind (Safe.any (file_safe x dir _)) fun t ht _ => ?_
  refine Safe.bind (Safe.any (radicalText_safe _ hu t)) fun rad _ _ => ?_
  refine Safe.bind (Safe.any (file_safe x dir _)) fun t ht _ => ?_
  refine Safe.bind (Safe.any (readingText_safe _ hr t)) fun readings _ _ => ?_
  have h := loadFits ltr (dirData x dir) hf lists hl u hu' rad readings
  refine Safe.bind (Safe.any (file_safe x dir _)) fun t ht _ => ?_
  cases text _ t (by decide +kernel) ht
  refine Safe.bind ((loadJouyou_safe h).via (jouyouText_safe h _ hq _ rfl) fun d hd =>
    ((jouyouText_ok _ hq _ _ _ _).mp hd).2) fun d1 _ h1 => ?_
  refine Safe.bind (Safe.any (file_safe x dir _)) fun t ht _ => ?_
  cases text _ t (by decide +kernel) ht
  rw [textLines_eq]
  refine Safe.bind (loadOfficialLinked_safe h h1.1 h1.2) fun d2 _ h2 => ?_
  have j2 : ∀ n ∈ (dirData x dir).kanji.jouyou.map (·.name), d2.Has n := fun n hn => h2.2 n (h1.2 n hn)
  refine Safe.bind (Safe.any (file_safe x dir _)) fun t ht _ => ?_
  cases text _ t (by decide +kernel) ht
  have hjin := loadJinmei_safe h h2.1 j2
  refine Safe.bind (hjin.via (jinmeiText_safe h _ hj _ d2 rfl hjin.noub) fun d hd =>
    ((jinmeiText_ok _ hj _ _ _ _).mp hd).2) fun d3 _ h3 => ?_
  have j3 : ∀ n ∈ (dirData x dir).kanji.jouyou.map (·.name), d3.Has n := fun n hn => h3.2.1 n (j2 n hn)
  refine Safe.bind (Safe.any (file_safe x dir _)) fun t ht _ => ?_
  cases text _ t (by decide +kernel) ht
  refine Safe.bind ((loadExtra_safe h h3.1 j3 h3.2.2).via (extraText_safe h _ hm _ d3 rfl) fun d hd =>
    ((extraText_ok _ hm _ _ _ _).mp hd).2) fun d4 _ h4 => ?_
  have hp := processAll_safe h hl.length
    (fun p hp n hn => ⟨.inl (hl.levels p hp n hn), hl.levels p hp n hn⟩)
    (fun n hn => ⟨.inr (.inl (hl.frequencies n hn)), hl.frequencies n hn⟩)
    (fun p hp n hn => ⟨.inr (.inr (hl.kyus p hp n hn)), hl.kyus p hp n hn⟩) d4 h4.1 fun n hn => by
      rcases h.levelRows n hn with e | ⟨e, _⟩
      · exact h4.2 n (j3 n e)
      · exact h4.2 n (h3.2.2 n e)
  exact hp.inner fun _ h => by cases h

/-- Loading the data of a directory. -/
theorem dataFrom_safe (reg : List Str) (hreg : reg.Nodup) (ltr : Bool) (x : Disk) (dir : Str)
    (hf : NamesFit (dirData x dir)) : loadDataFrom reg ltr x dir ≠ .ub := by
  have h1 := registered_nodup reg hreg [ucdColumns, radicalColumns, readingColumns, numberedColumns ++ jouyouRequired,
    numberedColumns ++ jinmeiRequired, numberedColumns ++ extraRequired]
  have h2 := registered_nodup _ h1 [groupColumns]
  refine Safe.noub (P := fun _ => True) ?_
  unfold loadDataFrom
  refine Safe.bind (Safe.any (textDataFrom_safe reg hreg ltr x dir hf)) fun t _ _ => ?_
  refine Safe.bind (Safe.any (file_safe x dir _)) fun text _ _ => ?_
  refine Safe.bind (Safe.any (groupText_safe _ h1 _ text).1) fun _ _ _ => ?_
  refine Safe.bind (Safe.any (file_safe x dir _)) fun text _ _ => ?_
  refine Safe.bind (Safe.any (groupText_safe _ h2 _ text).2) fun _ _ _ => ?_
  refine Safe.bind (Safe.any (jukugoFiles_safe x _ _ _ jinv_empty)) fun _ _ _ => ?_
  trivial

end KT
