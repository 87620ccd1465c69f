import Verif.Props.DataTexts
/-!
# C180: the data directory

Which files are read, and that loading them is loading their rows and texts.
-/
namespace KT
open Spec

theorem Res.bind_ok_iff {α β : Type} {r : Res α} {f : α → Res β} {b : β} :
    r.bind f = .ok b ↔ ∃ a, r = .ok a ∧ f a = .ok b := by
  cases r <;> simp [Res.bind]

theorem file_ok (x : Disk) (dir file t : Str) (he : hasExtension file = false) :
    x.file dir file = .ok t ↔ x.fs dir = .directory ∧ OnDisk x (joinPath dir file) ∧ t = dirText x dir file := by
  unfold Disk.file
  have key : ∀ p, getFile x.fs dir file = .ok p ↔
      x.fs dir = .directory ∧ OnDisk x (joinPath dir file) ∧ p = diskPath x (joinPath dir file) := by
    intro p
    rw [C138_file]
    unfold OnDisk diskPath
    by_cases hr : x.fs (joinPath dir file) = .regular
    · rw [if_pos hr]
      constructor
      · rintro ⟨h1, h2, rfl | ⟨rfl, _, h3⟩⟩
        · exact ⟨h1, h2, rfl⟩
        · exact absurd hr h3
      · rintro ⟨h1, h2, rfl⟩
        exact ⟨h1, h2, .inl rfl⟩
    · rw [if_neg hr]
      constructor
      · rintro ⟨h1, h2, rfl | ⟨rfl, _, h3⟩⟩
        · exact absurd h2 hr
        · exact ⟨h1, h2, rfl⟩
      · rintro ⟨h1, h2, rfl⟩
        exact ⟨h1, h2, .inr ⟨rfl, he, hr⟩⟩
  cases hg : getFile x.fs dir file with
  | error e =>
    simp only [reduceCtorEq, false_iff]
    rintro ⟨h1, h2, _⟩
    have := (key _).mpr ⟨h1, h2, rfl⟩
    rw [hg] at this
    cases this
  | ok p =>
    obtain ⟨h1, h2, rfl⟩ := (key p).mp hg
    simp only [Res.ok.injEq]
    exact ⟨fun h => ⟨h1, h2, h.symm⟩, fun h => h.2.2.symm⟩

theorem list_ok (x : Disk) (dir file t : Str) (hs : (0x2f : UInt8) ∉ file) (he : hasExtension file = false) :
    x.list (joinPath dir file) = .ok t ↔ OnDisk x (joinPath dir file) ∧ t = dirText x dir file := by
  have he' : hasExtension (joinPath dir file) = false := by
    rw [← he]
    unfold hasExtension
    rw [fileNameOf_join dir file hs, fileNameOf, slashParts_plain file hs]; rfl
  unfold Disk.list
  have key : ∀ s p, openListFile x.fs (joinPath dir file) [] = .ok (s, p) →
      OnDisk x (joinPath dir file) ∧ p = diskPath x (joinPath dir file) := by
    intro s p h
    obtain ⟨h1, h2, _⟩ := (C138_open x.fs _ [] p s).1 h
    unfold OnDisk diskPath
    by_cases hr : x.fs (joinPath dir file) = .regular
    · rw [if_pos hr]
      rcases h2 with rfl | ⟨rfl, _, h3⟩
      · exact ⟨h1, rfl⟩
      · exact absurd hr h3
    · rw [if_neg hr]
      rcases h2 with rfl | ⟨rfl, _, h3⟩
      · exact absurd h1 hr
      · exact ⟨h1, rfl⟩
  have back : OnDisk x (joinPath dir file) → ∃ s, openListFile x.fs (joinPath dir file) [] =
      .ok (s, diskPath x (joinPath dir file)) := by
    intro h
    refine ⟨_, (C138_open x.fs _ [] _ _).2 ⟨h, ?_, rfl⟩⟩
    unfold diskPath
    by_cases hr : x.fs (joinPath dir file) = .regular
    · rw [if_pos hr]; exact .inl rfl
    · rw [if_neg hr]; exact .inr ⟨rfl, he', hr⟩
  cases hg : openListFile x.fs (joinPath dir file) [] with
  | error e =>
    simp only [reduceCtorEq, false_iff]
    rintro ⟨h1, _⟩
    obtain ⟨s, h⟩ := back h1
    rw [hg] at h
    cases h
  | ok p =>
    obtain ⟨h1, h2⟩ := key p.1 p.2 hg
    simp only [Res.ok.injEq, h2]
    exact ⟨fun h => ⟨h1, h.symm⟩, fun h => h.2.symm⟩

/-! ## List files -/

theorem typedFiles_ok {τ : Type} (x : Disk) (dir : Str) (file : τ → Str) (hf : ∀ t, (0x2f : UInt8) ∉ file t ∧ hasExtension (file t) = false)
    (ts : List τ) (names : List Str) (r : List (τ × LoadState)) :
    loadTypedFiles x names (ts.map fun t => (t, joinPath dir (file t))) = .ok r ↔
      (∀ t ∈ ts, OnDisk x (joinPath dir (file t))) ∧
        loadTyped names (ts.map fun t => (t, dirText x dir (file t))) = .ok r := by
  induction ts generalizing names r with
  | nil => simp [loadTypedFiles, loadTyped]
  | cons t ts ih =>
    simp only [List.map_cons, loadTypedFiles, loadTyped, Res.bind_ok_iff, list_ok x dir (file t) _ (hf t).1 (hf t).2,
      List.forall_mem_cons]
    constructor
    · rintro ⟨_, ⟨h1, rfl⟩, h⟩
      rcases hl : ListFile.load false true names (dirText x dir (file t)) with ⟨st, res⟩
      rw [hl] at h
      cases res with
      | throw e => cases h
      | ub => cases h
      | ok u =>
        simp only [Res.bind_ok_iff] at h ⊢
        obtain ⟨r', h2, h3⟩ := h
        rw [ih] at h2
        exact ⟨⟨h1, h2.1⟩, r', h2.2, h3⟩
    · rintro ⟨⟨h1, h4⟩, h⟩
      refine ⟨_, ⟨h1, rfl⟩, ?_⟩
      rcases hl : ListFile.load false true names (dirText x dir (file t)) with ⟨st, res⟩
      rw [hl] at h
      cases res with
      | throw e => cases h
      | ub => cases h
      | ok u =>
        simp only [Res.bind_ok_iff] at h ⊢
        obtain ⟨r', h2, h3⟩ := h
        exact ⟨r', (ih _ _).mpr ⟨h4, h2⟩, h3⟩

theorem levelFile_plain (l : JlptLevel) : (0x2f : UInt8) ∉ levelFile l ∧ hasExtension (levelFile l) = false := by
  cases l <;> decide +kernel

theorem kyuFile_plain (k : KenteiKyu) : (0x2f : UInt8) ∉ kyuFile k ∧ hasExtension (kyuFile k) = false := by
  cases k <;> decide +kernel

theorem levelPath_eq (dir : Str) (l : JlptLevel) : levelPath dir l = joinPath (joinPath dir (u8!"jlpt")) (levelFile l) := by
  cases l <;> rfl

theorem kyuPath_eq (dir : Str) (k : KenteiKyu) : kyuPath dir k = joinPath (joinPath dir (u8!"kentei")) (kyuFile k) := by
  cases k <;> rfl

/-- **C180** (lists): the list files of the directory. -/
theorem C180_lists (x : Disk) (dir : Str) (r : ListFiles) :
    loadListsFrom x dir = .ok r ↔
      ((∀ l, OnDisk x (joinPath (joinPath dir (u8!"jlpt")) (levelFile l))) ∧
        (∀ k, OnDisk x (joinPath (joinPath dir (u8!"kentei")) (kyuFile k))) ∧ OnDisk x (joinPath dir (u8!"frequency"))) ∧
      loadListFiles (levelOrder.map fun l => (l, (dirData x dir).levels l)) (kyuOrder.map fun k => (k, (dirData x dir).kyus k))
        (dirData x dir).frequency = .ok r := by
  have hl : ∀ l : JlptLevel, l ∈ levelOrder := fun l => by cases l <;> decide
  have hk : ∀ k : KenteiKyu, k ∈ kyuOrder := fun k => by cases k <;> decide
  unfold loadListsFrom loadListFiles
  simp only [levelPath_eq, kyuPath_eq, Res.bind_ok_iff]
  simp only [typedFiles_ok x _ levelFile levelFile_plain, typedFiles_ok x _ kyuFile kyuFile_plain,
    list_ok x dir (u8!"frequency") _ (by decide) (by decide +kernel)]
  constructor
  · rintro ⟨a, ⟨h1, h2⟩, b, ⟨h3, h4⟩, _, ⟨h5, rfl⟩, h⟩
    exact ⟨⟨fun l => h1 l (hl l), fun k => h3 k (hk k), h5⟩, a, h2, b, h4, h⟩
  · rintro ⟨⟨h1, h3, h5⟩, a, h2, b, h4, h⟩
    exact ⟨a, ⟨fun l _ => h1 l, h2⟩, b, ⟨fun k _ => h3 k, h4⟩, _, ⟨h5, rfl⟩, h⟩

/-! ## Jukugo -/

theorem jukugoFiles_ok (x : Disk) (dir : Str) (fs : List (Str × KanjiGrade)) (hf : ∀ f ∈ fs, hasExtension f.1 = false)
    (st r : JukugoStore) (hne : fs ≠ []) :
    loadJukugoFiles x dir fs st = .ok r ↔
      (x.fs dir = .directory ∧ ∀ f ∈ fs, OnDisk x (joinPath dir f.1)) ∧
        JukugoStore.loadFiles (fs.map fun f => (dirText x dir f.1, f.2)) st = .ok r := by
  induction fs generalizing st r with
  | nil => exact absurd rfl hne
  | cons f fs ih =>
    obtain ⟨n, g⟩ := f
    simp only [List.map_cons, loadJukugoFiles, JukugoStore.loadFiles, Res.bind_ok_iff,
      file_ok x dir n _ (hf (n, g) (by simp)), List.forall_mem_cons]
    by_cases hfs : fs = []
    · subst hfs
      simp only [loadJukugoFiles, List.map_nil, JukugoStore.loadFiles]
      constructor
      · rintro ⟨_, ⟨h1, h2, rfl⟩, a, h3, h4⟩
        exact ⟨⟨h1, h2, by simp⟩, a, h3, h4⟩
      · rintro ⟨⟨h1, h2, _⟩, a, h3, h4⟩
        exact ⟨_, ⟨h1, h2, rfl⟩, a, h3, h4⟩
    · have ih := fun st r => ih (fun f h => hf f (List.mem_cons_of_mem _ h)) st r hfs
      constructor
      · rintro ⟨_, ⟨h1, h2, rfl⟩, a, h3, h4⟩
        rw [ih] at h4
        exact ⟨⟨h1, h2, h4.1.2⟩, a, h3, h4.2⟩
      · rintro ⟨⟨h1, h2, h5⟩, a, h3, h4⟩
        exact ⟨_, ⟨h1, h2, rfl⟩, a, h3, (ih a r).mpr ⟨⟨h1, h5⟩, h4⟩⟩

/-- **C180** (jukugo): the files in the directory 'jukugo'. -/
theorem C180_jukugo (x : Disk) (dir : Str) (r : JukugoStore) :
    loadJukugoFiles x (joinPath dir (u8!"jukugo")) jukugoFiles {} = .ok r ↔
      (x.fs (joinPath dir (u8!"jukugo")) = .directory ∧
        ∀ f ∈ jukugoNames, OnDisk x (joinPath (joinPath dir (u8!"jukugo")) f)) ∧
      loadJukugo (dirData x dir).jukugo = .ok r := by
  rw [jukugoFiles_ok x _ jukugoFiles (by decide +kernel) _ _ (by simp [jukugoFiles])]
  have e : jukugoNames = jukugoFiles.map (·.1) := rfl
  have e' : (dirData x dir).jukugo.zip jukugoGrades =
      jukugoFiles.map fun f => (dirText x (joinPath dir (u8!"jukugo")) f.1, f.2) := rfl
  rw [loadJukugo, e', e, List.forall_mem_map]

/-! ## Everything -/

theorem registered_nodup (reg : List Str) (h : reg.Nodup) (ts : List (List Str)) : (registered reg ts).Nodup := by
  unfold registered
  induction ts generalizing reg with
  | nil => exact h
  | cons t ts ih =>
    rw [List.foldl_cons, makeColumns_eq]
    exact ih _ (runColumns_spec reg t h).2.1

theorem radicals_loaded (reg : List Str) (hreg : reg.Nodup) (text : Str) (d : RadicalData) :
    loadRadicalText reg text = .ok d ↔ TableText radicalHeader text ∧
      RadicalData.load (radicalTable text).1 (radicalTable text).2 = .ok d := by
  constructor
  · intro h
    have ht := ((C180_radicals reg hreg text d).mp h).1
    refine ⟨ht, (radicalTable_load text ht d).mpr ?_⟩
    rw [C180_radicals _ (by simp)]
    exact (C180_radicals reg hreg text d).mp h
  · rintro ⟨ht, h⟩
    have h := (radicalTable_load text ht d).mp h
    rw [C180_radicals _ (by simp)] at h
    exact (C180_radicals reg hreg text d).mpr h

theorem jouyouText_ok (reg : List Str) (hreg : reg.Nodup) (l : Loaded) (text : Str) (s d : KanjiStore) :
    loadJouyouText reg l text s = .ok d ↔
      TableText jouyouHeader text ∧ loadJouyou l ((tableRows text).map jouyouRowOf) s = .ok d := by
  unfold loadJouyouText loadJouyou
  simp only [Res.bind_ok_iff, C180_kanji reg hreg jouyouRequired (by decide) readJouyouRow jouyouRowOf
    (fun _ _ _ h => readJouyouRow_eq h), TableText.perm (show (numberedColumns ++ jouyouRequired).Perm jouyouHeader by decide)]
  exact ⟨fun ⟨a, ⟨h1, h2⟩, h3⟩ => ⟨h1, a, h2, h3⟩, fun ⟨h1, a, h2, h3⟩ => ⟨a, ⟨h1, h2⟩, h3⟩⟩

theorem jinmeiText_ok (reg : List Str) (hreg : reg.Nodup) (l : Loaded) (text : Str) (s d : KanjiStore) :
    loadJinmeiText reg l text s = .ok d ↔
      TableText jinmeiHeader text ∧ loadJinmei l ((tableRows text).map jinmeiRowOf) s = .ok d := by
  unfold loadJinmeiText loadJinmei
  simp only [Res.bind_ok_iff, C180_kanji reg hreg jinmeiRequired (by decide) readJinmeiRow jinmeiRowOf
    (fun _ _ _ h => readJinmeiRow_eq h), TableText.perm (show (numberedColumns ++ jinmeiRequired).Perm jinmeiHeader by decide)]
  exact ⟨fun ⟨a, ⟨h1, h2⟩, h3⟩ => ⟨h1, a, h2, h3⟩, fun ⟨h1, a, h2, h3⟩ => ⟨a, ⟨h1, h2⟩, h3⟩⟩

theorem extraText_ok (reg : List Str) (hreg : reg.Nodup) (l : Loaded) (text : Str) (s d : KanjiStore) :
    loadExtraText reg l text s = .ok d ↔
      TableText extraHeader text ∧ loadExtra l ((tableRows text).map extraRowOf) s = .ok d := by
  unfold loadExtraText loadExtra
  simp only [Res.bind_ok_iff, C180_kanji reg hreg extraRequired (by decide) readExtraRow extraRowOf
    (fun _ _ _ h => readExtraRow_eq h), TableText.perm (show (numberedColumns ++ extraRequired).Perm extraHeader by decide)]
  exact ⟨fun ⟨a, ⟨h1, h2⟩, h3⟩ => ⟨h1, a, h2, h3⟩, fun ⟨h1, a, h2, h3⟩ => ⟨a, ⟨h1, h2⟩, h3⟩⟩

/-- The files that the constructor of `TextKanjiData` reads. -/
structure TextFiles (x : Disk) (dir : Str) : Prop where
  lists : (∀ l, OnDisk x (joinPath (joinPath dir (u8!"jlpt")) (levelFile l))) ∧
    (∀ k, OnDisk x (joinPath (joinPath dir (u8!"kentei")) (kyuFile k))) ∧ OnDisk x (joinPath dir (u8!"frequency"))
  isDir : x.fs dir = .directory
  ucd : OnDisk x (joinPath dir (u8!"ucd")) ∧ TableText ucdHeader (dirText x dir (u8!"ucd"))
  radicals : OnDisk x (joinPath dir (u8!"radicals")) ∧ TableText radicalHeader (dirText x dir (u8!"radicals"))
  readings : OnDisk x (joinPath dir (u8!"frequency-readings")) ∧
    TableText readingHeader (dirText x dir (u8!"frequency-readings"))
  jouyou : OnDisk x (joinPath dir (u8!"jouyou")) ∧ TableText jouyouHeader (dirText x dir (u8!"jouyou"))
  linked : OnDisk x (joinPath dir (u8!"linked-jinmei"))
  jinmei : OnDisk x (joinPath dir (u8!"jinmei")) ∧ TableText jinmeiHeader (dirText x dir (u8!"jinmei"))
  extra : OnDisk x (joinPath dir (u8!"extra")) ∧ TableText extraHeader (dirText x dir (u8!"extra"))

/-- **C180** (kanji data): the constructor of `TextKanjiData` succeeds exactly when all files are there, the tables have the
right columns and their rows and the texts of the other files can be loaded. -/
theorem C180_text_data (reg : List Str) (hreg : reg.Nodup) (ltr : Bool) (x : Disk) (dir : Str)
    (t : KanjiStore × UcdData × Loaded) :
    loadTextDataFrom reg ltr x dir = .ok t ↔ TextFiles x dir ∧ loadTextData ltr (dirData x dir) = .ok t := by
  have hu := registered_nodup reg hreg [ucdColumns]
  have hr := registered_nodup _ hu [radicalColumns]
  have hq := registered_nodup _ hr [readingColumns]
  have hj := registered_nodup _ hq [numberedColumns ++ jouyouRequired]
  have hm := registered_nodup _ hj [numberedColumns ++ jinmeiRequired]
  unfold loadTextDataFrom loadTextData loadKanji
  simp only [Res.bind_ok_iff, C180_lists, file_ok x dir (u8!"ucd") _ (by decide +kernel), C180_ucd reg hreg,
    file_ok x dir (u8!"radicals") _ (by decide +kernel), radicals_loaded _ hu,
    file_ok x dir (u8!"frequency-readings") _ (by decide +kernel), C180_readings _ hr,
    file_ok x dir (u8!"jouyou") _ (by decide +kernel), jouyouText_ok _ hq,
    file_ok x dir (u8!"linked-jinmei") _ (by decide +kernel), textLines_eq,
    file_ok x dir (u8!"jinmei") _ (by decide +kernel), jinmeiText_ok _ hj,
    file_ok x dir (u8!"extra") _ (by decide +kernel), extraText_ok _ hm]
  constructor
  · rintro ⟨lists, ⟨hl, hlists⟩, _, ⟨hd, hu1, rfl⟩, u, ⟨hu2, hu3⟩, _, ⟨_, hr1, rfl⟩, rad, ⟨hr2, hr3⟩, _, ⟨_, hq1, rfl⟩, m,
      ⟨hq2, hq3⟩, _, ⟨_, hj1, rfl⟩, d1, ⟨hj2, hj3⟩, _, ⟨_, ho1, rfl⟩, d2, ho2, _, ⟨_, hm1, rfl⟩, d3, ⟨hm2, hm3⟩, _,
      ⟨_, he1, rfl⟩, d4, ⟨he2, he3⟩, d5, hp, d6, hf, e⟩
    exact ⟨⟨hl, hd, ⟨hu1, hu2⟩, ⟨hr1, hr2⟩, ⟨hq1, hq2⟩, ⟨hj1, hj2⟩, ho1, ⟨hm1, hm2⟩, ⟨he1, he2⟩⟩,
      lists, hlists, u, hu3, rad, hr3, m, hq3, d6, ⟨m, hq3, d1, hj3, d2, ho2, d3, hm3, d4, he3, d5, hp, hf⟩, e⟩
  · rintro ⟨⟨hl, hd, ⟨hu1, hu2⟩, ⟨hr1, hr2⟩, ⟨hq1, hq2⟩, ⟨hj1, hj2⟩, ho1, ⟨hm1, hm2⟩, ⟨he1, he2⟩⟩,
      lists, hlists, u, hu3, rad, hr3, m, hq3, d6, ⟨_, _, d1, hj3, d2, ho2, d3, hm3, d4, he3, d5, hp, hf⟩, e⟩
    exact ⟨lists, ⟨hl, hlists⟩, _, ⟨hd, hu1, rfl⟩, u, ⟨hu2, hu3⟩, _, ⟨hd, hr1, rfl⟩, rad, ⟨hr2, hr3⟩, _, ⟨hd, hq1, rfl⟩, m,
      ⟨hq2, hq3⟩, _, ⟨hd, hj1, rfl⟩, d1, ⟨hj2, hj3⟩, _, ⟨hd, ho1, rfl⟩, d2, ho2, _, ⟨hd, hm1, rfl⟩, d3, ⟨hm2, hm3⟩, _,
      ⟨hd, he1, rfl⟩, d4, ⟨he2, he3⟩, d5, hp, d6, hf, e⟩

/-- **C180** (all data): the data of the quiz program is loaded exactly when the directory has all files, its tables have the
right columns and their rows and the texts of the other files can be loaded; the data is that of these rows and texts. -/
theorem C180_load (reg : List Str) (hreg : reg.Nodup) (ltr : Bool) (x : Disk) (dir : Str) (d : DetailStore) :
    loadDataFrom reg ltr x dir = .ok d ↔
      CompleteDir x dir ∧ TablesFit x dir ∧ loadData ltr (dirData x dir) = .ok d := by
  have h1 := registered_nodup reg hreg [ucdColumns, radicalColumns, readingColumns, numberedColumns ++ jouyouRequired,
    numberedColumns ++ jinmeiRequired, numberedColumns ++ extraRequired]
  have h2 := registered_nodup _ h1 [groupColumns]
  unfold loadDataFrom loadData
  simp only [Res.bind_ok_iff, C180_text_data reg hreg, file_ok x dir (u8!"meaning-groups") _ (by decide +kernel),
    (C180_groups _ h1 _ _).1, file_ok x dir (u8!"pattern-groups") _ (by decide +kernel), (C180_groups _ h2 _ _).2, C180_jukugo]
  constructor
  · rintro ⟨t, ⟨hf, ht⟩, _, ⟨_, hm1, rfl⟩, m, ⟨hm2, hm3⟩, _, ⟨_, hp1, rfl⟩, p, ⟨hp2, hp3⟩, j, ⟨⟨hj1, hj2⟩, hj3⟩, h⟩
    refine ⟨⟨hf.isDir, ?_, hf.lists.1, hf.lists.2.1, hj1, hj2⟩,
      ⟨hf.ucd.2, hf.radicals.2, hf.readings.2, hf.jouyou.2, hf.jinmei.2, hf.extra.2, hm2, hp2⟩,
      t, ht, m, hm3, p, hp3, j, hj3, h⟩
    simp only [dirFiles, List.forall_mem_cons, List.not_mem_nil, false_implies, implies_true, and_true]
    exact ⟨hf.lists.2.2, hf.ucd.1, hf.radicals.1, hf.readings.1, hf.jouyou.1, hf.linked, hf.jinmei.1, hf.extra.1, hm1, hp1⟩
  · rintro ⟨hc, ht, t, h, m, hm3, p, hp3, j, hj3, e⟩
    have hf := hc.files
    simp only [dirFiles, List.forall_mem_cons, List.not_mem_nil, false_implies, implies_true, and_true] at hf
    obtain ⟨f1, f2, f3, f4, f5, f6, f7, f8, f9, f10⟩ := hf
    exact ⟨t, ⟨⟨⟨hc.levels, hc.kyus, f1⟩, hc.isDir, ⟨f2, ht.ucd⟩, ⟨f3, ht.radicals⟩, ⟨f4, ht.readings⟩, ⟨f5, ht.jouyou⟩, f6,
      ⟨f7, ht.jinmei⟩, ⟨f8, ht.extra⟩⟩, h⟩, _, ⟨hc.isDir, f9, rfl⟩, m, ⟨ht.meanings, hm3⟩, _, ⟨hc.isDir, f10, rfl⟩, p,
      ⟨ht.patterns, hp3⟩, j, ⟨⟨hc.jukugoDir, hc.jukugo⟩, hj3⟩, e⟩

/-- **C180** (columns made before): the data doesn't depend on the columns that other parts of the program made before. -/
theorem C180_registry (reg reg' : List Str) (h : reg.Nodup) (h' : reg'.Nodup) (ltr : Bool) (x : Disk) (dir : Str)
    (d : DetailStore) : loadDataFrom reg ltr x dir = .ok d ↔ loadDataFrom reg' ltr x dir = .ok d := by
  rw [C180_load reg h, C180_load reg' h']

end KT
