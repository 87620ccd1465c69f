import Verif.Model.StatsFiles
import Verif.Props.QuizFiles
import Verif.Props.StatsProgram
import Verif.Props.FormatProgram
/-!
# C183: kanjiStats and kanjiFormat with the files they find
-/
namespace KT
open Spec

/-! ## Loading only uses what is in the directory -/

theorem textLoad_same {w w' : World} {t t' : Str} (h : w.stat (pathOf t) = w'.stat (pathOf t')) (ht : t ≠ []) (ht' : t' ≠ [])
    (reg : List Str) (ltr : Bool) : loadTextDataFrom reg ltr w.disk t = loadTextDataFrom reg ltr w'.disk t' := by
  have hd : w.disk.fs t = w'.disk.fs t' := (thing_of_stat h).1
  have file : ∀ f, PlainName f ∧ PlainName (f ++ u8!".txt") → w.disk.file t f = w'.disk.file t' f :=
    fun f hf => file_same hd (entry_of_stat h ht ht' f hf)
  have entry : ∀ d f, PlainName d → PlainName f ∧ PlainName (f ++ u8!".txt") →
      SameEntry w.disk (joinPath t d) w'.disk (joinPath t' d) f := fun d f hd hf =>
    entry_of_stat (stat_join_same h ht ht' d hd) (joinPath_ne _ _ hd.1) (joinPath_ne _ _ hd.1) f hf
  have lists : loadListsFrom w.disk t = loadListsFrom w'.disk t' := by
    unfold loadListsFrom
    simp only [levelPath_eq, kyuPath_eq]
    rw [typedFiles_same levelFile (fun l => by cases l <;> decide)
        (fun l => entry _ _ (by decide) (by cases l <;> decide)),
      typedFiles_same kyuFile (fun k => by cases k <;> decide)
        (fun k => entry _ _ (by decide) (by cases k <;> decide)),
      list_same (file := u8!"frequency") (by decide) (entry_of_stat h ht ht' _ (by decide))]
  unfold loadTextDataFrom
  rw [lists, file (u8!"ucd") (by decide), file (u8!"radicals") (by decide), file (u8!"frequency-readings") (by decide),
    file (u8!"jouyou") (by decide), file (u8!"linked-jinmei") (by decide), file (u8!"jinmei") (by decide),
    file (u8!"extra") (by decide)]

/-- A set as the standard library builds it, for each maximum. -/
def SetsBuilt (set : UInt16 → List StatCount → List StatCount) : Prop :=
  ∀ m xs, SetBuilt (StatCount.lt m) xs (set m xs)

/-! ## C183 -/

/-- **C183** (output): when the data directory is found, there is at most one debug option and the data can be loaded, the
program writes what is specified for its arguments, the loaded data and the files (C175), and the exit code tells whether
there was a message. -/
theorem C183_output (w : World) (reg : List Str) (hreg : reg.Nodup) (ltr : Bool)
    (set : UInt16 → List StatCount → List StatCount) (hset : SetsBuilt set) (argv : List Str) (hn : argv.length < 65535)
    (d : FsPath) (hd : getDataDir w.dirs w.cwd argv = .ok d) (mode : DebugMode) (hm : getDebugMode argv = .ok mode)
    (hf : TextFiles w.disk d.text) (t : KanjiStore × UcdData × Loaded)
    (ht : loadTextData ltr (dirData w.disk d.text) = .ok t) :
    kanjiStats w reg ltr set argv =
      let o := statsOutput (loadedStats set t) (mode ≠ .none) w.node (programArgs false (argv.drop 1))
      some (.ok (match o.2 with
        | none => .ran o.1 [] 0
        | some m => .ran o.1 (m ++ u8!"\n") 1)) := by
  have hl := (C180_text_data reg hreg ltr w.disk d.text t).mpr ⟨hf, ht⟩
  unfold kanjiStats
  rw [hd]
  dsimp only
  rw [hm]
  dsimp only
  rw [hl]
  dsimp only
  rw [C175_main (loadedStats set t) _ (hset _) _ w.node argv hn]
  simp only [Option.map_some, Res.bind]
  cases (statsOutput (loadedStats set t) (mode ≠ .none) w.node (programArgs false (argv.drop 1))).2 <;> rfl

/-- **C183** (no crash): if the names in the files of the directory fit together (C181) the program ends with an exit code. -/
theorem C183_ends (w : World) (reg : List Str) (hreg : reg.Nodup) (ltr : Bool)
    (set : UInt16 → List StatCount → List StatCount) (hset : SetsBuilt set) (argv : List Str) (hn : argv.length < 65535)
    (hf : ∀ d, getDataDir w.dirs w.cwd argv = .ok d → NamesFit (dirData w.disk d.text)) :
    ∃ o, kanjiStats w reg ltr set argv = some (.ok o) := by
  unfold kanjiStats
  cases hd : getDataDir w.dirs w.cwd argv with
  | error m => exact ⟨_, rfl⟩
  | ok d =>
    dsimp only
    cases hm : getDebugMode argv with
    | throw x => exact ⟨_, rfl⟩
    | ub => exact absurd hm (debugMode_noub argv)
    | ok mode =>
      dsimp only
      cases hx : loadTextDataFrom reg ltr w.disk d.text with
      | throw x => exact ⟨_, rfl⟩
      | ub => exact absurd hx (textDataFrom_safe reg hreg ltr w.disk d.text (hf d hd))
      | ok t =>
        dsimp only
        rw [C175_main (loadedStats set t) _ (hset _) _ w.node argv hn]
        exact ⟨_, rfl⟩

/-- **C183** (exit before the report): exactly when there is no data directory or there are two debug options the program
ends with a message about its arguments; exactly when there is one, with at most one debug option, and a file is missing, a
table has wrong columns or the contents aren't accepted, it ends with an error of loading.  The files of the groups and the
Jukugo aren't needed. -/
theorem C183_errors (w : World) (reg : List Str) (hreg : reg.Nodup) (ltr : Bool)
    (set : UInt16 → List StatCount → List StatCount) (argv : List Str)
    (hf : ∀ d, getDataDir w.dirs w.cwd argv = .ok d → NamesFit (dirData w.disk d.text)) :
    (∀ m, kanjiStats w reg ltr set argv = some (.ok (.usage m)) ↔
      getDataDir w.dirs w.cwd argv = .error m ∨
        (∃ d, getDataDir w.dirs w.cwd argv = .ok d) ∧ 2 ≤ ((argv.drop 1).filter isDebugArg).length ∧
          m = u8!"can only specify one '-debug' or '-info' option") ∧
    ((∃ x, kanjiStats w reg ltr set argv = some (.ok (.load x))) ↔
      ∃ d, getDataDir w.dirs w.cwd argv = .ok d ∧ ((argv.drop 1).filter isDebugArg).length ≤ 1 ∧
        ¬ (TextFiles w.disk d.text ∧ ∃ t, loadTextData ltr (dirData w.disk d.text) = .ok t)) := by
  have nomain : ∀ v mode o, ((mainStats v mode w.node argv).map fun (v : Res _) => v.bind fun o =>
      .ok (StatsEnd.ran o.1 o.2.1 o.2.2)) = some (.ok o) → ∃ a b c, o = .ran a b c := by
    intro v mode o h
    cases hq : mainStats v mode w.node argv with
    | none => rw [hq] at h; cases h
    | some q =>
      rw [hq] at h
      cases q with
      | ok x => cases h; exact ⟨_, _, _, rfl⟩
      | throw _ => cases h
      | ub => cases h
  unfold kanjiStats
  cases hd : getDataDir w.dirs w.cwd argv with
  | error m =>
    dsimp only
    refine ⟨fun m' => ⟨fun h => ?_, fun h => ?_⟩, ⟨fun h => ?_, fun h => ?_⟩⟩
    · cases h; exact .inl rfl
    · rcases h with h | ⟨⟨_, h⟩, _⟩ <;> cases h; rfl
    · obtain ⟨_, h⟩ := h; cases h
    · obtain ⟨_, h, _⟩ := h; cases h
  | ok d =>
    dsimp only
    rcases debugMode_cases argv with ⟨hl, hm⟩ | ⟨mode, hl, hm⟩
    · rw [hm]
      dsimp only
      refine ⟨fun m' => ⟨fun h => ?_, fun h => ?_⟩, ⟨fun h => ?_, fun h => ?_⟩⟩
      · cases h; exact .inr ⟨⟨d, rfl⟩, hl, rfl⟩
      · rcases h with h | ⟨_, _, h⟩
        · cases h
        · rw [h]; rfl
      · obtain ⟨_, h⟩ := h; cases h
      · obtain ⟨_, _, h, _⟩ := h; omega
    · rw [hm]
      dsimp only
      have key : ∀ t, loadTextDataFrom reg ltr w.disk d.text = .ok t ↔ _ := C180_text_data reg hreg ltr w.disk d.text
      cases hx : loadTextDataFrom reg ltr w.disk d.text with
      | ub => exact absurd hx (textDataFrom_safe reg hreg ltr w.disk d.text (hf d hd))
      | throw x =>
        dsimp only
        refine ⟨fun m' => ⟨fun h => (by cases h), fun h => ?_⟩, ⟨fun _ => ⟨d, rfl, by omega, ?_⟩, fun _ => ⟨x, rfl⟩⟩⟩
        · rcases h with h | ⟨_, h, _⟩
          · cases h
          · omega
        · rintro ⟨h1, t, h2⟩
          have := (key t).mpr ⟨h1, h2⟩
          rw [hx] at this; cases this
      | ok t =>
        dsimp only
        refine ⟨fun m' => ⟨fun h => ?_, fun h => ?_⟩, ⟨fun h => ?_, fun h => ?_⟩⟩
        · obtain ⟨_, _, _, h⟩ := nomain _ _ _ h; cases h
        · rcases h with h | ⟨_, h, _⟩
          · cases h
          · omega
        · obtain ⟨_, h⟩ := h
          obtain ⟨_, _, _, h⟩ := nomain _ _ _ h; cases h
        · obtain ⟨d', h, _, h'⟩ := h
          cases h
          have := (key t).mp hx
          exact absurd ⟨this.1, t, this.2⟩ h'

/-- **C183** (only the directory and the files count): two runs whose data directories have the same contents, whose other
arguments are the same and which find the same at every path do the same. -/
theorem C183_directory (w w' : World) (reg : List Str) (ltr : Bool) (set : UInt16 → List StatCount → List StatCount)
    (argv argv' : List Str) (d d' : FsPath) (hd : getDataDir w.dirs w.cwd argv = .ok d)
    (hd' : getDataDir w'.dirs w'.cwd argv' = .ok d') (hs : w.stat d = w'.stat d') (hn : argv.length < 65535)
    (hn' : argv'.length < 65535) (hm : getDebugMode argv = getDebugMode argv')
    (hp : programArgs false (argv.drop 1) = programArgs false (argv'.drop 1))
    (hw : ∀ f ∈ programArgs false (argv.drop 1), w.node f = w'.node f) :
    kanjiStats w reg ltr set argv = kanjiStats w' reg ltr set argv' := by
  have hl : loadTextDataFrom reg ltr w.disk d.text = loadTextDataFrom reg ltr w'.disk d'.text := by
    refine textLoad_same ?_ (dir_text_ne hd) (dir_text_ne hd') reg ltr
    rw [path_text (getDataDir_proper _ _ _ d hd), path_text (getDataDir_proper _ _ _ d' hd'), hs]
  have files : ∀ (v : StatsData) (b o : Bool) (l : List Str), (∀ f ∈ l, w.node f = w'.node f) →
      statsFiles v b o w.node l = statsFiles v b o w'.node l := by
    intro v b o l
    induction l with
    | nil => intro _; rfl
    | cons f l ih =>
      intro h
      rw [statsFiles, statsFiles, h f (by simp), ih fun g hg => h g (by simp [hg])]
  have loop : ∀ (args : List Str) (b o v : Bool) (fs : List Str) (fs' : List Str) (b' v' : Bool),
      statsLoopWhy args b o v fs = .ok (.count fs' b' v') → ∀ f ∈ fs', f ∈ fs ∨ f ∈ args := by
    intro args
    induction args with
    | nil => intro b o v fs fs' b' v' h f hf; cases h; exact .inl hf
    | cons a args ih =>
      intro b o v fs fs' b' v' h f hf
      rw [statsLoopWhy] at h
      split at h
      · split at h
        · cases h
        · split at h
          · rcases ih _ _ _ _ _ _ _ h f hf with g | g <;> simp [g]
          · split at h
            · rcases ih _ _ _ _ _ _ _ h f hf with g | g <;> simp [g]
            · split at h
              · rcases ih _ _ _ _ _ _ _ h f hf with g | g <;> simp [g]
              · cases h
      · rcases ih _ _ _ _ _ _ _ h f hf with g | g
        · rcases List.mem_append.mp g with g | g
          · exact .inl g
          · simp at g; simp [g]
        · simp [g]
  have main : ∀ v debug, mainStats v debug w.node argv = mainStats v debug w'.node argv' := by
    intro v debug
    unfold mainStats
    rw [C45_args_partial argv (by omega) (by omega) _ (by omega), C45_args_partial argv' (by omega) (by omega) _ (by omega),
      ← hp]
    simp only [Option.map_some, Res.bind]
    have : runStats v debug w.node (programArgs false (argv.drop 1)) =
        runStats v debug w'.node (programArgs false (argv.drop 1)) := by
      unfold runStats statsWhy
      cases hq : statsLoopWhy (programArgs false (argv.drop 1)) false false false [] with
      | error m => rfl
      | ok a =>
        cases a with
        | help => rfl
        | usage => rfl
        | count fs b o =>
          dsimp only
          by_cases hc : (!debug && fs.isEmpty) = true
          · rw [if_pos hc]
          · rw [if_neg hc]
            exact files _ _ _ _ fun f hf => hw f ((loop _ _ _ _ _ _ _ _ hq f hf).resolve_left (by simp))
    rw [this]
  unfold kanjiStats
  rw [hd, hd', hm]
  dsimp only
  rw [hl]
  simp only [main]

/-- **C183** (anywhere below): without `-data`, in a directory at or below one with a directory 'data' that is valid, the
program does what it does with `-data` and that directory. -/
theorem C183_below (w : World) (reg : List Str) (ltr : Bool) (set : UInt16 → List StatCount → List StatCount)
    (prog : Str) (args : List Str) (d : FsPath) (ha : (u8!"-data") ∉ args) (hn : args.length < 65532)
    (hd : searchUp w.dirs (pathOf w.cwd) = some d) :
    kanjiStats w reg ltr set (prog :: args) = kanjiStats w reg ltr set (prog :: u8!"-data" :: d.text :: args) := by
  have h1 : getDataDir w.dirs w.cwd (prog :: args) = .ok d := C127_current _ _ _ (by simpa using ha) d hd
  have ht := path_text (getDataDir_proper _ _ _ d h1)
  have hv : DataDir w.dirs d := C126_valid w.dirs w.cwd _ d h1
  have h2 : getDataDir w.dirs w.cwd (prog :: u8!"-data" :: d.text :: args) = .ok d := by
    have := ((C126_option w.dirs w.cwd prog [] (d.text :: args) (by simp)).2 _ _ rfl).1
    rw [ht] at this
    exact this hv
  obtain ⟨q, hq, hqd⟩ := searchUp_proper _ _ _ d rfl (pathOf_proper _) hd
  have hend : d.text.getLast? = some 0x61 := by
    obtain ⟨names, g1, g2⟩ := hq
    rw [hqd, child_names g1 g2]
    have : ∀ l : List Str, (withSlashes (l ++ [u8!"data"])).getLast? = some 0x61 := by
      intro l
      induction l with
      | nil => rfl
      | cons a l ih =>
        cases l with
        | nil => simp [withSlashes]
        | cons b l =>
          simp only [List.cons_append] at ih ⊢
          rw [withSlashes, List.getLast?_append, List.getLast?_cons, ih]; rfl
    unfold FsPath.text
    rw [List.getLast?_append, this]; rfl
  refine C183_directory w w reg ltr set _ _ d d h1 h2 rfl (by simp; omega) (by simp; omega) ?_ ?_ fun _ _ => rfl
  · have n1 : d.text ≠ u8!"-debug" := fun e => by rw [e] at hend; revert hend; decide
    have n2 : d.text ≠ u8!"-info" := fun e => by rw [e] at hend; revert hend; decide
    unfold getDebugMode
    simp only [List.drop_succ_cons, List.drop_zero]
    rw [debugModeLoop, if_neg (by decide), if_neg (by decide), debugModeLoop, if_neg n1, if_neg n2]
  · simp only [List.drop_succ_cons, List.drop_zero]
    rw [programArgs, if_pos rfl, programArgs]

/-! ## Types -/

/-- The names in the file of a type that has a file with rows. -/
def DataFiles.namesOf (f : DataFiles) : KanjiType → List Str
  | .jouyou => f.kanji.jouyou.map (·.name)
  | .jinmei => f.kanji.jinmei.map (·.name)
  | .extra => f.kanji.extra.map (·.name)
  | _ => []

/-- **C183** (types): a kanji that isn't the compatibility name of another one is counted as a Jouyou, Jinmei or Extra kanji
exactly when it is a name in the file 'jouyou.txt', 'jinmei.txt' or 'extra.txt' (if there were no errors when loading). -/
theorem C183_types (set : UInt16 → List StatCount → List StatCount) (ltr : Bool) (f : DataFiles)
    (t : KanjiStore × UcdData × Loaded) (ht : loadTextData ltr f = .ok t) (he : t.1.errors = 0) (s : Str)
    (hs : ∀ k ∈ t.1.all, k.kanji.variant = true → k.kanji.compatibilityName = s → k.kanji.name = s)
    (ty : KanjiType) (hty : ty = .jouyou ∨ ty = .jinmei ∨ ty = .extra) :
    ((loadedStats set t).findByName s).map (·.type) = some ty ↔ s ∈ f.namesOf ty := by
  obtain ⟨d, u, l⟩ := t
  obtain ⟨lists, rad, _, _, _, _, hk⟩ := loadTextData_ok ht
  obtain ⟨jouyou, line, old, jinmei, extra, ls, ucd, hl, _⟩ := loadKanji_spec hk
  have hst := hl.types.store
  have hall := hst.all_eq
  have find : ∀ k, d.findByName s = some k ↔ k ∈ d.all ∧ k.kanji.name = s := by
    intro k
    have hc : d.findByName s = d.all.find? (·.kanji.name == s) := by
      rw [findByName_inv hst, ← hall]
      cases hf : d.all.find? fun k => k.kanji.variant && k.kanji.compatibilityName == s with
      | none => rfl
      | some x =>
        have h1 := List.mem_of_find?_eq_some hf
        have h2 := List.find?_some hf
        simp only [Bool.and_eq_true, beq_iff_eq] at h2
        simp only [Option.map_some, Option.getD_some, hs x h1 h2.1 h2.2]
    rw [hc]
    refine ⟨fun h => ⟨List.mem_of_find?_eq_some h, by simpa using List.find?_some h⟩, ?_⟩
    rintro ⟨h1, rfl⟩
    exact find_name (hall ▸ hst.nodup) k h1
  have rows : ∀ k ∈ d.all, k.kanji.type = ty → k.kanji.name ∈ f.namesOf ty := by
    intro k hk' h
    have := C103_sources l f.kanji d hk k hk'
    rw [h] at this
    rcases hty with rfl | rfl | rfl <;> (obtain ⟨row, h1, h2, _⟩ := this; rw [h2]; exact List.mem_map.mpr ⟨row, h1, rfl⟩)
  have found : ∀ n ∈ f.namesOf ty, ∃ k ∈ d.all, k.kanji.name = n ∧ k.kanji.type = ty := by
    intro n hn
    have mem : ∀ k ∈ d.types ty, k ∈ d.all ∧ k.kanji.type = ty := by
      intro k hk'
      rw [C101_partial l f.kanji d hk he ty] at hk'
      simpa using List.mem_filter.mp hk'
    obtain ⟨⟨ks1, a1, b1⟩, ⟨ks2, a2, b2⟩, ks3, a3, b3⟩ := C101_rows l f.kanji d hk
    have pick : ∀ {α β : Type} (rows : List α) (make : α → Res β) (ks : List β), rows.map make = ks.map .ok →
        ∀ r ∈ rows, ∃ k ∈ ks, make r = .ok k := by
      intro α β rows make ks h r hr
      have : make r ∈ ks.map .ok := h ▸ List.mem_map.mpr ⟨r, hr, rfl⟩
      obtain ⟨k, h1, h2⟩ := List.mem_map.mp this
      exact ⟨k, h1, h2.symm⟩
    rcases hty with rfl | rfl | rfl <;> obtain ⟨row, hr, rfl⟩ := List.mem_map.mp hn
    · obtain ⟨⟨k, i⟩, h1, h2⟩ := pick _ _ _ a1 row hr
      have hm := mem (l.record k) (b1 ▸ List.mem_map.mpr ⟨_, h1, rfl⟩)
      exact ⟨_, hm.1, (jouyou_row h2).2.1, hm.2⟩
    · obtain ⟨⟨k, i⟩, h1, h2⟩ := pick _ _ _ a2 row hr
      have hm := mem (l.record k) (b2 ▸ List.mem_map.mpr ⟨_, h1, rfl⟩)
      exact ⟨_, hm.1, (jinmei_row h2).2.1, hm.2⟩
    · obtain ⟨⟨k, i⟩, h1, h2⟩ := pick _ _ _ a3 row hr
      have hm := mem (l.record k) (b3 ▸ List.mem_map.mpr ⟨_, h1, rfl⟩)
      exact ⟨_, hm.1, (extra_row h2).2.1, hm.2⟩
  show ((d.findByName s).map (·.kanji)).map (·.type) = some ty ↔ _
  rw [Option.map_map]
  constructor
  · intro h
    obtain ⟨k, h1, h2⟩ := Option.map_eq_some_iff.mp h
    obtain ⟨h3, rfl⟩ := (find k).mp h1
    exact rows k h3 h2
  · intro h
    obtain ⟨k, h1, h2, h3⟩ := found s h
    rw [(find k).mpr ⟨h1, h2⟩]
    exact congrArg some h3

theorem describe_names : ∀ (rows : List UcdRow) (us : List UcdRec), RowsDescribe rows us →
    us.map (·.name) = rows.map (·.name)
  | [], [], _ => rfl
  | [], _ :: _, h => h.elim
  | _ :: _, [], h => h.elim
  | r :: rows, u :: us, h => by
    rw [List.map_cons, List.map_cons, h.1.name.1, describe_names rows us h.2]

/-- **C183** (Unicode data): a kanji is counted as "Non-UCD" exactly when it isn't a name in the file 'ucd.txt'. -/
theorem C183_ucd (set : UInt16 → List StatCount → List StatCount) (ltr : Bool) (f : DataFiles)
    (t : KanjiStore × UcdData × Loaded) (ht : loadTextData ltr f = .ok t) (c : Char) :
    (loadedStats set t).ucd (String.utf8EncodeChar c) = true ↔ String.utf8EncodeChar c ∈ f.ucd.map (·.name) := by
  obtain ⟨d, u, l⟩ := t
  obtain ⟨lists, rad, _, hu, _, rfl, _⟩ := loadTextData_ok ht
  rcases C95_load f.ucd with ⟨us, u', h1, _, h3, _⟩ | ⟨_, h1⟩
  case inr => rw [h1] at hu; cases hu
  have hf := (C96_find_partial f.ucd us u h1 hu).1 (String.utf8EncodeChar c) (by
    rintro ⟨p, v, hv, h2, _, e⟩
    have e := congrArg List.length e
    rw [List.length_append, String.length_utf8EncodeChar, String.length_utf8EncodeChar] at e
    have := Char.utf8Size_le_four c
    have : v.utf8Size = 3 := by
      have h1 : 0xfe00 ≤ v.val.toNat ∧ v.val.toNat ≤ 0xfe0f := hv
      unfold Char.utf8Size
      rw [if_neg (by rw [UInt32.le_iff_toNat_le]; show ¬ v.val.toNat ≤ 0x7f; omega),
        if_neg (by rw [UInt32.le_iff_toNat_le]; show ¬ v.val.toNat ≤ 0x7ff; omega),
        if_pos (by rw [UInt32.le_iff_toNat_le]; show v.val.toNat ≤ 0xffff; omega)]
    omega)
  show (((u.findEntry (String.utf8EncodeChar c)).map (·.toUcd)).isSome) = true ↔ _
  unfold UcdData.findEntry
  rw [hf, Option.isSome_map, List.find?_isSome, ← describe_names _ _ h1, List.mem_map]
  simp only [beq_iff_eq]

/-! ## Files -/

/-- The entries of a directory as a list. -/
def Entries.list : Entries → List (Str × Node)
  | .nil => []
  | .cons name n es => (name, n) :: es.list

/-- **C183** (trees): kanjiStats reads a file with its contents and a directory with all its entries. -/
theorem C183_trees (w : World) (path : Str) :
    (w.node path = none ↔ w.stat (pathOf path) = none) ∧
    (∀ t, w.stat (pathOf path) = some (.file t) → w.node path = some (.file t)) ∧
    (∀ es, w.stat (pathOf path) = some (.dir es) →
      ∃ r, w.node path = some (.dir r) ∧ r.list = es.map fun p => (p.1, p.2.seen)) := by
  unfold World.node
  refine ⟨Option.map_eq_none_iff, fun t h => by rw [h]; rfl, fun es h => ⟨seenEntries es, by rw [h]; rfl, ?_⟩⟩
  clear h
  induction es with
  | nil => rfl
  | cons p es ih => rw [seenEntries, Entries.list, ih]; rfl

/-- **C183** (format): kanjiFormat writes the formatted text of the file at the path given as first argument. -/
theorem C183_format (w : World) (argv : List Str) (hn : argv.length < 65536) :
    kanjiFormat w argv =
      formatProgram (fun f => match w.stat (pathOf f) with
        | some (.file t) => some t
        | _ => none) formatFile argv := by
  unfold kanjiFormat
  rw [C177_main _ _ _ hn]
  congr 1
  funext f
  unfold World.node
  cases w.stat (pathOf f) with
  | none => rfl
  | some x => cases x <;> rfl

/-- **C183** (both): when the output of kanjiFormat for a file is put into another file, kanjiStats counts for each category
without Furigana the characters of the lines that aren't readings (C178). -/
theorem C183_both (w : World) (prog file saved : Str) (out : Str) (lines : List (List Char))
    (hf : w.stat (pathOf file) = some (.file (fileText lines)))
    (ho : kanjiFormat w [prog, file] = (out, [], 0)) (hs : w.stat (pathOf saved) = some (.file out))
    (h : ∀ l ∈ lines, TextLine l ∧ ∀ c ∈ l, Simple c) (hlast : ∀ l, lines.getLast? = some l → ¬ LastIsKanji l)
    (name : Str) (cat : Category) (hc : cat.furigana = false) :
    ∃ n, w.node saved = some n ∧ cat.chars name n = cat.chars name (.file (fileText (baseLines lines))) := by
  rw [C183_format w _ (by simp)] at ho
  simp only [formatProgram, hf] at ho
  cases ho
  exact ⟨_, (C183_trees w saved).2.1 _ hs, C178_counts lines h hlast name cat hc⟩

end KT
