import Verif.Props.FileTree
import Verif.Props.KanjiArgs
import Verif.Props.DataDirectoryQuiz
import Verif.Props.LoadSafeProgram
/-!
# C182: the quiz program with the files of the data directory it finds
-/
namespace KT
open Spec

/-! ## Loading only uses what is in the directory -/

/-- Two paths name the same. -/
def SameThing (x : Disk) (p : Str) (x' : Disk) (p' : Str) : Prop := x.fs p = x'.fs p' ∧ x.content p = x'.content p'

/-- Two directories have the same entry. -/
def SameEntry (x : Disk) (dir : Str) (x' : Disk) (dir' file : Str) : Prop :=
  SameThing x (joinPath dir file) x' (joinPath dir' file) ∧
    SameThing x (joinPath dir file ++ u8!".txt") x' (joinPath dir' file ++ u8!".txt")

theorem file_same {x x' : Disk} {dir dir' file : Str} (hd : x.fs dir = x'.fs dir') (h : SameEntry x dir x' dir' file) :
    x.file dir file = x'.file dir' file := by
  obtain ⟨⟨h1, h2⟩, h3, h4⟩ := h
  unfold Disk.file getFile
  rw [hd]
  dsimp only
  rw [h1]
  by_cases hx : x'.fs dir' ≠ .directory
  · rw [if_pos hx, if_pos hx]
  · rw [if_neg hx, if_neg hx]
    by_cases hc : x'.fs (joinPath dir' file) ≠ .regular ∧ hasExtension file = false
    · simp only [if_pos hc, h3]
      by_cases hm : x'.fs (joinPath dir' file ++ u8!".txt") = .missing
      · simp only [if_pos hm]
      · simp only [if_neg hm]
        by_cases hr : x'.fs (joinPath dir' file ++ u8!".txt") ≠ .regular
        · simp only [if_pos hr]
        · simp only [if_neg hr, h4]
    · simp only [if_neg hc, h1]
      by_cases hm : x'.fs (joinPath dir' file) = .missing
      · simp only [if_pos hm]
      · simp only [if_neg hm]
        by_cases hr : x'.fs (joinPath dir' file) ≠ .regular
        · simp only [if_pos hr]
        · simp only [if_neg hr, h2]

theorem list_same {x x' : Disk} {dir dir' file : Str} (hf : (0x2f : UInt8) ∉ file) (h : SameEntry x dir x' dir' file) :
    x.list (joinPath dir file) = x'.list (joinPath dir' file) := by
  obtain ⟨⟨h1, h2⟩, h3, h4⟩ := h
  have he : hasExtension (joinPath dir file) = hasExtension (joinPath dir' file) := by
    unfold hasExtension; rw [fileNameOf_join dir file hf, fileNameOf_join dir' file hf]
  unfold Disk.list openListFile
  dsimp only
  rw [h1, he]
  by_cases hc : x'.fs (joinPath dir' file) ≠ .regular ∧ hasExtension (joinPath dir' file) = false
  · simp only [if_pos hc, h3]
    by_cases hr : x'.fs (joinPath dir' file ++ u8!".txt") ≠ .regular
    · simp only [if_pos hr]
    · simp only [if_neg hr, h4]
  · simp only [if_neg hc, h1]
    by_cases hr : x'.fs (joinPath dir' file) ≠ .regular
    · simp only [if_pos hr]
    · simp only [if_neg hr, h2]

theorem typedFiles_same {τ : Type} {x x' : Disk} {dir dir' : Str} (file : τ → Str) (hf : ∀ t, (0x2f : UInt8) ∉ file t)
    (h : ∀ t, SameEntry x dir x' dir' (file t)) : ∀ (ts : List τ) (names : List Str),
    loadTypedFiles x names (ts.map fun t => (t, joinPath dir (file t))) =
      loadTypedFiles x' names (ts.map fun t => (t, joinPath dir' (file t))) := by
  intro ts
  induction ts with
  | nil => intro _; rfl
  | cons t ts ih =>
    intro names
    simp only [List.map_cons, loadTypedFiles]
    rw [list_same (hf t) (h t)]
    congr 1
    funext text
    rcases ListFile.load false true names text with ⟨st, r⟩
    cases r with
    | ok u => simp only [ih]
    | throw e => rfl
    | ub => rfl

theorem jukugoFiles_same {x x' : Disk} {dir dir' : Str} (hd : x.fs dir = x'.fs dir') (fs : List (Str × KanjiGrade))
    (h : ∀ f ∈ fs, SameEntry x dir x' dir' f.1) : ∀ st, loadJukugoFiles x dir fs st = loadJukugoFiles x' dir' fs st := by
  induction fs with
  | nil => intro _; rfl
  | cons f fs ih =>
    intro st
    obtain ⟨f, g⟩ := f
    rw [loadJukugoFiles, loadJukugoFiles, file_same hd (h (f, g) (by simp))]
    have : loadJukugoFiles x dir fs = loadJukugoFiles x' dir' fs :=
      funext (ih fun f hf => h f (List.mem_cons_of_mem _ hf))
    rw [this]

theorem joinPath_ne (t f : Str) (hf : f ≠ []) : joinPath t f ≠ [] := by
  unfold joinPath; simp [hf]

theorem joinPath_append (t f e : Str) : joinPath t f ++ e = joinPath t (f ++ e) := by
  unfold joinPath; simp [List.append_assoc]

section
variable {w w' : World} {t t' : Str}

theorem thing_of_stat (h : w.stat (pathOf t) = w'.stat (pathOf t')) : SameThing w.disk t w'.disk t' :=
  ⟨congrArg nodeKind h, congrArg nodeText h⟩

theorem stat_join_same (h : w.stat (pathOf t) = w'.stat (pathOf t')) (ht : t ≠ []) (ht' : t' ≠ []) (f : Str)
    (hf : PlainName f) : w.stat (pathOf (joinPath t f)) = w'.stat (pathOf (joinPath t' f)) := by
  rw [stat_join w t f ht hf, stat_join w' t' f ht' hf, h]

theorem entry_of_stat (h : w.stat (pathOf t) = w'.stat (pathOf t')) (ht : t ≠ []) (ht' : t' ≠ []) (f : Str)
    (hf : PlainName f ∧ PlainName (f ++ u8!".txt")) : SameEntry w.disk t w'.disk t' f := by
  refine ⟨thing_of_stat (stat_join_same h ht ht' f hf.1), ?_⟩
  rw [joinPath_append, joinPath_append]
  exact thing_of_stat (stat_join_same h ht ht' _ hf.2)

/-- Loading depends on nothing but what the path of the directory names. -/
theorem load_same (h : w.stat (pathOf t) = w'.stat (pathOf t')) (ht : t ≠ []) (ht' : t' ≠ []) (reg : List Str) (ltr : Bool) :
    loadDataFrom reg ltr w.disk t = loadDataFrom reg ltr w'.disk t' := by
  have hd : w.disk.fs t = w'.disk.fs t' := (thing_of_stat h).1
  have file : ∀ f, PlainName f ∧ PlainName (f ++ u8!".txt") → w.disk.file t f = w'.disk.file t' f :=
    fun f hf => file_same hd (entry_of_stat h ht ht' f hf)
  have sub : ∀ f, PlainName f → w.stat (pathOf (joinPath t f)) = w'.stat (pathOf (joinPath t' f)) :=
    stat_join_same h ht ht'
  have entry : ∀ d f, PlainName d → PlainName f ∧ PlainName (f ++ u8!".txt") →
      SameEntry w.disk (joinPath t d) w'.disk (joinPath t' d) f := fun d f hd hf =>
    entry_of_stat (sub d hd) (joinPath_ne _ _ hd.1) (joinPath_ne _ _ hd.1) f hf
  have lists : loadListsFrom w.disk t = loadListsFrom w'.disk t' := by
    unfold loadListsFrom
    simp only [levelPath_eq, kyuPath_eq]
    rw [typedFiles_same levelFile (fun l => by cases l <;> decide)
        (fun l => entry _ _ (by decide) (by cases l <;> decide)),
      typedFiles_same kyuFile (fun k => by cases k <;> decide)
        (fun k => entry _ _ (by decide) (by cases k <;> decide)),
      list_same (file := u8!"frequency") (by decide) (entry_of_stat h ht ht' _ (by decide))]
  have juk : loadJukugoFiles w.disk (joinPath t (u8!"jukugo")) jukugoFiles {} =
      loadJukugoFiles w'.disk (joinPath t' (u8!"jukugo")) jukugoFiles {} := by
    refine jukugoFiles_same (thing_of_stat (sub _ (by decide))).1 _ (fun f hf => entry _ _ (by decide) ?_) _
    have : ∀ f ∈ jukugoFiles, PlainName f.1 ∧ PlainName (f.1 ++ u8!".txt") := by decide
    exact this f hf
  unfold loadDataFrom loadTextDataFrom
  rw [lists, juk, file (u8!"ucd") (by decide), file (u8!"radicals") (by decide), file (u8!"frequency-readings") (by decide),
    file (u8!"jouyou") (by decide), file (u8!"linked-jinmei") (by decide), file (u8!"jinmei") (by decide),
    file (u8!"extra") (by decide), file (u8!"meaning-groups") (by decide), file (u8!"pattern-groups") (by decide)]

end

/-! ## The data directory -/

theorem dirs_valid {w : World} {argv : List Str} {d : FsPath} (h : getDataDir w.dirs w.cwd argv = .ok d) :
    ∃ es, w.stat d = some (.dir es) ∧ DataNames (es.map (·.1)) := by
  obtain ⟨names, h1, h2⟩ := C126_valid w.dirs w.cwd argv d h
  unfold World.dirs at h1
  split at h1
  · rename_i es hs; cases h1; exact ⟨es, hs, h2⟩
  · cases h1

theorem dir_text_ne {w : World} {argv : List Str} {d : FsPath} (h : getDataDir w.dirs w.cwd argv = .ok d) : d.text ≠ [] := by
  intro e
  obtain ⟨es, hs, _⟩ := dirs_valid h
  have := path_text (getDataDir_proper _ _ _ d h)
  rw [e] at this
  rw [← this] at hs
  cases hs

theorem mainQuiz_args (sort : List KanjiRec → List KanjiRec) (d : DetailStore) (e : StoulTexts) (debug : Bool)
    (argv argv' : List Str) (h : argv.length < 65535) (h' : argv'.length < 65535)
    (hp : programArgs false (argv.drop 1) = programArgs false (argv'.drop 1)) (n : Nat) (r : Drawn) (s : InStream) :
    mainQuiz sort d e debug argv n r s = mainQuiz sort d e debug argv' n r s := by
  unfold mainQuiz
  rw [C45_args_partial argv (by omega) (by omega) _ (by omega), C45_args_partial argv' (by omega) (by omega) _ (by omega), hp]

theorem debugMode_cases (argv : List Str) :
    (2 ≤ ((argv.drop 1).filter isDebugArg).length ∧ getDebugMode argv = .throw .domain) ∨
      (((argv.drop 1).filter isDebugArg).length ≤ 1 ∧ ∃ mode, getDebugMode argv = .ok mode) := by
  cases argv with
  | nil => exact .inr ⟨by simp, _, rfl⟩
  | cons prog args =>
    rw [C75_debugMode]
    simp only [List.drop_succ_cons, List.drop_zero]
    rcases args.filter isDebugArg with _ | ⟨a, _ | ⟨b, l⟩⟩
    · exact .inr ⟨by simp, _, rfl⟩
    · exact .inr ⟨by simp, _, rfl⟩
    · exact .inl ⟨by simp, rfl⟩

theorem debugMode_noub (argv : List Str) : getDebugMode argv ≠ .ub := by
  rcases debugMode_cases argv with ⟨_, h⟩ | ⟨_, _, h⟩ <;> rw [h] <;> exact fun h => by cases h

/-! ## C182 -/

/-- **C182** (only the directory counts): two runs whose data directories have the same contents — wherever these are, however
they were found and whatever other files there are — and whose other arguments are the same do the same. -/
theorem C182_directory (w w' : World) (reg : List Str) (ltr : Bool) (sort : List KanjiRec → List KanjiRec) (e : StoulTexts)
    (argv argv' : List Str) (n : Nat) (r : Drawn) (s : InStream) (d d' : FsPath)
    (hd : getDataDir w.dirs w.cwd argv = .ok d) (hd' : getDataDir w'.dirs w'.cwd argv' = .ok d')
    (hs : w.stat d = w'.stat d') (hn : argv.length < 65535) (hn' : argv'.length < 65535)
    (hm : getDebugMode argv = getDebugMode argv')
    (hp : programArgs false (argv.drop 1) = programArgs false (argv'.drop 1)) :
    kanjiQuiz w reg ltr sort e argv n r s = kanjiQuiz w' reg ltr sort e argv' n r s := by
  have hl : loadDataFrom reg ltr w.disk d.text = loadDataFrom reg ltr w'.disk d'.text := by
    refine load_same ?_ (dir_text_ne hd) (dir_text_ne hd') reg ltr
    rw [path_text (getDataDir_proper _ _ _ d hd), path_text (getDataDir_proper _ _ _ d' hd'), hs]
  unfold kanjiQuiz
  rw [hd, hd', hm]
  dsimp only
  rw [hl]
  simp only [mainQuiz_args sort _ e _ argv argv' hn hn' hp n r s]

/-- **C182** (anywhere below): without `-data`, in a directory at or below one with a directory 'data' that is valid, the
program does what it does with `-data` and that directory. -/
theorem C182_below (w : World) (reg : List Str) (ltr : Bool) (sort : List KanjiRec → List KanjiRec) (e : StoulTexts)
    (prog : Str) (args : List Str) (n : Nat) (r : Drawn) (s : InStream) (d : FsPath) (ha : (u8!"-data") ∉ args)
    (hn : args.length < 65532) (hd : searchUp w.dirs (pathOf w.cwd) = some d) :
    kanjiQuiz w reg ltr sort e (prog :: args) n r s =
      kanjiQuiz w reg ltr sort e (prog :: u8!"-data" :: d.text :: args) n r s := by
  have h1 : getDataDir w.dirs w.cwd (prog :: args) = .ok d := C127_current _ _ _ (by simpa using ha) d hd
  have ht := path_text (getDataDir_proper _ _ _ d h1)
  have hv : DataDir w.dirs d := C126_valid w.dirs w.cwd _ d h1
  have h2 : getDataDir w.dirs w.cwd (prog :: u8!"-data" :: d.text :: args) = .ok d := by
    have := ((C126_option w.dirs w.cwd prog [] (d.text :: args) (by simp)).2 _ _ rfl).1
    rw [ht] at this
    exact this hv
  obtain ⟨q, hq, hqd⟩ := searchUp_proper _ _ _ d rfl (pathOf_proper _) hd
  have hend : d.text.getLast? = some 0x61 := by
    obtain ⟨names, g1, g2⟩ := hq
    rw [hqd, child_names g1 g2]
    have : ∀ l : List Str, (withSlashes (l ++ [u8!"data"])).getLast? = some 0x61 := by
      intro l
      induction l with
      | nil => rfl
      | cons a l ih =>
        cases l with
        | nil => simp [withSlashes]
        | cons b l =>
          simp only [List.cons_append] at ih ⊢
          rw [withSlashes, List.getLast?_append, List.getLast?_cons, ih]; rfl
    unfold FsPath.text
    rw [List.getLast?_append, this]; rfl
  refine C182_directory w w reg ltr sort e _ _ n r s d d h1 h2 rfl (by simp; omega) (by simp; omega) ?_ ?_
  · have n1 : d.text ≠ u8!"-debug" := fun e => by rw [e] at hend; revert hend; decide
    have n2 : d.text ≠ u8!"-info" := fun e => by rw [e] at hend; revert hend; decide
    unfold getDebugMode
    simp only [List.drop_succ_cons, List.drop_zero]
    rw [debugModeLoop, if_neg (by decide), if_neg (by decide), debugModeLoop, if_neg n1, if_neg n2]
  · simp only [List.drop_succ_cons, List.drop_zero]
    rw [programArgs, if_pos rfl, programArgs]

/-- **C182** (no crash): if the names in the files of the directory fit together (C181) and the data is within the limits of
the program (C171), the program ends with an exit code or waits for input. -/
theorem C182_ends (w : World) (reg : List Str) (hreg : reg.Nodup) (ltr : Bool) (sort : List KanjiRec → List KanjiRec)
    (e : StoulTexts) (argv : List Str) (hn : argv.length < 65535) (n : Nat) (r : Drawn) (s : InStream)
    (hf : ∀ d, getDataDir w.dirs w.cwd argv = .ok d → NamesFit (dirData w.disk d.text))
    (hl : ∀ d v, getDataDir w.dirs w.cwd argv = .ok d → loadDataFrom reg ltr w.disk d.text = .ok v →
      WithinLimits (dirData w.disk d.text) v) :
    ∃ o, kanjiQuiz w reg ltr sort e argv n r s = some (.ok o) := by
  unfold kanjiQuiz
  cases hd : getDataDir w.dirs w.cwd argv with
  | error m => exact ⟨_, rfl⟩
  | ok d =>
    dsimp only
    cases hm : getDebugMode argv with
    | throw x => exact ⟨_, rfl⟩
    | ub => exact absurd hm (debugMode_noub argv)
    | ok mode =>
      dsimp only
      cases hx : loadDataFrom reg ltr w.disk d.text with
      | throw x => exact ⟨_, rfl⟩
      | ub => exact absurd hx (C181_directory_partial reg hreg ltr w.disk d.text (hf d hd)).1
      | ok v =>
        dsimp only
        unfold mainQuiz
        rw [C45_args_partial argv (by omega) (by omega) _ (by omega)]
        obtain ⟨o, ho⟩ := C180_quiz reg hreg ltr w.disk d.text v hx (hl d v hd hx) sort e (mode ≠ .none)
          (programArgs false (argv.drop 1)) n r s
        simp only [Option.map_some, Res.bind, ho]
        exact ⟨_, rfl⟩

/-- **C182** (exit before the quizzes): exactly when there is no data directory or there are two debug options the program ends
with a message about its arguments; exactly when there is one, with at most one debug option, and a file is missing, a table has
wrong columns or the contents aren't accepted, it ends with an error of loading. -/
theorem C182_errors (w : World) (reg : List Str) (hreg : reg.Nodup) (ltr : Bool) (sort : List KanjiRec → List KanjiRec)
    (e : StoulTexts) (argv : List Str) (n : Nat) (r : Drawn) (s : InStream)
    (hf : ∀ d, getDataDir w.dirs w.cwd argv = .ok d → NamesFit (dirData w.disk d.text)) :
    (∀ m, kanjiQuiz w reg ltr sort e argv n r s = some (.ok (.usage m)) ↔
      getDataDir w.dirs w.cwd argv = .error m ∨
        (∃ d, getDataDir w.dirs w.cwd argv = .ok d) ∧ 2 ≤ ((argv.drop 1).filter isDebugArg).length ∧
          m = u8!"can only specify one '-debug' or '-info' option") ∧
    ((∃ x, kanjiQuiz w reg ltr sort e argv n r s = some (.ok (.load x))) ↔
      ∃ d, getDataDir w.dirs w.cwd argv = .ok d ∧ ((argv.drop 1).filter isDebugArg).length ≤ 1 ∧
        ¬ (CompleteDir w.disk d.text ∧ TablesFit w.disk d.text ∧ ∃ v, loadData ltr (dirData w.disk d.text) = .ok v)) := by
  have nomain : ∀ v mode o, ((mainQuiz sort v e mode argv n r s).map fun (v : Res _) => v.bind fun o => .ok (QuizEnd.ran o.1 o.2)) =
      some (.ok o) → ∃ a b, o = .ran a b := by
    intro v mode o h
    cases hq : mainQuiz sort v e mode argv n r s with
    | none => rw [hq] at h; cases h
    | some q =>
      rw [hq] at h
      cases q with
      | ok q => simp only [Option.map_some, Res.bind, Option.some.injEq, Res.ok.injEq] at h; exact ⟨_, _, h.symm⟩
      | throw x => simp [Res.bind] at h
      | ub => simp [Res.bind] at h
  unfold kanjiQuiz
  cases hd : getDataDir w.dirs w.cwd argv with
  | error m => simp
  | ok d =>
    dsimp only
    have hmode := debugMode_cases argv
    cases hm : getDebugMode argv with
    | throw x =>
      have : 2 ≤ ((argv.drop 1).filter isDebugArg).length := by
        rcases hmode with ⟨h, _⟩ | ⟨_, mode, h⟩
        · exact h
        · rw [hm] at h; cases h
      refine ⟨fun m => ?_, ?_⟩
      · simp [this, eq_comm, oneDebugOption, -List.drop_one]
      · simp [-List.drop_one]; omega
    | ub => exact absurd hm (debugMode_noub argv)
    | ok mode =>
      have hle : ((argv.drop 1).filter isDebugArg).length ≤ 1 := by
        rcases hmode with ⟨_, h⟩ | ⟨h, _⟩
        · rw [hm] at h; cases h
        · exact h
      have hc := C181_directory_partial reg hreg ltr w.disk d.text (hf d hd)
      dsimp only
      cases hx : loadDataFrom reg ltr w.disk d.text with
      | throw x =>
        refine ⟨fun m => ?_, ?_⟩
        · simp [-List.drop_one]; omega
        · have := hc.2.mp ⟨x, hx⟩
          simp only [Option.some.injEq, Res.ok.injEq, QuizEnd.load.injEq, exists_eq']
          exact ⟨fun _ => ⟨d, rfl, hle, this⟩, fun _ => trivial⟩
      | ub => exact absurd hx hc.1
      | ok v =>
        dsimp only
        refine ⟨fun m => ?_, ?_⟩
        · constructor
          · intro h; obtain ⟨a, b, h⟩ := nomain _ _ _ h; cases h
          · rintro (h | ⟨_, h, _⟩)
            · cases h
            · omega
        · constructor
          · rintro ⟨x, h⟩; obtain ⟨a, b, h⟩ := nomain _ _ _ h; cases h
          · rintro ⟨d', h, _, h'⟩
            cases h
            obtain ⟨x, h⟩ := hc.2.mpr h'
            rw [hx] at h; cases h

/-! ## Paths -/

/-- **C182** (files): what the program is told about a path, by the two ways it asks, is what the path names. -/
theorem C182_kinds (w : World) (p : Str) :
    (w.disk.fs p = .missing ↔ w.stat (pathOf p) = none) ∧
    (∀ t, w.disk.fs p = .regular ∧ w.disk.content p = t ↔ w.stat (pathOf p) = some (.file t)) ∧
    (w.disk.fs p = .directory ↔ ∃ es, w.stat (pathOf p) = some (.dir es) ∧ w.dirs (pathOf p) = some (es.map (·.1))) ∧
    (w.dirs (pathOf p) = none ↔ w.disk.fs p ≠ .directory) := by
  have e1 : w.disk.fs p = nodeKind (w.stat (pathOf p)) := rfl
  have e2 : w.disk.content p = nodeText (w.stat (pathOf p)) := rfl
  have e3 : w.dirs (pathOf p) = match w.stat (pathOf p) with | some (.dir es) => some (es.map (·.1)) | _ => none := rfl
  rw [e1, e2, e3]
  cases w.stat (pathOf p) with
  | none => simp [nodeKind]
  | some x => cases x <;> simp [nodeKind, nodeText]

theorem walk_up (x : FsNode) (up : List FsNode) (n : Str) (hn : PlainName n) (es : List (Str × FsNode))
    (h : x.entry n = some (.dir es)) (ns : List Str) : walk (x :: up) (n :: u8!".." :: ns) = walk (x :: up) ns := by
  obtain ⟨h1, h2, h3, _⟩ := hn
  cases x with
  | file t => cases h
  | dir fs =>
    rw [FsNode.entry] at h
    simp only [walk, h1, h2, h3, h, or_self, if_false]
    rw [if_neg (by decide), if_pos trivial]
    rfl

theorem stat_congr (w : World) (a : Bool) (ns ms ms' : List Str) (hne : a = true ∨ ns ++ ms ≠ [])
    (hne' : a = true ∨ ns ++ ms' ≠ [])
    (h : ∀ st, (w.start a).bind (walk · ns) = some st → walk st ms = walk st ms') :
    w.stat ⟨a, ns ++ ms⟩ = w.stat ⟨a, ns ++ ms'⟩ := by
  rw [stat_eq w a _ hne, stat_eq w a _ hne']
  cases hs : w.start a with
  | none => rfl
  | some s0 =>
    rw [hs] at h
    simp only [Option.bind_some, walk_append]
    simp only [Option.bind_some] at h
    cases hw : walk s0 ns with
    | none => rfl
    | some st => simp only [Option.bind_some, h st hw]

/-- **C182** (dots): in a path `.` below a directory and a name of a directory followed by `..` can be left out; `..` at the
root too. -/
theorem C182_dots (w : World) (a : Bool) (ns ms : List Str) (es : List (Str × FsNode)) (h : a = true ∨ ns ≠ [])
    (hd : w.stat ⟨a, ns⟩ = some (.dir es)) :
    w.stat ⟨a, ns ++ u8!"." :: ms⟩ = w.stat ⟨a, ns ++ ms⟩ ∧
    (∀ n fs, PlainName n → es.lookup n = some (.dir fs) → w.stat ⟨a, ns ++ n :: u8!".." :: ms⟩ = w.stat ⟨a, ns ++ ms⟩) ∧
    (a = true → ns = [] → w.stat ⟨a, u8!".." :: ms⟩ = w.stat ⟨a, ms⟩) := by
  have top : ∀ st, (w.start a).bind (walk · ns) = some st → ∃ up, st = .dir es :: up := by
    intro st hs
    rw [stat_eq w a ns h, hs] at hd
    cases st with
    | nil => cases hd
    | cons x up => simp only [Option.bind_some, List.head?_cons, Option.some.injEq] at hd; exact ⟨up, by rw [hd]⟩
  have ne : ∀ l : List Str, a = true ∨ ns ++ l ≠ [] := fun l => h.imp id fun h => by simp [h]
  refine ⟨stat_congr w a ns _ _ (ne _) (ne _) fun st hs => ?_, fun n fs hn hl => stat_congr w a ns _ _ (ne _) (ne _) fun st hs => ?_,
    fun ha hn => ?_⟩
  · obtain ⟨up, rfl⟩ := top st hs
    rw [walk, if_pos (.inr rfl)]
  · obtain ⟨up, rfl⟩ := top st hs
    exact walk_up (.dir es) up n hn fs hl ms
  · subst ha hn
    refine stat_congr w true [] _ _ (.inl rfl) (.inl rfl) fun st hs => ?_
    obtain ⟨up, rfl⟩ := top st hs
    have : up = [] := by simp [World.start, walk] at hs; exact hs.2
    subst this
    rw [walk, if_neg (by decide), if_pos rfl]
    rfl

end KT
