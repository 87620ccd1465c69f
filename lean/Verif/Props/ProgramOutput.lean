import Verif.Props.ProgramOutputLoad
import Verif.Props.QuizPrintFill
import Verif.Props.QuizFiles
import Verif.Props.StatsFiles
/-!
# All output of the programs (C188, C189)

What `kanjiQuiz` and `kanjiStats` write to `std::cout` and `std::cerr`, from their command line and files: first what is printed
while loading, then what is written afterwards.
-/
namespace KT
open Spec

/-! ## The fill character -/

theorem jukugoRowsIn_blank (ws : List Nat) (i : Nat) (l : List Str) : jukugoRowsIn 0x20 ws i l = jukugoRows ws i l := by
  induction l generalizing i with
  | nil => rfl
  | cons s r ih =>
    simp only [jukugoRowsIn, jukugoRows, ih]
    rfl

theorem printJukugoListIn_blank (name : Str) (l : List Jukugo) : printJukugoListIn 0x20 name l = printJukugoList name l := by
  simp only [printJukugoListIn, printJukugoList, jukugoRowsIn_blank]

theorem printJukugoIn_blank (g : Option KanjiGrade) (l : List Jukugo) : printJukugoIn 0x20 g l = printJukugo g l := by
  unfold printJukugoIn printJukugo
  simp only [printJukugoListIn_blank]
  cases g <;> rfl

theorem detailTextIn_blank (sort : List KanjiRec → List KanjiRec) (d : DetailStore) :
    detailTextIn 0x20 sort d = detailText sort d := by
  have h1 : ∀ k, loadedTextIn 0x20 sort d k = loadedText sort d k := fun k => by
    unfold loadedTextIn loadedText printReviewDetailsIn printReviewDetails
    simp only [printJukugoIn_blank]
  funext arg
  unfold detailTextIn detailText
  simp only [h1]
  rfl

theorem showKanjiIn_blank (sort : List KanjiRec → List KanjiRec) (d : DetailStore) (arg : Str) :
    showKanjiIn 0x20 sort d arg = showKanji sort d arg := by
  unfold showKanjiIn showKanji
  rw [detailTextIn_blank]
  rfl

theorem runProgramIn_blank (sort : List KanjiRec → List KanjiRec) (d : DetailStore) (e : StoulTexts) (debug : Bool)
    (args : List Str) (n : Nat) (r : Drawn) (s : InStream) :
    runProgramIn 0x20 sort d e debug args n r s = runProgram sort d e debug args n r s := by
  unfold runProgramIn runProgram
  simp only [showKanjiIn_blank]
  cases launchWhy e false {} args with
  | error m => rfl
  | ok a =>
    cases a with
    | help => rfl
    | start a => rfl
    | kanji arg => dsimp only; cases showKanji sort d arg <;> rfl

/-- When the stream is as it was at the beginning. -/
theorem fillAfter_blank {ltr : Bool} {f : DataFiles} {v : DetailStore} {mode : DebugMode} {rad : RadicalData}
    (h : loadData ltr f = .ok v)
    (hf : mode ≠ .full ∨ f.meanings ≠ [] ∨ (∃ k ∈ v.store.all, k.kanji.variant = true) ∨
      ∀ r ∈ rad.radicals, ∃ k ∈ v.store.all, k.common = true ∧ k.kanji.radicalNumber = r.number) :
    fillAfter mode rad v = 0x20 := by
  rw [loadData_eq] at h
  obtain ⟨⟨d, u, l⟩, hl, h⟩ := Res.bind_eq_ok h
  unfold dataAfterKanji at h
  obtain ⟨m, h1, h⟩ := Res.bind_eq_ok h
  obtain ⟨p, h2, h⟩ := Res.bind_eq_ok h
  obtain ⟨st, h4, h⟩ := Res.bind_eq_ok h
  cases h
  obtain ⟨g1, g2, g3⟩ := C186_format ltr f d u l rad hl
  unfold fillAfter printGroupData
  cases mode with
  | none => rfl
  | info =>
    rw [if_neg (by decide), printAllGroups_fill]
    simp [g1]
  | full =>
    rw [if_neg (by decide), printAllGroups_fill]
    simp only [decide_true, true_and]
    split
    · rfl
    · rename_i hg
      rcases hf with hf | hf | hf | hf
      · exact absurd rfl hf
      · exfalso
        have hg : m.groups = [] := Classical.not_not.mp hg
        have := (((C89_load d.findByName f.meanings).1 m.groups).1 ⟨m, h1, rfl⟩).1
        rw [hg] at this
        exact hf (List.length_eq_zero_iff.mp this.symm)
      · rw [g2 hf]
      · by_cases hv : ∃ k ∈ d.all, k.kanji.variant = true
        · rw [g2 hv]
        · rw [(g3 fun k hk => by
            cases hx : k.kanji.variant with
            | false => rfl
            | true => exact absurd ⟨k, hk, hx⟩ hv).1 hf]

/-! ## kanjiQuiz -/

/-- What is written when `p` has been printed while loading and the program then ends this way. -/
def afterLoading (p : Prints) : QuizEnd → ProgramOutput
  | .usage m => usageOutput m
  | .load x => ⟨p.out, printErrors 0 p.errors, .load x⟩
  | .ran out none => ⟨p.out ++ out, printErrors 0 p.errors, .waiting⟩
  | .ran out (some (err, code)) => ⟨p.out ++ out, printErrors 0 p.errors ++ err, .exit code⟩

/-- The program without what is printed while loading, with `p` printed before. -/
def quizAfter (p : Prints) (q : Option (Res QuizEnd)) : Option (Res ProgramOutput) :=
  q.map fun q => q.bind fun q => .ok (afterLoading p q)

/-- Printing throws an exception: full debug with a kanji with variation selector that isn't in the Unicode data (UcdData.cpp). -/
def PrintingThrows (mode : DebugMode) (ltr : Bool) (f : DataFiles) : Prop :=
  mode = .full ∧ ∃ d u l, loadTextData ltr f = .ok (d, u, l) ∧ NoVariantEntry u d

/-- **C188** as it should be: unless printing throws an exception, the program writes what is printed for the files and then
what it writes without printing while loading. -/
def C188_statement : Prop :=
  ∀ (w : World) (reg : List Str) (ltr : Bool) (sort : List KanjiRec → List KanjiRec) (e : StoulTexts)
    (argv : List Str) (n : Nat) (r : Drawn) (s : InStream) (d : FsPath) (mode : DebugMode) (v : DetailStore),
    reg.Nodup → getDataDir w.dirs w.cwd argv = .ok d → getDebugMode argv = .ok mode →
    loadDataFrom reg ltr w.disk d.text = .ok v → ¬ PrintingThrows mode ltr (dirData w.disk d.text) →
    kanjiQuizOutput w reg ltr sort e argv n r s =
      quizAfter (loadDataPrinting mode sort ltr (dirData w.disk d.text)).prints (kanjiQuiz w reg ltr sort e argv n r s)

theorem notThrows {mode : DebugMode} {ltr : Bool} {f : DataFiles} (h : ¬ PrintingThrows mode ltr f) :
    mode = .full → ∀ d u l, loadTextData ltr f = .ok (d, u, l) → ¬ NoVariantEntry u d :=
  fun hm d u l hl hn => h ⟨hm, d, u, l, hl, hn⟩

theorem quizOutput_ok (w : World) (reg : List Str) (hreg : reg.Nodup) (ltr : Bool) (sort : List KanjiRec → List KanjiRec)
    (e : StoulTexts) (argv : List Str) (n : Nat) (r : Drawn) (s : InStream) (d : FsPath) (mode : DebugMode) (v : DetailStore)
    (hd : getDataDir w.dirs w.cwd argv = .ok d) (hm : getDebugMode argv = .ok mode)
    (hl : loadDataFrom reg ltr w.disk d.text = .ok v) (hv : ¬ PrintingThrows mode ltr (dirData w.disk d.text)) :
    ∃ rad, RadicalData.load (dirData w.disk d.text).radicalCols (dirData w.disk d.text).radicals = .ok rad ∧
      kanjiQuizOutput w reg ltr sort e argv n r s =
        (visitArgs argv (argv.length + 1) 0).map fun a => a.bind fun args =>
          (runProgramIn (fillAfter mode rad v) sort v e (mode ≠ .none) args n r s).bind fun o =>
            .ok (afterLoading (loadDataPrinting mode sort ltr (dirData w.disk d.text)).prints
              (.ran o.1 (o.2.map fun x => match x with | .ok _ => ([], 0) | .error m => (m ++ u8!"\n", 1)))) := by
  obtain ⟨rad, h1, h2⟩ := dataFrom_printed mode sort reg hreg ltr w.disk d.text v hl
  refine ⟨rad, h1, ?_⟩
  have hr : (loadDataPrinting mode sort ltr (dirData w.disk d.text)).result = .ok v := by
    rw [(C186_result mode sort ltr (dirData w.disk d.text)).1 (notThrows hv)]
    exact ((C180_load reg hreg ltr w.disk d.text v).mp hl).2.2
  have h3 : loadDataPrintingFrom mode sort reg ltr w.disk d.text =
      ⟨(loadDataPrinting mode sort ltr (dirData w.disk d.text)).prints, .ok (v, fillAfter mode rad v)⟩ := by
    rw [h2]
    unfold Printing.bind
    rw [hr]
    simp [quietly, Prints.add_nil]
  unfold kanjiQuizOutput
  rw [hd]
  dsimp only
  rw [hm]
  dsimp only
  rw [h3]
  dsimp only
  congr 1
  funext a
  congr 1
  funext args
  congr 1
  funext o
  rcases o with ⟨t, _ | (m | x)⟩
  · rfl
  · simp only [Option.map, afterLoading, List.append_assoc]
  · simp only [Option.map, afterLoading, List.append_nil]

/-- **C188** (partial): so it is without debug option and with info, if there is a meaning group, if there is a kanji with
variation selector, and if every radical has a common kanji. -/
theorem C188_partial (w : World) (reg : List Str) (hreg : reg.Nodup) (ltr : Bool) (sort : List KanjiRec → List KanjiRec)
    (e : StoulTexts) (argv : List Str) (n : Nat) (r : Drawn) (s : InStream) (d : FsPath) (mode : DebugMode) (v : DetailStore)
    (hd : getDataDir w.dirs w.cwd argv = .ok d) (hm : getDebugMode argv = .ok mode)
    (hl : loadDataFrom reg ltr w.disk d.text = .ok v) (hv : ¬ PrintingThrows mode ltr (dirData w.disk d.text))
    (hf : mode ≠ .full ∨ (dirData w.disk d.text).meanings ≠ [] ∨ (∃ k ∈ v.store.all, k.kanji.variant = true) ∨
      ∀ rad, RadicalData.load (dirData w.disk d.text).radicalCols (dirData w.disk d.text).radicals = .ok rad →
        ∀ r ∈ rad.radicals, ∃ k ∈ v.store.all, k.common = true ∧ k.kanji.radicalNumber = r.number) :
    kanjiQuizOutput w reg ltr sort e argv n r s =
      quizAfter (loadDataPrinting mode sort ltr (dirData w.disk d.text)).prints (kanjiQuiz w reg ltr sort e argv n r s) := by
  obtain ⟨rad, h1, h2⟩ := quizOutput_ok w reg hreg ltr sort e argv n r s d mode v hd hm hl hv
  have hfill : fillAfter mode rad v = 0x20 :=
    fillAfter_blank ((C180_load reg hreg ltr w.disk d.text v).mp hl).2.2
      (hf.imp id (Or.imp id (Or.imp id fun h => h rad h1)))
  rw [h2, hfill]
  unfold kanjiQuiz mainQuiz
  rw [hd]
  dsimp only
  rw [hm]
  dsimp only
  rw [hl]
  dsimp only
  unfold quizAfter
  cases visitArgs argv (argv.length + 1) 0 with
  | none => rfl
  | some a =>
    cases a with
    | throw e => rfl
    | ub => rfl
    | ok args =>
      simp only [Option.map, Res.bind, runProgramIn_blank]
      cases runProgram sort v e (mode ≠ .none) args n r s with
      | throw e => rfl
      | ub => rfl
      | ok o =>
        rcases o with ⟨t, _ | (m | x)⟩ <;> rfl

/-- **C188** (arguments): a message about the arguments is all that is written. -/
theorem C188_usage (w : World) (reg : List Str) (ltr : Bool) (sort : List KanjiRec → List KanjiRec)
    (e : StoulTexts) (argv : List Str) (n : Nat) (r : Drawn) (s : InStream) :
    (∀ m, getDataDir w.dirs w.cwd argv = .error m → kanjiQuizOutput w reg ltr sort e argv n r s = some (.ok ⟨[], m ++ u8!"\n", .exit 1⟩)) ∧
    (∀ d, getDataDir w.dirs w.cwd argv = .ok d → 2 ≤ ((argv.drop 1).filter isDebugArg).length →
      kanjiQuizOutput w reg ltr sort e argv n r s =
        some (.ok ⟨[], u8!"can only specify one '-debug' or '-info' option\n", .exit 1⟩)) := by
  refine ⟨fun m h => by unfold kanjiQuizOutput; rw [h]; rfl, fun d h h2 => ?_⟩
  rcases debugMode_cases argv with ⟨_, h3⟩ | ⟨h3, _⟩
  · unfold kanjiQuizOutput; rw [h]; dsimp only; rw [h3]; rfl
  · omega

/-- **C188** (exceptions): if loading fails, what was printed until then is all that is written before the message; the same
with full debug if printing throws an exception, after what is printed for the kanji. -/
theorem C188_fails (w : World) (reg : List Str) (hreg : reg.Nodup) (ltr : Bool) (sort : List KanjiRec → List KanjiRec)
    (e : StoulTexts) (argv : List Str) (n : Nat) (r : Drawn) (s : InStream) (d : FsPath) (mode : DebugMode)
    (hd : getDataDir w.dirs w.cwd argv = .ok d) (hm : getDebugMode argv = .ok mode) :
    (¬ PrintingThrows mode ltr (dirData w.disk d.text) → ∀ x, loadDataFrom reg ltr w.disk d.text = .throw x →
      ∃ p : Prints, kanjiQuizOutput w reg ltr sort e argv n r s = some (.ok ⟨p.out, printErrors 0 p.errors, .load x⟩) ∧
        (mode = .none → p.out = [])) ∧
    (PrintingThrows mode ltr (dirData w.disk d.text) → TextFiles w.disk d.text →
      kanjiQuizOutput w reg ltr sort e argv n r s =
        some (.ok ⟨(loadTextDataPrinting mode sort ltr (dirData w.disk d.text)).prints.out,
          printErrors 0 (loadTextDataPrinting mode sort ltr (dirData w.disk d.text)).prints.errors, .load .domain⟩)) := by
  have start : ∀ p x, loadDataPrintingFrom mode sort reg ltr w.disk d.text = ⟨p, .throw x⟩ →
      kanjiQuizOutput w reg ltr sort e argv n r s = some (.ok ⟨p.out, printErrors 0 p.errors, .load x⟩) := by
    intro p x h
    unfold kanjiQuizOutput
    rw [hd]
    dsimp only
    rw [hm]
    dsimp only
    rw [h]
  refine ⟨fun hv x hx => ?_, fun hv hf => ?_⟩
  · have := (dataFrom_fails mode sort reg hreg ltr w.disk d.text (notThrows hv)).1 x hx
    refine ⟨(loadDataPrintingFrom mode sort reg ltr w.disk d.text).prints, start _ _ ?_, ?_⟩
    · rw [← this]
    · rintro rfl
      exact dataFrom_silent sort reg ltr w.disk d.text
  · obtain ⟨hmf, dd, u, l, ht, hn⟩ := hv
    have hx := (C180_text_data reg hreg ltr w.disk d.text _).mpr ⟨hf, ht⟩
    obtain ⟨rad, h1, h2⟩ := textFrom_printed mode sort reg hreg ltr w.disk d.text _ hx
    have hr := ((C184_result mode sort ltr (dirData w.disk d.text)).2.2 dd u l ht).2 hmf hn
    refine start _ _ ?_
    unfold loadDataPrintingFrom
    rw [h2]
    unfold Printing.bind
    rw [hr]

/-- **C188** (no debug): without debug option nothing is written to `std::cout` while loading; whatever the files are, the
program writes what it writes without printing while loading, after the messages of `printError`. -/
theorem C188_quiet (w : World) (reg : List Str) (hreg : reg.Nodup) (ltr : Bool) (sort : List KanjiRec → List KanjiRec)
    (e : StoulTexts) (argv : List Str) (n : Nat) (r : Drawn) (s : InStream) (hm : getDebugMode argv = .ok .none) :
    ∃ errors, kanjiQuizOutput w reg ltr sort e argv n r s =
      quizAfter ⟨[], errors⟩ (kanjiQuiz w reg ltr sort e argv n r s) := by
  cases hd : getDataDir w.dirs w.cwd argv with
  | error m =>
    refine ⟨[], ?_⟩
    unfold kanjiQuizOutput kanjiQuiz
    rw [hd]
    rfl
  | ok d =>
    have hv : ¬ PrintingThrows .none ltr (dirData w.disk d.text) := fun h => by cases h.1
    cases hl : loadDataFrom reg ltr w.disk d.text with
    | ok v =>
      refine ⟨(loadDataPrinting .none sort ltr (dirData w.disk d.text)).prints.errors, ?_⟩
      rw [C188_partial w reg hreg ltr sort e argv n r s d .none v hd hm hl hv (.inl (by decide)),
        show (loadDataPrinting .none sort ltr (dirData w.disk d.text)).prints =
          ⟨[], (loadDataPrinting .none sort ltr (dirData w.disk d.text)).prints.errors⟩ by
            rw [← C186_quiet sort ltr (dirData w.disk d.text)]]
    | throw x =>
      obtain ⟨p, h1, h2⟩ := (C188_fails w reg hreg ltr sort e argv n r s d .none hd hm).1 hv x hl
      refine ⟨p.errors, ?_⟩
      rw [h1, h2 rfl]
      unfold kanjiQuiz
      rw [hd]
      dsimp only
      rw [hm]
      dsimp only
      rw [hl]
      rfl
    | ub =>
      refine ⟨[], ?_⟩
      have := (dataFrom_fails .none sort reg hreg ltr w.disk d.text (notThrows hv)).2 hl
      unfold kanjiQuizOutput kanjiQuiz
      rw [hd]
      dsimp only
      rw [hm]
      dsimp only
      rw [hl, this]
      rfl

/-- The arguments start a quiz. -/
def StartsQuiz (e : StoulTexts) (argv : List Str) : Prop :=
  ∃ a, launchWhy e false {} (programArgs false (argv.drop 1)) = .ok (.start a)

/-- **C188** (debug): with the same arguments otherwise, a debug option writes a report before what is written without the
option, and starts no quiz. -/
theorem C188_debug_partial (w : World) (reg : List Str) (hreg : reg.Nodup) (ltr : Bool) (sort : List KanjiRec → List KanjiRec)
    (e : StoulTexts) (argv argv' : List Str) (n : Nat) (r : Drawn) (s : InStream) (d : FsPath) (mode : DebugMode) (v : DetailStore)
    (hd : getDataDir w.dirs w.cwd argv = .ok d) (hd' : getDataDir w.dirs w.cwd argv' = .ok d)
    (hm : getDebugMode argv = .ok mode) (hmn : mode ≠ .none) (hm' : getDebugMode argv' = .ok .none)
    (hn : argv.length < 65535) (hn' : argv'.length < 65535)
    (hp : programArgs false (argv.drop 1) = programArgs false (argv'.drop 1))
    (hl : loadDataFrom reg ltr w.disk d.text = .ok v) (hv : ¬ PrintingThrows mode ltr (dirData w.disk d.text))
    (hf : mode ≠ .full ∨ (dirData w.disk d.text).meanings ≠ [] ∨ (∃ k ∈ v.store.all, k.kanji.variant = true) ∨
      ∀ rad, RadicalData.load (dirData w.disk d.text).radicalCols (dirData w.disk d.text).radicals = .ok rad →
        ∀ r ∈ rad.radicals, ∃ k ∈ v.store.all, k.common = true ∧ k.kanji.radicalNumber = r.number) :
    (StartsQuiz e argv → kanjiQuizOutput w reg ltr sort e argv n r s =
      some (.ok ⟨(loadDataPrinting mode sort ltr (dirData w.disk d.text)).prints.out,
        printErrors 0 (loadDataPrinting mode sort ltr (dirData w.disk d.text)).prints.errors, .exit 0⟩)) ∧
    (¬ StartsQuiz e argv → kanjiQuizOutput w reg ltr sort e argv n r s =
      (kanjiQuizOutput w reg ltr sort e argv' n r s).map fun o => o.bind fun o =>
        .ok { o with out := (loadDataPrinting mode sort ltr (dirData w.disk d.text)).prints.out ++ o.out }) := by
  have hc := ((C180_load reg hreg ltr w.disk d.text v).mp hl).2.2
  have herr : (loadDataPrinting mode sort ltr (dirData w.disk d.text)).prints.errors =
      (loadDataPrinting .none sort ltr (dirData w.disk d.text)).prints.errors := by
    rw [(C186_errors mode sort ltr (dirData w.disk d.text) v (by
        rw [(C186_result mode sort ltr (dirData w.disk d.text)).1 (notThrows hv)]; exact hc)).1,
      (C186_errors .none sort ltr (dirData w.disk d.text) v (by
        rw [(C186_result .none sort ltr (dirData w.disk d.text)).1 (fun h => by cases h)]; exact hc)).1]
  have hquiet := C186_quiet sort ltr (dirData w.disk d.text)
  obtain ⟨rad, h1, h2⟩ := quizOutput_ok w reg hreg ltr sort e argv n r s d mode v hd hm hl hv
  have hfill : fillAfter mode rad v = 0x20 := fillAfter_blank hc (hf.imp id (Or.imp id (Or.imp id fun h => h rad h1)))
  obtain ⟨rad', h1', h2'⟩ := quizOutput_ok w reg hreg ltr sort e argv' n r s d .none v hd' hm' hl (fun h => by cases h.1)
  have hfill' : fillAfter .none rad' v = 0x20 := fillAfter_blank hc (.inl (by decide))
  rw [h2, h2', hfill, hfill', C45_args_partial argv (by omega) (by omega) _ (by omega),
    C45_args_partial argv' (by omega) (by omega) _ (by omega), ← hp]
  simp only [Option.map, Res.bind, runProgramIn_blank]
  unfold StartsQuiz runProgram
  rw [show decide (mode ≠ .none) = true by simpa using hmn]
  cases hw : launchWhy e false {} (programArgs false (argv.drop 1)) with
  | error m =>
    refine ⟨by simp, fun _ => ?_⟩
    simp [afterLoading, herr, hquiet]
  | ok a =>
    cases a with
    | help =>
      refine ⟨by simp, fun _ => ?_⟩
      simp [afterLoading, herr, hquiet]
    | start a =>
      refine ⟨fun _ => ?_, fun h => absurd ⟨a, rfl⟩ h⟩
      simp [afterLoading]
    | kanji arg =>
      refine ⟨by simp, fun _ => ?_⟩
      dsimp only
      cases hk : showKanji sort v arg <;> simp [afterLoading, herr, hquiet]

end KT
