import Verif.Props.ProgramOutput
/-!
# All output of kanjiStats (C189)
-/
namespace KT
open Spec

/-- What is written when `p` has been printed while loading and the program then ends this way. -/
def statsAfterLoading (p : Prints) : StatsEnd → ProgramOutput
  | .usage m => usageOutput m
  | .load x => ⟨p.out, printErrors 0 p.errors, .load x⟩
  | .ran out err code => ⟨p.out ++ out, printErrors 0 p.errors ++ err, .exit code⟩

/-- The program without what is printed while loading, with `p` printed before. -/
def statsAfter (p : Prints) (q : Option (Res StatsEnd)) : Option (Res ProgramOutput) :=
  q.map fun q => q.bind fun q => .ok (statsAfterLoading p q)

/-- **C189**: unless printing throws an exception, the program writes what is printed for the files and then what it writes
without printing while loading. -/
theorem C189_output (w : World) (reg : List Str) (hreg : reg.Nodup) (ltr : Bool) (sort : List KanjiRec → List KanjiRec)
    (set : UInt16 → List StatCount → List StatCount) (argv : List Str) (d : FsPath) (mode : DebugMode)
    (t : KanjiStore × UcdData × Loaded) (hd : getDataDir w.dirs w.cwd argv = .ok d) (hm : getDebugMode argv = .ok mode)
    (hl : loadTextDataFrom reg ltr w.disk d.text = .ok t) (hv : ¬ PrintingThrows mode ltr (dirData w.disk d.text)) :
    kanjiStatsOutput w reg ltr sort set argv =
      statsAfter (loadTextDataPrinting mode sort ltr (dirData w.disk d.text)).prints (kanjiStats w reg ltr set argv) := by
  obtain ⟨rad, h1, h2⟩ := textFrom_printed mode sort reg hreg ltr w.disk d.text t hl
  have ht := ((C180_text_data reg hreg ltr w.disk d.text t).mp hl).2
  have hr : (loadTextDataPrinting mode sort ltr (dirData w.disk d.text)).result = .ok t := by
    by_cases hf : mode = .full
    · exact ((C184_result mode sort ltr (dirData w.disk d.text)).2.2 t.1 t.2.1 t.2.2 ht).1 (notThrows hv hf _ _ _ ht)
    · rw [(C184_result mode sort ltr (dirData w.disk d.text)).1 hf, ht]
  have h3 : loadTextDataPrintingFrom mode sort reg ltr w.disk d.text =
      ⟨(loadTextDataPrinting mode sort ltr (dirData w.disk d.text)).prints, .ok (t, formatAfterKanji mode rad t.1)⟩ := by
    rw [h2]
    unfold Printing.bind
    rw [hr]
    simp [quietly, Prints.add_nil]
  unfold kanjiStatsOutput kanjiStats statsAfter
  rw [hd]
  dsimp only
  rw [hm]
  dsimp only
  rw [h3, hl]
  dsimp only
  cases mainStats (loadedStats set t) (mode ≠ .none) w.node argv with
  | none => rfl
  | some o => cases o <;> rfl

/-- **C189** (arguments): a message about the arguments is all that is written. -/
theorem C189_usage (w : World) (reg : List Str) (ltr : Bool) (sort : List KanjiRec → List KanjiRec)
    (set : UInt16 → List StatCount → List StatCount) (argv : List Str) :
    (∀ m, getDataDir w.dirs w.cwd argv = .error m →
      kanjiStatsOutput w reg ltr sort set argv = some (.ok ⟨[], m ++ u8!"\n", .exit 1⟩)) ∧
    (∀ d, getDataDir w.dirs w.cwd argv = .ok d → 2 ≤ ((argv.drop 1).filter isDebugArg).length →
      kanjiStatsOutput w reg ltr sort set argv =
        some (.ok ⟨[], u8!"can only specify one '-debug' or '-info' option\n", .exit 1⟩)) := by
  refine ⟨fun m h => by unfold kanjiStatsOutput; rw [h]; rfl, fun d h h2 => ?_⟩
  rcases debugMode_cases argv with ⟨_, h3⟩ | ⟨h3, _⟩
  · unfold kanjiStatsOutput; rw [h]; dsimp only; rw [h3]; rfl
  · omega

/-- **C189** (exceptions): if loading fails, what was printed until then is all that is written before the message; the same
with full debug if printing throws an exception, after what is printed for the kanji. -/
theorem C189_fails (w : World) (reg : List Str) (hreg : reg.Nodup) (ltr : Bool) (sort : List KanjiRec → List KanjiRec)
    (set : UInt16 → List StatCount → List StatCount) (argv : List Str) (d : FsPath) (mode : DebugMode)
    (hd : getDataDir w.dirs w.cwd argv = .ok d) (hm : getDebugMode argv = .ok mode) :
    (∀ x, loadTextDataFrom reg ltr w.disk d.text = .throw x →
      ∃ p : Prints, kanjiStatsOutput w reg ltr sort set argv = some (.ok ⟨p.out, printErrors 0 p.errors, .load x⟩) ∧
        (mode = .none → p.out = [])) ∧
    (PrintingThrows mode ltr (dirData w.disk d.text) → TextFiles w.disk d.text →
      kanjiStatsOutput w reg ltr sort set argv =
        some (.ok ⟨(loadTextDataPrinting mode sort ltr (dirData w.disk d.text)).prints.out,
          printErrors 0 (loadTextDataPrinting mode sort ltr (dirData w.disk d.text)).prints.errors, .load .domain⟩)) := by
  have start : ∀ p x, loadTextDataPrintingFrom mode sort reg ltr w.disk d.text = ⟨p, .throw x⟩ →
      kanjiStatsOutput w reg ltr sort set argv = some (.ok ⟨p.out, printErrors 0 p.errors, .load x⟩) := by
    intro p x h
    unfold kanjiStatsOutput
    rw [hd]
    dsimp only
    rw [hm]
    dsimp only
    rw [h]
  refine ⟨fun x hx => ?_, fun hv hf => ?_⟩
  · have := (textFrom_fails mode sort reg ltr w.disk d.text).1 x hx
    refine ⟨(loadTextDataPrintingFrom mode sort reg ltr w.disk d.text).prints, start _ _ ?_, ?_⟩
    · rw [← this]
    · rintro rfl
      exact textFrom_silent sort reg ltr w.disk d.text
  · obtain ⟨hmf, dd, u, l, ht, hn⟩ := hv
    have hx := (C180_text_data reg hreg ltr w.disk d.text _).mpr ⟨hf, ht⟩
    obtain ⟨rad, h1, h2⟩ := textFrom_printed mode sort reg hreg ltr w.disk d.text _ hx
    have hr := ((C184_result mode sort ltr (dirData w.disk d.text)).2.2 dd u l ht).2 hmf hn
    refine start _ _ ?_
    rw [h2]
    unfold Printing.bind
    rw [hr]

/-- **C189** (no debug): without debug option nothing is written to `std::cout` while loading; whatever the files are, the
program writes what it writes without printing while loading, after the messages of `printError`. -/
theorem C189_quiet (w : World) (reg : List Str) (hreg : reg.Nodup) (ltr : Bool) (sort : List KanjiRec → List KanjiRec)
    (set : UInt16 → List StatCount → List StatCount) (argv : List Str) (hm : getDebugMode argv = .ok .none) :
    ∃ errors, kanjiStatsOutput w reg ltr sort set argv = statsAfter ⟨[], errors⟩ (kanjiStats w reg ltr set argv) := by
  cases hd : getDataDir w.dirs w.cwd argv with
  | error m =>
    refine ⟨[], ?_⟩
    unfold kanjiStatsOutput kanjiStats
    rw [hd]
    rfl
  | ok d =>
    have hv : ¬ PrintingThrows .none ltr (dirData w.disk d.text) := fun h => by cases h.1
    cases hl : loadTextDataFrom reg ltr w.disk d.text with
    | ok t =>
      refine ⟨(loadTextDataPrinting .none sort ltr (dirData w.disk d.text)).prints.errors, ?_⟩
      rw [C189_output w reg hreg ltr sort set argv d .none t hd hm hl hv,
        show (loadTextDataPrinting .none sort ltr (dirData w.disk d.text)).prints =
          ⟨[], (loadTextDataPrinting .none sort ltr (dirData w.disk d.text)).prints.errors⟩ by
            rw [← C184_quiet .none sort ltr (dirData w.disk d.text) (.inl rfl)]]
    | throw x =>
      obtain ⟨p, h1, h2⟩ := (C189_fails w reg hreg ltr sort set argv d .none hd hm).1 x hl
      refine ⟨p.errors, ?_⟩
      rw [h1, h2 rfl]
      unfold kanjiStats
      rw [hd]
      dsimp only
      rw [hm]
      dsimp only
      rw [hl]
      rfl
    | ub =>
      refine ⟨[], ?_⟩
      have := (textFrom_fails .none sort reg ltr w.disk d.text).2 hl
      unfold kanjiStatsOutput kanjiStats
      rw [hd]
      dsimp only
      rw [hm]
      dsimp only
      rw [hl, this]
      rfl

/-- **C189** (no crash): if the names in the files of the directory fit together (C181) the program ends with an exit code, with
any debug option. -/
theorem C189_ends (w : World) (reg : List Str) (hreg : reg.Nodup) (ltr : Bool) (sort : List KanjiRec → List KanjiRec)
    (set : UInt16 → List StatCount → List StatCount) (hset : SetsBuilt set) (argv : List Str) (hn : argv.length < 65535)
    (hf : ∀ d, getDataDir w.dirs w.cwd argv = .ok d → NamesFit (dirData w.disk d.text)) :
    ∃ o, kanjiStatsOutput w reg ltr sort set argv = some (.ok o) := by
  cases hd : getDataDir w.dirs w.cwd argv with
  | error m => exact ⟨_, (C189_usage w reg ltr sort set argv).1 m hd⟩
  | ok d =>
    rcases debugMode_cases argv with ⟨h2, _⟩ | ⟨_, mode, hm⟩
    · exact ⟨_, (C189_usage w reg ltr sort set argv).2 d hd h2⟩
    obtain ⟨g1, g2⟩ := C189_fails w reg hreg ltr sort set argv d mode hd hm
    cases hx : loadTextDataFrom reg ltr w.disk d.text with
    | ub => exact absurd hx (textDataFrom_safe reg hreg ltr w.disk d.text (hf d hd))
    | throw x =>
      obtain ⟨p, h, _⟩ := g1 x hx
      exact ⟨_, h⟩
    | ok t =>
      by_cases hv : PrintingThrows mode ltr (dirData w.disk d.text)
      · exact ⟨_, g2 hv ((C180_text_data reg hreg ltr w.disk d.text t).mp hx).1⟩
      · obtain ⟨o, ho⟩ := C183_ends w reg hreg ltr set hset argv hn hf
        rw [C189_output w reg hreg ltr sort set argv d mode t hd hm hx hv, ho]
        exact ⟨_, rfl⟩

/-- **C189** (all of it): the report of the files, then what is written for the arguments (C175) with the messages after those of
`printError`.  With a debug option and no other argument the report is everything. -/
theorem C189_debug (w : World) (reg : List Str) (hreg : reg.Nodup) (ltr : Bool) (sort : List KanjiRec → List KanjiRec)
    (set : UInt16 → List StatCount → List StatCount) (hset : SetsBuilt set) (argv : List Str) (hn : argv.length < 65535)
    (d : FsPath) (mode : DebugMode) (t : KanjiStore × UcdData × Loaded) (hd : getDataDir w.dirs w.cwd argv = .ok d)
    (hm : getDebugMode argv = .ok mode) (hl : loadTextDataFrom reg ltr w.disk d.text = .ok t)
    (hv : ¬ PrintingThrows mode ltr (dirData w.disk d.text)) :
    kanjiStatsOutput w reg ltr sort set argv =
      (let p := (loadTextDataPrinting mode sort ltr (dirData w.disk d.text)).prints
       let o := statsOutput (loadedStats set t) (mode ≠ .none) w.node (programArgs false (argv.drop 1))
       some (.ok (match o.2 with
        | none => ⟨p.out ++ o.1, printErrors 0 p.errors, .exit 0⟩
        | some m => ⟨p.out ++ o.1, printErrors 0 p.errors ++ m ++ u8!"\n", .exit 1⟩))) ∧
    (mode ≠ .none → programArgs false (argv.drop 1) = [] →
      kanjiStatsOutput w reg ltr sort set argv =
        (let p := (loadTextDataPrinting mode sort ltr (dirData w.disk d.text)).prints
         some (.ok ⟨p.out, printErrors 0 p.errors, .exit 0⟩))) := by
  have h := C189_output w reg hreg ltr sort set argv d mode t hd hm hl hv
  obtain ⟨hf, ht⟩ := (C180_text_data reg hreg ltr w.disk d.text t).mp hl
  rw [C183_output w reg hreg ltr set hset argv hn d hd mode hm hf t ht] at h
  rw [h]
  refine ⟨?_, fun hmn ha => ?_⟩
  · dsimp only
    cases (statsOutput (loadedStats set t) (decide (mode ≠ .none)) w.node (programArgs false (argv.drop 1))).2 with
    | none => simp [statsAfter, statsAfterLoading, Res.bind]
    | some m => simp [statsAfter, statsAfterLoading, Res.bind]
  · rw [ha]
    have h0 : statsOutput (loadedStats set t) (decide (mode ≠ .none)) w.node [] = ([], none) := by
      unfold statsOutput
      have : otherOption [] = none := by decide
      rw [this]
      simp [hmn, optionPart, filePart, statsReports]
    rw [h0]
    simp [statsAfter, statsAfterLoading, Res.bind]

end KT
