import Verif.Props.ProgramOutput
/-!
# No crash with any debug option (C188)
-/
namespace KT
open Spec

/-- Two results that both have a text or are the same. -/
def SameKind (a b : Res Str) : Prop := (∃ s t, a = .ok s ∧ b = .ok t) ∨ a = b

theorem SameKind.refl (a : Res Str) : SameKind a a := .inr rfl

theorem SameKind.oks (s t : Str) : SameKind (.ok s) (.ok t) := .inl ⟨s, t, rfl, rfl⟩

theorem SameKind.bind {a b : Res Str} (h : SameKind a b) {f g : Str → Res Str} (hf : ∀ s t, SameKind (f s) (g t)) :
    SameKind (a.bind f) (b.bind g) := by
  rcases h with ⟨s, t, rfl, rfl⟩ | rfl
  · exact hf s t
  · cases a with
    | ok s => exact hf s s
    | throw e => exact .inr rfl
    | ub => exact .inr rfl

theorem SameKind.after {α : Type} (a : Res α) {f g : α → Res Str} (hf : ∀ x, SameKind (f x) (g x)) :
    SameKind (a.bind f) (a.bind g) := by
  cases a with
  | ok s => exact hf s
  | throw e => exact .inr rfl
  | ub => exact .inr rfl

theorem detailTextIn_kind (fill : UInt8) (sort : List KanjiRec → List KanjiRec) (d : DetailStore) (arg : Str) :
    SameKind (detailTextIn fill sort d arg) (detailText sort d arg) := by
  have h1 : ∀ k, SameKind (loadedTextIn fill sort d k) (loadedText sort d k) := fun k =>
    .after _ fun info => SameKind.bind (.after _ fun _ => .oks _ _) fun _ _ => .oks _ _
  unfold detailTextIn detailText
  refine .after _ fun u => ?_
  cases u with
  | none => exact .oks _ _
  | some u =>
    refine SameKind.bind ?_ fun _ _ => .oks _ _
    cases d.store.findByName arg with
    | none => exact .oks _ _
    | some k => exact (h1 k).bind fun _ _ => .oks _ _

/-- The same with any function that gives the text about a kanji. -/
def showKanjiBy (found : Str → Res Str) (d : DetailStore) (arg : Str) : Shown :=
  let one (name : Str) : Shown := (printOneDetail found name true).shown
  let all (l : List KanjiRec) (name id : Str) : Shown := (printMatches found (l.map (·.kanji.name)) name id).shown
  if arg.all isDigitChar then
    match getIdWhy (u8!"frequency") arg with
    | .error e => .error e
    | .ok n =>
      match d.store.frequencies.find n with
      | .ok (some k) => one k.kanji.name
      | .ok none => .error (u8!"Kanji not found for frequency '" ++ arg ++ u8!"'")
      | _ => .ub
  else if arg.head? = some 0x6d then
    match morohashiWhy arg.tail with
    | .error e => .error e
    | .ok id => all (d.store.findByMorohashiId id) (u8!"Morohashi") id.toString
  else if arg.head? = some 0x6e then
    let id := arg.tail
    if id = [] ∨ id.all isDigitChar = false then .error (u8!"Nelson ID '" ++ id ++ u8!"' is non-numeric")
    else match getIdWhy (u8!"Nelson ID") id with
      | .error e => .error e
      | .ok n => all (d.store.findByNelsonId (UInt16.ofNat n)) (u8!"Nelson") id
  else if arg.head? = some 0x75 then
    let id := arg.tail
    if id.length < 4 ∨ id.length > 5 ∨ (id.length = 5 ∧ id.head? ≠ some 0x31 ∧ id.head? ≠ some 0x32) ∨
        id.all isHexChar = false then .error (u8!"Unicode value '" ++ id ++ u8!"' is invalid")
    else match toUtf8 [hexValue id] with
      | .ok name => one name
      | _ => .ub
  else if isKanji arg then one arg
  else .error (u8!"unrecognized 'kanji' value '" ++ arg ++ u8!"', use -h for help")

theorem showKanjiBy_ub {f g : Str → Res Str} (h : ∀ s, SameKind (f s) (g s)) (d : DetailStore) (arg : Str) :
    showKanjiBy f d arg = .ub ↔ showKanjiBy g d arg = .ub := by
  have kind : ∀ a b : Res Str, SameKind a b → (a.shown = .ub ↔ b.shown = .ub) := by
    rintro a b (⟨s, t, rfl, rfl⟩ | rfl)
    · simp [Res.shown]
    · exact Iff.rfl
  have one : ∀ name showLegend, SameKind (printOneDetail f name showLegend) (printOneDetail g name showLegend) :=
    fun name _ => (h name).bind fun _ _ => .oks _ _
  have each : ∀ b ks, SameKind (printEach f b ks) (printEach g b ks) := by
    intro b ks
    induction ks with
    | nil => exact .refl _
    | cons k ks ih => exact (one k b).bind fun _ _ => ih.bind fun _ _ => .oks _ _
  have all : ∀ l name id, SameKind (printMatches f l name id) (printMatches g l name id) :=
    fun l name id => (each _ l).bind fun _ _ => .oks _ _
  unfold showKanjiBy
  dsimp only
  by_cases h1 : arg.all isDigitChar = true
  · rw [if_pos h1, if_pos h1]
    cases getIdWhy (u8!"frequency") arg with
    | error e => exact Iff.rfl
    | ok n =>
      dsimp only
      cases d.store.frequencies.find n with
      | throw e => exact Iff.rfl
      | ub => exact Iff.rfl
      | ok k =>
        cases k with
        | none => exact Iff.rfl
        | some k => exact kind _ _ (one _ _)
  rw [if_neg h1, if_neg h1]
  by_cases h2 : arg.head? = some 0x6d
  · rw [if_pos h2, if_pos h2]
    cases morohashiWhy arg.tail with
    | error e => exact Iff.rfl
    | ok n => exact kind _ _ (all _ _ _)
  rw [if_neg h2, if_neg h2]
  by_cases h3 : arg.head? = some 0x6e
  · rw [if_pos h3, if_pos h3]
    by_cases h4 : arg.tail = [] ∨ arg.tail.all isDigitChar = false
    · rw [if_pos h4, if_pos h4]
    rw [if_neg h4, if_neg h4]
    cases getIdWhy (u8!"Nelson ID") arg.tail with
    | error e => exact Iff.rfl
    | ok n => exact kind _ _ (all _ _ _)
  rw [if_neg h3, if_neg h3]
  by_cases h5 : arg.head? = some 0x75
  · rw [if_pos h5, if_pos h5]
    by_cases h6 : arg.tail.length < 4 ∨ arg.tail.length > 5 ∨
        (arg.tail.length = 5 ∧ arg.tail.head? ≠ some 0x31 ∧ arg.tail.head? ≠ some 0x32) ∨ arg.tail.all isHexChar = false
    · rw [if_pos h6, if_pos h6]
    rw [if_neg h6, if_neg h6]
    cases toUtf8 [hexValue arg.tail] with
    | throw e => exact Iff.rfl
    | ub => exact Iff.rfl
    | ok n => exact kind _ _ (one _ _)
  rw [if_neg h5, if_neg h5]
  by_cases h7 : isKanji arg = true
  · rw [if_pos h7, if_pos h7]
    exact kind _ _ (one _ _)
  · rw [if_neg h7, if_neg h7]

/-- The fill character doesn't make the program crash. -/
theorem runProgramIn_ok (fill : UInt8) (sort : List KanjiRec → List KanjiRec) (d : DetailStore) (e : StoulTexts) (debug : Bool)
    (args : List Str) (n : Nat) (r : Drawn) (s : InStream) {o : Output} (h : runProgram sort d e debug args n r s = .ok o) :
    ∃ o', runProgramIn fill sort d e debug args n r s = .ok o' := by
  have key : showKanjiIn fill sort d = showKanjiBy (detailTextIn fill sort d) d := rfl
  have key' : showKanji sort d = showKanjiBy (detailText sort d) d := rfl
  unfold runProgram at h
  unfold runProgramIn
  cases hw : launchWhy e false {} args with
  | error m => exact ⟨_, rfl⟩
  | ok a =>
    rw [hw] at h
    cases a with
    | help => exact ⟨_, rfl⟩
    | start a => exact ⟨o, h⟩
    | kanji arg =>
      dsimp only at h ⊢
      have hub := showKanjiBy_ub (detailTextIn_kind fill sort d) d arg
      rw [← key, ← key'] at hub
      cases hs : showKanjiIn fill sort d arg with
      | text t => exact ⟨_, rfl⟩
      | error m => exact ⟨_, rfl⟩
      | ub => rw [hub.mp hs] at h; cases h

/-- **C188** (no crash): if the names in the files of the directory fit together (C181) and the data is within the limits of
the program (C171), the program ends with an exit code or waits for input, with any debug option. -/
theorem C188_ends (w : World) (reg : List Str) (hreg : reg.Nodup) (ltr : Bool) (sort : List KanjiRec → List KanjiRec)
    (e : StoulTexts) (argv : List Str) (hn : argv.length < 65535) (n : Nat) (r : Drawn) (s : InStream)
    (hf : ∀ d, getDataDir w.dirs w.cwd argv = .ok d → NamesFit (dirData w.disk d.text))
    (hl : ∀ d v, getDataDir w.dirs w.cwd argv = .ok d → loadDataFrom reg ltr w.disk d.text = .ok v →
      WithinLimits (dirData w.disk d.text) v) :
    ∃ o, kanjiQuizOutput w reg ltr sort e argv n r s = some (.ok o) := by
  cases hd : getDataDir w.dirs w.cwd argv with
  | error m => exact ⟨_, (C188_usage w reg ltr sort e argv n r s).1 m hd⟩
  | ok d =>
    rcases debugMode_cases argv with ⟨h2, _⟩ | ⟨_, mode, hm⟩
    · exact ⟨_, (C188_usage w reg ltr sort e argv n r s).2 d hd h2⟩
    obtain ⟨g1, g2⟩ := C188_fails w reg hreg ltr sort e argv n r s d mode hd hm
    by_cases hv : PrintingThrows mode ltr (dirData w.disk d.text)
    · by_cases ht : TextFiles w.disk d.text
      · exact ⟨_, g2 hv ht⟩
      · cases hx : loadTextDataFrom reg ltr w.disk d.text with
        | ok t => exact absurd ((C180_text_data reg hreg ltr w.disk d.text t).mp hx).1 ht
        | ub => exact absurd hx (textDataFrom_safe reg hreg ltr w.disk d.text (hf d hd))
        | throw x =>
          have := (textFrom_fails mode sort reg ltr w.disk d.text).1 x hx
          have h3 : (loadDataPrintingFrom mode sort reg ltr w.disk d.text).result = .throw x := by
            unfold loadDataPrintingFrom
            rw [Printing.bind_result, this]
            rfl
          unfold kanjiQuizOutput
          rw [hd]
          dsimp only
          rw [hm]
          dsimp only
          rw [h3]
          exact ⟨_, rfl⟩
    · cases hx : loadDataFrom reg ltr w.disk d.text with
      | throw x =>
        obtain ⟨p, h, _⟩ := g1 hv x hx
        exact ⟨_, h⟩
      | ub => exact absurd hx (C181_directory_partial reg hreg ltr w.disk d.text (hf d hd)).1
      | ok v =>
        obtain ⟨rad, _, h⟩ := quizOutput_ok w reg hreg ltr sort e argv n r s d mode v hd hm hx hv
        rw [h, C45_args_partial argv (by omega) (by omega) _ (by omega)]
        obtain ⟨o, ho⟩ := C180_quiz reg hreg ltr w.disk d.text v hx (hl d v hd hx) sort e (mode ≠ .none)
          (programArgs false (argv.drop 1)) n r s
        obtain ⟨o', ho'⟩ := runProgramIn_ok (fillAfter mode rad v) sort v e (mode ≠ .none) (programArgs false (argv.drop 1)) n r s ho
        simp only [Option.map_some, Res.bind, ho']
        exact ⟨_, rfl⟩

end KT
