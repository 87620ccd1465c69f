import Verif.Spec.ConvertProgram
import Verif.Props.KanaConvert
import Verif.Props.Converter
import Verif.Props.ChartDocument
/-!
# kanaConvert writes exactly what is specified, for any arguments and any input
-/
namespace KT
open Spec

/-- The settings that a state stands for. -/
def ConvState.settings (st : ConvState) : Settings where
  mode := if st.interactive then some 0x69 else if st.printMarkdown then some 0x6d else if st.suppressNewLine then some 0x6e
    else if st.printKana then some 0x70 else none
  source := st.source
  target := st.converter.target
  flags := st.converter.flags
  strings := st.strings

/-- A state of the program: at most one of the modes is set. -/
structure ConvState.Proper (st : ConvState) : Prop where
  mode : (modes st).count true ≤ 1
  ltr : st.converter.ltr = true

/-- The state for settings. -/
def stateFor (k : Settings) : ConvState where
  interactive := k.mode == some 0x69
  suppressNewLine := k.mode == some 0x6e
  printKana := k.mode == some 0x70
  printMarkdown := k.mode == some 0x6d
  source := k.source
  converter := { target := k.target, flags := k.flags }
  strings := k.strings

theorem stateFor_settings (st : ConvState) (h : st.Proper) : stateFor st.settings = st := by
  obtain ⟨h1, h2⟩ := h
  obtain ⟨i, n, p, m, src, ⟨t, f, ltr⟩, ss⟩ := st
  simp only [modes] at h1
  simp only at h2
  subst h2
  cases i <;> cases n <;> cases p <;> cases m <;> first | rfl | (exfalso; revert h1; decide)

/-- Conversion with given settings. -/
def Converts (conv : Settings → Str → Str) : Prop := ∀ k s, (stateFor k).convert s = .ok (conv k s)

theorem converts_exists : ∃ conv, Converts conv := by
  refine ⟨fun k s => match (stateFor k).convert s with | .ok r => r | _ => [], fun k s => ?_⟩
  have : ∃ r, (stateFor k).convert s = .ok r := by
    unfold ConvState.convert
    obtain ⟨h1, h2⟩ := C71_total (stateFor k).converter s
    cases (stateFor k).source with
    | none => exact h2
    | some t => exact h1 t
  obtain ⟨r, hr⟩ := this
  simp only [hr]

theorem convert_eq {conv : Settings → Str → Str} (hc : Converts conv) (st : ConvState) (h : st.Proper) (s : Str) :
    st.convert s = .ok (conv st.settings s) := by
  have := hc st.settings s
  rwa [stateFor_settings st h] at this

/-! ## Arguments -/

theorem letter_eq (st : ConvState) (a c : UInt8) :
    (st.charTypeArgs [a, c]).map (·.settings) = st.settings.letter c ∧
    ∀ st', st.charTypeArgs [a, c] = some st' → st.Proper → st'.Proper ∧ st'.interactive = st.interactive := by
  simp only [ConvState.charTypeArgs]
  by_cases h1 : c = 0x68
  · subst h1; exact ⟨rfl, fun st' h hp => by cases h; exact ⟨⟨hp.1, hp.2⟩, rfl⟩⟩
  by_cases h2 : c = 0x6b
  · subst h2; exact ⟨rfl, fun st' h hp => by cases h; exact ⟨⟨hp.1, hp.2⟩, rfl⟩⟩
  by_cases h3 : c = 0x72
  · subst h3; exact ⟨rfl, fun st' h hp => by cases h; exact ⟨⟨hp.1, hp.2⟩, rfl⟩⟩
  by_cases h4 : c = 0x48
  · subst h4; exact ⟨rfl, fun st' h hp => by cases h; exact ⟨⟨hp.1, hp.2⟩, rfl⟩⟩
  by_cases h5 : c = 0x4b
  · subst h5; exact ⟨rfl, fun st' h hp => by cases h; exact ⟨⟨hp.1, hp.2⟩, rfl⟩⟩
  by_cases h6 : c = 0x52
  · subst h6; exact ⟨rfl, fun st' h hp => by cases h; exact ⟨⟨hp.1, hp.2⟩, rfl⟩⟩
  rw [if_neg h1, if_neg h2, if_neg h3, if_neg h4, if_neg h5, if_neg h6]
  refine ⟨?_, fun st' h => by cases h⟩
  have e1 : targetLetters.lookup c = none := by
    simp only [targetLetters, lookup_cons_if, List.lookup_nil, h1, h2, h3, if_false]
  have e2 : Spec.sourceLetters.lookup c = none := by
    simp only [Spec.sourceLetters, lookup_cons_if, List.lookup_nil, h4, h5, h6, if_false]
  simp only [Settings.letter, e1, e2, Option.map_none]

theorem charType_eq (st : ConvState) (l : Str) :
    (st.charTypeArgs l).map (·.settings) = st.settings.typeOption l ∧
    ∀ st', st.charTypeArgs l = some st' → st.Proper → st'.Proper ∧ st'.interactive = st.interactive := by
  rcases l with _ | ⟨a, _ | ⟨c, _ | ⟨d, r⟩⟩⟩
  · exact ⟨rfl, fun _ h => by cases h⟩
  · exact ⟨rfl, fun _ h => by cases h⟩
  · exact letter_eq st a c
  · exact ⟨rfl, fun _ h => by cases h⟩

theorem addFlag_settings (st : ConvState) (f : ConvFlag) (h : st.Proper) :
    (addFlag st f).settings = { st.settings with flags := withFlag st.settings.flags f } ∧ (addFlag st f).Proper :=
  ⟨rfl, ⟨h.1, h.2⟩⟩

theorem flagValueWhy_eq (st : ConvState) (v : Str) : st.flagValueWhy v =
    match convFlags.lookup v with
    | some f => .ok (addFlag st f)
    | none => .error (u8!"illegal option for -f: " ++ v) := by
  unfold ConvState.flagValueWhy
  rcases v with _ | ⟨c, _ | ⟨d, r⟩⟩
  · rfl
  · simp only [flagArgs_eq]
    cases convFlags.lookup [c] <;> rfl
  · rw [convFlags_one _ (by intro b h; cases h)]

theorem hasMode_mode (st : ConvState) : st.hasMode = st.settings.mode.isSome := by
  obtain ⟨i, n, p, m, _, _, _⟩ := st
  cases i <;> cases n <;> cases p <;> cases m <;> rfl

/-- The options after a mode. -/
def withMode (st : ConvState) (c : UInt8) : ConvState :=
  if c = 0x69 then { st with interactive := true }
  else if c = 0x6d then { st with printMarkdown := true }
  else if c = 0x6e then { st with suppressNewLine := true }
  else { st with printKana := true }

theorem withMode_eq (st : ConvState) (c : UInt8) (hc : c ∈ (u8!"imnp" : Str)) (h : st.Proper) (hm : st.settings.mode = none) :
    (withMode st c).settings = { st.settings with mode := some c } ∧ (withMode st c).Proper := by
  obtain ⟨_, h2⟩ := h
  have hm := hasMode_mode st ▸ (by rw [hm]; rfl : st.settings.mode.isSome = false)
  obtain ⟨i, n, p, m, src, ⟨t, f, ltr⟩, ss⟩ := st
  simp only at h2
  subst h2
  have hc : c = 0x69 ∨ c = 0x6d ∨ c = 0x6e ∨ c = 0x70 := by simpa using hc
  simp only [ConvState.hasMode, Bool.or_eq_false_iff] at hm
  obtain ⟨⟨⟨rfl, rfl⟩, rfl⟩, rfl⟩ := hm
  rcases hc with rfl | rfl | rfl | rfl <;> exact ⟨rfl, ⟨Nat.le_refl 1, rfl⟩⟩

theorem processArgWhy_mode (st : ConvState) (c : UInt8) (hc : c ∈ (u8!"imnp" : Str)) : st.processArgWhy [0x2d, c] =
    if st.settings.mode = none then .ok (some (withMode st c)) else .error (u8!"can only specify one of -i, -m, -n, or -p") := by
  have hc : c = 0x69 ∨ c = 0x6d ∨ c = 0x6e ∨ c = 0x70 := by simpa using hc
  have hm := hasMode_mode st
  unfold ConvState.processArgWhy
  cases h : st.settings.mode with
  | none =>
    rw [h] at hm
    rcases hc with rfl | rfl | rfl | rfl <;> simp [hm, withMode]
  | some x =>
    rw [h] at hm
    rcases hc with rfl | rfl | rfl | rfl <;> simp [hm]

theorem processArgWhy_other (st : ConvState) (a : Str) (h : ∀ c ∈ (u8!"imnp" : Str), a ≠ [0x2d, c]) : st.processArgWhy a =
    if a.head? = some 0x2d then
      match st.charTypeArgs a with
      | none => .error (u8!"illegal option: " ++ a)
      | some st => .ok (some st)
    else .ok none := by
  unfold ConvState.processArgWhy
  simp only
  rw [if_neg (h 0x69 (by decide)), if_neg (h 0x6d (by decide)), if_neg (h 0x6e (by decide)), if_neg (h 0x70 (by decide))]
  split
  · cases st.charTypeArgs a <;> rfl
  · rfl

/-- The result of reading the arguments. -/
def ReadSame : Except Str ConvArgs → Except Str (Option Settings) → Prop
  | .error m, .error m' => m = m'
  | .ok .usage, .ok none => True
  | .ok (.run st), .ok (some k) => st.settings = k ∧ st.Proper
  | _, _ => False

theorem convLoopWhy_eq (args : List Str) (hl : args.length < 65535) :
    ∀ (fuel i : Nat) (st : ConvState), args.length < fuel + i → st.Proper →
      ∃ x, convLoopWhy args (fuel + 1) i st = some x ∧ ReadSame x (readSettings st.settings (args.drop i)) := by
  intro fuel
  induction fuel using Nat.strongRecOn with
  | _ fuel ih =>
    intro i st hf hp
    unfold convLoopWhy
    by_cases hi : i < args.length
    · rw [List.getElem?_eq_getElem hi]
      have hdrop : args.drop i = args[i] :: args.drop (i + 1) := List.drop_eq_getElem_cons hi
      rw [hdrop]
      rw [readSettings.eq_def]
      simp only []
      generalize args[i] = a
      obtain ⟨k, rfl⟩ : ∃ k, fuel = k + 1 := ⟨fuel - 1, by omega⟩
      by_cases h1 : a = u8!"--"
      · rw [if_pos h1, if_pos h1]
        rw [Nat.mod_eq_of_lt (by omega)]
        unfold convLoopWhy
        rw [List.getElem?_eq_none (by omega)]
        exact ⟨_, rfl, rfl, ⟨hp.1, hp.2⟩⟩
      rw [if_neg h1, if_neg h1]
      by_cases h2 : a = u8!"-?"
      · rw [if_pos h2, if_pos h2]; exact ⟨_, rfl, trivial⟩
      rw [if_neg h2, if_neg h2]
      by_cases h3 : a = u8!"-f"
      · rw [if_pos h3, if_pos h3]
        by_cases hi1 : i + 1 < args.length
        · rw [List.getElem?_eq_getElem hi1, List.drop_eq_getElem_cons hi1]
          simp only [flagValueWhy_eq]
          cases convFlags.lookup args[i + 1] with
          | none => exact ⟨_, rfl, rfl⟩
          | some f =>
            simp only []
            rw [Nat.mod_eq_of_lt (by omega)]
            exact ih k (by omega) (i + 2) _ (by omega) (addFlag_settings st f hp).2
        · rw [List.getElem?_eq_none (by omega), List.drop_of_length_le (by omega)]
          exact ⟨_, rfl, rfl⟩
      rw [if_neg h3, if_neg h3, Nat.mod_eq_of_lt (by omega)]
      by_cases hm : ∃ c ∈ (u8!"imnp" : Str), a = [0x2d, c]
      · obtain ⟨c, hc, rfl⟩ := hm
        rw [processArgWhy_mode st c hc]
        simp only [List.head?_cons, if_true, hc]
        by_cases hmode : st.settings.mode = none
        · rw [if_pos hmode, if_pos hmode]
          simp only
          obtain ⟨e, hp'⟩ := withMode_eq st c hc hp hmode
          rw [← e]
          exact ih k (by omega) (i + 1) _ (by omega) hp'
        · rw [if_neg hmode, if_neg hmode]
          exact ⟨_, rfl, rfl⟩
      · have hm : ∀ c ∈ (u8!"imnp" : Str), a ≠ [0x2d, c] := fun c hc e => hm ⟨c, hc, e⟩
        rw [processArgWhy_other st a hm]
        by_cases h4 : a.head? = some 0x2d
        · rw [if_pos h4, if_pos h4]
          obtain ⟨e, hpr⟩ := charType_eq st a
          rcases a with _ | ⟨b, _ | ⟨c, _ | ⟨d, r⟩⟩⟩
          · exact ⟨_, rfl, rfl⟩
          · exact ⟨_, rfl, rfl⟩
          · obtain rfl : b = 0x2d := by simpa using h4
            have hc : c ∉ (u8!"imnp" : Str) := fun hc => hm c hc rfl
            simp only
            rw [if_neg hc]
            have e : (st.charTypeArgs [0x2d, c]).map (·.settings) = st.settings.letter c := e
            rw [← e]
            cases hs : st.charTypeArgs [0x2d, c] with
            | none => exact ⟨_, rfl, rfl⟩
            | some st' => exact ih k (by omega) (i + 1) _ (by omega) (hpr _ hs hp).1
          · exact ⟨_, rfl, rfl⟩
        · rw [if_neg h4, if_neg h4]
          exact ih k (by omega) (i + 1) { st with strings := st.strings ++ [a] } (by omega) ⟨hp.1, hp.2⟩
    · rw [List.getElem?_eq_none (by omega), show args.drop i = [] from List.drop_of_length_le (by omega)]
      exact ⟨_, rfl, rfl, hp⟩

/-! ## Interactive mode -/

theorem flagNames_eq (f : ConvertFlags) : flagString ((if f.hepburn then flagHepburn else 0) +
    (if f.kunrei then flagKunrei else 0) + (if f.noProlongMark then flagNoProlongMark else 0) +
    (if f.removeSpaces then flagRemoveSpaces else 0)) = flagNames f := by
  obtain ⟨a, b, c, d⟩ := f
  cases a <;> cases b <;> cases c <;> cases d <;> decide +kernel

theorem shown_eq (st : ConvState) : st.options.shown = st.settings.shown := by
  have e : st.options.shown = optionsText st.source st.converter.target ((if st.converter.flags.hepburn then flagHepburn else 0) +
      (if st.converter.flags.kunrei then flagKunrei else 0) + (if st.converter.flags.noProlongMark then flagNoProlongMark else 0) +
      (if st.converter.flags.removeSpaces then flagRemoveSpaces else 0)) := rfl
  rw [e]
  unfold optionsText optionsLine
  rw [flagNames_eq]
  unfold Settings.shown
  obtain ⟨i, n, p, m, src, ⟨t, f, ltr⟩, ss⟩ := st
  simp only [ConvState.settings]
  generalize flagNames f = x
  rcases src with _ | _ | _ | _ <;> cases t <;> simp only [List.append_assoc] <;> rfl

theorem shortHelp_eq : ConvEvent.shown .usage = shortHelp := by decide +kernel

theorem ask_end : ∀ (m : Nat) (s : InStream) (line : Str), s.lines = [] → Choice.answer flagChoices none line = none →
    Choice.ask flagQuestion flagChoices none m s line = ((List.replicate m flagQuestion).flatten, none) := by
  intro m
  induction m with
  | zero => intros; rfl
  | succ m ih =>
    intro s line hs hl
    unfold Choice.ask
    rcases getline_lines s line with ⟨h1, h2, h3⟩ | h1
    · have ha : Choice.answer flagChoices none (s.getline line).2 = none := by
        rcases h3 with h3 | h3 <;> rw [h3]
        · exact hl
        · rfl
      simp only [ha]
      rw [ih _ _ h2 ha]
      rfl
    · rw [hs] at h1; cases h1

/-- What is made of the answer for a flag. -/
def afterAsk (conv : Settings → Str → Str) (n : Nat) (k : Settings) : Str × Option (UInt8 × InStream) → Str × Bool
  | (text, none) => (text, false)
  | (text, some (b, s')) =>
    match convFlags.lookup [b] with
    | none => (text, false)
    | some f =>
      let k := { k with flags := withFlag k.flags f }
      after (text ++ k.shown) (chat conv n k none s'.lines)

theorem ask_flag : ∀ (m : Nat) (s : InStream) (line : Str) (text : Str) (b : UInt8) (s' : InStream),
    Choice.answer flagChoices none line = none →
    Choice.ask flagQuestion flagChoices none m s line = (text, some (b, s')) →
    (∃ f, convFlags.lookup [b] = some f) ∧ s'.lines.length < s.lines.length := by
  intro m
  induction m with
  | zero => intro s line text b s' _ h; cases h
  | succ m ih =>
    intro s line text b s' hl h
    rcases getline_lines s line with ⟨h1, h2, h3⟩ | h1
    · rw [ask_end (m + 1) s line h1 hl] at h; cases h
    · unfold Choice.ask at h
      rw [h1]
      cases ha : Choice.answer flagChoices none (s.getline line).2 with
      | some c =>
        simp only [ha] at h
        cases h
        refine ⟨?_, by simp⟩
        rw [answer_flag] at ha
        split at ha
        · split at ha
          · cases ha; exact Option.isSome_iff_exists.mp (by assumption)
          · cases ha
        · cases ha
      | none =>
        simp only [ha] at h
        cases hr : Choice.ask flagQuestion flagChoices none m (s.getline line).1 (s.getline line).2 with
        | mk t r =>
          rw [hr] at h
          have h : r = some (b, s') := (Prod.mk.inj h).2
          subst h
          obtain ⟨i1, i2⟩ := ih _ _ _ _ _ ha hr
          exact ⟨i1, by simp only [List.length_cons]; omega⟩

theorem afterAsk_append (conv : Settings → Str → Str) (n : Nat) (k : Settings) (q t : Str) (r : Option (UInt8 × InStream)) :
    afterAsk conv n k (q ++ t, r) = after q (afterAsk conv n k (t, r)) := by
  rcases r with _ | ⟨b, s'⟩
  · rfl
  · simp only [afterAsk]
    cases convFlags.lookup [b] with
    | none => rfl
    | some f => simp only [after, List.append_assoc]

theorem ask_chat (conv : Settings → Str → Str) (n : Nat) : ∀ (m : Nat) (s : InStream) (line : Str) (k : Settings),
    Choice.answer flagChoices none line = none →
    chat conv n k (some m) s.lines = afterAsk conv n k (Choice.ask flagQuestion flagChoices none m s line) := by
  intro m
  induction m with
  | zero =>
    intro s line k _
    unfold Choice.ask
    cases s.lines <;> rfl
  | succ m ih =>
    intro s line k hl
    rcases getline_lines s line with ⟨h1, h2, h3⟩ | h1
    · rw [ask_end (m + 1) s line h1 hl, h1]
      rw [chat]; rfl
    · unfold Choice.ask
      rw [h1, chat]
      have ha := answer_flag (s.getline line).2
      generalize s.getline line = x at ha h1
      obtain ⟨s1, l⟩ := x
      simp only at ha ⊢
      have hno (hn : convFlags.lookup l = none) (ha : Choice.answer flagChoices none l = none) :
          after flagQuestion (match convFlags.lookup l with
            | none => chat conv n k (some m) s1.lines
            | some f =>
              let k := { k with flags := withFlag k.flags f }
              after k.shown (chat conv n k none s1.lines)) =
          afterAsk conv n k (match Choice.answer flagChoices none l with
            | some b => (flagQuestion, some (b, s1))
            | none =>
              match Choice.ask flagQuestion flagChoices none m s1 l with
              | (text, r) => (flagQuestion ++ text, r)) := by
        rw [hn, ha]
        simp only
        rw [ih s1 l k ha]
        cases Choice.ask flagQuestion flagChoices none m s1 l with
        | mk t r => simp only; rw [afterAsk_append]
      rcases l with _ | ⟨b, _ | ⟨c, r⟩⟩
      · exact hno (convFlags_one _ (by intro b h; cases h)) ha
      · cases hf : convFlags.lookup [b] with
        | none =>
          have ha' : Choice.answer flagChoices none [b] = none := by
            rw [ha]; simp only [hf]; rfl
          have := hno hf ha'
          rw [hf] at this
          exact this
        | some f =>
          have ha' : Choice.answer flagChoices none [b] = some b := by
            rw [ha]; simp only [hf]; rfl
          simp only [ha', afterAsk, hf, after, List.append_assoc]
      · exact hno (convFlags_one _ (by intro b h; cases h)) ha

theorem interactive_newline (st : ConvState) (h : st.Proper) (hi : st.interactive = true) : st.suppressNewLine = false := by
  obtain ⟨h1, _⟩ := h
  obtain ⟨i, n, p, m, src, c, ss⟩ := st
  simp only at hi
  subst hi
  simp only [modes] at h1
  cases n
  · rfl
  · cases p <;> cases m <;> exfalso <;> revert h1 <;> decide

theorem inputTalk_chat {conv : Settings → Str → Str} (hc : Converts conv) (n : Nat) :
    ∀ (fuel : Nat) (st : ConvState) (s : InStream), s.lines.length < fuel → st.Proper → st.interactive = true →
      st.inputTalk n fuel s = .ok (chat conv n st.settings none s.lines) := by
  intro fuel
  induction fuel with
  | zero => intro st s h; omega
  | succ fuel ih =>
    intro st s hlen hp hi
    unfold ConvState.inputTalk
    have hs := nextLine_lines s
    cases hn : s.nextLine with
    | none =>
      rw [hn] at hs
      simp only at hs
      rw [hs, chat]
    | some x =>
      obtain ⟨l, s1⟩ := x
      rw [hn] at hs
      simp only at hs ⊢
      rw [hs] at hlen ⊢
      simp only [List.length_cons] at hlen
      rw [chat]
      by_cases hq : l = u8!"q"
      · rw [if_pos hq, if_pos hq]
      rw [if_neg hq, if_neg hq, hi]
      simp only [if_true]
      unfold ConvState.lineTalk
      by_cases h1 : l = []
      · rw [if_pos h1, if_pos h1]
        simp only [Res.bind]
        rw [ih st s1 (by omega) hp hi]
        rfl
      rw [if_neg h1, if_neg h1]
      by_cases h2 : l = u8!"c"
      · have n1 : ¬ l = u8!"f" := by rw [h2]; decide
        have n2 : ¬ l = u8!"h" := by rw [h2]; decide
        rw [if_pos h2, if_neg n1, if_neg n2, if_pos h2]
        simp only [Res.bind]
        rw [ih { st with converter := { st.converter with flags := .none } } s1 (by omega) ⟨hp.1, hp.2⟩ hi, shown_eq]
        rfl
      rw [if_neg h2]
      by_cases h3 : l = u8!"f"
      · rw [if_pos h3, if_pos h3]
        have hprep : Choice.prepare none (u8!">>> enter flag option") false flagChoices none = .ok (flagChoices, flagQuestion) := by
          decide +kernel
        rw [hprep]
        simp only [Res.bind]
        rw [ask_chat conv n n s1 [] st.settings rfl]
        cases hr : Choice.ask flagQuestion flagChoices none n s1 [] with
        | mk text r =>
          rcases r with _ | ⟨b, s2⟩
          · rfl
          · obtain ⟨⟨f, hf⟩, hl2⟩ := ask_flag n s1 [] text b s2 rfl hr
            simp only [flagArgs_eq, hf, Option.map_some, Option.getD_some, afterAsk]
            rw [ih _ s2 (by omega) (addFlag_settings st f hp).2 hi, shown_eq]
            rfl
      rw [if_neg h3, if_neg h3]
      by_cases h4 : l = u8!"h"
      · rw [if_pos h4, if_pos h4]
        simp only [Res.bind]
        rw [ih _ s1 (by omega) hp hi, shown_eq, shortHelp_eq]
        rfl
      rw [if_neg h4, if_neg h4, if_neg h2]
      by_cases h5 : l.head? = some 0x2d
      · rw [if_pos h5, if_pos h5]
        obtain ⟨e, hpr⟩ := charType_eq st l
        rw [← e]
        cases hct : st.charTypeArgs l with
        | none =>
          simp only [Res.bind, Option.map_none]
          rw [ih _ s1 (by omega) hp hi, shown_eq]
          rfl
        | some st' =>
          simp only [Res.bind, Option.map_some]
          obtain ⟨hp', hi'⟩ := hpr st' hct hp
          rw [ih _ s1 (by omega) hp' (hi'.trans hi), shown_eq]
          rfl
      · rw [if_neg h5, if_neg h5]
        simp only [Res.bind]
        rw [convert_eq hc st hp, ih _ s1 (by omega) hp hi, interactive_newline st hp hi]
        rfl

theorem inputTalk_piped {conv : Settings → Str → Str} (hc : Converts conv) (n : Nat) (st : ConvState) (hp : st.Proper)
    (hi : st.interactive = false) :
    ∀ (fuel : Nat) (s : InStream), s.lines.length < fuel →
      st.inputTalk n fuel s = .ok (((s.lines.takeWhile (· ≠ u8!"q")).map fun l =>
        conv st.settings l ++ if st.suppressNewLine then [] else u8!"\n").flatten, true) := by
  intro fuel
  induction fuel with
  | zero => intro s h; omega
  | succ fuel ih =>
    intro s hlen
    unfold ConvState.inputTalk
    have hs := nextLine_lines s
    cases hn : s.nextLine with
    | none =>
      rw [hn] at hs
      simp only at hs
      rw [hs]; rfl
    | some x =>
      obtain ⟨l, s1⟩ := x
      rw [hn] at hs
      simp only at hs ⊢
      rw [hs] at hlen ⊢
      simp only [List.length_cons] at hlen
      by_cases hq : l = u8!"q"
      · rw [if_pos hq, List.takeWhile_cons_of_neg (by simpa using hq)]; rfl
      · rw [if_neg hq, List.takeWhile_cons_of_pos (by simpa using hq), hi]
        simp only [Bool.false_eq_true, if_false, Res.bind]
        rw [convert_eq hc st hp, ih s1 (by omega)]
        simp only [List.map_cons, List.flatten_cons, List.nil_append]

theorem conversions_eq {conv : Settings → Str → Str} (hc : Converts conv) (st : ConvState) (hp : st.Proper) (l : List Str) :
    conversions st l = .ok (l.map (conv st.settings)) := by
  induction l with
  | nil => rfl
  | cons a r ih =>
    unfold conversions
    rw [convert_eq hc st hp, ih]
    rfl

/-! ## C168: the program -/

theorem mode_bools (st : ConvState) (hp : st.Proper) :
    st.interactive = (st.settings.mode == some 0x69) ∧ st.printMarkdown = (st.settings.mode == some 0x6d) ∧
    st.suppressNewLine = (st.settings.mode == some 0x6e) ∧ st.printKana = (st.settings.mode == some 0x70) := by
  have h := stateFor_settings st hp
  generalize st.settings = k at h
  subst h
  exact ⟨rfl, rfl, rfl, rfl⟩

theorem lines_start (text : Str) : (⟨text, true⟩ : InStream).lines = fields 0x0a text := rfl

theorem talk_eq {conv : Settings → Str → Str} (hc : Converts conv) (st : ConvState) (hp : st.Proper) (n : Nat) (text : Str) :
    st.talk n text = .ok (if st.settings.mode = some 0x69 then
        let r := chat conv n st.settings none (fields 0x0a text)
        (st.settings.shown ++ r.1, r.2)
      else
        ((((fields 0x0a text).takeWhile (· ≠ u8!"q")).map fun l =>
          conv st.settings l ++ if st.settings.mode = some 0x6e then [] else u8!"\n").flatten, true)) := by
  obtain ⟨b1, _, b3, _⟩ := mode_bools st hp
  have hlen : (⟨text, true⟩ : InStream).lines.length < text.length + 1 := by
    have := getlines_length 0x0a text none
    simp only [if_true] at this
    show (getlines 0x0a text none).length < _
    omega
  unfold ConvState.talk
  by_cases hm : st.settings.mode = some 0x69
  · have hi : st.interactive = true := by rw [b1, hm]; rfl
    rw [if_pos hm, inputTalk_chat hc n _ st _ hlen hp hi, hi, lines_start, shown_eq]
    rfl
  · have hi : st.interactive = false := by rw [b1]; simpa using hm
    rw [if_neg hm, inputTalk_piped hc n st hp hi _ _ hlen, hi, lines_start]
    have e : (if st.suppressNewLine then [] else u8!"\n" : Str) = if st.settings.mode = some 0x6e then [] else u8!"\n" := by
      rw [b3]; by_cases h : st.settings.mode = some 0x6e <;> simp [h]
    rw [e]
    rfl

/-- The program writes exactly what is specified, for any arguments and any input: `conv` converts and `chart` is the
chart. -/
theorem C168_main {conv : Settings → Str → Str} {chart : Bool → Str} (hc : Converts conv)
    (hch : ∀ m, wholeKanaChart m = .ok (chart m)) (name : Str) (args : List Str) (ha : args.length < 65534) (tty : Bool) (n : Nat)
    (input : Str) :
    mainConvert (name :: args) tty n input = some (.ok (convertOutput conv chart args tty n input)) := by
  obtain ⟨x, hx, hsame⟩ := convLoopWhy_eq (name :: args) (by simp only [List.length_cons]; omega) (name :: args).length 1 {}
    (by omega) ⟨by decide, rfl⟩
  have hsame : ReadSame x (readSettings {} args) := hsame
  unfold mainConvert convertOutput
  rw [hx]
  simp only [Option.map_some]
  cases hr : readSettings {} args with
  | error m =>
    rw [hr] at hsame
    rcases x with m' | (_ | st)
    · rw [show m' = m from hsame]
    · exact hsame.elim
    · exact hsame.elim
  | ok o =>
    rw [hr] at hsame
    rcases x with m' | (_ | st)
    · cases o <;> exact hsame.elim
    · cases o
      · rfl
      · exact hsame.elim
    cases o with
    | none => exact hsame.elim
    | some k =>
      obtain ⟨hk, hp⟩ := hsame
      obtain ⟨b1, b2, b3, b4⟩ := mode_bools st hp
      have hstr : k.strings = st.strings := by rw [← hk]; rfl
      simp only
      unfold ConvState.selectWhy
      rw [hstr]
      by_cases hs : st.strings ≠ []
      · rw [if_pos hs, if_pos hs]
        by_cases hm : k.mode = none ∨ k.mode = some 0x6e
        · have e : (st.interactive || st.printKana || st.printMarkdown) = false := by
            rw [b1, b2, b4, hk]; rcases hm with h | h <;> rw [h] <;> rfl
          rw [if_pos hm, e]
          simp only [Bool.false_eq_true, if_false]
          rw [C66_exact_partial, conversions_eq hc st hp, hk]
          simp only [Res.bind]
          have e2 : (if st.converter.target = .romaji then [] else convSep st.converter) =
              if k.target = .romaji ∨ k.flags.removeSpaces = true then [] else u8!"　" := by
            rw [← hk]
            simp only [ConvState.settings, convSep]
            by_cases h1 : st.converter.target = .romaji <;> by_cases h2 : st.converter.flags.removeSpaces = true <;> simp [h1, h2]
          rw [e2]
        · have e : (st.interactive || st.printKana || st.printMarkdown) = true := by
            have hc4 := hp.1
            rw [b1, b2, b4]
            rw [← hk] at hm
            revert hm
            obtain ⟨i, n, p, m, src, c, ss⟩ := st
            cases i <;> cases n <;> cases p <;> cases m <;> simp [ConvState.settings]
          rw [if_neg hm, e]
          rfl
      · rw [if_neg hs, if_neg hs]
        by_cases h1 : k.mode = some 0x6d
        · have e : st.printMarkdown = true := by rw [b2, hk, h1]; rfl
          rw [if_pos h1, e]
          simp only [Bool.or_true, if_true, hch, Res.bind]
        have e1 : st.printMarkdown = false := by rw [b2, hk]; simpa using h1
        rw [if_neg h1, e1]
        by_cases h2 : k.mode = some 0x70
        · have e : st.printKana = true := by rw [b4, hk, h2]; rfl
          rw [if_pos h2, e]
          simp only [Bool.or_false, if_true, hch, Res.bind]
        have e2 : st.printKana = false := by rw [b4, hk]; simpa using h2
        rw [if_neg h2, e2]
        simp only [Bool.or_false, Bool.false_eq_true, if_false]
        by_cases h3 : k.mode = some 0x69
        · have e : st.interactive = true := by rw [b1, hk, h3]; rfl
          rw [if_pos h3, e]
          simp only [Bool.not_true, Bool.and_false, Bool.false_eq_true, if_false]
          rw [talk_eq hc st hp, hk, if_pos h3]
          rfl
        · have e : st.interactive = false := by rw [b1, hk]; simpa using h3
          rw [if_neg h3, e]
          cases tty
          · simp only [Bool.false_and, Bool.false_eq_true, if_false]
            rw [talk_eq hc st hp, hk, if_neg h3]
            rfl
          · rfl

/-- The program always has a result: conversion and the charts never fail. -/
theorem C168_total (name : Str) (args : List Str) (ha : args.length < 65534) (tty : Bool) (n : Nat) (input : Str) :
    ∃ r, mainConvert (name :: args) tty n input = some (.ok r) := by
  obtain ⟨conv, hc⟩ := converts_exists
  have hch : ∀ m, ∃ t, wholeKanaChart m = .ok t := by
    intro m
    cases m with
    | true => exact ⟨_, C169_documented⟩
    | false =>
      obtain ⟨_, _, h⟩ := C169_terminal
      exact ⟨_, h⟩
  exact ⟨_, C168_main (chart := fun m => (hch m).choose) hc (fun m => (hch m).choose_spec) name args ha tty n input⟩

end KT
