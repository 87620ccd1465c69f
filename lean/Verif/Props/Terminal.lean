import Verif.Model.Terminal
import Verif.Props.Choice
/-!
# C203: answers typed at the terminal
-/
namespace KT
open Spec

/-- What reading a key leaves of the settings. -/
def usualSettings (s : TermSettings) : TermSettings := { s with icanon := true, echo := true, vmin := 1, vtime := 0 }

/-- What is at descriptor 0 after some keys have been read. -/
def Terminal.after (t : Terminal) (keys : Str) : Terminal :=
  { t with settings := if t.isTerminal then usualSettings t.settings else t.settings, keys := keys }

theorem after_after (t : Terminal) (k l : Str) : (t.after k).after l = t.after l := by
  unfold Terminal.after usualSettings
  cases t.isTerminal <;> rfl

theorem oneChar_cons (t : Terminal) (k : UInt8) (r : Str) (h : t.keys = k :: r) :
    (getOneChar t).1 = k ∧ (getOneChar t).2.1 = t.after r := by
  obtain ⟨term, s, keys⟩ := t
  simp only at h
  subst h
  cases term <;> exact ⟨rfl, rfl⟩

theorem oneChar_nil (t : Terminal) (h : t.keys = []) : (getOneChar t).1 = 0 ∧ (getOneChar t).2.1 = t.after [] := by
  obtain ⟨term, s, keys⟩ := t
  simp only at h
  subst h
  cases term <;> exact ⟨rfl, rfl⟩

/-- The answer given by a key, if any. -/
def keyAnswer (cs : Choices) (dflt : Option UInt8) (k : UInt8) : Option UInt8 :=
  if k = 0x0a then dflt else if cs.has k then some k else none

theorem answer_key (cs : Choices) (dflt : Option UInt8) (k : UInt8) :
    Choice.answer cs dflt (if k = 0x0a then [] else [k]) = keyAnswer cs dflt k := by
  unfold keyAnswer
  by_cases h : k = 0x0a
  · rw [if_pos h, if_pos h]
    cases dflt <;> rfl
  · rw [if_neg h, if_neg h]
    cases dflt <;> rfl

theorem keyLoop_cons (cs : Choices) (dflt : Option UInt8) (prompt : Str) (fuel : Nat) (t : Terminal) (k : UInt8) (r : Str)
    (h : t.keys = k :: r) :
    Choice.keyLoop cs dflt prompt (fuel + 1) t =
      match keyAnswer cs dflt k with
      | some b => (prompt ++ u8!"\n", some (b, t.after r))
      | none => (prompt ++ u8!"\n" ++ (Choice.keyLoop cs dflt prompt fuel (t.after r)).1,
          (Choice.keyLoop cs dflt prompt fuel (t.after r)).2) := by
  obtain ⟨h1, h2⟩ := oneChar_cons t k r h
  rw [Choice.keyLoop]
  simp only [h1, h2, answer_key]
  rfl

/-- The prompt and a newline for each key read. -/
def prompts (prompt : Str) (n : Nat) : Str := (List.replicate n (prompt ++ u8!"\n")).flatten

theorem prompts_succ (prompt : Str) (n : Nat) : prompts prompt (n + 1) = prompt ++ u8!"\n" ++ prompts prompt n := by
  simp [prompts, List.replicate_succ]

theorem keyLoop_answer (cs : Choices) (dflt : Option UInt8) (prompt : Str) (pre : Str) (k b : UInt8) (post : Str)
    (hpre : ∀ x ∈ pre, keyAnswer cs dflt x = none) (hk : keyAnswer cs dflt k = some b) :
    ∀ (fuel : Nat) (t : Terminal), t.keys = pre ++ k :: post → pre.length < fuel →
      Choice.keyLoop cs dflt prompt fuel t = (prompts prompt (pre.length + 1), some (b, t.after post)) := by
  induction pre with
  | nil =>
    intro fuel t ht hf
    cases fuel with
    | zero => simp at hf
    | succ fuel =>
      rw [keyLoop_cons _ _ _ _ _ k post ht, hk]
      simp [prompts]
  | cons x pre ih =>
    intro fuel t ht hf
    cases fuel with
    | zero => simp at hf
    | succ fuel =>
      rw [keyLoop_cons _ _ _ _ _ x (pre ++ k :: post) ht, hpre x (by simp)]
      simp only
      rw [ih (fun y hy => hpre y (by simp [hy])) fuel (t.after _) rfl (by simpa using hf), after_after, List.length_cons,
        prompts_succ _ (pre.length + 1)]

theorem keyLoop_none (cs : Choices) (dflt : Option UInt8) (prompt : Str) (h0 : cs.has 0 = false) :
    ∀ (fuel : Nat) (t : Terminal), (∀ x ∈ t.keys, keyAnswer cs dflt x = none) →
      Choice.keyLoop cs dflt prompt fuel t = (prompts prompt fuel, none) := by
  intro fuel
  induction fuel with
  | zero => intro t _; simp [Choice.keyLoop, prompts]
  | succ fuel ih =>
    intro t ht
    cases hk : t.keys with
    | nil =>
      obtain ⟨h1, h2⟩ := oneChar_nil t hk
      rw [Choice.keyLoop]
      simp only [h1, h2, answer_key]
      have : keyAnswer cs dflt 0 = none := by simp [keyAnswer, h0]
      rw [this, ih (t.after []) (by intro x hx; simp [Terminal.after] at hx), prompts_succ]
    | cons k r =>
      rw [keyLoop_cons _ _ _ _ _ k r hk, ht k (by simp [hk])]
      simp only
      rw [ih (t.after r) (by intro x hx; exact ht x (by rw [hk]; exact List.mem_cons_of_mem _ hx)), prompts_succ]

theorem no_nul {quit : Quit} {useQuit : Bool} {choices : Choices} {dflt : Option UInt8}
    (h : Acceptable quit useQuit choices dflt) : (offered quit useQuit choices).has 0 = false := by
  cases hh : (offered quit useQuit choices).has 0 with
  | false => rfl
  | true =>
    unfold Choices.has at hh
    rw [List.any_eq_true] at hh
    obtain ⟨p, hp, h0⟩ := hh
    have := h.print p hp
    rw [eq_of_beq h0] at this
    exact absurd this (by decide)

/-! ## The claims -/

/-- The answer is that of the first key that gives one: an offered key, or return if there is a default.  The prompt is
written for each key up to it, later keys are left, and the settings are the usual ones afterwards (if it is a terminal). -/
theorem C203_answer (quit : Quit) (msg : Str) (useQuit : Bool) (choices : Choices) (dflt : Option UInt8) (hs : choices.Sorted)
    (ha : Acceptable quit useQuit choices dflt) (t : Terminal) (pre : Str) (k b : UInt8) (post : Str)
    (ht : t.keys = pre ++ k :: post) (hpre : ∀ x ∈ pre, keyAnswer (offered quit useQuit choices) dflt x = none)
    (hk : keyAnswer (offered quit useQuit choices) dflt k = some b) (fuel : Nat) (hf : pre.length < fuel) :
    Choice.getKey fuel quit msg useQuit choices dflt t =
      .ok (prompts (promptText msg (offered quit useQuit choices) dflt) (pre.length + 1), some (b, t.after post)) := by
  rw [Choice.getKey, C72_prompt _ _ _ _ _ hs ha, Res.bind_ok]
  simp only
  rw [keyLoop_answer _ _ _ pre k b post hpre hk fuel t ht hf]

/-- Whatever is typed, the answer is one of those offered. -/
theorem C203_offered (quit : Quit) (msg : Str) (useQuit : Bool) (choices : Choices) (dflt : Option UInt8) (hs : choices.Sorted)
    (t t' : Terminal) (fuel : Nat) (out : Str) (b : UInt8)
    (h : Choice.getKey fuel quit msg useQuit choices dflt t = .ok (out, some (b, t'))) :
    Acceptable quit useQuit choices dflt ∧ (offered quit useQuit choices).has b = true := by
  by_cases ha : Acceptable quit useQuit choices dflt
  · refine ⟨ha, ?_⟩
    by_cases hall : ∀ x ∈ t.keys, keyAnswer (offered quit useQuit choices) dflt x = none
    · rw [Choice.getKey, C72_prompt _ _ _ _ _ hs ha, Res.bind_ok] at h
      simp only at h
      rw [keyLoop_none _ _ _ (no_nul ha) fuel t hall] at h
      simp at h
    · obtain ⟨k, post, pre, e, hpre, hk⟩ : ∃ k post pre, t.keys = pre ++ k :: post ∧
          (∀ x ∈ pre, keyAnswer (offered quit useQuit choices) dflt x = none) ∧
          keyAnswer (offered quit useQuit choices) dflt k ≠ none := by
        generalize t.keys = ks at hall
        induction ks with
        | nil => simp at hall
        | cons k ks ih =>
          by_cases hk : keyAnswer (offered quit useQuit choices) dflt k = none
          · obtain ⟨k', post, pre, e, hp, hn⟩ := ih (by simpa [hk] using hall)
            exact ⟨k', post, k :: pre, by rw [e]; rfl, by simpa [hk] using hp, hn⟩
          · exact ⟨k, ks, [], rfl, by simp, hk⟩
      cases hb : keyAnswer (offered quit useQuit choices) dflt k with
      | none => exact absurd hb hk
      | some b' =>
        have hb' : (offered quit useQuit choices).has b' = true := by
          unfold keyAnswer at hb
          split at hb
          · exact ha.hasDflt b' hb
          · split at hb
            · next hh => simp only [Option.some.injEq] at hb; rw [← hb]; exact hh
            · simp at hb
        by_cases hf : pre.length < fuel
        · rw [C203_answer quit msg useQuit choices dflt hs ha t pre k b' post e hpre hb fuel hf] at h
          simp only [Res.ok.injEq, Prod.mk.injEq, Option.some.injEq] at h
          rw [← h.2.1]
          exact hb'
        · exfalso
          rw [Choice.getKey, C72_prompt _ _ _ _ _ hs ha, Res.bind_ok] at h
          simp only [Res.ok.injEq] at h
          have key : ∀ (fuel : Nat) (t : Terminal) (pre post : Str), t.keys = pre ++ post →
              (∀ x ∈ pre, keyAnswer (offered quit useQuit choices) dflt x = none) → fuel ≤ pre.length → ∀ prompt,
              (Choice.keyLoop (offered quit useQuit choices) dflt prompt fuel t).2 = none := by
            intro fuel
            induction fuel with
            | zero => intros; rfl
            | succ fuel ih =>
              intro t pre post ht hp hl prompt
              cases pre with
              | nil => simp at hl
              | cons x pre =>
                rw [keyLoop_cons _ _ _ _ _ x (pre ++ post) ht, hp x (by simp)]
                exact ih (t.after (pre ++ post)) pre post rfl (fun y hy => hp y (by simp [hy])) (by simpa using hl) prompt
          have := key fuel t pre (k :: post) e hpre (by omega) (promptText msg (offered quit useQuit choices) dflt)
          rw [h] at this
          simp at this
  · rw [Choice.getKey, C34_rejected _ _ _ _ _ hs ha] at h
    simp at h

/-- If no key gives an answer then it never returns: at the end of the input the prompt is written again and again. -/
theorem C203_endless (quit : Quit) (msg : Str) (useQuit : Bool) (choices : Choices) (dflt : Option UInt8) (hs : choices.Sorted)
    (ha : Acceptable quit useQuit choices dflt) (t : Terminal)
    (hall : ∀ x ∈ t.keys, keyAnswer (offered quit useQuit choices) dflt x = none) (fuel : Nat) :
    Choice.getKey fuel quit msg useQuit choices dflt t =
      .ok (prompts (promptText msg (offered quit useQuit choices) dflt) fuel, none) := by
  rw [Choice.getKey, C72_prompt _ _ _ _ _ hs ha, Res.bind_ok]
  simp only
  rw [keyLoop_none _ _ _ (no_nul ha) fuel t hall]

/-! ## Keys and lines -/

/-- The keys as lines of a text: each key on a line of its own, return is an empty line. -/
def keyLines (keys : Str) : Str := keys.flatMap fun k => if k = 0x0a then [0x0a] else [k, 0x0a]

theorem getline_key (k : UInt8) (r line : Str) :
    InStream.getline ⟨keyLines (k :: r), true⟩ line = (⟨keyLines r, true⟩, if k = 0x0a then [] else [k]) := by
  have e : keyLines (k :: r) = (if k = 0x0a then [0x0a] else [k, 0x0a]) ++ keyLines r := rfl
  rw [e]
  by_cases h : k = 0x0a
  · simp [h, InStream.getline, cutLine]
  · simp [h, InStream.getline, cutLine]

/-- As long as there are keys, the answers and what is left are those of the same keys given as lines, so what has been
shown for streams holds for keys too. -/
theorem C203_lines (quit : Quit) (msg : Str) (useQuit : Bool) (choices : Choices) (dflt : Option UInt8) (t : Terminal)
    (fuel : Nat) (hf : fuel ≤ t.keys.length) :
    (do let (_, r) ← Choice.getKey fuel quit msg useQuit choices dflt t
        Res.ok (r.map fun (b, t) => (b, (⟨keyLines t.keys, true⟩ : InStream)))) =
      Choice.get fuel quit msg useQuit choices dflt ⟨keyLines t.keys, true⟩ := by
  unfold Choice.getKey Choice.get
  cases Choice.prepare quit msg useQuit choices dflt with
  | throw e => rfl
  | ub => rfl
  | ok q =>
    obtain ⟨cs, prompt⟩ := q
    simp only [Res.bind_ok, Res.ok.injEq]
    have key : ∀ (fuel : Nat) (t : Terminal) (line : Str), fuel ≤ t.keys.length →
        ((Choice.keyLoop cs dflt prompt fuel t).2.map fun (p : UInt8 × Terminal) => (p.1, (⟨keyLines p.2.keys, true⟩ : InStream))) =
          Choice.loop cs dflt fuel ⟨keyLines t.keys, true⟩ line := by
      intro fuel
      induction fuel with
      | zero => intros; rfl
      | succ fuel ih =>
        intro t line hf
        cases hk : t.keys with
        | nil => simp [hk] at hf
        | cons k r =>
          rw [keyLoop_cons _ _ _ _ _ k r hk, Choice.loop, getline_key]
          simp only [answer_key]
          cases keyAnswer cs dflt k with
          | some b => rfl
          | none => exact ih (t.after r) _ (by rw [hk] at hf; simpa [Terminal.after] using hf)
    exact key fuel t [] hf

/-! ## The settings -/

/-- Asking for an answer leaves the settings of the terminal as they were. -/
def C203_statement : Prop :=
  ∀ (quit : Quit) (msg : Str) (useQuit : Bool) (choices : Choices) (dflt : Option UInt8) (t t' : Terminal) (fuel : Nat)
    (out : Str) (b : UInt8), Choice.getKey fuel quit msg useQuit choices dflt t = .ok (out, some (b, t')) →
    t'.settings = t.settings

/-- A terminal with `ECHO` turned off before the program was started has it turned on afterwards. -/
theorem C203_violated : ¬ C203_statement := by
  intro h
  have := h none [] false [(0x61, [])] none ⟨true, ⟨true, false, 1, 0, 7⟩, u8!"a"⟩ ⟨true, ⟨true, true, 1, 0, 7⟩, []⟩ 1
    (u8!"(a): \n") 0x61 (by decide)
  exact absurd this (by decide)

/-- The settings are as before exactly if it isn't a terminal or they were the usual ones: `ICANON` and `ECHO` on, `VMIN`
one and `VTIME` zero.  Nothing but these four is ever changed. -/
theorem C203_settings_partial (quit : Quit) (msg : Str) (useQuit : Bool) (choices : Choices) (dflt : Option UInt8)
    (t t' : Terminal) (fuel : Nat) (out : Str) (b : UInt8)
    (h : Choice.getKey fuel quit msg useQuit choices dflt t = .ok (out, some (b, t'))) :
    t'.isTerminal = t.isTerminal ∧ t'.settings.rest = t.settings.rest ∧
    (t'.settings = t.settings ↔ t.isTerminal = false ∨
      t.settings.icanon = true ∧ t.settings.echo = true ∧ t.settings.vmin = 1 ∧ t.settings.vtime = 0) := by
  have key : ∀ (cs : Choices) (prompt : Str) (fuel : Nat) (t : Terminal) (out : Str) (b : UInt8) (t' : Terminal),
      Choice.keyLoop cs dflt prompt fuel t = (out, some (b, t')) → ∃ keys, t' = t.after keys := by
    intro cs prompt fuel
    induction fuel with
    | zero => intro t out b t' h; simp [Choice.keyLoop] at h
    | succ fuel ih =>
      intro t out b t' h
      obtain ⟨keys, hk⟩ : ∃ keys, (getOneChar t).2.1 = t.after keys := by
        cases hk : t.keys with
        | nil => exact ⟨_, (oneChar_nil t hk).2⟩
        | cons k r => exact ⟨_, (oneChar_cons t k r hk).2⟩
      rw [Choice.keyLoop] at h
      simp only [hk] at h
      split at h
      · simp only [Prod.mk.injEq, Option.some.injEq] at h
        exact ⟨keys, h.2.2.symm⟩
      · simp only [Prod.mk.injEq] at h
        obtain ⟨keys', e⟩ := ih (t.after keys) _ b t' (Prod.ext rfl h.2)
        exact ⟨keys', by rw [e, after_after]⟩
  unfold Choice.getKey at h
  cases hp : Choice.prepare quit msg useQuit choices dflt with
  | throw e => rw [hp] at h; simp at h
  | ub => rw [hp] at h; simp at h
  | ok q =>
    rw [hp, Res.bind_ok] at h
    simp only [Res.ok.injEq] at h
    obtain ⟨keys, rfl⟩ := key _ _ _ _ _ _ _ h
    obtain ⟨term, ⟨i, e, vm, vt, r⟩, ks⟩ := t
    refine ⟨rfl, ?_, ?_⟩
    · cases term <;> rfl
    · cases term <;> simp [Terminal.after, usualSettings, eq_comm]

/-- While a key is read, a terminal gives it at once (no line is awaited) and doesn't show it. -/
theorem C203_raw (t : Terminal) :
    t.rawMode.2.1.keys = t.keys ∧ t.rawMode.2.1.isTerminal = t.isTerminal ∧
    t.rawMode.2.1.settings = if t.isTerminal then ⟨false, false, 1, 0, t.settings.rest⟩ else t.settings := by
  obtain ⟨term, s, keys⟩ := t
  cases term <;> exact ⟨rfl, rfl, rfl⟩

/-- Without a terminal each key read gives three messages, with a terminal none. -/
theorem C203_messages (t : Terminal) :
    (getOneChar t).2.2 = if t.isTerminal then [] else
      [u8!"tcsetattr()", u8!"tcsetattr() - turning on raw mode", u8!"tcsetattr() - turning off raw mode"] := by
  obtain ⟨term, s, keys⟩ := t
  cases term <;> cases keys <;> rfl

/-! ## Samples -/

example : Choice.getKey 5 (some (0x2f, u8!"quit")) (u8!"Type") true [(0x61, u8!"x"), (0x62, u8!"y")] none
    ⟨true, ⟨true, true, 1, 0, 7⟩, u8!"zq\nbcd"⟩ =
    .ok (prompts (u8!"Type (/=quit, a=x, b=y): ") 4, some (0x62, ⟨true, ⟨true, true, 1, 0, 7⟩, u8!"cd"⟩)) := by decide +kernel
example : Choice.getKey 5 none (u8!"Type") true [(0x61, []), (0x62, [])] (some 0x61)
    ⟨true, ⟨false, true, 0, 3, 7⟩, u8!"x\nb"⟩ =
    .ok (prompts (u8!"Type (a-b) def 'a': ") 2, some (0x61, ⟨true, ⟨true, true, 1, 0, 7⟩, u8!"b"⟩)) := by decide +kernel

end KT
