import Verif.Spec.KanaConvert
import Verif.Props.Choice
import Verif.Lemmas.ColumnFile
/-!
# C66, C85-C87: the kanaConvert program

Specification: `Verif/Spec/KanaConvert.lean`.  Model: `Verif/Model/KanaConvert.lean`.
-/
namespace KT
open Spec

/-! ## Options -/

theorem lookup_cons_if {α β : Type} [BEq α] [LawfulBEq α] [DecidableEq α] (a k : α) (v : β) (r : List (α × β)) :
    ((k, v) :: r).lookup a = if a = k then some v else r.lookup a := by
  rw [List.lookup_cons]
  by_cases h : a = k
  · rw [if_pos h, beq_iff_eq.mpr h]
  · rw [if_neg h, beq_eq_false_iff_ne.mpr h]

theorem lookup_convFlags (v : Str) : convFlags.lookup v =
    if v = u8!"h" then some .hepburn else if v = u8!"k" then some .kunrei
    else if v = u8!"n" then some .noProlongMark else if v = u8!"r" then some .removeSpaces else none := by
  simp only [convFlags, lookup_cons_if, List.lookup_nil]

theorem flagArgs_eq (st : ConvState) (c : UInt8) :
    st.flagArgs c = (convFlags.lookup [c]).map (addFlag st) := by
  rw [lookup_convFlags]
  unfold ConvState.flagArgs
  have e (a : UInt8) : ([c] = [a]) = (c = a) := by simp
  simp only [e]
  repeat' split
  all_goals rfl

theorem convFlags_one (v : Str) (h : ∀ c, v ≠ [c]) : convFlags.lookup v = none := by
  rw [lookup_convFlags, if_neg (h _), if_neg (h _), if_neg (h _), if_neg (h _)]

theorem flagValue_eq (st : ConvState) (v : Str) : st.flagValue v =
    match convFlags.lookup v with
    | none => .throw .domain
    | some f => .ok (addFlag st f) := by
  unfold ConvState.flagValue
  split
  · rw [flagArgs_eq]
    cases convFlags.lookup _ <;> rfl
  · rename_i h
    rw [convFlags_one v h]

theorem hasMode_eq (st : ConvState) : st.hasMode = true ↔ true ∈ modes st := by
  unfold ConvState.hasMode modes
  cases st.interactive <;> cases st.suppressNewLine <;> cases st.printKana <;> cases st.printMarkdown <;> decide

theorem lookup_convOptions (a : Str) : convOptions.lookup a =
    if a = u8!"-i" then some .interactive else if a = u8!"-n" then some .suppressNewLine
    else if a = u8!"-m" then some .markdown else if a = u8!"-p" then some .chart
    else if a = u8!"-h" then some (.target .hiragana) else if a = u8!"-k" then some (.target .katakana)
    else if a = u8!"-r" then some (.target .romaji) else if a = u8!"-H" then some (.source .hiragana)
    else if a = u8!"-K" then some (.source .katakana) else if a = u8!"-R" then some (.source .romaji)
    else none := by
  simp only [convOptions, lookup_cons_if, List.lookup_nil]

/-- The letters that `charTypeArgs` knows. -/
theorem charTypeArgs_eq (st : ConvState) (a : Str) (h : a.head? = some 0x2d) : st.charTypeArgs a =
    match convOptions.lookup a with
    | some (.target t) => some { st with converter := { st.converter with target := t } }
    | some (.source t) => some { st with source := some t }
    | _ => none := by
  unfold ConvState.charTypeArgs
  split
  · rename_i b c
    simp only [List.head?_cons, Option.some.injEq] at h
    subst h
    rw [lookup_convOptions]
    have e (a : UInt8) : ([(0x2d : UInt8), c] = [0x2d, a]) = (c = a) := by simp
    simp only [e]
    by_cases h1 : c = 0x69
    · subst h1; rfl
    by_cases h2 : c = 0x6e
    · subst h2; rfl
    by_cases h3 : c = 0x6d
    · subst h3; rfl
    by_cases h4 : c = 0x70
    · subst h4; rfl
    rw [if_neg h1, if_neg h2, if_neg h3, if_neg h4]
    repeat' split
    all_goals simp_all
  · rename_i hn
    have : convOptions.lookup a = none := by
      rw [lookup_convOptions]
      repeat rw [if_neg (hn _ _)]
    rw [this]

/-- Options and strings are told apart as documented. -/
theorem otherArg_eq (st : ConvState) (a : Str) : st.otherArg a =
    match convOptions.lookup a with
    | some o =>
      match applyOpt st o with
      | none => .throw .domain
      | some st => .ok st
    | none =>
      if a.head? = some 0x2d then .throw .domain else .ok { st with strings := st.strings ++ [a] } := by
  unfold ConvState.otherArg ConvState.processArg
  by_cases hm : st.hasMode = true
  all_goals
    have hm' := hm
    rw [hasMode_eq] at hm'
    by_cases h1 : a = u8!"-i"
    · subst h1; simp only [if_true, hm, lookup_convOptions, applyOpt, hm', if_false, Res.bind, Bool.false_eq_true]
    by_cases h2 : a = u8!"-m"
    · subst h2; simp only [if_true, hm, lookup_convOptions, applyOpt, hm', if_false, Res.bind, Bool.false_eq_true,
        show ¬ u8!"-m" = u8!"-i" by decide, show ¬ u8!"-m" = u8!"-n" by decide]
    by_cases h3 : a = u8!"-n"
    · subst h3; simp only [if_true, hm, lookup_convOptions, applyOpt, hm', if_false, Res.bind, Bool.false_eq_true,
        show ¬ u8!"-n" = u8!"-i" by decide, show ¬ u8!"-n" = u8!"-m" by decide]
    by_cases h4 : a = u8!"-p"
    · subst h4; simp only [if_true, hm, lookup_convOptions, applyOpt, hm', if_false, Res.bind, Bool.false_eq_true,
        show ¬ u8!"-p" = u8!"-i" by decide, show ¬ u8!"-p" = u8!"-m" by decide,
        show ¬ u8!"-p" = u8!"-n" by decide]
    rw [if_neg h1, if_neg h2, if_neg h3, if_neg h4]
    by_cases hd : a.head? = some 0x2d
    · rw [if_pos hd, charTypeArgs_eq st a hd]
      have hn : convOptions.lookup a ≠ some .interactive ∧ convOptions.lookup a ≠ some .suppressNewLine ∧
          convOptions.lookup a ≠ some .markdown ∧ convOptions.lookup a ≠ some .chart := by
        rw [lookup_convOptions, if_neg h1, if_neg h2, if_neg h3, if_neg h4]
        repeat' split
        all_goals simp
      obtain ⟨n1, n2, n3, n4⟩ := hn
      cases hl : convOptions.lookup a with
      | none => simp only [Res.bind]; rw [if_pos hd]
      | some o =>
        cases o with
        | target t => rfl
        | source t => rfl
        | interactive => exact absurd hl n1
        | suppressNewLine => exact absurd hl n2
        | markdown => exact absurd hl n3
        | chart => exact absurd hl n4
    · have : convOptions.lookup a = none := by
        rw [lookup_convOptions]
        have hx (x : Str) (h : x.head? = some 0x2d) : ¬ a = x := fun e => hd (e ▸ h)
        repeat rw [if_neg (hx _ (by decide))]
      rw [this, if_neg hd]
      simp only [Res.bind]
      rw [if_neg hd]

/-! ## C85: arguments -/

/-- C85: the arguments are read as documented. -/
def C85_statement : Prop :=
  ∀ (args : List Str) (st : ConvState), args.length ≤ 65535 →
    ∃ fuel, convArgsLoop args fuel 1 st = some (readConvArgs st (args.drop 1))

theorem convArgsLoop_eq (args : List Str) (hl : args.length ≤ 65535)
    (hd : args.length < 65535 ∨ u8!"--" ∉ args) :
    ∀ (fuel i : Nat) (st : ConvState), args.length < fuel + i →
      convArgsLoop args (fuel + 1) i st = some (readConvArgs st (args.drop i)) := by
  intro fuel
  induction fuel using Nat.strongRecOn with
  | _ fuel ih =>
    intro i st hf
    unfold convArgsLoop
    by_cases hi : i < args.length
    · rw [List.getElem?_eq_getElem hi]
      have hdrop : args.drop i = args[i] :: args.drop (i + 1) := List.drop_eq_getElem_cons hi
      rw [hdrop]
      rw [readConvArgs.eq_def]
      simp only []
      have hmem : args[i] ∈ args := List.getElem_mem hi
      generalize args[i] = a at hmem
      obtain ⟨k, rfl⟩ : ∃ k, fuel = k + 1 := ⟨fuel - 1, by omega⟩
      by_cases h1 : a = u8!"--"
      · rw [if_pos h1, if_pos h1]
        have hlt : args.length < 65535 := by
          rcases hd with h | h
          · exact h
          · exact absurd (h1 ▸ hmem) h
        rw [Nat.mod_eq_of_lt (by omega)]
        unfold convArgsLoop
        rw [List.getElem?_eq_none (by omega)]
      rw [if_neg h1, if_neg h1]
      by_cases h2 : a = u8!"-?"
      · rw [if_pos h2, if_pos h2]
      rw [if_neg h2, if_neg h2]
      by_cases h3 : a = u8!"-f"
      · rw [if_pos h3, if_pos h3]
        by_cases hi1 : i + 1 < args.length
        · rw [List.getElem?_eq_getElem hi1, List.drop_eq_getElem_cons hi1]
          simp only [flagValue_eq]
          cases convFlags.lookup args[i + 1] with
          | none => rfl
          | some f =>
            simp only []
            rw [Nat.mod_eq_of_lt (by omega)]
            exact ih k (by omega) (i + 2) _ (by omega)
        · rw [List.getElem?_eq_none (by omega), List.drop_of_length_le (by omega)]
      rw [if_neg h3, if_neg h3, otherArg_eq]
      cases convOptions.lookup a with
      | some o =>
        simp only []
        cases applyOpt st o with
        | none => rfl
        | some st' =>
          simp only []
          rw [Nat.mod_eq_of_lt (by omega)]
          exact ih k (by omega) (i + 1) _ (by omega)
      | none =>
        simp only []
        by_cases h4 : a.head? = some 0x2d
        · rw [if_pos h4, if_pos h4]
        · rw [if_neg h4, if_neg h4]
          simp only []
          rw [Nat.mod_eq_of_lt (by omega)]
          exact ih k (by omega) (i + 1) _ (by omega)
    · rw [List.getElem?_eq_none (by omega), show args.drop i = [] from List.drop_of_length_le (by omega),
        readConvArgs.eq_def]

/-- With fewer than 65535 arguments, or without "--", the arguments are read as documented. -/
theorem C85_args_partial (args : List Str) (st : ConvState) (hl : args.length ≤ 65535)
    (hd : args.length < 65535 ∨ u8!"--" ∉ args) :
    convArgsLoop args (args.length + 1) 1 st = some (readConvArgs st (args.drop 1)) :=
  convArgsLoop_eq args hl hd args.length 1 st (by omega)

theorem convArgsLoop_endless (args : List Str) (hl : args.length = 65535) (h0 : args[0]? = some (u8!"k"))
    (h1 : args[1]? = some (u8!"--")) :
    ∀ (fuel : Nat) (st : ConvState), convArgsLoop args fuel 0 st = none ∧ convArgsLoop args fuel 1 st = none := by
  intro fuel
  induction fuel with
  | zero => intro st; exact ⟨rfl, rfl⟩
  | succ n ih =>
    intro st
    constructor
    · unfold convArgsLoop
      rw [h0]
      simp only [show ¬ u8!"k" = u8!"--" by decide, if_false, show ¬ u8!"k" = u8!"-?" by decide,
        show ¬ u8!"k" = u8!"-f" by decide, show st.otherArg (u8!"k") = .ok { st with strings := st.strings ++ [u8!"k"] } from rfl]
      exact (ih _).2
    · unfold convArgsLoop
      rw [h1]
      simp only [if_true, hl]
      exact (ih _).1

/-- With 65535 arguments, the second one "--", the loop never ends: the index goes round to zero. -/
theorem C85_violated : ¬ C85_statement := by
  intro h
  let args : List Str := u8!"k" :: u8!"--" :: List.replicate 65533 (u8!"a")
  have hl : args.length = 65535 := by simp only [args, List.length_cons, List.length_replicate]
  obtain ⟨fuel, hf⟩ := h args {} (by omega)
  rw [(convArgsLoop_endless args hl rfl rfl fuel {}).2] at hf
  cases hf

/-- What follows the arguments: exactly one of the three ways to run, or an error. -/
theorem C85_select (st : ConvState) (needsOption : Bool) :
    (∀ st', st.select needsOption = .ok (.strings st') ↔
      st' = st ∧ st.strings ≠ [] ∧ st.interactive = false ∧ st.printKana = false ∧ st.printMarkdown = false) ∧
    (∀ m, st.select needsOption = .ok (.chart m) ↔
      m = st.printMarkdown ∧ st.strings = [] ∧ (st.printKana = true ∨ st.printMarkdown = true)) ∧
    (∀ st', st.select needsOption = .ok (.input st') ↔
      st' = st ∧ st.strings = [] ∧ st.printKana = false ∧ st.printMarkdown = false ∧
        (st.interactive = true ∨ needsOption = false)) ∧
    st.select needsOption ≠ .ub := by
  unfold ConvState.select
  by_cases h : st.strings = []
  · simp only [h, ne_eq, not_true, if_false, false_and, and_false, iff_false, true_and]
    cases st.printKana <;> cases st.printMarkdown <;> cases st.interactive <;> cases needsOption <;>
      simp [eq_comm]
  · simp only [h, ne_eq, not_false_iff, if_true, true_and, false_and, and_false, iff_false]
    cases st.printKana <;> cases st.printMarkdown <;> cases st.interactive <;> simp [eq_comm]

/-- Reading arguments never leaves two of the modes set. -/
theorem applyOpt_modes (st st' : ConvState) (o : ConvOpt) (h : applyOpt st o = some st')
    (hm : (modes st).count true ≤ 1) : (modes st').count true ≤ 1 := by
  unfold applyOpt at h
  have key : ¬ true ∈ modes st → st.interactive = false ∧ st.suppressNewLine = false ∧ st.printKana = false ∧
      st.printMarkdown = false := by
    unfold modes; simp
  cases o with
  | target t => cases h; exact hm
  | source t => cases h; exact hm
  | _ =>
    simp only at h
    split at h
    · cases h
    · rename_i hn
      cases h
      obtain ⟨k1, k2, k3, k4⟩ := key hn
      simp [modes, k1, k2, k3, k4]

theorem C85_one_mode : ∀ (args : List Str) (st st' : ConvState), (modes st).count true ≤ 1 →
    readConvArgs st args = .ok (.run st') → (modes st').count true ≤ 1 := by
  intro args st
  fun_induction readConvArgs st args
  all_goals intro st' hm h
  all_goals try (cases h; done)
  case case1 => cases h; exact hm
  case case2 => cases h; exact hm
  case case6 ih => exact ih st' hm h
  case case8 ho ih => exact ih st' (applyOpt_modes _ _ _ ho hm) h
  case case10 ih => exact ih st' hm h

/-! ## C66: several strings -/

/-- C66: the conversions of several strings are separated from each other. -/
def C66_statement : Prop :=
  ∀ st : ConvState, st.startStrings =
    (conversions st st.strings).bind fun cs => .ok (separated (convSep st.converter) cs ++ u8!"\n")

theorem startLoop_true (st : ConvState) : ∀ l : List Str, st.startLoop true l =
    (conversions st l).bind fun cs =>
      .ok (cs.flatMap fun c => (if st.converter.target = .romaji then u8!" " else u8!"　") ++ c) := by
  intro l
  induction l with
  | nil => rfl
  | cons a r ih =>
    unfold ConvState.startLoop conversions
    simp only [if_true, ih]
    cases st.convert a with
    | throw e => rfl
    | ub => rfl
    | ok c =>
      cases conversions st r with
      | throw e => rfl
      | ub => rfl
      | ok cs => simp only [Res.bind, List.flatMap_cons, List.append_assoc]

theorem startLoop_false (st : ConvState)
    (h : (decide (st.converter.target ≠ .romaji) && !st.converter.flags.removeSpaces) = false) :
    ∀ l : List Str, st.startLoop false l = (conversions st l).bind fun cs => .ok cs.flatten := by
  intro l
  induction l with
  | nil => rfl
  | cons a r ih =>
    unfold ConvState.startLoop conversions
    simp only [Bool.false_eq_true, if_false, h, ih]
    cases st.convert a with
    | throw e => rfl
    | ub => rfl
    | ok c =>
      cases conversions st r with
      | throw e => rfl
      | ub => rfl
      | ok cs => simp only [Res.bind, List.nil_append, List.flatten_cons]

theorem separated_nil (cs : List Str) : separated [] cs = cs.flatten := by
  fun_induction separated [] cs
  · rfl
  · simp
  · rename_i ih; rw [ih]; simp

theorem separated_cons (sep c : Str) (cs : List Str) :
    separated sep (c :: cs) = c ++ cs.flatMap fun c => sep ++ c := by
  induction cs generalizing c with
  | nil => simp [separated]
  | cons d r ih => unfold separated; rw [ih]; simp

/-- The output for every list of strings: nothing separates conversions to Rōmaji. -/
theorem C66_exact_partial (st : ConvState) : st.startStrings =
    (conversions st st.strings).bind fun cs =>
      .ok (separated (if st.converter.target = .romaji then [] else convSep st.converter) cs ++ u8!"\n") := by
  unfold ConvState.startStrings
  by_cases ht : st.converter.target = .romaji
  · rw [startLoop_false st (by simp [ht]), if_pos ht]
    cases conversions st st.strings with
    | throw e => rfl
    | ub => rfl
    | ok cs => simp only [Res.bind, separated_nil]
  · rw [if_neg ht]
    cases hf : st.converter.flags.removeSpaces with
    | true =>
      rw [startLoop_false st (by simp [hf])]
      cases conversions st st.strings with
      | throw e => rfl
      | ub => rfl
      | ok cs => simp only [Res.bind, convSep, ht, if_false, hf, if_true, separated_nil]
    | false =>
      cases hs : st.strings with
      | nil => rfl
      | cons a r =>
        unfold ConvState.startLoop conversions
        simp only [Bool.false_eq_true, if_false, ht, hf, ne_eq, not_false_iff, decide_true, Bool.not_false,
          Bool.and_self, startLoop_true]
        cases st.convert a with
        | throw e => rfl
        | ub => rfl
        | ok c =>
          cases conversions st r with
          | throw e => rfl
          | ub => rfl
          | ok cs =>
            simp only [Res.bind, separated_cons, convSep, ht, hf, if_false, List.nil_append,
              Bool.false_eq_true]

/-- For Hiragana and Katakana the conversions are separated as documented. -/
theorem C66_kana_partial (st : ConvState) (h : st.converter.target ≠ .romaji) : st.startStrings =
    (conversions st st.strings).bind fun cs => .ok (separated (convSep st.converter) cs ++ u8!"\n") := by
  rw [C66_exact_partial, if_neg h]

/-- A command line for the examples: `kanaConvert -r あ い`. -/
def romajiStrings : ConvState :=
  { converter := { target := .romaji }, strings := [u8!"あ", u8!"い"] }

example : readConvArgs {} [u8!"-r", u8!"あ", u8!"い"] = .ok (.run romajiStrings) := by decide +kernel

/-- `kanaConvert -r あ い` prints "ai". -/
theorem C66_violated : ¬ C66_statement := by
  intro h
  have h1 : romajiStrings.startStrings = .ok (u8!"ai\n") := by decide +kernel
  have h2 : conversions romajiStrings romajiStrings.strings = .ok [u8!"a", u8!"i"] := by decide +kernel
  have h3 := h romajiStrings
  rw [h1, h2] at h3
  exact absurd h3 (by decide)

example : ({ romajiStrings with converter := { target := .katakana } } : ConvState).startStrings =
    .ok (u8!"ア　イ\n") := by decide +kernel

/-! ## C86: the newline -/

/-- C86: with `-n` there is no newline after the conversions of the strings. -/
def C86_statement : Prop :=
  ∀ st : ConvState, st.strings ≠ [] → st.suppressNewLine = true → st.startStrings = st.startLoop false st.strings

theorem C86_violated : ¬ C86_statement := by
  intro h
  have h1 := h { romajiStrings with suppressNewLine := true } (by decide) rfl
  exact absurd h1 (by decide +kernel)

/-- Strings are always followed by one newline, whether or not `-n` is given. -/
theorem C86_strings_partial (st : ConvState) : st.startStrings =
    (st.startLoop false st.strings).bind fun out => .ok (out ++ u8!"\n") := rfl

/-! ## C87: input -/

/-- The lines that are still to be read. -/
def InStream.lines (s : InStream) : List Str := if s.good then fields 0x0a s.rest else []

theorem getlines_cut (t : Str) : ∀ cur : Option Str, getlines 0x0a t cur =
    match cutLine t with
    | (l, some r) => (cur.getD [] ++ l) :: fields 0x0a r
    | (l, none) => if l = [] ∧ cur = none then [] else [cur.getD [] ++ l] := by
  induction t with
  | nil => intro cur; cases cur <;> simp [getlines, cutLine]
  | cons b r ih =>
    intro cur
    unfold getlines cutLine
    by_cases hb : b = 0x0a
    · simp only [hb, if_true]
      cases cur <;> simp [fields]
    · simp only [if_neg hb, ih]
      cases cutLine r with
      | mk l o =>
        cases o with
        | some x => cases cur <;> simp
        | none => cases cur <;> simp

theorem nextLine_lines (s : InStream) :
    match s.nextLine with
    | none => s.lines = []
    | some (l, s') => s.lines = l :: s'.lines := by
  unfold InStream.nextLine InStream.lines
  by_cases hg : s.good = true
  · rw [if_pos hg, if_pos hg]
    unfold fields
    rw [getlines_cut]
    cases hc : cutLine s.rest with
    | mk l o =>
      cases o with
      | some r => simp [fields]
      | none => by_cases hl : l = [] <;> simp [hl]
  · rw [if_neg hg, if_neg hg]

theorem getline_lines (s : InStream) (line : Str) :
    (s.lines = [] ∧ (s.getline line).1.lines = [] ∧ ((s.getline line).2 = line ∨ (s.getline line).2 = [])) ∨
    (s.lines = (s.getline line).2 :: (s.getline line).1.lines) := by
  unfold InStream.getline InStream.lines
  by_cases hg : s.good = true
  · rw [if_pos hg, if_pos hg]
    unfold fields
    rw [getlines_cut]
    cases hc : cutLine s.rest with
    | mk l o =>
      cases o with
      | some r => right; simp [fields]
      | none => by_cases hl : l = [] <;> simp [hl]
  · rw [if_neg hg, if_neg hg]
    left; simp [hg]

theorem flagChoices_has (b : UInt8) :
    flagChoices.has b = (convFlags.lookup [b]).isSome := by
  rw [lookup_convFlags]
  unfold Choices.has flagChoices
  have e (a : UInt8) : ([b] = [a]) = (b = a) := by simp
  simp only [e, List.any_cons, List.any_nil, Bool.or_false]
  repeat' split
  all_goals simp_all
  all_goals simp only [eq_comm] at *
  all_goals simp_all

/-- The answer that a line gives to the prompt for a flag. -/
theorem answer_flag (l : Str) : Choice.answer flagChoices none l =
    match l with
    | [b] => if (convFlags.lookup [b]).isSome then some b else none
    | _ => none := by
  unfold Choice.answer
  split
  · rename_i h; cases h
  · rw [flagChoices_has]
  · split
    · rename_i h _; exact absurd rfl (h _)
    · rfl

/-- The lines after the first one that answers the prompt for a flag. -/
def afterFlag : List Str → Option (UInt8 × List Str)
  | [] => none
  | l :: r =>
    match Choice.answer flagChoices none l with
    | some b => some (b, r)
    | none => afterFlag r

theorem loop_flag : ∀ (fuel : Nat) (s : InStream) (line : Str), s.lines.length < fuel →
    (Choice.answer flagChoices none line = none) →
    (Choice.loop flagChoices none fuel s line).map (fun r => (r.1, r.2.lines)) = afterFlag s.lines := by
  intro fuel
  induction fuel with
  | zero => intro s line h; omega
  | succ n ih =>
    intro s line h hl
    unfold Choice.loop
    rcases getline_lines s line with ⟨h1, h2, h3⟩ | h1
    · have ha : Choice.answer flagChoices none (s.getline line).2 = none := by
        rcases h3 with h3 | h3 <;> rw [h3]
        · exact hl
        · rfl
      simp only [ha, h1, afterFlag]
      clear h ih
      generalize s.getline line = p at h2 ha
      obtain ⟨s', l'⟩ := p
      simp only at h2 ha ⊢
      induction n generalizing s' l' with
      | zero => rfl
      | succ m ihm =>
        unfold Choice.loop
        rcases getline_lines s' l' with ⟨k1, k2, k3⟩ | k1
        · have ha' : Choice.answer flagChoices none (s'.getline l').2 = none := by
            rcases k3 with k3 | k3 <;> rw [k3]
            · exact ha
            · rfl
          simp only [ha']
          exact ihm _ _ k2 ha'
        · rw [h2] at k1; cases k1
    · rw [h1] at h ⊢
      unfold afterFlag
      cases ha : Choice.answer flagChoices none (s.getline line).2 with
      | some b => simp only [ha, Option.map_some]
      | none =>
        simp only [ha]
        exact ih _ _ (by simp only [List.length_cons] at h; omega) ha

theorem afterFlag_length : ∀ (ls : List Str) (b : UInt8) (r : List Str), afterFlag ls = some (b, r) →
    r.length < ls.length := by
  intro ls
  induction ls with
  | nil => intro b r h; cases h
  | cons l t ih =>
    intro b r h
    unfold afterFlag at h
    split at h
    · cases h; simp
    · have := ih b r h
      simp only [List.length_cons]; omega

theorem dialogue_asking (st : ConvState) (ls : List Str) : dialogue st true ls =
    match afterFlag ls with
    | none => .ok ([], false)
    | some (b, r) =>
      match st.flagArgs b with
      | none => .ok ([], false)
      | some st => (dialogue st false r).bind fun o => .ok (st.options :: o.1, o.2) := by
  induction ls with
  | nil => rfl
  | cons l r ih =>
    rw [dialogue.eq_def]
    unfold afterFlag
    have ha := answer_flag l
    simp only [if_true]
    by_cases h : ∃ b, l = [b]
    · obtain ⟨b, rfl⟩ := h
      simp only at ha
      cases hl : convFlags.lookup [b] with
      | none =>
        rw [hl] at ha
        simp only [Option.isSome_none, Bool.false_eq_true, if_false] at ha
        rw [ha]; exact ih
      | some f =>
        rw [hl] at ha
        simp only [Option.isSome_some, if_true] at ha
        rw [ha]
        simp only [flagArgs_eq, hl, Option.map_some]
    · have hn : ∀ b, l ≠ [b] := fun b e => h ⟨b, e⟩
      rw [convFlags_one l hn]
      have ha' : Choice.answer flagChoices none l = none := by
        rw [ha]
        split
        · exact absurd rfl (hn _)
        · rfl
      rw [ha']
      exact ih

theorem afterFlag_flag : ∀ (ls : List Str) (b : UInt8) (r : List Str), afterFlag ls = some (b, r) →
    ∃ f, convFlags.lookup [b] = some f := by
  intro ls
  induction ls with
  | nil => intro b r h; cases h
  | cons l t ih =>
    intro b r h
    unfold afterFlag at h
    rw [answer_flag] at h
    split at h
    · rename_i b' he
      cases h
      split at he
      · split at he
        · cases he
          rename_i hs
          exact Option.isSome_iff_exists.mp hs
        · cases he
      · cases he
    · exact ih b r h

theorem flagChoices_get (fuel : Nat) (s : InStream) :
    Choice.get fuel none (u8!">>> enter flag option") false flagChoices none s =
      .ok (Choice.loop flagChoices none fuel s []) := by
  unfold Choice.get
  have : ∃ p, Choice.prepare none (u8!">>> enter flag option") false flagChoices none = .ok (flagChoices, p) :=
    ⟨u8!">>> enter flag option (h=Hepburn, k=Kunrei, n=NoProlongMark, r=RemoveSpaces): ", by decide +kernel⟩
  obtain ⟨p, hp⟩ := this
  rw [hp, Res.bind_ok]

theorem inputLoop_dialogue : ∀ (fuel : Nat) (st : ConvState) (s : InStream), s.lines.length < fuel →
    st.interactive = true → st.inputLoop fuel s = dialogue st false s.lines := by
  intro fuel
  induction fuel with
  | zero => intro st s h; omega
  | succ n ih =>
    intro st s h hi
    unfold ConvState.inputLoop
    have hn := nextLine_lines s
    cases hs : s.nextLine with
    | none => rw [hs] at hn; simp only at hn; rw [hn]; rfl
    | some p =>
      obtain ⟨l, s'⟩ := p
      rw [hs] at hn
      simp only at hn ⊢
      rw [hn] at h ⊢
      simp only [List.length_cons] at h
      unfold dialogue
      simp only [Bool.false_eq_true, if_false]
      rw [if_pos hi]
      by_cases h1 : l = u8!"q"
      · rw [if_pos h1, if_pos h1]
      rw [if_neg h1, if_neg h1]
      unfold ConvState.processLine
      by_cases h2 : l = []
      · rw [if_pos h2, if_pos h2]
        simp only [Res.bind, ih st s' (by omega) hi]
        cases dialogue st false s'.lines <;> rfl
      rw [if_neg h2, if_neg h2]
      by_cases h3 : l = u8!"c"
      · subst h3
        simp only [if_true, show ¬ u8!"c" = u8!"f" by decide, show ¬ u8!"c" = u8!"h" by decide, if_false, Res.bind]
        rw [ih _ s' (by omega)]
        · rfl
        · exact hi
      rw [if_neg h3]
      by_cases h4 : l = u8!"f"
      · rw [if_pos h4, if_pos h4, flagChoices_get, dialogue_asking]
        have hl := loop_flag (n + 1) s' [] (by omega) rfl
        simp only [Res.bind]
        cases hc : Choice.loop flagChoices none (n + 1) s' [] with
        | none => rw [hc, Option.map_none] at hl; rw [← hl]
        | some q =>
          obtain ⟨b, s''⟩ := q
          rw [hc, Option.map_some] at hl
          have hlen := afterFlag_length _ _ _ hl.symm
          obtain ⟨f, hf⟩ := afterFlag_flag _ _ _ hl.symm
          rw [← hl]
          simp only [flagArgs_eq, hf, Option.map_some, Option.getD_some]
          rw [ih (addFlag st f) s'' (by simp only at hlen; omega) hi]
          rfl
      rw [if_neg h4, if_neg h4]
      by_cases h5 : l = u8!"h"
      · rw [if_pos h5, if_pos h5]
        simp only [Res.bind]
        rw [ih _ s' (by omega)]
        · rfl
        · exact hi
      rw [if_neg h5, if_neg h5, if_neg h3]
      by_cases h6 : l.head? = some 0x2d
      · rw [if_pos h6, if_pos h6, charTypeArgs_eq st l h6]
        have hd := fun st' (hi' : ConvState.interactive st' = true) => ih st' s' (by omega) hi'
        cases convOptions.lookup l with
        | none => simp only [Res.bind]; rw [hd st hi]; rfl
        | some o =>
          cases o with
          | target t =>
            simp only [Res.bind]
            rw [hd]
            · rfl
            · exact hi
          | source t =>
            simp only [Res.bind]
            rw [hd]
            · rfl
            · exact hi
          | _ => simp only [Res.bind]; rw [hd st hi]; rfl
      · rw [if_neg h6, if_neg h6]
        simp only [Res.bind]
        rw [ih st s' (by omega) hi]

theorem inputLoop_piped : ∀ (fuel : Nat) (st : ConvState) (s : InStream), s.lines.length < fuel →
    st.interactive = false → st.inputLoop fuel s = piped st s.lines := by
  intro fuel
  induction fuel with
  | zero => intro st s h; omega
  | succ n ih =>
    intro st s h hi
    unfold ConvState.inputLoop
    have hn := nextLine_lines s
    cases hs : s.nextLine with
    | none => rw [hs] at hn; simp only at hn; rw [hn]; rfl
    | some p =>
      obtain ⟨l, s'⟩ := p
      rw [hs] at hn
      simp only at hn ⊢
      rw [hn] at h ⊢
      simp only [List.length_cons] at h
      unfold piped
      simp only [hi, Bool.false_eq_true, if_false]
      rw [ih st s' (by omega) hi]

theorem getlines_length (d : UInt8) (t : Str) : ∀ cur : Option Str,
    (getlines d t cur).length ≤ t.length + if cur = none then 0 else 1 := by
  induction t with
  | nil => intro cur; cases cur <;> simp [getlines]
  | cons b r ih =>
    intro cur
    by_cases hb : b = d
    · have := ih none
      simp only [if_true] at this
      cases cur <;> simp only [getlines, hb, if_true, List.length_cons] <;> omega
    · have h := fun c => ih (some c)
      simp only [reduceCtorEq, if_false] at h
      cases cur with
      | none =>
        have := h ([] ++ [b])
        simp only [getlines, if_neg hb, List.length_cons, if_true]; omega
      | some c =>
        have := h (c ++ [b])
        simp only [getlines, if_neg hb, List.length_cons, reduceCtorEq, if_false]; omega

/-- In interactive mode the program shows its options and then answers line by line. -/
theorem C87_dialogue (st : ConvState) (h : st.interactive = true) (text : Str) : st.getInput text =
    (dialogue st false (fields 0x0a text)).bind fun r => .ok (st.options :: r.1, r.2) := by
  unfold ConvState.getInput
  have hl : (InStream.lines ⟨text, true⟩).length < text.length + 1 := by
    have := getlines_length 0x0a text none
    simp only [if_true] at this
    show (getlines 0x0a text none).length < _
    omega
  rw [inputLoop_dialogue _ st _ hl h, h]
  rfl

/-- Without interactive mode each line up to a line "q" is converted; with `-n` the conversions follow each
other without newlines. -/
theorem C87_piped (st : ConvState) (h : st.interactive = false) (text : Str) :
    st.getInput text = piped st (fields 0x0a text) := by
  unfold ConvState.getInput
  have hl : (InStream.lines ⟨text, true⟩).length < text.length + 1 := by
    have := getlines_length 0x0a text none
    simp only [if_true] at this
    show (getlines 0x0a text none).length < _
    omega
  rw [inputLoop_piped _ st _ hl h, h]
  show ((piped st (fields 0x0a text)).bind fun r => _) = _
  cases piped st (fields 0x0a text) <;> rfl

example : ({ interactive := true } : ConvState).getInput (u8!"f\nx\nr\n-k\na i\nq\nb") =
    .ok ([.options none .hiragana .none, .options none .hiragana { ConvertFlags.none with removeSpaces := true },
      .options none .katakana { ConvertFlags.none with removeSpaces := true }, .text (u8!"アイ\n")], true) := by
  decide +kernel
example : ({ suppressNewLine := true } : ConvState).getInput (u8!"a\ni\nq\nb") =
    .ok ([.text (u8!"あ"), .text (u8!"い")], true) := by
  decide +kernel

/-- With `-n` no newline is written between the conversions of the lines of the input. -/
theorem C86_input_partial (st : ConvState) (h : st.interactive = false) (hn : st.suppressNewLine = true)
    (text : Str) (evs : List ConvEvent) (e : Bool) (hr : st.getInput text = .ok (evs, e)) :
    conversions st ((fields 0x0a text).takeWhile (· ≠ u8!"q")) = .ok (evs.map fun
      | .text s => s
      | _ => []) := by
  rw [C87_piped st h] at hr
  generalize fields 0x0a text = ls at hr
  induction ls generalizing evs e with
  | nil => cases hr; rfl
  | cons l r ih =>
    unfold piped at hr
    by_cases hq : l = u8!"q"
    · rw [if_pos hq] at hr; cases hr
      simp [hq, conversions]
    · rw [if_neg hq] at hr
      rw [List.takeWhile_cons, if_pos (by simpa using hq)]
      unfold conversions
      cases hc : st.convert l with
      | throw e => rw [hc] at hr; cases hr
      | ub => rw [hc] at hr; cases hr
      | ok c =>
        rw [hc] at hr
        cases hp : piped st r with
        | throw e => rw [hp] at hr; cases hr
        | ub => rw [hp] at hr; cases hr
        | ok o =>
          obtain ⟨evs', e'⟩ := o
          rw [hp] at hr
          simp only [Res.bind, hn, if_true, List.append_nil, Res.ok.injEq, Prod.mk.injEq] at hr
          obtain ⟨h1, h2⟩ := hr
          subst h1
          simp only [Res.bind, ih evs' e' hp, List.map_cons]

end KT
