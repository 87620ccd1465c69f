import Verif.Props.QuizLauncher
import Verif.Props.Kanji
import Verif.Props.Choice
/-!
# What the choices made at the prompts mean (C67), which names and frequencies order kanji (C43) and which links
share readings (C48)

Models: `Verif/Model/QuizLauncher.lean`, `Verif/Model/Kanji.lean`.
-/
namespace KT
open Spec

/-- The letters of the prompts for mode and order are for these modes and orders; after them the quiz type is asked
unless given, then the list unless given. -/
theorem C67_choices (m o : UInt8) (mode : ProgramMode) (order : QuestionOrder)
    (hm : (m, mode) ∈ [(0x72, ProgramMode.review), (0x74, ProgramMode.quiz)])
    (ho : (o, order) ∈ [(0x62, QuestionOrder.fromBeginning), (0x65, QuestionOrder.fromEnd), (0x72, QuestionOrder.random)]) :
    (∀ qList, Launcher.start {} none qList [m, o] = .waiting .type ⟨mode, order⟩) ∧
    (∀ t, t ≠ quitOption → Launcher.start {} (some t) none [m, o] = .waiting .list ⟨mode, order⟩) ∧
    (∀ t c, Launcher.start {} (some t) (some c) [m, o] = .returned {} [.mode, .order]) ∧
    (∀ qList, Launcher.start {} (some quitOption) qList [m, o] = .returned {} [.mode, .order]) := by
  simp only [List.mem_cons, Prod.mk.injEq, List.not_mem_nil, or_false] at hm ho
  rcases hm with ⟨rfl, rfl⟩ | ⟨rfl, rfl⟩ <;> rcases ho with ⟨rfl, rfl⟩ | ⟨rfl, rfl⟩ | ⟨rfl, rfl⟩ <;>
    refine ⟨fun qList => rfl, fun t ht => ?_, fun t c => ?_, fun qList => ?_⟩ <;>
    simp [Launcher.start, startOrder, startType, startList, quitOption] <;>
    (first | exact ht | decide | skip)

/-- Of kanji with the same strokes, those with a frequency come before those without one. -/
theorem C43_frequency (k x : Kanji) (hs : k.strokes = x.strokes) (hk : k.frequency ≠ 0) (hk' : k.frequency ≠ 65535)
    (hx : x.frequency = 0) : k.orderByStrokes x = true ∧ x.orderByStrokes k = false := by
  have h1 : k.frequencyOrMax < x.frequencyOrMax := by
    unfold Kanji.frequencyOrMax
    rw [if_pos hk, if_neg (by simpa using hx), UInt16.lt_iff_toNat_lt]
    have h3 := k.frequency.toNat_lt
    have h2 : k.frequency.toNat ≠ 65535 := by
      intro h; apply hk'; apply UInt16.toNat_inj.1; rw [h]; rfl
    have h4 : (65535 : UInt16).toNat = 65535 := rfl
    omega
  have h := (C42_strokes).asymm k x
  have h2 : k.orderByStrokes x = true := by simp [Kanji.orderByStrokes, hs, h1]
  exact ⟨h2, by cases hh : x.orderByStrokes k <;> simp_all⟩

/-- A kanji with a variation selector is ordered as its compatibility kanji. -/
theorem C43_compatibility (k x : Kanji) (c : Str) (h : k.compatName = some c) :
    k.orderByStrokes x = Kanji.orderByStrokes { k with name := c, compatName := none } x ∧
    x.orderByStrokes k = Kanji.orderByStrokes x { k with name := c, compatName := none } := by
  simp [Kanji.orderByStrokes, Kanji.compatibilityName, Kanji.frequencyOrMax, h]

/-- The links that share readings are those of the types with `R`. -/
theorem C48_sharedReadings (c : KanjiCtx) (t : KanjiType) (name : Str) (u : Ucd) (kyu : Option KenteiKyu) (n : UInt16)
    (k : Kanji) (h : Kanji.makeOther c t name (some u) kyu n = .ok k) :
    k.linkedReadings = true ↔
      u.linkType ∈ [.compatibilityR, .definitionR, .jinmeiR, .semanticR, .simplifiedR, .traditionalR] := by
  have : k.linkedReadings = u.linkedReadings := by
    simp only [Kanji.makeOther] at h
    obtain ⟨r, -, h⟩ := Res.bind_eq_ok h
    obtain ⟨_, _, h⟩ := Res.bind_eq_ok h; cases h
    rfl
  rw [this]
  unfold Ucd.linkedReadings
  cases u.linkType <;> decide

/-- A kanji that isn't in the UCD file is reported; otherwise only the lookup of the radical can fail, if the name is one
character (see C170). -/
theorem C48_unknown (c : KanjiCtx) (t : KanjiType) (name : Str) (ucd : Option Ucd) (kyu : Option KenteiKyu) (n : UInt16) :
    (ucd = none → Kanji.makeOther c t name ucd kyu n = .throw .domain) ∧
    (∀ u r, ucd = some u → c.ucdRadical u = .ok r → utf8Size name = some 1 → ∃ k, Kanji.makeOther c t name ucd kyu n = .ok k ∧
      k.name = name ∧ k.type = t ∧ k.radicalName = r.1 ∧ k.radicalNumber = r.2 ∧ k.strokes = u.strokes ∧
      k.frequency = n ∧ k.kyu = kyu) := by
  refine ⟨?_, ?_⟩
  · rintro rfl; rfl
  · rintro u r rfl hr hn
    simp only [Kanji.makeOther, Kanji.construct, checkName, if_pos hn, hr, Res.bind]
    exact ⟨_, rfl, rfl, rfl, rfl, rfl, rfl, rfl, rfl⟩

/-- The compatibility name is the name of the entry found when that is another one. -/
theorem C48_compatibility (c : KanjiCtx) (name x : Str) :
    c.compatName name = some x ↔ ∃ u, c.findUcd name = some u ∧ u.name = x ∧ x ≠ name := by
  unfold KanjiCtx.compatName
  cases h : c.findUcd name with
  | none => simp
  | some u =>
    by_cases hu : u.name = name
    · simp [hu]; intro h1; exact h1.symm
    · simp [hu]
      intro h1 h2; exact hu (h1.trans h2)

/-- The names of grades, levels and kyus. -/
theorem C73_names :
    [KanjiGrade.g1, .g2, .g3, .g4, .g5, .g6].map KanjiGrade.toString = (List.range 6).map (fun n => u8!"G" ++ toDec (n + 1)) ∧
    KanjiGrade.toString .s = u8!"S" ∧
    [JlptLevel.n1, .n2, .n3, .n4, .n5].map JlptLevel.toString = (List.range 5).map (fun n => u8!"N" ++ toDec (n + 1)) ∧
    [KenteiKyu.k1, .k2, .k3, .k4, .k5, .k6, .k7, .k8, .k9, .k10].map KenteiKyu.toString =
      (List.range 10).map (fun n => u8!"K" ++ toDec (n + 1)) ∧
    [KenteiKyu.kj1, .kj2].map KenteiKyu.toString = (List.range 2).map (fun n => u8!"KJ" ++ toDec (n + 1)) := by
  decide

/-- Choices have to be printable Ascii characters: the blank and those up to `~`. -/
theorem C34_printable (quit : Quit) (useQuit : Bool) (choices : Choices) (dflt : Option UInt8)
    (h : Acceptable quit useQuit choices dflt) :
    ∀ p ∈ offered quit useQuit choices, 32 ≤ p.1.toNat ∧ p.1.toNat ≤ 126 := by
  intro p hp
  have := h.print p hp
  simp only [isPrintable, Bool.not_eq_true', Bool.or_eq_false_iff, decide_eq_false_iff_not, UInt8.not_lt, gt_iff_lt,
    UInt8.le_iff_toNat_le] at this
  exact this

/-- All printable Ascii characters are accepted. -/
theorem C34_allPrintable (c : UInt8) (d : Str) (h : 32 ≤ c.toNat ∧ c.toNat ≤ 126) :
    Acceptable none false [(c, d)] none := by
  refine ⟨(by intro q d h; cases h), (by simp [offered]), ?_, (by intro d h; cases h)⟩
  intro p hp
  simp only [offered, List.mem_singleton] at hp
  have : p.1 = c := by simpa using congrArg Prod.fst hp
  simp only [this, isPrintable, Bool.not_eq_true', Bool.or_eq_false_iff, decide_eq_false_iff_not, UInt8.not_lt,
    gt_iff_lt, UInt8.le_iff_toNat_le]
  exact h

end KT
