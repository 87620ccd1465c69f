import Verif.Lemmas.Order
/-!
# C42, C43, C46, C48, C73, C74: kanji

Specification: `Verif/Spec/Order.lean`.  Model: `Verif/Model/Kanji.lean`.
-/
namespace KT
open Spec

/-! ## C42: kanji orderings are strict weak orders -/

theorem C42_strokes : StrictWeakOrder Kanji.orderByStrokes :=
  swo_lex Kanji.strokes strokes_total
    (swo_lex Kanji.frequencyOrMax u16_total (swo_key (fun k : Kanji => toUnicodeStr k.compatibilityName) strLt_total))

theorem C42_qualifiedName : StrictWeakOrder Kanji.orderByQualifiedName :=
  swo_lex Kanji.qualifiedNameRank nat_total C42_strokes

/-- The orders compare by rank, strokes, frequency and text, in this order: kanji that are not comparable agree in
all of them. -/
theorem C42_ties (k x : Kanji) :
    (k.orderByQualifiedName x = false ∧ x.orderByQualifiedName k = false) ↔
    (k.qualifiedNameRank = x.qualifiedNameRank ∧ k.strokes = x.strokes ∧ k.frequencyOrMax = x.frequencyOrMax ∧
      toUnicodeStr k.compatibilityName = toUnicodeStr x.compatibilityName) := by
  constructor
  · rintro ⟨h1, h2⟩
    simp only [Kanji.orderByQualifiedName, Kanji.orderByStrokes, Bool.or_eq_false_iff, decide_eq_false_iff_not] at h1 h2
    have e1 : k.qualifiedNameRank = x.qualifiedNameRank := by omega
    simp only [e1, BEq.rfl, Bool.true_and, Bool.or_eq_false_iff] at h1 h2
    have e2 : k.strokes = x.strokes := by
      rcases strokes_total.total k.strokes x.strokes with g | g | g
      · rw [h1.2.1] at g; cases g
      · exact g
      · rw [h2.2.1] at g; cases g
    simp only [e2, BEq.rfl, Bool.true_and, Bool.or_eq_false_iff, decide_eq_false_iff_not] at h1 h2
    have e3 : k.frequencyOrMax = x.frequencyOrMax := by
      have a := h1.2.2.1
      have b := h2.2.2.1
      rw [UInt16.lt_iff_toNat_lt] at a b
      exact UInt16.toNat_inj.mp (by omega)
    simp only [e3, BEq.rfl, Bool.true_and] at h1 h2
    refine ⟨e1, e2, e3, ?_⟩
    rcases strLt_total.total (toUnicodeStr k.compatibilityName) (toUnicodeStr x.compatibilityName) with g | g | g
    · rw [h1.2.2.2] at g; cases g
    · exact g
    · rw [h2.2.2.2] at g; cases g
  · rintro ⟨e1, e2, e3, e4⟩
    simp only [Kanji.orderByQualifiedName, Kanji.orderByStrokes, e1, e2, e3, e4, strokes_total.irrefl,
      strLt_total.irrefl]
    simp

/-- Rank is compared first, then strokes, then frequency. -/
theorem C42_priority (k x : Kanji) :
    (k.qualifiedNameRank < x.qualifiedNameRank → k.orderByQualifiedName x = true) ∧
    (k.strokes.value < x.strokes.value → k.orderByStrokes x = true) ∧
    (k.strokes = x.strokes → k.frequencyOrMax < x.frequencyOrMax → k.orderByStrokes x = true) := by
  refine ⟨fun h => ?_, fun h => ?_, fun h1 h2 => ?_⟩
  · simp [Kanji.orderByQualifiedName, h]
  · rw [Kanji.orderByStrokes, strokes_cmp_lt]; simp [h]
  · simp [Kanji.orderByStrokes, h1, h2]

/-! ## C43: ties are broken by Unicode order -/

/-- Kanji that agree in strokes and frequency are ordered by the code points of their names. -/
def C43_statement : Prop :=
  ∀ k x : Kanji, k.strokes = x.strokes → k.frequencyOrMax = x.frequencyOrMax →
    ∀ c d, decode k.compatibilityName = [c] → decode x.compatibilityName = [d] → (k.orderByStrokes x = true ↔ c < d)

/-- 𠀋 (U+2000B) is put before 三 (U+4E09) though its code point is larger: the texts "2000B" and "4E09" are
compared. -/
theorem C43_violated : ¬ C43_statement := by
  intro h
  have := h
    ⟨.ucd, u8!"𠀋", none, [], 1, ⟨3, 0⟩, none, 0, none, none, none, false, [], none, [], [], none⟩
    ⟨.ucd, u8!"三", none, [], 1, ⟨3, 0⟩, none, 0, none, none, none, false, [], none, [], [], none⟩ rfl rfl
    0x2000b 0x4e09 (by decide +kernel) (by decide +kernel)
  have h2 : Kanji.orderByStrokes
    ⟨.ucd, u8!"𠀋", none, [], 1, ⟨3, 0⟩, none, 0, none, none, none, false, [], none, [], [], none⟩
    ⟨.ucd, u8!"三", none, [], 1, ⟨3, 0⟩, none, 0, none, none, none, false, [], none, [], [], none⟩ = true := by decide +kernel
  exact absurd (this.mp h2) (by decide)

/-- It holds for names of any number of code points as long as all of them have four digits (up to U+FFFF) or all
have five (U+10000 to U+FFFFF). -/
theorem C43_partial (k x : Kanji) (hs : k.strokes = x.strokes) (hf : k.frequencyOrMax = x.frequencyOrMax)
    (hc : (∀ c ∈ decode k.compatibilityName ++ decode x.compatibilityName, c < 0x10000) ∨
      (∀ c ∈ decode k.compatibilityName ++ decode x.compatibilityName, 0x10000 ≤ c ∧ c < 0x100000)) :
    k.orderByStrokes x = codesLt (decode k.compatibilityName) (decode x.compatibilityName) := by
  have hn : ∃ n, ∀ c ∈ decode k.compatibilityName ++ decode x.compatibilityName, (toUnicode c).length = n := by
    rcases hc with h | h
    · exact ⟨4, fun c hc => toUnicode_length c (h c hc)⟩
    · exact ⟨5, fun c hc => toUnicode_length5 c (h c hc).1 (h c hc).2⟩
  obtain ⟨n, hn⟩ := hn
  rw [Kanji.orderByStrokes, hs, hf, strokes_total.irrefl]
  simp only [BEq.rfl, Bool.true_and, Bool.false_or, UInt16.lt_irrefl, decide_false, toUnicodeStr, toUnicodeCodes_eq]
  exact codesText_lt n _ _ (fun c h => hn c (List.mem_append_left _ h)) (fun c h => hn c (List.mem_append_right _ h))

example : Kanji.orderByStrokes
    ⟨.ucd, u8!"一", none, [], 1, ⟨3, 0⟩, none, 0, none, none, none, false, [], none, [], [], none⟩
    ⟨.ucd, u8!"三", none, [], 1, ⟨3, 0⟩, none, 0, none, none, none, false, [], none, [], [], none⟩ = true := by decide +kernel

/-! ## C46: UCD source letters are preserved -/

/-- The letters that may be given, in the order in which they're printed. -/
def validSources : Str := u8!"GHJKTV"

theorem sourceLetters_lookup (i : UInt8) : (i ∈ validSources ↔ (sourceLetters.lookup i).isSome) ∧
    ∀ b, sourceLetters.lookup i = some b → (i, b) ∈ sourceLetters := by
  constructor
  · show i ∈ [0x47, 0x48, 0x4a, 0x4b, 0x54, 0x56] ↔ _
    simp only [sourceLetters, List.lookup, List.mem_cons, List.not_mem_nil, or_false]
    repeat' split
    all_goals simp_all
  · intro b h
    simp only [sourceLetters, List.lookup] at h
    repeat' split at h
    all_goals simp_all [sourceLetters]

theorem u8_or_and (a b x : UInt8) : (a ||| b) &&& x = (a &&& x) ||| (b &&& x) := by
  apply UInt8.toBitVec_inj.mp
  simp only [UInt8.toBitVec_and, UInt8.toBitVec_or]
  exact BitVec.and_or_distrib_right

theorem filterMap_ext {α β : Type} (l : List α) (f g : α → Option β) (h : ∀ x ∈ l, f x = g x) :
    l.filterMap f = l.filterMap g := by
  induction l with
  | nil => rfl
  | cons a l ih =>
    rw [List.filterMap_cons, List.filterMap_cons, h a (by simp), ih fun x hx => h x (by simp [hx])]

theorem sourcesLoop_spec (s : Str) (r : UInt8) :
    match Ucd.sourcesLoop s r with
    | .ok r' => (∀ c ∈ s, c ∈ validSources) ∧ s.Nodup ∧ (∀ p ∈ sourceLetters, r &&& p.2 ≠ 0 → p.1 ∉ s) ∧
        (∀ p ∈ sourceLetters, r' &&& p.2 ≠ 0 ↔ (r &&& p.2 ≠ 0 ∨ p.1 ∈ s)) ∧
        r' &&& 64 = r &&& 64 ∧ r' &&& 128 = r &&& 128
    | .throw e => e = .domain ∧ ¬ ((∀ c ∈ s, c ∈ validSources) ∧ s.Nodup ∧
        (∀ p ∈ sourceLetters, r &&& p.2 ≠ 0 → p.1 ∉ s))
    | .ub => False := by
  induction s generalizing r with
  | nil => simp [Ucd.sourcesLoop]
  | cons i s ih =>
    obtain ⟨hv, hm⟩ := sourceLetters_lookup i
    cases hl : sourceLetters.lookup i with
    | none =>
      simp only [Ucd.sourcesLoop, hl]
      refine ⟨trivial, fun h => ?_⟩
      have := hv.mp (h.1 i (by simp))
      rw [hl] at this; cases this
    | some bit =>
      have hb := hm bit hl
      have hval : i ∈ validSources := hv.mpr (by rw [hl]; rfl)
      by_cases hd : r &&& bit ≠ 0
      · simp only [Ucd.sourcesLoop, hl, if_pos hd]
        exact ⟨trivial, fun h => h.2.2 (i, bit) hb hd (by simp)⟩
      · simp only [Ucd.sourcesLoop, hl, if_neg hd]
        have or_and := u8_or_and r bit
        have bits : ∀ p ∈ sourceLetters, ((bit &&& p.2 ≠ 0) ↔ p.1 = i) := by
          have : ∀ q ∈ sourceLetters, ∀ p ∈ sourceLetters, ((q.2 &&& p.2 ≠ 0) ↔ p.1 = q.1) := by decide
          exact this (i, bit) hb
        have high : bit &&& 64 = 0 ∧ bit &&& 128 = 0 := by
          have : ∀ q ∈ sourceLetters, q.2 &&& 64 = 0 ∧ q.2 &&& 128 = 0 := by decide
          exact this (i, bit) hb
        have next : ∀ p ∈ sourceLetters, ((r ||| bit) &&& p.2 ≠ 0 ↔ (r &&& p.2 ≠ 0 ∨ p.1 = i)) := by
          intro p hp
          rw [or_and, ← bits p hp]
          simp only [ne_eq, UInt8.or_eq_zero_iff]
          exact Classical.not_and_iff_not_or_not
        have := ih (r ||| bit)
        cases hr : Ucd.sourcesLoop s (r ||| bit) with
        | ub => rw [hr] at this; exact this
        | ok r' =>
          rw [hr] at this
          obtain ⟨h1, h2, h3, h4, h5, h6⟩ := this
          have his : i ∉ s := h3 (i, bit) hb ((next _ hb).mpr (.inr rfl))
          refine ⟨?_, ?_, ?_, ?_, ?_, ?_⟩
          · intro c hc
            rcases List.mem_cons.mp hc with rfl | hc
            · exact hval
            · exact h1 c hc
          · exact List.nodup_cons.mpr ⟨his, h2⟩
          · intro p hp hne hmem
            rcases List.mem_cons.mp hmem with e | hmem
            · have : p = (i, bit) := by
                have : ∀ q ∈ sourceLetters, ∀ p ∈ sourceLetters, p.1 = q.1 → p = q := by decide
                exact this (i, bit) hb p hp e
              subst this; exact hd hne
            · exact h3 p hp ((next p hp).mpr (.inl hne)) hmem
          · intro p hp
            rw [h4 p hp, next p hp, List.mem_cons, or_assoc]
          · rw [h5, or_and, high.1, UInt8.or_zero]
          · rw [h6, or_and, high.2, UInt8.or_zero]
        | throw e =>
          rw [hr] at this
          refine ⟨this.1, fun hc => this.2 ⟨fun c h => hc.1 c (by simp [h]), (List.nodup_cons.mp hc.2.1).2, ?_⟩⟩
          intro p hp hne hmem
          rcases (next p hp).mp hne with g | g
          · exact hc.2.2 p hp g (by simp [hmem])
          · rw [g] at hmem; exact (List.nodup_cons.mp hc.2.1).1 hmem

theorem nodup_length (s t : Str) (h : s.Nodup) (hs : ∀ c ∈ s, c ∈ t) : s.length ≤ t.length := by
  induction s generalizing t with
  | nil => simp
  | cons a s ih =>
    have ha : a ∈ t := hs a (by simp)
    have := ih (t.erase a) (List.nodup_cons.mp h).2 (fun c hc => by
      have hne : c ≠ a := fun e => (List.nodup_cons.mp h).1 (e ▸ hc)
      exact (List.mem_erase_of_ne hne).mpr (hs c (by simp [hc])))
    rw [List.length_erase_of_mem ha] at this
    have : 0 < t.length := List.length_pos_of_mem ha
    simp; omega

/-- Exactly the texts of different valid letters are accepted, others give a `DomainError`. -/
theorem C46_accepted (s : Str) (joyo jinmei : Bool) :
    ((∀ c ∈ s, c ∈ validSources) ∧ s.Nodup → ∃ r, Ucd.getSources s joyo jinmei = .ok r) ∧
    (¬ ((∀ c ∈ s, c ∈ validSources) ∧ s.Nodup) → Ucd.getSources s joyo jinmei = .throw .domain) := by
  have h0 : ∀ p ∈ sourceLetters, (0 : UInt8) &&& p.2 ≠ 0 → p.1 ∉ s := by
    intro p hp h; rw [UInt8.zero_and] at h; exact absurd rfl h
  have spec := sourcesLoop_spec s 0
  unfold Ucd.getSources
  constructor
  · intro h
    have hl : ¬ s.length > sourceLetters.length := by
      have := nodup_length s validSources h.2 h.1
      have e : validSources.length = 6 := by decide
      have e2 : sourceLetters.length = 6 := by decide
      omega
    rw [if_neg hl]
    cases hr : Ucd.sourcesLoop s 0 with
    | ub => rw [hr] at spec; exact spec.elim
    | ok r => exact ⟨_, rfl⟩
    | throw e => rw [hr] at spec; exact absurd ⟨h.1, h.2, h0⟩ spec.2
  · intro h
    split
    · rfl
    · cases hr : Ucd.sourcesLoop s 0 with
      | ub => rw [hr] at spec; exact spec.elim
      | ok r => rw [hr] at spec; exact absurd ⟨spec.1, spec.2.1⟩ h
      | throw e => rw [hr] at spec; rw [spec.1]; rfl

/-- The letters printed are those given, in alphabetical order, and the two flags are kept. -/
theorem C46_printed (s : Str) (joyo jinmei : Bool) (u : Ucd) (h : Ucd.getSources s joyo jinmei = .ok u.sources) :
    u.sourcesText = validSources.filter (· ∈ s) ∧ u.isJoyo = joyo ∧ u.isJinmei = jinmei := by
  have spec := sourcesLoop_spec s 0
  unfold Ucd.getSources at h
  split at h
  · cases h
  · cases hr : Ucd.sourcesLoop s 0 with
    | ub => rw [hr] at spec; exact spec.elim
    | throw e => rw [hr] at h; cases h
    | ok r =>
      rw [hr] at h spec
      obtain ⟨_, _, _, h4, h5, h6⟩ := spec
      simp only [Res.bind, Res.ok.injEq] at h
      rw [UInt8.zero_and] at h5 h6
      have or_and := u8_or_and
      have letters : ∀ p ∈ sourceLetters, (u.sources &&& p.2 ≠ 0 ↔ p.1 ∈ s) := by
        intro p hp
        have hl : (64 : UInt8) &&& p.2 = 0 ∧ (128 : UInt8) &&& p.2 = 0 := by
          have : ∀ q ∈ sourceLetters, (64 : UInt8) &&& q.2 = 0 ∧ (128 : UInt8) &&& q.2 = 0 := by decide
          exact this p hp
        have := h4 p hp
        rw [UInt8.zero_and] at this
        rw [← h]
        cases joyo <;> cases jinmei <;>
          simpa [or_and, hl.1, hl.2] using this
      have n1 : (64 : UInt8) &&& 64 = 64 ∧ (128 : UInt8) &&& 64 = 0 ∧ (64 : UInt8) &&& 128 = 0 ∧
        (128 : UInt8) &&& 128 = 128 := by decide
      refine ⟨?_, ?_, ?_⟩
      · have e : validSources = sourceLetters.map Prod.fst := by decide
        rw [e, Ucd.sourcesText, List.filter_map, ← List.filterMap_eq_map, List.filterMap_filter]
        apply filterMap_ext
        intro p hp
        have := letters p hp
        by_cases hc : p.1 ∈ s
        · rw [if_pos (this.mpr hc)]; simp [hc]
        · rw [if_neg (fun x => hc (this.mp x))]; simp [hc]
      · rw [Ucd.isJoyo, ← h]
        cases joyo <;> cases jinmei <;> simp [or_and, n1, h5]
      · rw [Ucd.isJinmei, ← h]
        cases joyo <;> cases jinmei <;> simp [or_and, n1, h6]

example : Ucd.getSources (u8!"TG") true false = .ok 81 ∧ Ucd.getSources (u8!"GG") true false = .throw .domain ∧
    Ucd.getSources (u8!"X") true false = .throw .domain := by decide
example : (Ucd.mk (u8!"一") 81 .none [] ⟨1, 0⟩).sourcesText = u8!"GT" := by decide

/-! ## C48: old and new names are exclusive -/

/-- The kanji that the constructors of the derived classes can make. -/
inductive Kanji.Constructed (c : KanjiCtx) : Kanji → Prop
  | jouyou (f k) : Kanji.makeJouyou c f = .ok k → Constructed c k
  | jinmei (f k) : Kanji.makeJinmei c f = .ok k → Constructed c k
  | extra (f k) : Kanji.makeExtra c f = .ok k → Constructed c k
  | linked (name link isOld k) : Kanji.makeLinked c name link isOld = .ok k → Constructed c k
  | frequency (name n k) : Kanji.makeFrequency c name n = .ok k → Constructed c k
  | kentei (name kyu k) : Kanji.makeKentei c name kyu = .ok k → Constructed c k
  | ucd (u k) : Kanji.makeUcd c u = .ok k → Constructed c k

theorem Res.bind_eq_ok {α β : Type} {x : Res α} {f : α → Res β} {b : β} (h : x.bind f = .ok b) :
    ∃ a, x = .ok a ∧ f a = .ok b := by
  cases x with
  | ok a => exact ⟨a, rfl, h⟩
  | throw e => cases h
  | ub => cases h

theorem linkNames_some (u : Ucd) : linkNames (some u) = u.links := by
  unfold linkNames Ucd.hasLinks
  by_cases hl : u.links = [] <;> simp [hl]

/-- Names of a kanji made by one of the classes derived from `OtherKanji`. -/
theorem C48_other (c : KanjiCtx) (t : KanjiType) (name : Str) (ucd : Option Ucd) (kyu : Option KenteiKyu) (n : UInt16)
    (k : Kanji) (h : Kanji.makeOther c t name ucd kyu n = .ok k) :
    ∃ u, ucd = some u ∧
      (u.hasTraditionalLinks = true → k.oldNames = u.links ∧ k.newName = none) ∧
      (u.hasTraditionalLinks = false → k.oldNames = [] ∧ k.newName = u.links.head?) := by
  unfold Kanji.makeOther at h
  cases ucd with
  | none => cases h
  | some u =>
    obtain ⟨r, _, h⟩ := Res.bind_eq_ok h
    obtain ⟨_, _, h⟩ := Res.bind_eq_ok h; cases h
    refine ⟨u, rfl, fun ht => ?_, fun ht => ?_⟩
    · simp [ctorTraditional, ht, linkNames_some]
    · simp only [ctorTraditional, ht, linkNames_some]
      by_cases hl : u.links = [] <;> simp [hl]

/-- No kanji has both a new name and old names. -/
theorem C48_exclusive (c : KanjiCtx) (k : Kanji) (h : Kanji.Constructed c k) : k.newName = none ∨ k.oldNames = [] := by
  have other : ∀ c t name ucd kyu n, Kanji.makeOther c t name ucd kyu n = .ok k → k.newName = none ∨ k.oldNames = [] := by
    intro c t name ucd kyu n h
    obtain ⟨u, _, h1, h2⟩ := C48_other c t name ucd kyu n k h
    cases hu : u.hasTraditionalLinks with
    | true => exact .inl (h1 hu).2
    | false => exact .inr (h2 hu).1
  cases h with
  | jouyou f _ h =>
    obtain ⟨s, _, h⟩ := Res.bind_eq_ok h
    obtain ⟨r, _, h⟩ := Res.bind_eq_ok h
    obtain ⟨_, _, h⟩ := Res.bind_eq_ok h; cases h; exact .inl rfl
  | jinmei f _ h =>
    obtain ⟨s, _, h⟩ := Res.bind_eq_ok h
    split at h
    · cases h
    · obtain ⟨_, _, h⟩ := Res.bind_eq_ok h; cases h; exact .inl rfl
  | extra f _ h =>
    obtain ⟨s, _, h⟩ := Res.bind_eq_ok h
    obtain ⟨r, _, h⟩ := Res.bind_eq_ok h
    obtain ⟨_, _, h⟩ := Res.bind_eq_ok h; cases h
    cases hu : c.findUcd f.name with
    | none => exact .inl rfl
    | some u =>
      simp only [ctorTraditional, ctorNonTraditional]
      rcases Bool.eq_false_or_eq_true u.hasTraditionalLinks with ht | ht
      · have : u.hasNonTraditionalLinks = false := by
          unfold Ucd.hasTraditionalLinks at ht
          unfold Ucd.hasNonTraditionalLinks
          rw [Bool.or_eq_true, beq_iff_eq, beq_iff_eq] at ht
          rcases ht with ht | ht <;> simp [ht]
        exact .inl (by simp [this])
      · exact .inr (by simp [ht])
  | linked name link isOld _ h =>
    unfold Kanji.makeLinked at h
    split at h
    · cases h
    · split at h
      · cases h
      · obtain ⟨r, _, h⟩ := Res.bind_eq_ok h
        obtain ⟨_, _, h⟩ := Res.bind_eq_ok h; cases h; exact .inr rfl
  | frequency name n _ h => exact other _ _ _ _ _ _ h
  | kentei name kyu _ h => exact other _ _ _ _ _ _ h
  | ucd u _ h => exact other _ _ _ _ _ _ h

/-- The new name of a linked kanji is the name of its link, which is a Jouyou kanji or, unless the linked kanji is
of type `LinkedOld`, a Jinmei kanji. -/
theorem C48_linked (c : KanjiCtx) (name : Str) (link : Kanji) (isOld : Bool) (k : Kanji)
    (h : Kanji.makeLinked c name link isOld = .ok k) :
    k.newName = some link.name ∧ k.name = name ∧
    (link.type = .jouyou ∨ (link.type = .jinmei ∧ k.type = .linkedJinmei)) := by
  unfold Kanji.makeLinked at h
  split at h
  · cases h
  · rename_i hg
    split at h
    · cases h
    · obtain ⟨r, _, h⟩ := Res.bind_eq_ok h
      obtain ⟨_, _, h⟩ := Res.bind_eq_ok h; cases h
      refine ⟨rfl, rfl, ?_⟩
      cases isOld with
      | true =>
        left
        apply Classical.byContradiction; intro hn
        exact hg ⟨hn, .inl rfl⟩
      | false =>
        by_cases h1 : link.type = .jouyou
        · exact .inl h1
        · right
          refine ⟨?_, rfl⟩
          apply Classical.byContradiction; intro hn
          exact hg ⟨h1, .inr hn⟩

/-- The assertion in `info` never fails. -/
theorem C48_info (c : KanjiCtx) (k : Kanji) (h : Kanji.Constructed c k) (f : InfoFields) : k.info f ≠ .ub := by
  unfold Kanji.info
  rcases C48_exclusive c k h with h | h
  · simp [h]
  · cases hn : k.newName <;> simp [h]

/-! ## C73: the description of a kanji lists the chosen fields -/

/-- Text joined by a separator. -/
def joinText (sep : Str) : List Str → Str
  | [] => []
  | [x] => x
  | x :: y :: r => x ++ sep ++ joinText sep (y :: r)

/-- Mark for readings taken from the link, after the first name. -/
def markFirst (linked : Bool) : List Str → List Str
  | [] => []
  | n :: r => (n ++ if linked then u8!"*" else []) :: r

/-- The parts of the description: the fields that were asked for and have a value. -/
def infoParts (k : Kanji) (f : InfoFields) : List Str :=
  let opt (b : Bool) (x : Option Str) : List Str := if b then x.toList else []
  opt f.radical (some (u8!"Rad " ++ k.radicalName ++ u8!"(" ++ toDec k.radicalNumber ++ u8!")")) ++
  opt f.strokes (some (u8!"Strokes " ++ toDec k.strokes.value.toNat)) ++
  opt f.pinyin k.pinyin ++
  opt f.grade (k.grade.map KanjiGrade.toString) ++
  opt f.level (k.level.map JlptLevel.toString) ++
  opt f.freq (if k.frequency = 0 then none else some (u8!"Frq " ++ toDec k.frequency.toNat)) ++
  opt f.new (k.newName.map fun n => u8!"New " ++ n ++ if k.linkedReadings then u8!"*" else []) ++
  opt f.old (if k.oldNames = [] then none
    else some (u8!"Old " ++ joinText (u8!"／") (markFirst k.linkedReadings k.oldNames))) ++
  opt f.kyu (k.kyu.map KenteiKyu.toString)

theorem joinText_append (sep : Str) (l : List Str) (x : Str) :
    joinText sep (l ++ [x]) = if l = [] then x else joinText sep l ++ sep ++ x := by
  induction l with
  | nil => rfl
  | cons a l ih =>
    cases l with
    | nil => rfl
    | cons b l =>
      show a ++ sep ++ joinText sep (b :: l ++ [x]) = _
      rw [ih]; simp [joinText]

theorem joinText_ne_nil (sep : Str) (l : List Str) (hl : l ≠ []) (h : ∀ x ∈ l, x ≠ []) : joinText sep l ≠ [] := by
  match l with
  | [] => exact absurd rfl hl
  | [x] => exact h x (by simp)
  | x :: y :: r =>
    have := h x (by simp)
    simp [joinText, this]

theorem infoAdd_join (l : List Str) (h : ∀ x ∈ l, x ≠ []) (x : Str) :
    infoAdd (joinText (u8!", ") l) x = joinText (u8!", ") (l ++ [x]) := by
  rw [joinText_append, infoAdd]
  cases l with
  | nil => rfl
  | cons a l =>
    have := joinText_ne_nil (u8!", ") (a :: l) (by simp) h
    have he : (joinText (u8!", ") (a :: l)).isEmpty = false := by
      cases hj : joinText (u8!", ") (a :: l) with
      | nil => exact absurd hj this
      | cons => rfl
    rw [he]; rfl

theorem oldNamesLoop_eq (linked : Bool) (ns : List Str) (s : Str) (hs : s ≠ []) :
    oldNamesLoop linked ns s = joinText (u8!"／") (s :: ns) := by
  induction ns generalizing s with
  | nil => rfl
  | cons n ns ih =>
    have he : s.isEmpty = false := by cases s with | nil => exact absurd rfl hs | cons => rfl
    rw [oldNamesLoop, he, if_neg (by simp), ih _ (by simp)]
    cases ns <;> simp [joinText]

/-- The description is the chosen parts separated by ", ".  A kanji has at most one of new and old names (C48), its
pinyin is not empty (it would not be set) and its old names are not empty. -/
theorem C73_info (k : Kanji) (f : InfoFields) (hx : k.newName = none ∨ k.oldNames = [])
    (hp : ∀ p, k.pinyin = some p → p ≠ []) (ho : ∀ n ∈ k.oldNames, n ≠ []) :
    k.info f = .ok (joinText (u8!", ") (infoParts k f)) := by
  -- adding an optional part
  have step : ∀ (l : List Str) (b : Bool) (x : Option Str), (∀ y ∈ l, y ≠ []) → (∀ y, x = some y → y ≠ []) →
      (∀ y ∈ l ++ (if b then x.toList else []), y ≠ []) ∧
      infoOpt b (joinText (u8!", ") l) x = joinText (u8!", ") (l ++ if b then x.toList else []) := by
    intro l b x hl hxx
    cases b with
    | false => cases x <;> simp [infoOpt] <;> exact hl
    | true =>
      cases x with
      | none => simp [infoOpt]; exact hl
      | some y =>
        refine ⟨?_, infoAdd_join l hl y⟩
        intro z hz
        rcases List.mem_append.mp hz with hz | hz
        · exact hl z hz
        · simp at hz; rw [hz]; exact hxx y rfl
  have hempty : ∀ y ∈ ([] : List Str), y ≠ [] := by simp
  have lit : ∀ (a : UInt8) (p q : Str), (a :: p) ++ q ≠ [] := by simp
  obtain ⟨n1, s1⟩ := step [] f.radical
    (some (u8!"Rad " ++ k.radicalName ++ u8!"(" ++ toDec k.radicalNumber ++ u8!")")) hempty (by
      rintro y h; cases h; simp)
  obtain ⟨n2, s2⟩ := step _ f.strokes (some (u8!"Strokes " ++ toDec k.strokes.value.toNat)) n1 (by
    rintro y h; cases h; simp)
  obtain ⟨n3, s3⟩ := step _ f.pinyin k.pinyin n2 hp
  obtain ⟨n4, s4⟩ := step _ f.grade (k.grade.map KanjiGrade.toString) n3 (by
    intro y h
    cases hg : k.grade with
    | none => rw [hg] at h; cases h
    | some g => rw [hg] at h; cases h; cases g <;> decide)
  obtain ⟨n5, s5⟩ := step _ f.level (k.level.map JlptLevel.toString) n4 (by
    intro y h
    cases hg : k.level with
    | none => rw [hg] at h; cases h
    | some g => rw [hg] at h; cases h; cases g <;> decide)
  obtain ⟨n6, s6⟩ := step _ f.freq (if k.frequency = 0 then none else some (u8!"Frq " ++ toDec k.frequency.toNat)) n5 (by
    intro y h
    split at h
    · cases h
    · cases h; simp)
  obtain ⟨n7, s7⟩ := step _ f.new (k.newName.map fun n => u8!"New " ++ n ++ if k.linkedReadings then u8!"*" else []) n6 (by
    intro y h
    cases hg : k.newName with
    | none => rw [hg] at h; cases h
    | some g => rw [hg] at h; cases h; simp)
  obtain ⟨n8, s8⟩ := step _ f.old (if k.oldNames = [] then none
    else some (u8!"Old " ++ joinText (u8!"／") (markFirst k.linkedReadings k.oldNames))) n7 (by
    intro y h
    split at h
    · cases h
    · cases h; simp)
  obtain ⟨n9, s9⟩ := step _ f.kyu (k.kyu.map KenteiKyu.toString) n8 (by
    intro y h
    cases hg : k.kyu with
    | none => rw [hg] at h; cases h
    | some g => rw [hg] at h; cases h; cases g <;> decide)
  have old : ¬ k.oldNames = [] → oldNamesLoop k.linkedReadings k.oldNames [] =
      joinText (u8!"／") (markFirst k.linkedReadings k.oldNames) := by
    intro hne
    cases hn : k.oldNames with
    | nil => exact absurd hn hne
    | cons n ns =>
      have : n ≠ [] := ho n (by rw [hn]; simp)
      show oldNamesLoop _ ns (n ++ _) = _
      rw [oldNamesLoop_eq _ _ _ (by simp [this])]; rfl
  have n0 : joinText (u8!", ") [] = [] := rfl
  simp only [n0] at s1
  refine Eq.trans ?_ (congrArg Res.ok s9)
  unfold Kanji.info
  have e6 : (if k.frequency ≠ 0 then some (u8!"Frq " ++ toDec k.frequency.toNat) else none : Option Str) =
      if k.frequency = 0 then none else some (u8!"Frq " ++ toDec k.frequency.toNat) := by
    by_cases hf : k.frequency = 0 <;> simp [hf]
  have e2 : k.strokes.toString false = toDec k.strokes.value.toNat := by simp [Strokes.toString]
  simp only [e2, s1, s2, s3, s4, s5, e6, s6]
  cases hn : k.newName with
  | some n =>
    have hold : k.oldNames = [] := by
      rcases hx with h | h
      · rw [h] at hn; cases hn
      · exact h
    rw [hn] at s7 s8
    simp only [hold, if_true, Option.map_some] at s7 s8 ⊢
    simp only [List.isEmpty_nil, if_true, s7]
    have : ∀ r, infoOpt f.old r none = r := fun _ => rfl
    rw [this] at s8
    rw [s8]
  | none =>
    rw [hn] at s7 s8
    simp only [Option.map_none] at s7 s8 ⊢
    have : ∀ r, infoOpt f.new r none = r := fun _ => rfl
    rw [this] at s7
    have e8 : (if k.oldNames.isEmpty = true then none
        else some (u8!"Old " ++ oldNamesLoop k.linkedReadings k.oldNames [])) =
        (if k.oldNames = [] then none
          else some (u8!"Old " ++ joinText (u8!"／") (markFirst k.linkedReadings k.oldNames))) := by
      by_cases ho : k.oldNames = []
      · simp [ho]
      · rw [old ho]; simp [ho]
    rw [← s8, ← s7, e8]

/-- For kanji that can be made. -/
theorem C73_constructed (c : KanjiCtx) (k : Kanji) (h : Kanji.Constructed c k) (f : InfoFields)
    (hp : ∀ p, k.pinyin = some p → p ≠ []) (ho : ∀ n ∈ k.oldNames, n ≠ []) :
    k.info f = .ok (joinText (u8!", ") (infoParts k f)) := C73_info k f (C48_exclusive c k h) hp ho

example : Kanji.info ⟨.jouyou, u8!"亜", none, u8!"二", 7, ⟨7, 0⟩, some (u8!"yà"), 1509, some .s, some .n1, some .kj2,
    false, [u8!"亞"], none, [], [], none⟩ {} =
    .ok (u8!"Rad 二(7), Strokes 7, yà, S, N1, Frq 1509, Old 亞, KJ2") := by decide +kernel
example : Kanji.info ⟨.linkedJinmei, u8!"亞", none, u8!"二", 7, ⟨8, 0⟩, none, 0, none, none, some .k1, true, [],
    some (u8!"亜"), [], [], none⟩ { radical := false } = .ok (u8!"Strokes 8, New 亜*, K1") := by decide +kernel

/-! ## C74: the suffix of the qualified name tells the group of the kanji -/

/-- The suffix is one character, given by the legend: `.` Jouyou, `'` JLPT, `"` frequency, `^` Jinmei, `~` linked
Jinmei, `%` linked old, `+` extra, `*` UCD, `#` Kentei level 1 and `@` other Kentei; a kanji of several groups has
the suffix of the first. -/
theorem C74_suffix (k : Kanji) : ∃ c : UInt8, k.qualifiedName = .ok (k.name ++ [c]) ∧
    (c = 0x2e ↔ k.type = .jouyou) ∧
    (c = 0x27 ↔ k.type ≠ .jouyou ∧ k.level.isSome) ∧
    (c = 0x22 ↔ k.type ≠ .jouyou ∧ k.level = none ∧ k.frequency ≠ 0) ∧
    (c = 0x5e ↔ k.type = .jinmei ∧ k.level = none ∧ k.frequency = 0) ∧
    (c = 0x7e ↔ k.type = .linkedJinmei ∧ k.level = none ∧ k.frequency = 0) ∧
    (c = 0x25 ↔ k.type = .linkedOld ∧ k.level = none ∧ k.frequency = 0) ∧
    (c = 0x2b ↔ k.type = .extra ∧ k.level = none ∧ k.frequency = 0) ∧
    (c = 0x2a ↔ k.type = .ucd ∧ k.level = none ∧ k.frequency = 0) ∧
    (c = 0x23 ↔ (k.type = .kentei ∨ k.type = .frequency) ∧ k.level = none ∧ k.frequency = 0 ∧ k.kyu = some .k1) ∧
    (c = 0x40 ↔ (k.type = .kentei ∨ k.type = .frequency) ∧ k.level = none ∧ k.frequency = 0 ∧ k.kyu ≠ some .k1) := by
  unfold Kanji.qualifiedName Kanji.qualifiedNameRank
  cases hl : k.level <;> by_cases hf : k.frequency = 0 <;> by_cases hk : k.kyu = some .k1 <;> cases ht : k.type <;>
    simp [hf, hk, qualifiedNames]

/-- Kanji of type `Frequency` with a rank never get the Kentei suffixes, so these are only given to Kentei kanji. -/
theorem C74_kentei (k : Kanji) (hf : k.type = .frequency → k.frequency ≠ 0) (c : UInt8)
    (h : k.qualifiedName = .ok (k.name ++ [c])) (hc : c = 0x23 ∨ c = 0x40) : k.type = .kentei := by
  obtain ⟨d, h1, _, _, _, _, _, _, _, _, h2, h3⟩ := C74_suffix k
  rw [h1, Res.ok.injEq] at h
  have : d = c := by simpa using h
  subst this
  rcases hc with hc | hc
  · obtain ⟨g | g, _, h0, _⟩ := h2.mp hc
    · exact g
    · exact absurd h0 (hf g)
  · obtain ⟨g | g, _, h0, _⟩ := h3.mp hc
    · exact g
    · exact absurd h0 (hf g)

end KT
