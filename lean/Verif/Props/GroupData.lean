import Verif.Spec.GroupData
import Verif.Props.GroupQuiz
import Verif.Props.Utf8Char
import Verif.Props.Stats
import Verif.Props.KanjiData
import Verif.Props.ColumnFile
/-!
# Properties of group files (C89-C92)
-/
namespace KT
open Spec

/-! ## C89: rows -/

theorem strFind_isSome (p s : Str) : (strFind p s).isSome = true ↔ ∃ a b, s = a ++ p ++ b := by
  induction s with
  | nil =>
    rw [strFind]
    cases hp : p.isPrefixOf [] with
    | true =>
      have : p = [] := by cases p with | nil => rfl | cons => cases hp
      subst this; simp
    | false =>
      simp only [Bool.false_eq_true, if_false, Option.isSome_none, false_iff]
      rintro ⟨a, b, h⟩
      have : p = [] := by
        have := congrArg List.length h
        simp at this
        exact List.length_eq_zero_iff.1 (by omega)
      subst this; cases hp
  | cons c s ih =>
    rw [strFind]
    cases hp : p.isPrefixOf (c :: s) with
    | true =>
      obtain ⟨b, hb⟩ := List.isPrefixOf_iff_prefix.1 hp
      simp only [if_true, Option.isSome_some, true_iff]
      exact ⟨[], b, hb.symm⟩
    | false =>
      simp only [Bool.false_eq_true, if_false, Option.isSome_map, ih]
      constructor
      · rintro ⟨a, b, rfl⟩; exact ⟨c :: a, b, rfl⟩
      · rintro ⟨a, b, h⟩
        cases a with
        | nil =>
          rw [List.nil_append] at h
          rw [h, List.isPrefixOf_iff_prefix.2 (List.prefix_append p b)] at hp
          cases hp
        | cons x a => rw [List.cons_append, List.cons_append] at h; cases h; exact ⟨a, b, rfl⟩

theorem getPatternType_iff (t : GroupType) (n : Str) (p : PatternType) :
    getPatternType t n = p ↔ GroupKind t p n := by
  cases t with
  | meaning => simp [getPatternType, GroupKind, eq_comm]
  | pattern =>
    simp only [getPatternType, GroupKind, reduceCtorEq, false_and, true_and, false_or]
    have h1 : groupColon.isPrefixOf n = true ↔ ∃ b, n = u8!"：" ++ b := by
      rw [List.isPrefixOf_iff_prefix]
      exact ⟨fun ⟨b, h⟩ => ⟨b, h.symm⟩, fun ⟨b, h⟩ => ⟨b, h.symm⟩⟩
    have h2 := strFind_isSome groupColon n
    by_cases c1 : groupColon.isPrefixOf n = true
    · rw [if_pos c1]
      have e1 := h1.1 c1
      have e2 : ∃ a b, n = a ++ u8!"：" ++ b := by obtain ⟨b, hb⟩ := e1; exact ⟨[], b, hb⟩
      cases p <;> simp only [PatternName, e1, e2, reduceCtorEq, not_true, and_false]
    · rw [if_neg c1]
      have e1 := mt h1.2 c1
      by_cases c2 : (strFind groupColon n).isSome = true
      · rw [if_pos c2]
        have e2 : ∃ a b, n = a ++ u8!"：" ++ b := h2.1 c2
        cases p <;> simp only [PatternName, e1, e2, reduceCtorEq, not_true, not_false_iff, and_true]
      · rw [if_neg c2]
        have e2 : ¬ ∃ a b, n = a ++ u8!"：" ++ b := mt h2.2 c2
        cases p <;> simp only [PatternName, e1, e2, reduceCtorEq, not_false_iff, false_and]

theorem endsWith_byte (s : Str) (b : UInt8) : endsWith s [b] = true ↔ s.getLast? = some b := by
  unfold endsWith
  rw [List.isSuffixOf_iff_suffix]
  constructor
  · rintro ⟨a, rfl⟩; simp
  · intro h
    obtain ⟨a, rfl⟩ := List.getLast?_eq_some_iff.1 h
    exact ⟨a, rfl⟩

theorem fields_members (s : Str) (h : s.getLast? ≠ some 0x2c) :
    fields 0x2c s = if s = [] then [] else split 0x2c s := by
  by_cases h0 : s = []
  · subst h0; rfl
  rw [if_neg h0, fields_eq, dropEmptyLast, if_neg]
  rw [split_last_empty]
  rintro (h1 | h1)
  · exact h0 h1
  · exact h h1

theorem findMembers_all (find : Str → Option KanjiRec) (names : List Str) :
    (findMembers find names).length ≤ names.length ∧
    ((findMembers find names).length = names.length ↔ (findMembers find names).map some = names.map find) := by
  induction names with
  | nil => simp [findMembers]
  | cons n ns ih =>
    simp only [findMembers, List.filterMap_cons] at ih ⊢
    cases hn : find n with
    | none =>
      simp only [List.length_cons, List.map_cons, hn]
      refine ⟨by omega, by omega, ?_⟩
      intro h
      cases hl : ns.filterMap find with
      | nil => rw [hl] at h; cases h
      | cons => rw [hl] at h; cases h
    | some k => simp [ih, hn]

theorem getKanjiNames_eq (t : GroupType) (name members : Str) (ts : List Token) (h : Tokens name ts)
    (hm : members.getLast? ≠ some 0x2c) :
    getKanjiNames t name members =
      .ok (memberNames (getPatternType t name) ((pieces true ts).head?.getD []) members) := by
  unfold getKanjiNames memberNames
  rw [fields_members members hm, C69_first_piece name ts h]
  by_cases hp : getPatternType t name = .family
  · rw [if_pos hp, if_pos hp]; rfl
  · rw [if_neg hp, if_neg hp]; rfl

theorem map_some_inj {α : Type} (a b : List α) (h : a.map some = b.map some) : a = b := by
  induction a generalizing b with
  | nil => cases b with | nil => rfl | cons => cases h
  | cons x a ih =>
    cases b with
    | nil => cases h
    | cons y b =>
      rw [List.map_cons, List.map_cons, List.cons.injEq, Option.some.injEq] at h
      rw [h.1, ih b h.2]

theorem map_some_length {α β : Type} (f : β → Option α) (a : List α) (b : List β) (h : a.map some = b.map f) :
    b.filterMap f = a := by
  have := congrArg (List.filterMap id) h
  rw [List.filterMap_map, List.filterMap_map] at this
  simpa using this.symm

/-- A row gives a group exactly when it describes one, and then it is that group; every other row throws a
`DomainError`. -/
theorem C89_row (find : Str → Option KanjiRec) (t : GroupType) (row : GroupRow) :
    (∀ g, readGroup find t row = .ok g ↔ IsGroup find t row g) ∧
    ((∃ g, readGroup find t row = .ok g) ∨ readGroup find t row = .throw .domain) := by
  obtain ⟨ts, hts, huniq⟩ := C33_reading row.name
  unfold readGroup
  by_cases h1 : row.name.isEmpty = true
  · rw [if_pos h1]
    refine ⟨fun g => ⟨fun h => (by cases h), fun h => absurd (List.isEmpty_iff.1 h1) h.nonempty⟩, .inr rfl⟩
  rw [if_neg h1]
  by_cases h2 : isAnySingleByte row.name = true
  · rw [if_pos h2]
    refine ⟨fun g => ⟨fun h => (by cases h), fun h => ?_⟩, .inr rfl⟩
    unfold isAnySingleByte at h2
    rw [List.any_eq_true] at h2
    obtain ⟨b, hb, h2⟩ := h2
    have := h.wide b hb
    simp only [isSingleByteChar, decide_eq_true_eq, UInt8.lt_iff_toNat_lt] at h2
    have e : (0x80 : UInt8).toNat = 128 := rfl
    omega
  rw [if_neg h2]
  by_cases h3 : endsWith row.members (u8!",") = true
  · rw [if_pos h3]
    exact ⟨fun g => ⟨fun h => (by cases h), fun h => absurd ((endsWith_byte _ _).1 h3) h.comma⟩, .inr rfl⟩
  rw [if_neg h3]
  have hcomma : row.members.getLast? ≠ some 0x2c := fun h => h3 ((endsWith_byte _ _).2 h)
  rw [getKanjiNames_eq t row.name row.members ts hts hcomma]
  simp only [Res.bind]
  generalize hN : memberNames (getPatternType t row.name) ((pieces true ts).head?.getD []) row.members = N
  obtain ⟨hle, hall⟩ := findMembers_all find N
  have hmem : ∀ g, IsGroup find t row g → findMembers find N = g.members ∧
      g.members.map some = N.map find := by
    intro g hg
    obtain ⟨ts', hts', hm⟩ := hg.members
    rw [huniq ts' hts', ← (getPatternType_iff t row.name g.patternType).2 hg.kind, hN] at hm
    exact ⟨map_some_length find g.members N hm, hm⟩
  by_cases h4 : (findMembers find N).length < N.length
  · rw [if_pos h4]
    refine ⟨fun g => ⟨fun h => (by cases h), fun h => ?_⟩, .inr rfl⟩
    obtain ⟨e1, e2⟩ := hmem g h
    rw [e1] at h4
    have := congrArg List.length e2
    simp at this
    omega
  rw [if_neg h4]
  have hfull := hall.1 (by omega)
  cases hn : processU64 row.number 65535 with
  | ub =>
    rcases C88_limit row.number 65535 with h | ⟨v, h, _⟩ <;> rw [h] at hn <;> cases hn
  | throw e =>
    rcases C88_limit row.number 65535 with h | ⟨v, h, _⟩
    · rw [h] at hn
      cases hn
      simp only
      refine ⟨fun g => ⟨fun h => (by cases h), fun hg => ?_⟩, .inr trivial⟩
      have := hg.number
      rw [h] at this; cases this
    · rw [h] at hn; cases hn
  | ok n =>
    simp only
    obtain ⟨c1, c2⟩ := C55_groups ((findMembers find N).map (·.kanji.name))
    rcases c2 with c2 | c2
    · rw [c2]
      simp only
      refine ⟨fun g => ⟨fun h => ?_, fun hg => ?_⟩, .inl ⟨_, rfl⟩⟩
      · cases h
        have := c1.1 c2
        rw [List.length_map] at this
        refine ⟨rfl, by simpa using h1, ?_, hn, (getPatternType_iff t row.name _).1 rfl, hcomma, ⟨ts, hts, ?_⟩,
          this.1, this.2.1, this.2.2⟩
        · intro b hb
          simp only [isAnySingleByte, List.any_eq_true, not_exists, not_and] at h2
          have := h2 b hb
          simp only [isSingleByteChar, decide_eq_true_eq, UInt8.lt_iff_toNat_lt] at this
          have e : (0x80 : UInt8).toNat = 128 := rfl
          omega
        · show (findMembers find N).map some = _
          rw [hN]; exact hfull
      · have e1 := hg.name
        have e2 := hg.number
        rw [hn] at e2
        have e3 := (getPatternType_iff t row.name g.patternType).2 hg.kind
        have e4 := (hmem g hg).1
        obtain ⟨a, b, c, d⟩ := g
        cases e2
        simp only at e1 e3 e4
        subst e1 e3
        rw [e4]
    · rw [c2]
      simp only
      refine ⟨fun g => ⟨fun h => (by cases h), fun hg => ?_⟩, .inr trivial⟩
      obtain ⟨e1, e2⟩ := hmem g hg
      rw [e1] at c1 c2
      have := c1.2 ⟨by rw [List.length_map]; exact hg.atLeast, by rw [List.length_map]; exact hg.atMost, hg.distinct⟩
      rw [c2] at this; cases this

/-- All rows of a file. -/
def readGroups (find : Str → Option KanjiRec) (t : GroupType) : List GroupRow → Res (List Group)
  | [] => .ok []
  | r :: rs => (readGroup find t r).bind fun g => (readGroups find t rs).bind fun gs => .ok (g :: gs)

theorem loadMeaning_eq (find : Str → Option KanjiRec) (rows : List GroupRow) (d : MeaningGroups) :
    loadMeaning find rows d = (readGroups find .meaning rows).bind fun gs => .ok (gs.foldl MeaningGroups.add d) := by
  induction rows generalizing d with
  | nil => rfl
  | cons r rs ih =>
    rw [loadMeaning, readGroups]
    cases readGroup find .meaning r with
    | throw e => rfl
    | ub => rfl
    | ok g =>
      simp only [Res.bind, ih]
      cases readGroups find .meaning rs <;> rfl

theorem loadPattern_eq (find : Str → Option KanjiRec) (rows : List GroupRow) (d : PatternGroups) :
    loadPattern find rows d = (readGroups find .pattern rows).bind fun gs => .ok (gs.foldl PatternGroups.add d) := by
  induction rows generalizing d with
  | nil => rfl
  | cons r rs ih =>
    rw [loadPattern, readGroups]
    cases readGroup find .pattern r with
    | throw e => rfl
    | ub => rfl
    | ok g =>
      simp only [Res.bind, ih]
      cases readGroups find .pattern rs <;> rfl

theorem readGroups_iff (find : Str → Option KanjiRec) (t : GroupType) (rows : List GroupRow) :
    (∀ gs, readGroups find t rows = .ok gs ↔ GroupsOf find t rows gs) ∧
    ((∃ gs, readGroups find t rows = .ok gs) ∨ readGroups find t rows = .throw .domain) := by
  induction rows with
  | nil =>
    refine ⟨fun gs => ?_, .inl ⟨[], rfl⟩⟩
    rw [readGroups]
    constructor
    · intro h; cases h; exact ⟨rfl, fun i r g h => by simp at h⟩
    · rintro ⟨h, -⟩; rw [List.length_nil] at h; rw [List.length_eq_zero_iff.1 h]
  | cons r rs ih =>
    obtain ⟨ih1, ih2⟩ := ih
    obtain ⟨r1, r2⟩ := C89_row find t r
    rw [readGroups]
    rcases r2 with ⟨g, hg⟩ | hg
    · rw [hg]
      simp only [Res.bind]
      rcases ih2 with ⟨gs, hgs⟩ | hgs
      · rw [hgs]
        refine ⟨fun gs' => ⟨fun h => ?_, fun h => ?_⟩, .inl ⟨_, rfl⟩⟩
        · cases h
          have := (ih1 gs).1 hgs
          refine ⟨by rw [List.length_cons, List.length_cons, this.1], fun i r' g' h1 h2 => ?_⟩
          cases i with
          | zero => cases h1; cases h2; exact (r1 g).1 hg
          | succ i => exact this.2 i r' g' h1 h2
        · obtain ⟨h1, h2⟩ := h
          cases gs' with
          | nil => cases h1
          | cons g' gs' =>
            have e1 := (r1 g').2 (h2 0 r g' rfl rfl)
            have e2 := (ih1 gs').2 ⟨by simpa using h1, fun i a b ha hb => h2 (i + 1) a b ha hb⟩
            rw [hg] at e1; cases e1
            rw [hgs] at e2; cases e2
            rfl
      · rw [hgs]
        refine ⟨fun gs' => ⟨fun h => (by cases h), fun h => ?_⟩, .inr rfl⟩
        obtain ⟨h1, h2⟩ := h
        cases gs' with
        | nil => cases h1
        | cons g' gs' =>
          have e2 := (ih1 gs').2 ⟨by simpa using h1, fun i a b ha hb => h2 (i + 1) a b ha hb⟩
          rw [hgs] at e2; cases e2
    · rw [hg]
      refine ⟨fun gs' => ⟨fun h => (by cases h), fun h => ?_⟩, .inr rfl⟩
      obtain ⟨h1, h2⟩ := h
      cases gs' with
      | nil => cases h1
      | cons g' gs' =>
        have e1 := (r1 g').2 (h2 0 r g' rfl rfl)
        rw [hg] at e1; cases e1

theorem meaning_groups (gs : List Group) (d : MeaningGroups) :
    (gs.foldl MeaningGroups.add d).groups = d.groups ++ gs := by
  induction gs generalizing d with
  | nil => simp
  | cons g gs ih => rw [List.foldl_cons, ih]; simp [MeaningGroups.add]

theorem addMember_groups (g : Group) (ks : List KanjiRec) (d : PatternGroups) :
    (ks.foldl (PatternGroups.addMember g) d).groups = d.groups := by
  induction ks generalizing d with
  | nil => rfl
  | cons k ks ih =>
    rw [List.foldl_cons, ih]
    unfold PatternGroups.addMember
    split <;> rfl

theorem pattern_groups (gs : List Group) (d : PatternGroups) :
    (gs.foldl PatternGroups.add d).groups = d.groups ++ gs := by
  induction gs generalizing d with
  | nil => simp
  | cons g gs ih => rw [List.foldl_cons, ih]; simp [PatternGroups.add, addMember_groups]

/-- The groups after loading a file are those of its rows in the same order; a file with a row that gives no
group throws a `DomainError`. -/
theorem C89_load (find : Str → Option KanjiRec) (rows : List GroupRow) :
    (∀ gs, (∃ d, loadMeaning find rows {} = .ok d ∧ d.groups = gs) ↔ GroupsOf find .meaning rows gs) ∧
    (∀ gs, (∃ d, loadPattern find rows {} = .ok d ∧ d.groups = gs) ↔ GroupsOf find .pattern rows gs) ∧
    ((∃ d, loadMeaning find rows {} = .ok d) ∨ loadMeaning find rows {} = .throw .domain) ∧
    ((∃ d, loadPattern find rows {} = .ok d) ∨ loadPattern find rows {} = .throw .domain) := by
  obtain ⟨m1, m2⟩ := readGroups_iff find .meaning rows
  obtain ⟨p1, p2⟩ := readGroups_iff find .pattern rows
  rw [loadMeaning_eq, loadPattern_eq]
  refine ⟨fun gs => ?_, fun gs => ?_, ?_, ?_⟩
  · rw [← m1 gs]
    rcases m2 with ⟨gs', h⟩ | h
    · rw [h]; simp only [Res.bind, Res.ok.injEq, exists_eq_left', meaning_groups]; rfl
    · rw [h]; simp [Res.bind]
  · rw [← p1 gs]
    rcases p2 with ⟨gs', h⟩ | h
    · rw [h]; simp only [Res.bind, Res.ok.injEq, exists_eq_left', pattern_groups]; rfl
    · rw [h]; simp [Res.bind]
  · rcases m2 with ⟨gs', h⟩ | h
    · rw [h]; exact .inl ⟨_, rfl⟩
    · rw [h]; exact .inr rfl
  · rcases p2 with ⟨gs', h⟩ | h
    · rw [h]; exact .inl ⟨_, rfl⟩
    · rw [h]; exact .inr rfl

/-! ## C90: the groups of a kanji -/

theorem mem_multiInsert {β : Type} (m : List (Str × β)) (k : Str) (v : β) (x : Str × β) :
    x ∈ multiInsert m k v ↔ x = (k, v) ∨ x ∈ m := by
  induction m with
  | nil => simp [multiInsert]
  | cons p m ih =>
    rw [multiInsert]
    split
    · simp
    · rw [List.mem_cons, ih, List.mem_cons]
      constructor
      · rintro (h | h | h) <;> simp [h]
      · rintro (h | h | h) <;> simp [h]

theorem strLt_not_trans (a b c : Str) (h1 : strLt b a = false) (h2 : strLt c b = false) : strLt c a = false := by
  cases h : strLt c a with
  | false => rfl
  | true =>
    rcases strLt_total.total a b with h3 | h3 | h3
    · rw [strLt_total.trans c a b h h3] at h2; cases h2
    · subst h3; rw [h] at h2; cases h2
    · rw [h3] at h1; cases h1

theorem strLt_not_symm (a b : Str) (h : strLt a b = true) : strLt b a = false := by
  cases h2 : strLt b a with
  | false => rfl
  | true =>
    have := strLt_total.trans a b a h h2
    rw [strLt_total.irrefl] at this; cases this

theorem multiInsert_sorted {β : Type} (m : List (Str × β)) (k : Str) (v : β) (h : KeySorted m) :
    KeySorted (multiInsert m k v) := by
  induction m with
  | nil => exact List.pairwise_singleton _ _
  | cons p m ih =>
    rw [KeySorted, List.pairwise_cons] at h
    rw [multiInsert]
    cases hk : strLt k p.1 with
    | true =>
      simp only [if_true]
      rw [KeySorted, List.pairwise_cons, List.pairwise_cons]
      refine ⟨fun x hx => ?_, h⟩
      have hp := strLt_not_symm _ _ hk
      rcases List.mem_cons.1 hx with rfl | hx
      · exact hp
      · exact strLt_not_trans _ _ _ hp (h.1 x hx)
    | false =>
      simp only [Bool.false_eq_true, if_false]
      rw [KeySorted, List.pairwise_cons]
      refine ⟨fun x hx => ?_, ih h.2⟩
      rcases (mem_multiInsert m k v x).1 hx with rfl | hx
      · exact hk
      · exact h.1 x hx

theorem multiInsert_filter {β : Type} (m : List (Str × β)) (k s : Str) (v : β) (h : KeySorted m) :
    (multiInsert m k v).filter (·.1 == s) = m.filter (·.1 == s) ++ (if k == s then [(k, v)] else []) := by
  induction m with
  | nil => simp only [multiInsert, List.filter_cons, List.filter_nil]; split <;> rfl
  | cons p m ih =>
    rw [KeySorted, List.pairwise_cons] at h
    rw [multiInsert]
    cases hk : strLt k p.1 with
    | true =>
      simp only [if_true]
      rw [List.filter_cons]
      cases hs : k == s with
      | false => simp
      | true =>
        have hs := eq_of_beq hs
        subst hs
        have : (p :: m).filter (·.1 == k) = [] := by
          rw [List.filter_eq_nil_iff]
          intro x hx
          simp only [beq_iff_eq]
          intro hxk
          rcases List.mem_cons.1 hx with rfl | hx
          · rw [hxk, strLt_total.irrefl] at hk; cases hk
          · have := h.1 x hx
            rw [hxk, hk] at this; cases this
        rw [this]; simp
    | false =>
      simp only [Bool.false_eq_true, if_false]
      rw [List.filter_cons, List.filter_cons, ih h.2]
      split <;> simp

theorem multiInsert_members (g : Group) (ks : List KanjiRec) (m : List (Str × Group)) (h : KeySorted m) :
    KeySorted (ks.foldl (fun m k => multiInsert m k.kanji.name g) m) ∧
    ∀ s, (ks.foldl (fun m k => multiInsert m k.kanji.name g) m).filter (·.1 == s) =
      m.filter (·.1 == s) ++ (ks.filter fun k => k.kanji.name == s).map fun k => (k.kanji.name, g) := by
  induction ks generalizing m with
  | nil => exact ⟨h, fun s => by simp⟩
  | cons k ks ih =>
    have h' := multiInsert_sorted m k.kanji.name g h
    obtain ⟨a, b⟩ := ih _ h'
    refine ⟨a, fun s => ?_⟩
    rw [List.foldl_cons, b s, multiInsert_filter m _ s g h, List.filter_cons, List.append_assoc]
    split <;> simp

theorem filter_name_nodup (ks : List KanjiRec) (s : Str) (h : (ks.map (·.kanji.name)).Nodup) :
    (ks.filter fun k => k.kanji.name == s).length = if ks.any (fun k => k.kanji.name == s) then 1 else 0 := by
  induction ks with
  | nil => rfl
  | cons k ks ih =>
    rw [List.map_cons, List.nodup_cons] at h
    rw [List.filter_cons, List.any_cons]
    cases hk : k.kanji.name == s with
    | false => simpa using ih h.2
    | true =>
      have : ks.filter (fun k => k.kanji.name == s) = [] := by
        rw [List.filter_eq_nil_iff]
        intro x hx hxs
        exact h.1 (List.mem_map.2 ⟨x, hx, by rw [eq_of_beq hxs, eq_of_beq hk]⟩)
      simp [this]

theorem map_const_one {α β : Type} (l : List α) (f : α → β) (g : β) (hf : ∀ x, f x = g) (b : Bool)
    (h : l.length = if b then 1 else 0) : l.map f = if b then [g] else [] := by
  cases b with
  | false => rw [List.length_eq_zero_iff.1 h]; rfl
  | true =>
    cases l with
    | nil => cases h
    | cons x l =>
      cases l with
      | nil => rw [List.map_cons, hf]; rfl
      | cons => simp at h

/-- All groups have different members. -/
def DistinctMembers (gs : List Group) : Prop := ∀ g ∈ gs, (g.members.map (·.kanji.name)).Nodup

theorem meaning_map (gs : List Group) (d : MeaningGroups) (hd : KeySorted d.map) (h : DistinctMembers gs) :
    KeySorted (gs.foldl MeaningGroups.add d).map ∧
    ∀ s, ((gs.foldl MeaningGroups.add d).map.filter (·.1 == s)).map (·.2) =
      (d.map.filter (·.1 == s)).map (·.2) ++ gs.filter (hasMember s) := by
  induction gs generalizing d with
  | nil => exact ⟨hd, fun s => by simp⟩
  | cons g gs ih =>
    obtain ⟨a, b⟩ := multiInsert_members g g.members d.map hd
    obtain ⟨a', b'⟩ := ih (d.add g) a (fun g' hg' => h g' (List.mem_cons_of_mem _ hg'))
    refine ⟨a', fun s => ?_⟩
    rw [List.foldl_cons, b' s]
    show (List.filter _ (g.members.foldl _ d.map)).map _ ++ _ = _
    rw [b s, List.map_append, List.map_map, List.append_assoc, List.filter_cons]
    rw [map_const_one _ ((fun x : Str × Group => x.2) ∘ fun k : KanjiRec => (k.kanji.name, g)) g (fun _ => rfl) _
      (filter_name_nodup g.members s (h g (List.mem_cons_self ..)))]
    congr 1
    show _ = if hasMember s g = true then _ else _
    unfold hasMember
    split <;> rfl

theorem groupsOf_distinct (find : Str → Option KanjiRec) (t : GroupType) (rows : List GroupRow) (gs : List Group)
    (h : GroupsOf find t rows gs) : DistinctMembers gs := by
  intro g hg
  obtain ⟨i, hi, hgi⟩ := List.getElem_of_mem hg
  have hr : i < rows.length := by rw [← h.1]; exact hi
  exact (h.2 i rows[i] g (List.getElem?_eq_getElem hr) (by rw [List.getElem?_eq_getElem hi, hgi])).distinct

/-- After loading, the entries of `_meaningMap` are in the order of the kanji names, and those under a name are
the groups with this member in the order of the file. -/
theorem C90_meaning (find : Str → Option KanjiRec) (rows : List GroupRow) (d : MeaningGroups)
    (h : loadMeaning find rows {} = .ok d) :
    KeySorted d.map ∧ ∀ s, (d.map.filter (·.1 == s)).map (·.2) = d.groups.filter (hasMember s) := by
  have hg := ((C89_load find rows).1 d.groups).1 ⟨d, h, rfl⟩
  have hm := (readGroups_iff find .meaning rows).1 d.groups |>.2 hg
  rw [loadMeaning_eq, hm] at h
  simp only [Res.bind, Res.ok.injEq] at h
  obtain ⟨a, b⟩ := meaning_map d.groups {} List.Pairwise.nil (groupsOf_distinct _ _ _ _ hg)
  rw [h] at a b
  exact ⟨a, fun s => by simpa using b s⟩

theorem addMember_map (g : Group) (ks : List KanjiRec) (d : PatternGroups) (s : Str) :
    (ks.foldl (PatternGroups.addMember g) d).map.lookup s =
      (d.map.lookup s).or (if ks.any (fun k => k.kanji.name == s) then some g else none) := by
  induction ks generalizing d with
  | nil => simp
  | cons k ks ih =>
    rw [List.foldl_cons, ih, List.any_cons]
    have : (PatternGroups.addMember g d k).map = (mapEmplace d.map k.kanji.name g).1 := by
      unfold PatternGroups.addMember
      have h2 := mapEmplace_snd d.map k.kanji.name g
      cases hm : mapEmplace d.map k.kanji.name g with
      | mk m b =>
        cases b with
        | true => rfl
        | false =>
          rw [hm] at h2
          unfold mapEmplace at hm
          cases hl : d.map.lookup k.kanji.name with
          | none => rw [hl] at h2; cases h2
          | some v => rw [hl] at hm; cases hm; rfl
    rw [this, lookup_mapEmplace]
    cases d.map.lookup s <;> cases k.kanji.name == s <;> simp

theorem pattern_map (gs : List Group) (d : PatternGroups) (s : Str) :
    (gs.foldl PatternGroups.add d).map.lookup s = (d.map.lookup s).or (gs.find? (hasMember s)) := by
  induction gs generalizing d with
  | nil => simp
  | cons g gs ih =>
    rw [List.foldl_cons, ih, List.find?_cons]
    show ((g.members.foldl (PatternGroups.addMember g) d).map.lookup s).or _ = _
    rw [addMember_map]
    unfold hasMember
    cases d.map.lookup s <;> cases g.members.any (fun k => k.kanji.name == s) <;> simp

theorem lookup_isSome_keys {α β : Type} [BEq α] [LawfulBEq α] (m : List (α × β)) (a : α) :
    (m.lookup a).isSome = (m.map Prod.fst).contains a := by
  induction m with
  | nil => rfl
  | cons p m ih =>
    obtain ⟨k, v⟩ := p
    rw [List.lookup_cons, List.map_cons, List.contains_cons, ← ih]
    cases h : a == k with
    | true => simp
    | false => simp

theorem eraseDups_concat {α : Type} [BEq α] [LawfulBEq α] (l : List α) (a : α) :
    (l ++ [a]).eraseDups = l.eraseDups ++ if l.contains a then [] else [a] := by
  rw [List.eraseDups_append]
  congr 1
  cases h : l.contains a with
  | true => simp only [List.removeAll, List.filter_cons, List.elem_eq_contains, h]; rfl
  | false => simp only [List.removeAll, List.filter_cons, List.elem_eq_contains, h]; rfl

theorem contains_eraseDups {α : Type} [BEq α] [LawfulBEq α] (l : List α) (a : α) :
    l.eraseDups.contains a = l.contains a := by
  rw [Bool.eq_iff_iff]; simp [List.mem_eraseDups]

theorem nodup_eraseDups {α : Type} [BEq α] [LawfulBEq α] (l : List α) : l.eraseDups.Nodup := by
  suffices h : ∀ n, ∀ l : List α, l.length = n → l.eraseDups.Nodup from h _ l rfl
  intro n
  induction n with
  | zero => intro l h; rw [List.length_eq_zero_iff.1 h]; exact List.nodup_nil
  | succ n ih =>
    intro l h
    rcases List.eq_nil_or_concat l with e | ⟨pre, x, e⟩
    · rw [e] at h; cases h
    · rw [List.concat_eq_append] at e
      subst e
      have := ih pre (by simpa using h)
      rw [eraseDups_concat]
      cases hc : pre.contains x with
      | true => simpa using this
      | false =>
        simp only [Bool.false_eq_true, if_false]
        rw [List.nodup_append]
        refine ⟨this, by simp, fun a ha b hb e => ?_⟩
        rw [List.mem_singleton] at hb
        rw [List.mem_eraseDups] at ha
        rw [← hb, ← e, List.contains_iff_mem.2 ha] at hc
        cases hc

/-- The keys and errors after adding names one by one. -/
def NamesAdded (d : PatternGroups) (names : List Str) : Prop :=
  d.map.map Prod.fst = names.eraseDups ∧ d.errors + d.map.length = names.length

theorem addMember_names (g : Group) (d : PatternGroups) (k : KanjiRec) (names : List Str) (h : NamesAdded d names) :
    NamesAdded (PatternGroups.addMember g d k) (names ++ [k.kanji.name]) := by
  obtain ⟨h1, h2⟩ := h
  have hc : (d.map.lookup k.kanji.name).isSome = names.contains k.kanji.name := by
    rw [lookup_isSome_keys, h1, contains_eraseDups]
  unfold NamesAdded
  rw [eraseDups_concat, ← hc, List.length_append, ← h1]
  unfold PatternGroups.addMember mapEmplace
  cases d.map.lookup k.kanji.name with
  | none => simp; omega
  | some v => simp; omega

theorem pattern_names (gs : List Group) (d : PatternGroups) (names : List Str) (h : NamesAdded d names) :
    NamesAdded (gs.foldl PatternGroups.add d) (names ++ allMemberNames gs) := by
  induction gs generalizing d names with
  | nil => simpa [allMemberNames] using h
  | cons g gs ih =>
    have hmem : ∀ (ks : List KanjiRec) (d : PatternGroups) (names : List Str), NamesAdded d names →
        NamesAdded (ks.foldl (PatternGroups.addMember g) d) (names ++ ks.map (·.kanji.name)) := by
      intro ks
      induction ks with
      | nil => intro d names h; simpa using h
      | cons k ks ihk =>
        intro d names h
        have := ihk _ _ (addMember_names g d k names h)
        simpa using this
    have := ih (d.add g) _ (hmem g.members d names h)
    simpa [allMemberNames] using this

/-- After loading, `_patternMap` has one entry for each member of a group, which is the first group of the file
with this member; an error was printed for each further group of a kanji. -/
theorem C90_pattern (find : Str → Option KanjiRec) (rows : List GroupRow) (d : PatternGroups)
    (h : loadPattern find rows {} = .ok d) :
    (∀ s, d.map.lookup s = d.groups.find? (hasMember s)) ∧
    d.map.map Prod.fst = (allMemberNames d.groups).eraseDups ∧
    d.errors = (allMemberNames d.groups).length - (allMemberNames d.groups).eraseDups.length := by
  have hg := ((C89_load find rows).2.1 d.groups).1 ⟨d, h, rfl⟩
  have hm := (readGroups_iff find .pattern rows).1 d.groups |>.2 hg
  rw [loadPattern_eq, hm] at h
  simp only [Res.bind, Res.ok.injEq] at h
  have a := fun s => pattern_map d.groups {} s
  have b := pattern_names d.groups {} [] ⟨rfl, rfl⟩
  rw [h] at a b
  rw [List.nil_append] at b
  refine ⟨fun s => by simpa using a s, b.1, ?_⟩
  rw [← b.1, ← b.2, List.length_map]; omega

/-! ## C91: numbers of groups -/

theorem nodup_length_le {α : Type} [DecidableEq α] (s t : List α) (h : s.Nodup) (hs : ∀ c ∈ s, c ∈ t) :
    s.length ≤ t.length := by
  induction s generalizing t with
  | nil => exact Nat.zero_le _
  | cons a s ih =>
    rw [List.nodup_cons] at h
    have ha := hs a (List.mem_cons_self ..)
    have := ih (t.erase a) h.2 (fun c hc => by
      have hne : c ≠ a := fun e => h.1 (e ▸ hc)
      exact (List.mem_erase_of_ne hne).2 (hs c (List.mem_cons_of_mem _ hc)))
    rw [List.length_erase_of_mem ha] at this
    have := List.length_pos_iff.2 (List.ne_nil_of_mem ha)
    rw [List.length_cons]; omega

theorem nodup_length_eq {α : Type} [DecidableEq α] (s t : List α) (h1 : s.Nodup) (h2 : t.Nodup)
    (h : ∀ c, c ∈ s ↔ c ∈ t) : s.length = t.length :=
  Nat.le_antisymm (nodup_length_le s t h1 fun c hc => (h c).1 hc) (nodup_length_le t s h2 fun c hc => (h c).2 hc)

theorem mapInc_keys {α : Type} [BEq α] [LawfulBEq α] (m : List (α × Nat)) (k : α) :
    (mapInc m k).map Prod.fst = if (m.map Prod.fst).contains k then m.map Prod.fst else m.map Prod.fst ++ [k] := by
  induction m with
  | nil => rfl
  | cons p m ih =>
    obtain ⟨k', n⟩ := p
    rw [mapInc]
    cases h : k' == k with
    | true => simp [eq_of_beq h]
    | false =>
      have h' : (k == k') = false := by rw [beq_eq_false_iff_ne] at h ⊢; exact fun e => h e.symm
      simp only [Bool.false_eq_true, if_false, List.map_cons, List.contains_cons, h', Bool.false_or]
      rw [ih]
      split <;> rfl

/-- State of the loop after a list of keys. -/
structure UniqueInv (ks : List Str) (st : UniqueState) : Prop where
  prev : st.prevKey = ks.getLast?.getD []
  count : ∀ s, (st.multipleGroups.lookup s).getD 0 = ks.count s - 1
  keys : ∀ s, s ∈ st.multipleGroups.map Prod.fst ↔ 2 ≤ ks.count s
  sorted : (st.multipleGroups.map Prod.fst).Pairwise fun a b => strLt a b = true
  upper : ∀ s, ks.count s ≤ st.maxBelongsTo + 1
  attained : st.maxBelongsTo ≠ 0 → ∃ s, ks.count s = st.maxBelongsTo + 1

theorem unique_step (ks : List Str) (k : Str) (st : UniqueState) (h : UniqueInv ks st)
    (hs : (ks ++ [k]).Pairwise fun a b => strLt b a = false) (h0 : k ≠ []) :
    UniqueInv (ks ++ [k]) (st.step k) := by
  have hle : ∀ a ∈ ks, strLt k a = false := fun a ha => by
    rw [List.pairwise_append] at hs
    exact hs.2.2 a ha k (List.mem_singleton_self k)
  have hcnt : ∀ s, (ks ++ [k]).count s = ks.count s + if k == s then 1 else 0 := fun s => by
    rw [List.count_append, List.count_singleton]
  unfold UniqueState.step
  by_cases hk : k = st.prevKey
  · rw [if_pos hk]
    have hmem : k ∈ ks := by
      rw [h.prev] at hk
      cases hl : ks.getLast? with
      | none => rw [hl] at hk; exact absurd hk h0
      | some x =>
        rw [hl] at hk
        rw [hk]
        exact List.mem_of_getLast? hl
    have hpos : 0 < ks.count k := List.count_pos_iff.2 hmem
    have hlook : ∀ s, ((mapInc st.multipleGroups k).lookup s).getD 0 = (ks ++ [k]).count s - 1 := by
      intro s
      rw [lookup_mapInc, h.count, hcnt]
      cases hks : k == s with
      | false => simp
      | true =>
        have := eq_of_beq hks
        subst this
        simp only [if_true]; omega
    have hself : ((mapInc st.multipleGroups k).lookup k).getD 0 = ks.count k := by
      rw [hlook, hcnt]; simp
    simp only [hself]
    refine ⟨?_, hlook, ?_, ?_, ?_, ?_⟩
    · show st.prevKey = _
      rw [← hk]; simp
    · intro s
      show s ∈ (mapInc st.multipleGroups k).map Prod.fst ↔ _
      have hkeys := h.keys s
      rw [mapInc_keys, hcnt]
      cases hc : (st.multipleGroups.map Prod.fst).contains k with
      | true =>
        simp only [if_true]
        rw [hkeys]
        cases hks : k == s with
        | false => simp
        | true =>
          have := eq_of_beq hks
          subst this
          have : 2 ≤ ks.count k := hkeys.1 (List.contains_iff_mem.1 hc)
          simp only [if_true]; omega
      | false =>
        simp only [Bool.false_eq_true, if_false]
        rw [List.mem_append, hkeys, List.mem_singleton]
        cases hks : k == s with
        | false =>
          have : s ≠ k := fun e => by rw [e] at hks; simp at hks
          simp [this]
        | true =>
          have := eq_of_beq hks
          subst this
          simp only [if_true, or_true, true_iff]; omega
    · show ((mapInc st.multipleGroups k).map Prod.fst).Pairwise _
      rw [mapInc_keys]
      cases hc : (st.multipleGroups.map Prod.fst).contains k with
      | true => exact h.sorted
      | false =>
        simp only [Bool.false_eq_true, if_false]
        rw [List.pairwise_append]
        refine ⟨h.sorted, List.pairwise_singleton _ _, fun a ha b hb => ?_⟩
        rw [List.mem_singleton] at hb
        subst hb
        have ha2 := (h.keys a).1 ha
        have hak : strLt b a = false := hle a (List.count_pos_iff.1 (by omega))
        rcases strLt_total.total a b with h3 | h3 | h3
        · exact h3
        · subst h3
          rw [List.contains_iff_mem.2 ha] at hc; cases hc
        · rw [h3] at hak; cases hak
    · intro s
      show _ ≤ (if ks.count k > st.maxBelongsTo then ks.count k else st.maxBelongsTo) + 1
      have hu := h.upper s
      have huk := h.upper k
      rw [hcnt]
      cases hks : k == s with
      | false => simp only [Bool.false_eq_true, if_false]; split <;> omega
      | true =>
        have := eq_of_beq hks
        subst this
        simp only [if_true]; split <;> omega
    · intro hne
      show ∃ s, _ = (if ks.count k > st.maxBelongsTo then ks.count k else st.maxBelongsTo) + 1
      by_cases hgt : ks.count k > st.maxBelongsTo
      · rw [if_pos hgt]
        refine ⟨k, ?_⟩
        rw [hcnt]; simp
      · rw [if_neg hgt]
        obtain ⟨s, hs'⟩ := h.attained (by omega)
        refine ⟨s, ?_⟩
        rw [hcnt, hs']
        cases hks : k == s with
        | false => simp
        | true =>
          have := eq_of_beq hks
          subst this
          omega
  · rw [if_neg hk]
    have hmem : k ∉ ks := by
      intro hm
      rw [h.prev] at hk
      obtain ⟨pre, x, rfl⟩ : ∃ pre x, ks = pre ++ [x] := by
        rcases List.eq_nil_or_concat ks with e | ⟨pre, x, e⟩
        · subst e; cases hm
        · exact ⟨pre, x, by simpa using e⟩
      simp only [List.getLast?_append, List.getLast?_singleton, Option.some_or, Option.getD_some] at hk
      rcases List.mem_append.1 hm with hm | hm
      · have h1 : strLt x k = false := by
          rw [List.pairwise_append, List.pairwise_append] at hs
          exact hs.1.2.2 k hm x (List.mem_singleton_self x)
        have h2 := hle x (by simp)
        rcases strLt_total.total x k with h3 | h3 | h3
        · rw [h3] at h1; cases h1
        · exact hk h3.symm
        · rw [h3] at h2; cases h2
      · exact hk (List.mem_singleton.1 hm)
    have h0c : ks.count k = 0 := List.count_eq_zero.2 hmem
    refine ⟨?_, ?_, ?_, h.sorted, ?_, ?_⟩
    · show k = _
      simp
    · intro s
      show (st.multipleGroups.lookup s).getD 0 = _
      rw [h.count, hcnt]
      cases hks : k == s with
      | false => simp
      | true =>
        have := eq_of_beq hks
        subst this
        simp only [if_true]; omega
    · intro s
      show s ∈ st.multipleGroups.map Prod.fst ↔ _
      rw [h.keys, hcnt]
      cases hks : k == s with
      | false => simp
      | true =>
        have := eq_of_beq hks
        subst this
        simp only [if_true]; omega
    · intro s
      show _ ≤ st.maxBelongsTo + 1
      have := h.upper s
      rw [hcnt]
      cases hks : k == s with
      | false => simpa using this
      | true =>
        have := eq_of_beq hks
        subst this
        simp only [if_true]; omega
    · intro hne
      obtain ⟨s, hs'⟩ := h.attained hne
      refine ⟨s, ?_⟩
      show _ = st.maxBelongsTo + 1
      rw [hcnt, hs']
      cases hks : k == s with
      | false => simp
      | true =>
        have := eq_of_beq hks
        subst this
        have hne' : st.maxBelongsTo ≠ 0 := hne
        omega

theorem unique_inv (ks pre : List Str) (st : UniqueState) (h : UniqueInv pre st)
    (hs : (pre ++ ks).Pairwise fun a b => strLt b a = false) (h0 : [] ∉ ks) :
    UniqueInv (pre ++ ks) (ks.foldl UniqueState.step st) := by
  induction ks generalizing pre st with
  | nil => simpa using h
  | cons k ks ih =>
    have e : pre ++ k :: ks = (pre ++ [k]) ++ ks := by simp
    rw [e] at hs ⊢
    have hs' := (List.pairwise_append.1 hs).1
    exact ih _ _ (unique_step pre k st h hs' (fun e => h0 (by rw [e]; exact List.mem_cons_self ..))) hs
      (fun hm => h0 (List.mem_cons_of_mem _ hm))

theorem uniqueNames_spec (ns seen : List Str) (h : seen.Nodup) :
    (uniqueNames ns seen).Nodup ∧ ∀ s, s ∈ uniqueNames ns seen ↔ s ∈ seen ∨ s ∈ ns := by
  induction ns generalizing seen with
  | nil => exact ⟨h, fun s => by simp [uniqueNames]⟩
  | cons n ns ih =>
    rw [uniqueNames]
    cases hc : seen.contains n with
    | true =>
      simp only [if_true]
      refine ⟨(ih seen h).1, fun s => ?_⟩
      rw [(ih seen h).2]
      have := List.contains_iff_mem.1 hc
      constructor
      · rintro (h | h) <;> simp [h]
      · rintro (h | h)
        · exact .inl h
        · rcases List.mem_cons.1 h with rfl | h
          · exact .inl this
          · exact .inr h
    | false =>
      simp only [Bool.false_eq_true, if_false]
      have hn : n ∉ seen := fun hm => by rw [List.contains_iff_mem.2 hm] at hc; cases hc
      have h' : (seen ++ [n]).Nodup := by
        rw [List.nodup_append]
        exact ⟨h, by simp, fun a ha b hb e => hn (by rw [List.mem_singleton] at hb; rw [← hb, ← e]; exact ha)⟩
      refine ⟨(ih _ h').1, fun s => ?_⟩
      rw [(ih _ h').2]
      simp only [List.mem_append, List.mem_cons, or_assoc]
      simp

theorem filter_key_length {β : Type} (m : List (Str × β)) (s : Str) :
    ((m.filter (·.1 == s)).map (·.2)).length = (m.map Prod.fst).count s := by
  induction m with
  | nil => rfl
  | cons p m ih =>
    rw [List.filter_cons, List.map_cons, List.count_cons, ← ih]
    cases p.1 == s <;> simp

theorem lookup_of_mem_nodup {β : Type} (m : List (Str × β)) (p : Str × β) (h : (m.map Prod.fst).Nodup) (hp : p ∈ m) :
    m.lookup p.1 = some p.2 := by
  induction m with
  | nil => cases hp
  | cons q m ih =>
    obtain ⟨k, v⟩ := q
    rw [List.map_cons, List.nodup_cons] at h
    rw [List.lookup_cons]
    rcases List.mem_cons.1 hp with rfl | hp
    · simp
    · have : (p.1 == k) = false := by
        rw [beq_eq_false_iff_ne]
        exact fun e => h.1 (List.mem_map.2 ⟨p, hp, e⟩)
      rw [this]
      exact ih h.2 hp

theorem sorted_nodup (l : List Str) (h : l.Pairwise fun a b => strLt a b = true) : l.Nodup :=
  h.imp fun {a b} hab e => by rw [e, strLt_total.irrefl] at hab; cases hab

theorem mem_allMemberNames (gs : List Group) (s : Str) : s ∈ allMemberNames gs ↔ 1 ≤ groupCount gs s := by
  unfold allMemberNames groupCount
  rw [Nat.succ_le_iff, List.countP_pos_iff, List.mem_flatMap]
  refine exists_congr fun g => and_congr_right fun _ => ?_
  simp [hasMember]

/-- The summary of the meaning groups: the numbers of kanji in any group, in one group only and in more groups;
then for each number of groups up to the largest one the kanji that are in exactly so many groups, in the order of
their names. -/
theorem C91_summary (find : Str → Option KanjiRec) (rows : List GroupRow) (d : MeaningGroups)
    (h : loadMeaning find rows {} = .ok d) (h0 : [] ∉ allMemberNames d.groups)
    (r : UniqueReport)
    (hr : r = printUniqueNames (d.map.map Prod.fst) (uniqueNames (allMemberNames d.groups) []).length) :
    r.unique = (allMemberNames d.groups).eraseDups.length ∧
    r.once = ((allMemberNames d.groups).eraseDups.filter fun s => groupCount d.groups s == 1).length ∧
    r.multi = ((allMemberNames d.groups).eraseDups.filter fun s => decide (2 ≤ groupCount d.groups s)).length ∧
    (∃ m, r.lists.map Prod.fst = List.range' 2 m ∧ (∀ s, groupCount d.groups s ≤ m + 1) ∧
      (m ≠ 0 → ∃ s, groupCount d.groups s = m + 1)) ∧
    ∀ n l, (n, l) ∈ r.lists → (l.Pairwise fun a b => strLt a b = true) ∧ ∀ s, s ∈ l ↔ groupCount d.groups s = n := by
  obtain ⟨c1, c2⟩ := C90_meaning find rows d h
  have hcount : ∀ s, (d.map.map Prod.fst).count s = groupCount d.groups s := fun s => by
    rw [← filter_key_length, c2 s, groupCount, List.countP_eq_length_filter]
  have hsorted : (d.map.map Prod.fst).Pairwise fun a b => strLt b a = false := by
    rw [List.pairwise_map]; exact c1
  have hne : [] ∉ d.map.map Prod.fst := by
    intro hm
    have h1 := List.count_pos_iff.2 hm
    rw [hcount] at h1
    exact h0 ((mem_allMemberNames _ _).2 h1)
  have inv : UniqueInv (d.map.map Prod.fst) ((d.map.map Prod.fst).foldl UniqueState.step {}) := by
    have := unique_inv (d.map.map Prod.fst) [] {} ⟨rfl, fun s => rfl, fun s => by simp, List.Pairwise.nil,
      fun s => by simp, fun h => absurd rfl h⟩ (by simpa using hsorted) hne
    simpa using this
  unfold printUniqueNames at hr
  generalize (d.map.map Prod.fst).foldl UniqueState.step {} = st at hr inv
  simp only at hr
  subst hr
  obtain ⟨u1, u2⟩ := uniqueNames_spec (allMemberNames d.groups) [] List.nodup_nil
  have hnd : (allMemberNames d.groups).eraseDups.Nodup := nodup_eraseDups _
  have hu : (uniqueNames (allMemberNames d.groups) []).length = (allMemberNames d.groups).eraseDups.length :=
    nodup_length_eq _ _ u1 hnd (fun c => by rw [u2, List.mem_eraseDups]; simp)
  have hkn := sorted_nodup _ inv.sorted
  have hmulti : st.multipleGroups.length =
      ((allMemberNames d.groups).eraseDups.filter fun s => decide (2 ≤ groupCount d.groups s)).length := by
    rw [← List.length_map (f := Prod.fst)]
    refine nodup_length_eq _ _ hkn (hnd.filter _) (fun c => ?_)
    rw [inv.keys, hcount, List.mem_filter, List.mem_eraseDups, mem_allMemberNames, decide_eq_true_eq]
    omega
  refine ⟨hu, ?_, hmulti, ⟨st.maxBelongsTo, ?_, ?_, ?_⟩, ?_⟩
  · show (uniqueNames (allMemberNames d.groups) []).length - st.multipleGroups.length = _
    rw [hu, hmulti]
    have hsplit : ∀ l : List Str, (∀ s ∈ l, 1 ≤ groupCount d.groups s) →
        l.length = (l.filter fun s => groupCount d.groups s == 1).length +
          (l.filter fun s => decide (2 ≤ groupCount d.groups s)).length := by
      intro l
      induction l with
      | nil => intro _; rfl
      | cons a l ih =>
        intro hl
        have h1 := hl a (List.mem_cons_self ..)
        have := ih fun s hs => hl s (List.mem_cons_of_mem _ hs)
        rw [List.filter_cons, List.filter_cons, List.length_cons]
        by_cases e : groupCount d.groups a = 1
        · simp [e]; omega
        · have e2 : 2 ≤ groupCount d.groups a := by omega
          simp [e, e2]; omega
    have := hsplit (allMemberNames d.groups).eraseDups (fun s hs => by
      rw [List.mem_eraseDups] at hs; exact (mem_allMemberNames _ _).1 hs)
    omega
  · simp only [List.map_map]
    rw [List.range_eq_range']
    apply List.ext_getElem (by simp)
    intro i h1 h2
    simp; omega
  · intro s; rw [← hcount]; exact inv.upper s
  · intro hm
    obtain ⟨s, hs⟩ := inv.attained hm
    exact ⟨s, by rw [← hcount]; exact hs⟩
  · intro n l hl
    simp only [List.mem_map, Prod.mk.injEq] at hl
    obtain ⟨i, -, rfl, rfl⟩ := hl
    constructor
    · rw [List.pairwise_map]
      have := inv.sorted
      rw [List.pairwise_map] at this
      exact this.filter _
    · intro s
      rw [← hcount]
      have hc := inv.count s
      have hk := inv.keys s
      simp only [List.mem_map, List.mem_filter, beq_iff_eq]
      constructor
      · rintro ⟨p, ⟨hp, hpi⟩, rfl⟩
        rw [lookup_of_mem_nodup _ p hkn hp, hpi] at hc
        simp only [Option.getD_some] at hc
        omega
      · intro hs
        have := hk.2 (by omega)
        rw [List.mem_map] at this
        obtain ⟨p, hp, rfl⟩ := this
        refine ⟨p, ⟨hp, ?_⟩, rfl⟩
        rw [lookup_of_mem_nodup _ p hkn hp] at hc
        simp only [Option.getD_some] at hc
        omega

/-! ## C92: missing kanji of a type -/

theorem missingLoop_eq (found : List Str) (missing count : Nat) (ns : List Str) (h1 : count < missing) (h2 : count < 12) :
    missingLoop found missing count ns =
      (ns.filter fun n => !found.contains n).take (min (missing - count) (12 - count)) := by
  induction ns generalizing count with
  | nil => simp [missingLoop]
  | cons n ns ih =>
    rw [missingLoop, List.filter_cons]
    cases hc : found.contains n with
    | true => simpa using ih count h1 h2
    | false =>
      simp only [Bool.not_false, Bool.false_eq_true, if_false, if_true]
      by_cases he : count + 1 = missing ∨ count + 1 = 12
      · rw [if_pos he, show min (missing - count) (12 - count) = 1 by omega]; rfl
      · rw [if_neg he, ih (count + 1) (by omega) (by omega),
          show min (missing - count) (12 - count) = min (missing - (count + 1)) (12 - (count + 1)) + 1 by omega,
          List.take_succ_cons]

theorem missing_length (all found : List Str) (h1 : all.Nodup) (h2 : found.Nodup) (h3 : ∀ n ∈ found, n ∈ all) :
    (all.filter fun n => !found.contains n).length + found.length = all.length := by
  have e : (all.filter fun n => found.contains n).length = found.length :=
    nodup_length_eq _ _ (h1.filter _) h2 (fun c => by
      rw [List.mem_filter, List.contains_iff_mem]
      exact ⟨fun h => h.2, fun h => ⟨h3 c h, h⟩⟩)
  rw [← e]
  have : ∀ l : List Str, (l.filter fun n => !found.contains n).length + (l.filter fun n => found.contains n).length =
      l.length := by
    intro l
    induction l with
    | nil => rfl
    | cons a l ih =>
      rw [List.filter_cons, List.filter_cons, List.length_cons]
      cases found.contains a <;> simp at ih ⊢ <;> omega
  exact this all

theorem missing_correct (all found : List Str) (h1 : all.Nodup) (h2 : found.Nodup) (h3 : ∀ n ∈ found, n ∈ all)
    (h4 : all.length < 2 ^ 64) : printMissingFromType all found = missingExamples all found := by
  have hl := missing_length all found h1 h2 h3
  unfold printMissingFromType missingExamples
  have hm : (all.length + 2 ^ 64 - found.length) % 2 ^ 64 = (all.filter fun n => !found.contains n).length := by
    have : all.length + 2 ^ 64 - found.length = (all.filter fun n => !found.contains n).length + 2 ^ 64 := by omega
    rw [this, Nat.add_mod_right, Nat.mod_eq_of_lt (by omega)]
  rw [hm]
  simp only
  cases ha : all.all (fun n => found.contains n) with
  | true =>
    have : all.filter (fun n => !found.contains n) = [] := by
      rw [List.filter_eq_nil_iff]
      intro x hx
      rw [List.all_eq_true.1 ha x hx]; simp
    rw [this]; rfl
  | false =>
    have hne : (all.filter fun n => !found.contains n).length ≠ 0 := by
      intro h0
      rw [List.length_eq_zero_iff, List.filter_eq_nil_iff] at h0
      have : all.all (fun n => found.contains n) = true := by
        rw [List.all_eq_true]
        intro x hx
        have := h0 x hx
        cases hc : found.contains x with
        | true => rfl
        | false => rw [hc] at this; exact absurd rfl this
      rw [this] at ha; cases ha
    rw [if_pos hne, missingLoop_eq _ _ _ _ (by omega) (by omega)]
    simp only [Bool.false_eq_true, if_false, Nat.sub_zero, Option.some.injEq]
    generalize (all.filter fun n => !found.contains n) = l
    by_cases h12 : l.length ≤ 12
    · rw [Nat.min_eq_left h12, List.take_length, List.take_of_length_le h12]
    · rw [Nat.min_eq_right (by omega)]

theorem meaningTypeNames_spec (t : KanjiType) (ks : List KanjiRec) (seen : List Str) :
    (meaningTypeNames t ks seen).Nodup ∧
    ∀ n ∈ meaningTypeNames t ks seen, n ∉ seen ∧ ∃ k ∈ ks, k.kanji.type = t ∧ k.kanji.name = n := by
  induction ks generalizing seen with
  | nil => exact ⟨List.nodup_nil, fun n h => by cases h⟩
  | cons k ks ih =>
    rw [meaningTypeNames]
    cases hc : seen.contains k.kanji.name with
    | true =>
      simp only [if_true]
      refine ⟨(ih seen).1, fun n hn => ?_⟩
      obtain ⟨a, k', hk', b⟩ := (ih seen).2 n hn
      exact ⟨a, k', List.mem_cons_of_mem _ hk', b⟩
    | false =>
      simp only [Bool.false_eq_true, if_false]
      have hn : k.kanji.name ∉ seen := fun hm => by rw [List.contains_iff_mem.2 hm] at hc; cases hc
      obtain ⟨a, b⟩ := ih (k.kanji.name :: seen)
      constructor
      · rw [List.nodup_append]
        refine ⟨by split <;> simp, a, fun x hx y hy e => ?_⟩
        have hx' : x = k.kanji.name := by
          revert hx; split
          · exact fun h => List.mem_singleton.1 h
          · intro h; cases h
        rw [hx'] at e
        exact (b y hy).1 (by rw [← e]; exact List.mem_cons_self ..)
      · intro n hn'
        rcases List.mem_append.1 hn' with h | h
        · by_cases ht : k.kanji.type = t
          · rw [if_pos ht] at h
            rw [List.mem_singleton.1 h]
            exact ⟨hn, k, List.mem_cons_self .., ht, rfl⟩
          · rw [if_neg ht] at h; cases h
        · obtain ⟨x, k', hk', y⟩ := b n h
          exact ⟨fun h => x (List.mem_cons_of_mem _ h), k', List.mem_cons_of_mem _ hk', y⟩

theorem meaningTypeNames_mem (t : KanjiType) (ks : List KanjiRec) (seen : List Str)
    (huniq : ∀ k ∈ ks, ∀ k' ∈ ks, k.kanji.name = k'.kanji.name → k.kanji.type = k'.kanji.type) (k : KanjiRec)
    (hk : k ∈ ks) (ht : k.kanji.type = t) (hs : k.kanji.name ∉ seen) : k.kanji.name ∈ meaningTypeNames t ks seen := by
  induction ks generalizing seen with
  | nil => cases hk
  | cons a ks ih =>
    have hu' : ∀ k ∈ ks, ∀ k' ∈ ks, k.kanji.name = k'.kanji.name → k.kanji.type = k'.kanji.type :=
      fun x hx y hy => huniq x (List.mem_cons_of_mem _ hx) y (List.mem_cons_of_mem _ hy)
    rw [meaningTypeNames]
    by_cases hn : a.kanji.name = k.kanji.name
    · have hat : a.kanji.type = t := by
        rw [← ht]; exact huniq a (List.mem_cons_self ..) k hk hn
      have : seen.contains a.kanji.name = false := by
        rw [hn]
        cases hc : seen.contains k.kanji.name with
        | false => rfl
        | true => exact absurd (List.contains_iff_mem.1 hc) hs
      rw [this, if_neg (by simp), if_pos hat, hn]
      exact List.mem_append_left _ (List.mem_singleton_self _)
    · have hk' : k ∈ ks := by
        rcases List.mem_cons.1 hk with e | e
        · rw [e] at hn; exact absurd rfl hn
        · exact e
      cases hc : seen.contains a.kanji.name with
      | true => simp only [if_true]; exact ih seen hu' hk' hs
      | false =>
        simp only [Bool.false_eq_true, if_false]
        exact List.mem_append_right _ (ih _ hu' hk' (fun h => by
          rcases List.mem_cons.1 h with e | e
          · exact hn e.symm
          · exact hs e))

/-- For the meaning groups the examples shown for a type are its first 12 kanji that are in no group. -/
theorem C92_meaning (t : KanjiType) (gs : List Group) (all : List Str) (h : TypeNames t gs all) :
    printMissingFromType all (meaningTypeNames t (allMembers gs) []) =
      missingExamples all (meaningTypeNames t (allMembers gs) []) := by
  obtain ⟨a, b⟩ := meaningTypeNames_spec t (allMembers gs) []
  refine missing_correct _ _ h.distinct a (fun n hn => ?_) h.size
  obtain ⟨-, k, hk, ht, rfl⟩ := b n hn
  exact h.complete k hk ht

/-- The kanji found of a type are the members of the meaning groups of this type. -/
theorem C92_meaning_found (t : KanjiType) (gs : List Group)
    (huniq : ∀ k ∈ allMembers gs, ∀ k' ∈ allMembers gs, k.kanji.name = k'.kanji.name → k.kanji.type = k'.kanji.type)
    (s : Str) :
    s ∈ meaningTypeNames t (allMembers gs) [] ↔ ∃ k ∈ allMembers gs, k.kanji.type = t ∧ k.kanji.name = s := by
  constructor
  · intro h; exact ((meaningTypeNames_spec t (allMembers gs) []).2 s h).2
  · rintro ⟨k, hk, ht, rfl⟩
    exact meaningTypeNames_mem t _ [] huniq k hk ht (by simp)

/-- For the pattern groups the examples shown for a type are its first 12 kanji that are in no group. -/
def C92_statement : Prop :=
  ∀ (find : Str → Option KanjiRec) (rows : List GroupRow) (d : PatternGroups) (t : KanjiType) (all : List Str),
    loadPattern find rows {} = .ok d → TypeNames t d.groups all →
    printMissingFromType all (patternTypeNames t (allMembers d.groups)) =
      missingExamples all (patternTypeNames t (allMembers d.groups))

/-- Four kanji for an example. -/
def exampleFind (s : Str) : Option KanjiRec :=
  if s ∈ [u8!"一", u8!"二", u8!"三", u8!"四"] then
    some { kanji := { type := .jouyou, name := s, radicalName := [], radicalNumber := 1, strokes := ⟨1, 0⟩ } }
  else none

/-- 一 is in two groups, so that the number of names found is the number of all kanji of the type and 四 is not
shown as missing. -/
theorem C92_violated : ¬ C92_statement := by
  intro h
  have := h exampleFind [⟨u8!"1", u8!"い", u8!"一,二"⟩, ⟨u8!"2", u8!"ろ", u8!"一,三"⟩] _ .jouyou
    [u8!"一", u8!"二", u8!"三", u8!"四"] rfl ⟨by decide, by decide, by decide⟩
  revert this
  decide

/-- Three examples: a family of three, a name with a wide colon in front, and a row with an unknown kanji. -/
example : (readGroup exampleFind .pattern ⟨u8!"1", u8!"一：いち", u8!"二,三"⟩ =
      .ok ⟨1, u8!"一：いち", [u8!"一", u8!"二", u8!"三"].filterMap exampleFind, .family⟩) ∧
    (readGroup exampleFind .pattern ⟨u8!"1", u8!"：いち", u8!"二,三"⟩ =
      .ok ⟨1, u8!"：いち", [u8!"二", u8!"三"].filterMap exampleFind, .peer⟩) ∧
    readGroup exampleFind .meaning ⟨u8!"1", u8!"いち", u8!"二,五"⟩ = .throw .domain := by decide

/-- The summary of two meaning groups. -/
example : ∃ d, loadMeaning exampleFind [⟨u8!"1", u8!"い", u8!"二,一"⟩, ⟨u8!"2", u8!"ろ", u8!"一,三"⟩] {} = .ok d ∧
    d.map.map Prod.fst = [u8!"一", u8!"一", u8!"三", u8!"二"] ∧
    printUniqueNames (d.map.map Prod.fst) 3 = ⟨3, 2, 1, [(2, [u8!"一"])]⟩ := ⟨_, rfl, by decide, by decide⟩

/-- True if no kanji is in two pattern groups. -/
theorem C92_pattern_partial (t : KanjiType) (gs : List Group) (all : List Str) (h : TypeNames t gs all)
    (hn : (allMemberNames gs).Nodup) :
    printMissingFromType all (patternTypeNames t (allMembers gs)) =
      missingExamples all (patternTypeNames t (allMembers gs)) := by
  refine missing_correct _ _ h.distinct ?_ (fun n hn => ?_) h.size
  · unfold patternTypeNames
    have e : allMemberNames gs = (allMembers gs).map (·.kanji.name) := by
      unfold allMemberNames allMembers
      rw [List.map_flatMap]
    rw [e] at hn
    exact (List.filter_sublist.map _).nodup hn
  · unfold patternTypeNames at hn
    rw [List.mem_map] at hn
    obtain ⟨k, hk, rfl⟩ := hn
    rw [List.mem_filter, beq_iff_eq] at hk
    exact h.complete k hk.1 hk.2

end KT
