import Verif.Spec.GroupTranscript
import Verif.Props.GroupStart
/-!
# A group quiz writes exactly what is specified, for any input (GroupQuiz.cpp, Quiz.cpp, Choice.cpp)
-/
namespace KT
open Spec

/-- What is shown of a member isn't too long. -/
structure RowFits (i : GroupItem) : Prop where
  pinyin : PinyinFits i
  name : i.shown.qualifiedName.length < 1000
  length : ∀ p, i.shown.pinyin = some p → p.length < 1000
  other : ∀ n, i.shown.other = some n → n < 65536

theorem rightTo_eq (w : Nat) (s : Str) : setwRight w s = rightTo w s := by
  unfold setwRight rightTo
  rw [show ((w : Int) - s.length).toNat = w - s.length by omega]

theorem rowMark_eq (answers : List UInt8) (c : UInt8) : assignedFrom 0 answers c = rowMark answers c := by
  rw [assignedFrom_eq]
  unfold rowMark
  cases answers.findIdx? (· == c) with
  | none => rfl
  | some i =>
    simp only [Nat.zero_add]
    rw [show setwRight 2 (toDec (i + 1)) = rightTo 2 (toDec (i + 1)) from rightTo_eq 2 _]

theorem rowPinyin_eq (o : Option Str) : pinyinText o = rowPinyin o := by cases o <;> rfl

theorem rowLetter_eq (quizMode : Bool) (k : Nat) (hk : k < 26) : lineLetter quizMode k = rowLetter quizMode k := by
  unfold lineLetter rowLetter groupLetter
  rw [if_pos hk]

theorem addOther_eq (t : GroupType) (o : Option Nat) (s : Str) : addOtherGroupName t o s = s ++ rowOther t o := by
  cases o with
  | none => simp [addOtherGroupName, rowOther]
  | some n => cases t <;> simp [addOtherGroupName, rowOther]

theorem rowOther_length (t : GroupType) (o : Option Nat) (ho : ∀ n, o = some n → n < 65536) : (rowOther t o).length ≤ 7 := by
  cases o with
  | none => simp [rowOther]
  | some n =>
    have hn := ho n rfl
    have := toDec_length n 5 (by omega) (by omega)
    cases t <;> simp [rowOther] <;> omega

/-- A line of the screen. -/
theorem row_left (quizMode : Bool) (t : GroupType) (answers : List UInt8) (k : Nat) (hk : k < 26) (q : GroupItem)
    (hq : RowFits q) :
    groupLineLeft quizMode t answers k q.shown =
      .ok (rightTo 4 (toDec (k + 1)) ++ u8!":  " ++
        fillTo 22 (q.shown.qualifiedName ++ fillTo 12 (rowPinyin q.shown.pinyin) ++
          (if quizMode then [] else rowOther t q.shown.other)) ++ rowMark answers (rowLetter quizMode k)) := by
  obtain ⟨hp, h12, -⟩ := addPinyin_ok q.shown.qualifiedName q.shown.pinyin hq.pinyin
  unfold groupLineLeft
  rw [hp, rowPinyin_eq]
  rw [rowPinyin_eq] at h12
  simp only [Res.bind]
  have hs : (if quizMode then q.shown.qualifiedName ++ rowPinyin q.shown.pinyin ++
        List.replicate (12 - displaySize (rowPinyin q.shown.pinyin)) 0x20
      else addOtherGroupName t q.shown.other (q.shown.qualifiedName ++ rowPinyin q.shown.pinyin ++
        List.replicate (12 - displaySize (rowPinyin q.shown.pinyin)) 0x20)) =
      q.shown.qualifiedName ++ fillTo 12 (rowPinyin q.shown.pinyin) ++
          (if quizMode then [] else rowOther t q.shown.other) := by
    cases quizMode with
    | true => simp [fillTo]
    | false => simp [fillTo, addOther_eq]
  rw [hs, rowMark_eq, rowLetter_eq quizMode k hk, show setwRight 4 (toDec (k + 1)) = _ from rightTo_eq 4 _]
  rw [setwLeft_blanks]
  · rfl
  · have h1 := hq.name
    have h2 := rowOther_length t q.shown.other hq.other
    have h3 : (rowPinyin q.shown.pinyin).length ≤ 1004 := by
      cases hp : q.shown.pinyin with
      | none => simp [rowPinyin]
      | some p => have := hq.length p hp; simp [rowPinyin]; omega
    have h4 : (if quizMode = true then ([] : Str) else rowOther t q.shown.other).length ≤ 7 := by
      cases quizMode with
      | true => simp
      | false => simpa using h2
    simp only [fillTo, List.length_append, List.length_replicate]
    omega

theorem rows_eq (quizMode : Bool) (t : GroupType) (answers : List UInt8) (meanings : Bool) :
    ∀ (k : Nat) (qs rs : List GroupItem), qs.length = rs.length → k + qs.length ≤ 26 → (∀ q ∈ qs, RowFits q) →
      showGroup quizMode t answers k (qs.map (·.shown)) (rs.map (·.right meanings)) =
        .ok (groupRows quizMode t answers meanings k qs rs ++ u8!"\n")
  | _, [], _, _, _, _ => by simp [showGroup, groupRows]
  | _, _ :: _, [], h, _, _ => by simp at h
  | k, q :: qs, r :: rs, h, hk, hs => by
    simp only [List.length_cons] at hk
    have ih := rows_eq quizMode t answers meanings (k + 1) qs rs (by simpa using h) (by omega)
      (fun x hx => hs x (by simp [hx]))
    simp only [List.map_cons]
    rw [show r.right meanings = (r.reading, printMeaning r.meaning false meanings) from rfl, showGroup,
      row_left quizMode t answers k (by omega) q (hs q (by simp)), ih]
    simp only [Res.bind, Res.ok.injEq, groupRows, groupRow, rowLetter_eq quizMode k (by omega)]
    have hm : printMeaning r.meaning false meanings =
        (match r.meaning with | some m => if meanings then u8!" : " ++ m else [] | none => []) ++ u8!"\n" := by
      unfold printMeaning
      cases r.meaning <;> cases meanings <;> rfl
    rw [hm]
    simp only [List.append_assoc]
    rfl

theorem mixed_eq (quizMode : Bool) (idx : List Nat) (l : List GroupItem) :
    (if quizMode then shuffled idx l else l) = mixed quizMode idx l := by
  cases quizMode with
  | false => simp [mixed]
  | true =>
    simp only [if_true, mixed, true_and, shuffled, List.isPerm_iff, inOrder]

/-- A group that can be asked: at least one member is shown, not more than 26, and what is shown of them isn't too
long. -/
def Listed (mt : MemberType) (g : GroupEntry) : Prop :=
  1 ≤ (shownMembers mt g).length ∧ (shownMembers mt g).length ≤ 26 ∧ ∀ i ∈ shownMembers mt g, RowFits i

/-- The state of a quiz as natural numbers. -/
def ListState.standing (st : ListState) : Standing := ⟨st.current.toNat, st.correct.toNat, st.mistakes, st.shown⟩

/-- The state after a question, and whether the quiz was quit: the loop adds one to the number of the question. -/
def ListState.after (st : ListState) : Standing × Bool :=
  if st.stop then (st.standing, true) else (ListState.standing { st with current := st.current + 1 }, false)

theorem letter_back (i : Nat) (hi : i < 26) : (groupLetter i).toNat - 97 = i := by
  unfold groupLetter
  rw [if_pos hi, UInt8.toNat_ofNat']
  omega

theorem letters_back (idx : List Nat) (h : ∀ i ∈ idx, i < 26) : (idx.map groupLetter).map (fun c => c.toNat - 97) = idx := by
  rw [List.map_map]
  conv => rhs; rw [← List.map_id idx]
  apply List.map_congr_left
  intro i hi
  exact letter_back i (h i hi)

/-- What holds between questions. -/
structure Ongoing (quizMode : Bool) (total : Nat) (st : ListState) : Prop where
  goes : st.stop = false
  within : st.current.toNat ≤ total
  counts : quizMode = true → st.correct.toNat + st.mistakes.length ≤ st.current.toNat

theorem first_eq (c : UInt16) : (c == 0) = (c.toNat == 0) := by
  by_cases h : c = 0
  · subst h; rfl
  · have : c.toNat ≠ 0 := fun h0 => h (UInt16.toNat_inj.1 h0)
    rw [beq_eq_false_iff_ne.2 h, beq_eq_false_iff_ne.2 this]

theorem page_eq (quizMode : Bool) (t : GroupType) (current : UInt16) (total : Nat) (g : GroupEntry) (qs rs : List GroupItem)
    (answers : List UInt8) (meanings : Bool) :
    groupHead quizMode current total g qs.length ++ (groupRows quizMode t answers meanings 0 qs rs ++ u8!"\n") =
      groupPage quizMode t (current.toNat + 1) total g qs rs answers meanings := by
  unfold groupHead questionHead groupPage
  simp only [List.append_assoc]

/-- One question with its verdict is as specified. -/
theorem round_play (quizMode : Bool) (t : GroupType) (mt : MemberType) (groups : List GroupEntry)
    (htot : groups.length < 65536) (g : GroupEntry) (hg : Listed mt g) (order : List Nat × List Nat) (n : Nat)
    (st : ListState) (s : InStream) (hi : groups[st.current.toNat]? = some g) (ho : Ongoing quizMode groups.length st) :
    ∃ text res, groupRound quizMode t mt groups.length g order n st s = .ok (text, res) ∧
      (text, res.map fun x => (x.1.after, x.2)) =
        playGroup quizMode t groups.length g (mixed quizMode order.1 (shownMembers mt g))
          (mixed quizMode order.2 (shownMembers mt g)) n st.standing s ∧
      ∀ st' s', res = some (st', s') →
        (st'.stop = false → Ongoing quizMode groups.length { st' with current := st'.current + 1 }) ∧
        (st'.stop = true → Ongoing quizMode groups.length { st' with stop := false }) := by
  obtain ⟨h1, h26, hf⟩ := hg
  have p1 := round_lists quizMode order.1 (shownMembers mt g)
  have p2 := round_lists quizMode order.2 (shownMembers mt g)
  have hlt : st.current.toNat < groups.length := by
    rw [List.getElem?_eq_some_iff] at hi
    exact hi.1
  unfold groupRound
  simp only
  rw [show (g.members.filter fun i => includeMember mt i.info) = shownMembers mt g from rfl]
  rw [mixed_eq, mixed_eq]
  rw [mixed_eq] at p1 p2
  generalize mixed quizMode order.1 (shownMembers mt g) = qs at *
  generalize mixed quizMode order.2 (shownMembers mt g) = rs at *
  have hl1 := p1.length_eq
  have hl2 := p2.length_eq
  obtain ⟨text, res, h, hres⟩ := C158_question quizMode t groups.length st.current g qs rs st.shown n s (by omega)
    (by omega) (fun i hi => (hf i (p1.mem_iff.1 hi)).pinyin)
  have hq := C160_question quizMode t groups.length st.current g qs rs st.shown n s (by omega)
    (fun answers meanings => groupRows quizMode t answers meanings 0 qs rs ++ u8!"\n")
    (fun answers meanings => rows_eq quizMode t answers meanings 0 qs rs (by omega) (by omega)
      (fun i hi => hf i (p1.mem_iff.1 hi)))
  have hpage : (fun answers meanings => groupHead quizMode st.current groups.length g qs.length ++
      (groupRows quizMode t answers meanings 0 qs rs ++ u8!"\n")) =
      groupPage quizMode t (st.current.toNat + 1) groups.length g qs rs := by
    funext answers meanings
    exact page_eq ..
  rw [hpage, first_eq, h] at hq
  simp only [GRun.view, Res.bind, Res.ok.injEq] at hq
  rw [h]
  simp only [Res.bind]
  unfold playGroup
  rw [show st.standing.before = st.current.toNat from rfl, show st.standing.meanings = st.shown from rfl,
    show (st.current.toNat + 1 == groups.length) = decide (st.current.toNat + 1 = groups.length) from rfl, ← hq]
  cases res with
  | none => exact ⟨text, none, rfl, rfl, by intro st' s' he; cases he⟩
  | some x =>
    obtain ⟨o, p, s'⟩ := x
    obtain ⟨-, ha, hc, hr, hpv, -⟩ := hres o p s' rfl
    simp only [Option.map_some, Talk.next, leftOf]
    cases o with
    | refresh => exact absurd rfl hr
    | stop =>
      refine ⟨_, _, rfl, rfl, fun st' s'' he => ?_⟩
      simp only [Option.some.injEq, Prod.mk.injEq] at he
      obtain ⟨rfl, -⟩ := he
      exact ⟨fun h => by simp at h, fun _ => ⟨rfl, ho.within, ho.counts⟩⟩
    | skip =>
      have h16 : (st.current + 1).toNat = st.current.toNat + 1 := by
        rw [UInt16.toNat_add]
        simp; omega
      refine ⟨_, _, rfl, ?_, fun st' s'' he => ?_⟩
      · simp only [ListState.after, ListState.standing, ho.goes, h16, Option.map_some, Bool.false_eq_true, if_false]
      · simp only [Option.some.injEq, Prod.mk.injEq] at he
        obtain ⟨rfl, -⟩ := he
        refine ⟨fun _ => ⟨ho.goes, ?_, fun hm => ?_⟩, fun hs => by simp [ho.goes] at hs⟩
        · show (st.current + 1).toNat ≤ _
          omega
        · have := ho.counts hm
          show _ ≤ (st.current + 1).toNat
          simp only
          omega
    | prev =>
      obtain ⟨hm, h0⟩ := hpv rfl
      have h0' : st.current.toNat ≠ 0 := fun h => h0 (UInt16.toNat_inj.1 h)
      have h16 : (st.current - 2 + 1).toNat = st.current.toNat - 1 := by
        rw [UInt16.toNat_add, UInt16.toNat_sub]
        simp; omega
      refine ⟨_, _, rfl, ?_, fun st' s'' he => ?_⟩
      · simp only [ListState.after, ListState.standing, ho.goes, h16, Option.map_some, Bool.false_eq_true, if_false]
      · simp only [Option.some.injEq, Prod.mk.injEq] at he
        obtain ⟨rfl, -⟩ := he
        refine ⟨fun _ => ⟨ho.goes, ?_, fun hm' => ?_⟩, fun hs => by simp [ho.goes] at hs⟩
        · show (st.current - 2 + 1).toNat ≤ _
          omega
        · rw [hm] at hm'; cases hm'
    | complete =>
      have hlen := hc rfl
      cases hqm : quizMode with
      | false =>
        subst hqm
        cases hpa : p.answers with
        | nil => rw [hpa] at hlen; simp only [List.length_nil] at hlen; omega
        | cons a r => exact absurd (ha a (by simp [hpa])) (by simp [lettersFor])
      | true =>
        subst hqm
        obtain ⟨idx, hidx, hib⟩ := letters_idx _ _ ha
        rw [hidx] at hlen ⊢
        rw [List.length_map] at hlen
        have hcounts := ho.counts rfl
        have h16 : (st.current + 1).toNat = st.current.toNat + 1 := by
          rw [UInt16.toNat_add]
          simp; omega
        have hc16 : (st.correct + 1).toNat = st.correct.toNat + 1 := by
          rw [UInt16.toNat_add]
          simp; omega
        have hv := C159_verdict { st with shown := p.shown } g.name qs rs idx (by omega) hlen
          (by intro i hi'; have := hib i hi'; omega)
        simp only [groupOutcome, hv, letters_back idx (fun i hi' => by have := hib i hi'; omega)]
        refine ⟨_, _, rfl, ?_, fun st' s'' he => ?_⟩
        · simp only [Option.map_some, hc16]
          by_cases hr : rightCount p.shown qs rs idx = qs.length
          · simp only [hr, ListState.after, ListState.standing, ho.goes, h16, hc16, Bool.false_eq_true, if_false, if_true]
          · simp only [hr, ListState.after, ListState.standing, ho.goes, h16, Bool.false_eq_true, if_false]
        · simp only [Option.some.injEq, Prod.mk.injEq] at he
          obtain ⟨rfl, -⟩ := he
          by_cases hr : rightCount p.shown qs rs idx = qs.length
          · rw [if_pos hr]
            refine ⟨fun _ => ⟨ho.goes, ?_, fun _ => ?_⟩, fun hs => by simp [ho.goes] at hs⟩
            · show (st.current + 1).toNat ≤ _
              omega
            · show (st.correct + 1).toNat + st.mistakes.length ≤ (st.current + 1).toNat
              omega
          · rw [if_neg hr]
            refine ⟨fun _ => ⟨ho.goes, ?_, fun _ => ?_⟩, fun hs => by simp [ho.goes] at hs⟩
            · show (st.current + 1).toNat ≤ _
              omega
            · show st.correct.toNat + (st.mistakes ++ [g.name]).length ≤ (st.current + 1).toNat
              rw [List.length_append, List.length_singleton]
              omega

/-- The questions of a quiz are as specified, with all that is written. -/
theorem C162_session (quizMode : Bool) (t : GroupType) (mt : MemberType) (groups : List GroupEntry)
    (htot : groups.length < 65536) (hg : ∀ g ∈ groups, Listed mt g) (n : Nat) :
    ∀ (orders : List (List Nat × List Nat)) (st : ListState) (s : InStream), Ongoing quizMode groups.length st →
      ∃ text res, groupSession quizMode t mt groups n orders st s = .ok (text, res) ∧
        (text, res.map fun x => (x.1.standing, x.2)) = playGroups quizMode t mt groups n orders st.standing s ∧
        ∀ st' s', res = some (st', s') → quizMode = true → st'.correct.toNat + st'.mistakes.length ≤ st'.current.toNat := by
  intro orders
  induction orders with
  | nil =>
    intro st s ho
    rw [groupSession, playGroups, if_neg (by simp [ho.goes])]
    rw [show st.standing.before = st.current.toNat from rfl]
    cases hi : groups[st.current.toNat]? with
    | none =>
      refine ⟨_, _, rfl, rfl, fun st' s' he => ?_⟩
      simp only [Option.some.injEq, Prod.mk.injEq] at he
      obtain ⟨rfl, -⟩ := he
      exact ho.counts
    | some g => exact ⟨_, _, rfl, rfl, by intro st' s' he; cases he⟩
  | cons order orders ih =>
    intro st s ho
    rw [groupSession, playGroups, if_neg (by simp [ho.goes])]
    rw [show st.standing.before = st.current.toNat from rfl]
    cases hi : groups[st.current.toNat]? with
    | none =>
      refine ⟨_, _, rfl, rfl, fun st' s' he => ?_⟩
      simp only [Option.some.injEq, Prod.mk.injEq] at he
      obtain ⟨rfl, -⟩ := he
      exact ho.counts
    | some g =>
      obtain ⟨text, res, h, hp, hres⟩ := round_play quizMode t mt groups htot g (hg g (List.mem_of_getElem? hi)) order n st s
        hi ho
      simp only [h, Res.bind]
      rw [← hp]
      cases res with
      | none => exact ⟨text, none, rfl, rfl, by intro st' s' he; cases he⟩
      | some x =>
        obtain ⟨st1, s1⟩ := x
        obtain ⟨hgo, hstop⟩ := hres st1 s1 rfl
        simp only [Option.map_some, Talk.next]
        cases hs : st1.stop with
        | true =>
          rw [groupSession, if_pos rfl]
          have h16 : st1.current + 1 - 1 = st1.current := by
            apply UInt16.toNat_inj.1
            rw [UInt16.toNat_sub, UInt16.toNat_add]
            have := st1.current.toNat_lt
            simp; omega
          refine ⟨_, _, rfl, ?_, fun st' s' he => ?_⟩
          · simp [ListState.after, hs, ListState.standing, h16]
          · simp only [Option.some.injEq, Prod.mk.injEq] at he
            obtain ⟨rfl, -⟩ := he
            show _ → _ + _ ≤ (st1.current + 1 - 1).toNat
            rw [h16]
            exact (hstop hs).counts
        | false =>
          obtain ⟨text2, res2, h2, hp2, hc2⟩ := ih { st1 with current := st1.current + 1 } s1 (hgo hs)
          rw [hs] at h2
          rw [h2]
          refine ⟨_, _, rfl, ?_, hc2⟩
          simp only [ListState.after, hs, Bool.false_eq_true, if_false]
          rw [hs] at hp2
          rw [← hp2]

theorem finalMessage_eq (c b : Nat) (m : List Str) (shown : Bool) (h : c + m.length ≤ b) (hb : b < 65536) :
    finalMessage c b m = lastLine ⟨b, c, m, shown⟩ := by
  have hsk : (((b : Int) - c - m.length) % 2 ^ 64).toNat = b - c - m.length := by omega
  unfold finalMessage lastLine
  simp only [hsk]
  by_cases h0 : b = 0
  · subst h0
    have hm : m = [] := List.length_eq_zero_iff.1 (by omega)
    subst hm
    simp
  · rw [if_pos h0]
    have hk : ∀ k : Nat, (if k ≠ 0 then u8!", skipped: " ++ toDec k else []) = if k = 0 then [] else u8!", skipped: " ++ toDec k := by
      intro k
      by_cases hk : k = 0 <;> simp [hk]
    rw [hk]
    cases m with
    | nil => simp [h0]
    | cons a r => simp

theorem lastLine_eq (st : ListState) (h : st.correct.toNat + st.mistakes.length ≤ st.current.toNat) :
    ListState.finish true st = lastLine st.standing :=
  finalMessage_eq _ _ _ st.shown h st.current.toNat_lt

theorem firstLines_eq (quizMode : Bool) (t : GroupType) (mt : MemberType) (total : Nat) :
    groupBegin quizMode t mt total = firstLines quizMode t mt total := by
  cases quizMode <;> cases t <;> cases mt <;> simp [groupBegin, firstLines, MemberType.toNat, kanjiLegend]

/-- A whole group quiz writes exactly what is specified: its heading, each question with the prompts and verdicts, and the
final score, for whatever is entered. -/
theorem C162_quiz (quizMode : Bool) (t : GroupType) (mt : MemberType) (groups : List GroupEntry)
    (htot : groups.length < 65536) (hg : ∀ g ∈ groups, Listed mt g) (question : UInt16) (hq : question.toNat ≤ groups.length)
    (shown : Bool) (n : Nat) (orders : List (List Nat × List Nat)) (s : InStream) :
    groupStartQuiz quizMode t mt groups question shown n orders s =
      let z := playQuiz quizMode t mt groups question.toNat shown n orders s
      .ok (z.1, z.2.map fun x => .ok x.2) := by
  have hb : ∃ c : UInt16, beginQuiz question groups.length = .ok { current := c } ∧ c.toNat = question.toNat - 1 := by
    unfold beginQuiz
    by_cases h0 : question = 0
    · subst h0; exact ⟨0, rfl, rfl⟩
    · have h0' : question.toNat ≠ 0 := fun h => h0 (UInt16.toNat_inj.1 h)
      rw [if_neg h0, if_neg (by omega)]
      refine ⟨question - 1, rfl, ?_⟩
      rw [UInt16.toNat_sub]
      have := question.toNat_lt
      simp; omega
  obtain ⟨c, hb, hc⟩ := hb
  unfold groupStartQuiz
  simp only [hb]
  obtain ⟨text, res, h, hp, hfin⟩ := C162_session quizMode t mt groups htot hg n orders { current := c, shown := shown } s
    ⟨rfl, by show c.toNat ≤ _; omega, fun _ => by simp⟩
  simp only [h, Res.bind, firstLines_eq]
  unfold playQuiz
  rw [show (⟨question.toNat - 1, 0, [], shown⟩ : Standing) = ListState.standing { current := c, shown := shown } by
    simp [ListState.standing, hc], ← hp]
  cases res with
  | none => rfl
  | some x =>
    obtain ⟨st', s'⟩ := x
    simp only [Option.map_some, Talk.next, Talk.begin]
    have hl : ListState.finish quizMode st' = if quizMode then lastLine st'.standing else [] := by
      cases hm : quizMode with
      | false => rfl
      | true => rw [if_pos rfl, lastLine_eq _ (hfin _ _ rfl hm)]
    rw [hl, List.append_assoc]

/-! ## Examples -/

example : ∀ g ∈ [aGroup, aGroup], Listed .jouyou g := by
  intro g hg
  obtain rfl : g = aGroup := by simpa using hg
  refine ⟨by decide, by decide, fun i hi => ?_⟩
  have hm := (List.mem_filter.1 hi).1
  simp only [aGroup, List.mem_cons, List.not_mem_nil, or_false] at hm
  rcases hm with rfl | rfl <;> exact ⟨by simp [PinyinFits], by decide, by simp, by simp⟩

end KT
