import Verif.Model.QuizScreen
import Verif.Props.GroupQuiz
import Verif.Props.ListQuiz
import Verif.Props.QuizDetails
import Verif.Props.DisplaySize
import Verif.Lemmas.Decimal
/-!
# Properties of the screens of quizzes (C54, C80, C110, C111, C112)
-/
namespace KT
open Spec

/-! ## C54: options -/

/-- The waiting and finished outcomes are fine. -/
def Run.AllSt {α : Type} (P : GroupState → Prop) : Run α → Prop
  | .waiting _ st => P st
  | .ok _ st _ => P st
  | _ => True

theorem Run.AllSt_bind {α β : Type} {P : GroupState → Prop} {r : Run α}
    {f : α → GroupState → List UInt8 → Run β} (h : r.AllSt P)
    (hf : ∀ a st i, r = .ok a st i → P st → (f a st i).AllSt P) : (r.bind f).AllSt P := by
  cases r with
  | waiting p st => exact h
  | ok a st i => exact hf a st i rfl h
  | _ => trivial

theorem groupGet_cases {p : GroupPrompt} {o : List UInt8} {st : GroupState} {inp : List UInt8} {c : UInt8}
    {st' : GroupState} {r : List UInt8} (h : groupGet p o st inp = .ok c st' r) : st' = st ∧ c ∈ o := by
  cases inp with
  | nil => cases h
  | cons b inp =>
    simp only [groupGet] at h
    split at h
    · rename_i hb; cases h; exact ⟨rfl, by simpa using hb⟩
    · cases h

theorem groupGet_allSt {P : GroupState → Prop} (p : GroupPrompt) (o : List UInt8) (st : GroupState) (inp : List UInt8)
    (h : P st) : (groupGet p o st inp).AllSt P := by
  cases inp with
  | nil => exact h
  | cons b inp =>
    simp only [groupGet]
    split
    · exact h
    · trivial

/-- Editing and refreshing are offered as soon as there is an answer; skipping and changing what is shown always. -/
def OptionsOk (st : GroupState) : Prop :=
  (editOption ∈ st.choices ↔ st.answers ≠ []) ∧ (refreshOption ∈ st.choices ↔ st.answers ≠ []) ∧
  skipOption ∈ st.choices ∧ meaningsOption ∈ st.choices

theorem editAnswer_options (st : GroupState) (inp : List UInt8) (h : OptionsOk st) :
    (editAnswer st inp).AllSt OptionsOk := by
  unfold editAnswer
  refine Run.AllSt_bind (P := OptionsOk) ?_ ?_
  · unfold getAnswerToEdit
    split
    · exact h
    · refine Run.AllSt_bind (groupGet_allSt _ _ _ _ h) ?_
      intro c st' r _ h'
      split
      · exact h'
      · trivial
  · intro e st' r _ h'
    split
    · trivial
    · rename_i old hold
      have hne : st'.answers ≠ [] := by intro hn; rw [hn] at hold; cases hold
      obtain ⟨h1, h2, h3, h4⟩ := h'
      have i1 := h1.2 hne
      have i2 := h2.2 hne
      refine Run.AllSt_bind (P := OptionsOk) (groupGet_allSt _ _ _ _ ?_) ?_
      · exact ⟨by simp [mem_addKey, i1, hne], by simp [mem_addKey, i2, hne], by simp [mem_addKey, h3],
          by simp [mem_addKey, h4]⟩
      · intro c st2 r2 hg _
        obtain ⟨rfl, hc⟩ := groupGet_cases hg
        simp only [mem_eraseKey, mem_addKey] at hc
        obtain ⟨⟨⟨⟨hc, ho1⟩, ho2⟩, ho3⟩, ho4⟩ := hc
        have hset : st'.answers.set e c ≠ [] := by
          intro hn
          have := congrArg List.length hn
          simp at this
          exact hne this
        refine ⟨?_, ?_, ?_, ?_⟩
        · simp [mem_eraseKey, mem_addKey, i1, Ne.symm ho1, hset]
        · simp [mem_eraseKey, mem_addKey, i2, Ne.symm ho3, hset]
        · simp [mem_eraseKey, mem_addKey, h3, Ne.symm ho4]
        · simp [mem_eraseKey, mem_addKey, h4, Ne.symm ho2]

theorem getAnswer_options (fuel : Nat) (st : GroupState) (inp : List UInt8) (h : OptionsOk st) :
    (getAnswer fuel st inp).AllSt OptionsOk := by
  induction fuel generalizing st inp with
  | zero => trivial
  | succ fuel ih =>
    unfold getAnswer
    refine Run.AllSt_bind (groupGet_allSt _ _ _ _ h) ?_
    intro c st' r hg h'
    by_cases h1 : c = refreshOption
    · rw [if_pos h1]; exact h'
    rw [if_neg h1]
    by_cases h2 : c = meaningsOption
    · rw [if_pos h2]
      have : addKey meaningsOption st'.choices = st'.choices := by
        unfold addKey; rw [if_pos (by simpa using h'.2.2.2)]
      rw [this]; exact h'
    rw [if_neg h2]
    by_cases h3 : c = prevOption
    · rw [if_pos h3]; exact h'
    rw [if_neg h3]
    by_cases h4 : c = skipOption
    · rw [if_pos h4]; exact h'
    rw [if_neg h4]
    by_cases h5 : c = editOption
    · rw [if_pos h5]
      refine Run.AllSt_bind (editAnswer_options st' r h') ?_
      intro _ st2 r2 _ h2'
      exact ih st2 r2 h2'
    rw [if_neg h5]
    by_cases h6 : c = quitOption
    · rw [if_pos h6]; exact h'
    rw [if_neg h6]
    obtain ⟨k1, k2, k3, k4⟩ := h'
    by_cases hl : st'.answers.length + 1 = 1
    · rw [if_pos hl]
      refine ⟨?_, ?_, ?_, ?_⟩ <;> simp [mem_addKey, mem_eraseKey, Ne.symm h4, Ne.symm h2, k3, k4]
    · rw [if_neg hl]
      have hne : st'.answers ≠ [] := by intro hn; simp [hn] at hl
      refine ⟨?_, ?_, ?_, ?_⟩
      · simp [mem_eraseKey, k1.2 hne, Ne.symm h5]
      · simp [mem_eraseKey, k2.2 hne, Ne.symm h1]
      · simp [mem_eraseKey, k3, Ne.symm h4]
      · simp [mem_eraseKey, k4, Ne.symm h2]

theorem getAnswers_options (n : Nat) (st : GroupState) (inp : List UInt8) (h : OptionsOk st) :
    (getAnswers n st inp).AllSt OptionsOk := by
  induction n generalizing st inp with
  | zero => exact h
  | succ n ih =>
    unfold getAnswers
    refine Run.AllSt_bind (getAnswer_options _ _ _ h) ?_
    intro o st' r _ h'
    cases o with
    | answered => exact ih st' r h'
    | _ => exact h'

theorem groupQuestion_options (total fuel : Nat) (st : GroupState) (inp : List UInt8) (h : OptionsOk st) :
    (groupQuestion total fuel st inp).AllSt OptionsOk := by
  induction fuel generalizing st inp with
  | zero => trivial
  | succ fuel ih =>
    unfold groupQuestion
    refine Run.AllSt_bind (getAnswers_options _ _ _ h) ?_
    intro o st' r _ h'
    split
    · exact ih st' r h'
    · exact h'

/-- At every prompt of a question for a group of up to 58 members: editing and refreshing are offered exactly if there
is an answer, and skipping and showing or hiding meanings always. -/
theorem C54_options (quizMode hasPrev : Bool) (n : Nat) (h : n ≤ 58) (fuel : Nat) (inp : List UInt8)
    (p : GroupPrompt) (st : GroupState)
    (hr : groupQuestion n fuel (groupStart quizMode hasPrev n) inp = .waiting p st) :
    (editOption ∈ st.choices ↔ st.answers ≠ []) ∧ (refreshOption ∈ st.choices ↔ st.answers ≠ []) ∧
    skipOption ∈ st.choices ∧ meaningsOption ∈ st.choices := by
  have hL := lettersFor_ok quizMode n h
  have h0 : OptionsOk (groupStart quizMode hasPrev n) := by
    have hnot : ∀ c, c = editOption ∨ c = refreshOption → c ∉ (groupStart quizMode hasPrev n).choices := by
      intro c hc hm
      simp only [groupStart, List.mem_append, List.mem_cons, List.not_mem_nil, or_false] at hm
      rcases hm with (hm | hm) | hm
      · have : c ∈ lettersFor quizMode n := by
          unfold lettersFor
          simpa using hm
        refine hL.opts c this ?_
        rcases hc with rfl | rfl <;> simp [isChoiceOption]
      · split at hm
        · simp at hm; subst hm; revert hc; decide
        · cases hm
      · rcases hm with rfl | rfl <;> revert hc <;> decide
    refine ⟨?_, ?_, ?_, ?_⟩
    · simp only [hnot _ (.inl rfl), false_iff]; simp [groupStart]
    · simp only [hnot _ (.inr rfl), false_iff]; simp [groupStart]
    · simp [groupStart]
    · simp [groupStart]
  have := groupQuestion_options n fuel _ inp h0
  rw [hr] at this
  exact this

/-- What the options do: skipping, going back and quitting end the question with the answers unchanged; refreshing and
changing what is shown go on with the same answers. -/
theorem C54_commands (total fuel : Nat) (st : GroupState) (rest : List UInt8) (h : st.answers.length < total) :
    (skipOption ∈ st.choices → groupQuestion total (fuel + 1) st (skipOption :: rest) = .ok .skip st rest) ∧
    (prevOption ∈ st.choices → groupQuestion total (fuel + 1) st (prevOption :: rest) = .ok .prev st rest) ∧
    groupQuestion total (fuel + 1) st (quitOption :: rest) = .ok .stop st rest ∧
    (refreshOption ∈ st.choices →
      groupQuestion total (fuel + 1) st (refreshOption :: rest) = groupQuestion total fuel st rest) ∧
    (meaningsOption ∈ st.choices →
      groupQuestion total (fuel + 1) st (meaningsOption :: rest) = groupQuestion total fuel st rest) := by
  obtain ⟨n, hn⟩ : ∃ n, total - st.answers.length = n + 1 := ⟨total - st.answers.length - 1, by omega⟩
  have hget : ∀ c, (c = quitOption ∨ c ∈ st.choices) →
      groupGet .reading (quitOption :: st.choices) st (c :: rest) = .ok c st rest := by
    intro c hc
    simp only [groupGet]
    rw [if_pos (by simpa using hc)]
  have hm : meaningsOption ∈ st.choices → addKey meaningsOption st.choices = st.choices := by
    intro hm; unfold addKey; rw [if_pos (by simpa using hm)]
  refine ⟨fun hc => ?_, fun hc => ?_, ?_, fun hc => ?_, fun hc => ?_⟩
  all_goals
    simp only [groupQuestion, hn, getAnswers, List.length_cons, getAnswer]
  · rw [hget _ (.inr hc)]; rfl
  · rw [hget _ (.inr hc)]; rfl
  · rw [hget _ (.inl rfl)]; rfl
  · rw [hget _ (.inr hc)]; rfl
  · rw [hget _ (.inr hc)]; simp only [Run.bind]
    rw [if_neg (by decide), if_pos trivial, hm hc]; rfl

/-! ## C80: enough members and the markers of the buckets -/

/-- A group has enough members exactly if at least two of them are shown. -/
theorem C80_enough (t : MemberType) (g : QuizGroup) :
    enoughMembers t g = true ↔
      ∃ x y, [x, y].Sublist g.members ∧ includeMember t x = true ∧ includeMember t y = true := by
  unfold enoughMembers
  rw [decide_eq_true_iff, gt_iff_lt, List.countP_eq_length_filter]
  constructor
  · intro h
    cases hf : g.members.filter (includeMember t) with
    | nil => simp [hf] at h
    | cons x l =>
      cases l with
      | nil => simp [hf] at h
      | cons y l =>
        have hsub : (x :: y :: l).Sublist g.members := hf ▸ List.filter_sublist
        have hx : x ∈ g.members.filter (includeMember t) := by rw [hf]; simp
        have hy : y ∈ g.members.filter (includeMember t) := by rw [hf]; simp
        refine ⟨x, y, List.Sublist.trans ?_ hsub, (List.mem_filter.1 hx).2, (List.mem_filter.1 hy).2⟩
        simp
  · rintro ⟨x, y, hs, hx, hy⟩
    have := (hs.filter (includeMember t)).length_le
    simp [hx, hy] at this
    omega

/-- Each bucket after the first starts at the wide colon followed by the first kana of its choice. -/
theorem C80_markers : patternGroupChoices.length = 6 ∧
    patternGroups = patternGroupChoices.tail.map fun s => u8!"：" ++ s.take 3 := by decide

/-! ## C110: the list of groups that is asked -/

/-- The original list is the same as the prepared one when it is used instead. -/
def C110_statement : Prop :=
  ∀ (t : MemberType) (fromBeginning : Bool) (list : List QuizGroup), (∀ g ∈ list, 2 ≤ g.members.length) →
    groupsAsked t none fromBeginning list = prepareList t none list

/-- A group with members that have no reading is in the original list only. -/
theorem C110_violated : ¬ C110_statement := by
  intro h
  have := h .all true [⟨u8!"数", [⟨true, true, true, 1⟩, ⟨false, false, false, 0⟩]⟩] (by decide)
  revert this
  decide

/-- Unless all members are shown from the beginning, the groups asked are those with at least two members to show.
Then it is the whole list, which is the same if all members have readings. -/
theorem C110_asked_partial (t : MemberType) (fromBeginning : Bool) (list : List QuizGroup) :
    groupsAsked t none fromBeginning list =
      .ok (if fromBeginning = true ∧ t = .all then list else list.filter (enoughMembers t)) ∧
    ((∀ g ∈ list, 2 ≤ g.members.length ∧ ∀ k ∈ g.members, k.hasReading = true) →
      groupsAsked t none fromBeginning list = prepareList t none list) := by
  have e : groupsAsked t none fromBeginning list =
      .ok (if fromBeginning = true ∧ t = .all then list else list.filter (enoughMembers t)) := by
    unfold groupsAsked
    simp only [C80_all]
    cases fromBeginning <;> cases t <;> simp
  refine ⟨e, fun h => ?_⟩
  rw [e, C80_all]
  split
  · rename_i ht
    congr 1
    symm
    rw [List.filter_eq_self]
    intro g hg
    obtain ⟨h2, hk⟩ := h g hg
    have : g.members.countP (includeMember t) = g.members.length := by
      rw [List.countP_eq_length]
      intro k hk'
      simp [ht.2, includeMember, hk k hk', MemberType.toNat]
    unfold enoughMembers
    rw [this]
    simp; omega
  · rfl

/-! ## C111: showing a group -/

theorem displaySize_printable (s : Str) (h : ∀ b ∈ s, 0x20 ≤ b ∧ b < 0x7f) : displaySize s = s.length := by
  have h1 : ∀ b : UInt8, 0x20 ≤ b → b < 0x7f → displaySize [b] = 1 ∧ b ≠ 0 ∧ ¬ IsContinuation b := by
    have key : ∀ n, n < 256 → 0x20 ≤ UInt8.ofNat n → UInt8.ofNat n < 0x7f →
        displaySize [UInt8.ofNat n] = 1 ∧ UInt8.ofNat n ≠ 0 ∧ ¬ IsContinuation (UInt8.ofNat n) := by
      unfold IsContinuation
      decide +kernel
    intro b h1 h2
    have := key b.toNat b.toNat_lt
    rw [UInt8.ofNat_toNat] at this
    exact this h1 h2
  induction s with
  | nil => rfl
  | cons b s ih =>
    have hb := h b (by simp)
    obtain ⟨k1, k2, k3⟩ := h1 b hb.1 hb.2
    have hs : ∀ x ∈ s, 0x20 ≤ x ∧ x < 0x7f := fun x hx => h x (by simp [hx])
    rw [show b :: s = [b] ++ s from rfl, C32_additive _ _ (by simpa using k2.symm) ?_ ?_, k1, ih hs]
    · simp; omega
    · intro h0
      exact (h1 0 (hs 0 h0).1 (hs 0 h0).2).2.1 rfl
    · intro x y he
      subst he
      have := hs x (by simp)
      exact (h1 x this.1 this.2).2.2

theorem digit_ascii (b : UInt8) (h : isDigitChar b = true) : 0x20 ≤ b ∧ b < 0x7f := by
  unfold isDigitChar at h
  simp only [Bool.and_eq_true, decide_eq_true_iff, UInt8.le_iff_toNat_le, UInt8.lt_iff_toNat_lt] at h ⊢
  have h1 : (0x30 : UInt8).toNat = 0x30 := rfl
  have h2 : (0x39 : UInt8).toNat = 0x39 := rfl
  have h3 : (0x20 : UInt8).toNat = 0x20 := rfl
  have h4 : (0x7f : UInt8).toNat = 0x7f := rfl
  omega

theorem toDec_ascii (n : Nat) : ∀ b ∈ toDec n, 0x20 ≤ b ∧ b < 0x7f := by
  intro b hb
  exact digit_ascii b (List.all_eq_true.1 (toDec_digits n) b hb)

theorem decDigits_length (fuel n k : Nat) (hk : 1 ≤ k) (h : n < 10 ^ k) : (decDigits fuel n).length ≤ k := by
  induction k generalizing fuel n with
  | zero => omega
  | succ k ih =>
    cases fuel with
    | zero => simp [decDigits]
    | succ fuel =>
      unfold decDigits
      split
      · simp
      · rename_i hn
        cases k with
        | zero => simp at h; omega
        | succ k =>
          have := ih fuel (n / 10) (by omega) (by
            rw [Nat.pow_succ] at h
            exact Nat.div_lt_of_lt_mul (by omega))
          simp; omega

theorem toDec_length (n k : Nat) (hk : 1 ≤ k) (h : n < 10 ^ k) : (toDec n).length ≤ k :=
  decDigits_length _ _ _ hk h

theorem setwRight_ascii (w : Nat) (s : Str) (h : ∀ b ∈ s, 0x20 ≤ b ∧ b < 0x7f) (hl : s.length ≤ w) :
    displaySize (setwRight w s) = w ∧ (∀ b ∈ setwRight w s, 0x20 ≤ b ∧ b < 0x7f) := by
  have ha : ∀ b ∈ setwRight w s, 0x20 ≤ b ∧ b < 0x7f := by
    intro b hb
    rw [setwRight, List.mem_append] at hb
    rcases hb with hb | hb
    · rw [(List.mem_replicate.1 hb).2]; decide
    · exact h b hb
  refine ⟨?_, ha⟩
  rw [displaySize_printable _ ha, setwRight]
  simp
  omega

/-- The text before the letter of a line: how far an answer is assigned to it. -/
def assignedMark (answers : List UInt8) (letter : UInt8) : Str :=
  match answers.findIdx? (· == letter) with
  | some i => setwRight 2 (toDec (i + 1)) ++ u8!"->"
  | none => u8!"    "

theorem assignedFrom_eq (answers : List UInt8) (c : UInt8) (i : Nat) :
    assignedFrom i answers c =
      match answers.findIdx? (· == c) with
      | some k => setwRight 2 (toDec (i + k + 1)) ++ u8!"->"
      | none => u8!"    " := by
  induction answers generalizing i with
  | nil => rfl
  | cons a r ih =>
    rw [assignedFrom, List.findIdx?_cons]
    by_cases h : a = c
    · simp [h]
    · rw [if_neg h, ih, if_neg (by simpa using h)]
      cases r.findIdx? (· == c) with
      | none => rfl
      | some k => simp only [Option.map_some]; rw [show i + 1 + k = i + (k + 1) by omega]

theorem assignedMark_ascii (answers : List UInt8) (c : UInt8) (h : answers.length < 100) :
    displaySize (assignedMark answers c) = 4 ∧ ∀ b ∈ assignedMark answers c, 0x20 ≤ b ∧ b < 0x7f := by
  have key : (assignedMark answers c).length = 4 ∧ ∀ b ∈ assignedMark answers c, 0x20 ≤ b ∧ b < 0x7f := by
    unfold assignedMark
    cases hf : answers.findIdx? (· == c) with
    | none => simp only; exact ⟨rfl, by decide⟩
    | some i =>
      simp only
      have hi := (List.findIdx?_eq_some_iff_getElem.1 hf).1
      have hl := toDec_length (i + 1) 2 (by omega) (by omega)
      have ha := (setwRight_ascii 2 (toDec (i + 1)) (toDec_ascii _) hl).2
      refine ⟨?_, ?_⟩
      · simp [setwRight]; omega
      · intro b hb
        rw [List.mem_append] at hb
        rcases hb with hb | hb
        · exact ha b hb
        · revert hb b; decide
  exact ⟨by rw [displaySize_printable _ key.2, key.1], key.2⟩

/-- The name with its suffix takes three columns, and the other texts are ordinary. -/
structure ShownOk (q : ShownMember) : Prop where
  name : displaySize q.qualifiedName = 3 ∧ 0 ∉ q.qualifiedName ∧ q.qualifiedName.length < 1000 ∧
    ∀ x y, q.qualifiedName = x :: y → ¬ IsContinuation x
  pinyin : ∀ p, q.pinyin = some p → 0 ∉ p ∧ p.length < 1000 ∧ ∀ x y, p = x :: y → ¬ IsContinuation x
  other : ∀ n, q.other = some n → n < 65536

/-- The text of the pinyin in a line. -/
def pinyinText : Option Str → Str
  | some p => u8!"  (" ++ p ++ u8!")"
  | none => []

/-- The text of the other group in a line. -/
def otherText (t : GroupType) : Option Nat → Str
  | some n => (match t with | .meaning => u8!"p:" | .pattern => u8!"m:") ++ toDec n
  | none => []

/-- Lines can be shown and their letters are below each other. -/
def C111_statement : Prop :=
  ∀ (quizMode : Bool) (t : GroupType) (answers : List UInt8) (count : Nat) (q : ShownMember),
    answers.length ≤ 58 → count < 58 → ShownOk q →
    ∃ s, groupLineLeft quizMode t answers count q = .ok s ∧ displaySize s = 33

/-- For pinyin of nine or more columns the number of blanks wraps around and the string is too long. -/
theorem C111_violated : ¬ C111_statement := by
  intro h
  obtain ⟨s, hs, -⟩ := h true .meaning [] 0 ⟨u8!"亜.", some (u8!"zhuangzhu"), none⟩ (by decide) (by decide)
    ⟨⟨by decide +kernel, by decide, by decide, by
      intro x y he
      have : x = 0xe4 := by cases he; rfl
      subst this
      unfold IsContinuation
      decide⟩, by
      intro p hp
      cases hp
      refine ⟨by decide, by decide, ?_⟩
      intro x y he
      have : x = 0x7a := by cases he; rfl
      subst this
      unfold IsContinuation
      decide, by simp⟩
  have : groupLineLeft true .meaning [] 0 ⟨u8!"亜.", some (u8!"zhuangzhu"), none⟩ = .throw .std := by decide +kernel
  rw [this] at hs
  cases hs

theorem addPinyin_ok (s : Str) (o : Option Str)
    (ho : ∀ p, o = some p → displaySize p ≤ 8 ∧ 0 ∉ p ∧ ∀ x y, p = x :: y → ¬ IsContinuation x) :
    addPinyin o s = .ok (s ++ pinyinText o ++ List.replicate (12 - displaySize (pinyinText o)) 0x20) ∧
    displaySize (pinyinText o) ≤ 12 ∧ 0 ∉ pinyinText o := by
  cases o with
  | none => simp [addPinyin, pinyinText, show displaySize [] = 0 from rfl]
  | some p =>
    obtain ⟨h8, h0, hc⟩ := ho p rfl
    have e1 : displaySize (u8!"  (") = 3 := by decide +kernel
    have e2 : displaySize (u8!")") = 1 := by decide +kernel
    have hp : displaySize (pinyinText (some p)) = displaySize p + 4 := by
      simp only [pinyinText]
      rw [C32_additive _ (u8!")") ?_ (by decide) ?_, C32_additive _ _ (by decide) h0 hc, e1, e2]
      · omega
      · simp only [List.mem_append, not_or]; exact ⟨by decide, h0⟩
      · intro x y he
        cases he
        unfold IsContinuation; decide
    refine ⟨?_, by omega, ?_⟩
    · simp only [addPinyin]
      have hd : displaySize (u8!"  (" ++ p ++ u8!")") = displaySize p + 4 := hp
      have hmod : (12 + 2 ^ 64 - (displaySize p + 4)) % 2 ^ 64 = 12 - (displaySize p + 4) := by omega
      rw [hd, hmod, if_neg (by omega), hp]
      rfl
    · simp only [pinyinText, List.mem_append, not_or]; exact ⟨⟨by decide, h0⟩, by decide⟩

/-- Every line has the number, the name with its suffix, the pinyin if there is one, in a review the number of the
other group, and the number of the answer for which the letter was chosen; the letter follows after 33 columns. -/
theorem C111_line_partial (quizMode : Bool) (t : GroupType) (answers : List UInt8) (count : Nat) (q : ShownMember)
    (ha : answers.length ≤ 58) (hcount : count < 58) (hq : ShownOk q)
    (hp : ∀ p, q.pinyin = some p → displaySize p ≤ 8) :
    ∃ a b c : Nat, ∃ s, groupLineLeft quizMode t answers count q = .ok s ∧ displaySize s = 33 ∧
      s = List.replicate a 0x20 ++ toDec (count + 1) ++ u8!":  " ++ q.qualifiedName ++ pinyinText q.pinyin ++
        List.replicate b 0x20 ++ (if quizMode then [] else otherText t q.other) ++ List.replicate c 0x20 ++
        assignedMark answers (lineLetter quizMode count) := by
  obtain ⟨hpin, hp12, hp0⟩ := addPinyin_ok q.qualifiedName q.pinyin
    (fun p h => ⟨hp p h, (hq.pinyin p h).1, (hq.pinyin p h).2.2⟩)
  have hoth : (∀ b ∈ (if quizMode then [] else otherText t q.other), 0x20 ≤ b ∧ b < 0x7f) ∧
      (if quizMode then [] else otherText t q.other).length ≤ 7 := by
    cases quizMode with
    | true => simp
    | false =>
      simp only [Bool.false_eq_true, if_false]
      cases ho : q.other with
      | none => simp [otherText]
      | some n =>
        have hn := hq.other n ho
        have hl := toDec_length n 5 (by omega) (by omega)
        have hasc := toDec_ascii n
        simp only [otherText]
        cases t with
        | meaning =>
          refine ⟨?_, ?_⟩
          · intro b hb
            rw [List.mem_append] at hb
            rcases hb with hb | hb
            · revert hb b; decide
            · exact hasc b hb
          · simp; omega
        | pattern =>
          refine ⟨?_, ?_⟩
          · intro b hb
            rw [List.mem_append] at hb
            rcases hb with hb | hb
            · revert hb b; decide
            · exact hasc b hb
          · simp; omega
  have h0asc : ∀ s : Str, (∀ b ∈ s, (0x20 : UInt8) ≤ b ∧ b < 0x7f) → (0 : UInt8) ∉ s ∧
      ∀ x y, s = x :: y → ¬ IsContinuation x := by
    intro s hs
    refine ⟨fun h => absurd (hs 0 h).1 (by decide), ?_⟩
    intro x y he
    subst he
    have := hs x (by simp)
    simp only [UInt8.le_iff_toNat_le, UInt8.lt_iff_toNat_lt] at this
    have h4 : (0x7f : UInt8).toNat = 0x7f := rfl
    unfold IsContinuation
    omega
  have hblank : ∀ n, ∀ b ∈ List.replicate n (0x20 : UInt8), 0x20 ≤ b ∧ b < 0x7f := by
    intro n b hb
    rw [(List.mem_replicate.1 hb).2]; decide
  have hpc : ∀ x y, pinyinText q.pinyin = x :: y → ¬ IsContinuation x := by
    intro x y he
    cases hq' : q.pinyin with
    | none => rw [hq'] at he; cases he
    | some p =>
      rw [hq'] at he
      have : x = 0x20 := by cases he; rfl
      subst this
      unfold IsContinuation; decide
  generalize hO : (if quizMode then [] else otherText t q.other : Str) = O at hoth ⊢
  obtain ⟨hoa, hol⟩ := hoth
  -- the entry
  have hS : (if quizMode then q.qualifiedName ++ pinyinText q.pinyin ++
        List.replicate (12 - displaySize (pinyinText q.pinyin)) 0x20
      else addOtherGroupName t q.other (q.qualifiedName ++ pinyinText q.pinyin ++
        List.replicate (12 - displaySize (pinyinText q.pinyin)) 0x20)) =
      q.qualifiedName ++ pinyinText q.pinyin ++
        List.replicate (12 - displaySize (pinyinText q.pinyin)) 0x20 ++ O := by
    subst hO
    cases quizMode with
    | true => simp
    | false =>
      simp only [Bool.false_eq_true, if_false]
      unfold addOtherGroupName otherText
      cases q.other with
      | none => simp
      | some n => cases t <;> simp
  generalize hk : 12 - displaySize (pinyinText q.pinyin) = k at hpin hS
  have hsize : displaySize (q.qualifiedName ++ pinyinText q.pinyin ++ List.replicate k 0x20 ++ O) =
      15 + O.length := by
    have z1 : (0 : UInt8) ∉ q.qualifiedName ++ pinyinText q.pinyin := by
      simp only [List.mem_append, not_or]; exact ⟨hq.name.2.1, hp0⟩
    have z2 : (0 : UInt8) ∉ q.qualifiedName ++ pinyinText q.pinyin ++ List.replicate k 0x20 := by
      simp only [List.mem_append, not_or] at z1 ⊢; exact ⟨z1, (h0asc _ (hblank k)).1⟩
    rw [C32_additive _ O z2 (h0asc O hoa).1 (h0asc O hoa).2,
      C32_additive _ _ z1 (h0asc _ (hblank k)).1 (h0asc _ (hblank k)).2,
      C32_additive _ _ hq.name.2.1 hp0 hpc, hq.name.1, displaySize_spaces, displaySize_printable O hoa]
    omega
  have hz : (0 : UInt8) ∉ q.qualifiedName ++ pinyinText q.pinyin ++ List.replicate k 0x20 ++ O := by
    simp only [List.mem_append, not_or]
    exact ⟨⟨⟨hq.name.2.1, hp0⟩, (h0asc _ (hblank k)).1⟩, (h0asc O hoa).1⟩
  have hlen : 22 + (q.qualifiedName ++ pinyinText q.pinyin ++ List.replicate k 0x20 ++ O).length < 2 ^ 31 := by
    have : (pinyinText q.pinyin).length ≤ 1004 := by
      cases hq' : q.pinyin with
      | none => simp [pinyinText]
      | some p =>
        have := (hq.pinyin p hq').2.1
        simp [pinyinText]; omega
    have := hq.name.2.2.1
    simp; omega
  have hset := (C32_setw _ 22 hz hlen).1
  have hbl := setwLeft_blanks _ 22 hlen
  rw [hsize] at hset hbl
  have hm := assignedMark_ascii answers (lineLetter quizMode count) (by omega)
  have hn := setwRight_ascii 4 (toDec (count + 1)) (toDec_ascii _) (by
    have := toDec_length (count + 1) 4 (by omega) (by omega)
    omega)
  have hasg : assignedFrom 0 answers (lineLetter quizMode count) =
      assignedMark answers (lineLetter quizMode count) := by
    rw [assignedFrom_eq]
    unfold assignedMark
    simp
  refine ⟨((4 : Int) - (toDec (count + 1)).length).toNat, k, 22 - (15 + O.length), _, ?_, ?_, rfl⟩
  · unfold groupLineLeft
    rw [hpin]
    simp only [Res.bind, hS, hasg, hbl, setwRight]
    simp
  · have hsetw : (List.replicate ((4 : Int) - (toDec (count + 1)).length).toNat 0x20 ++ toDec (count + 1)) =
        setwRight 4 (toDec (count + 1)) := rfl
    have hassoc : List.replicate ((4 : Int) - (toDec (count + 1)).length).toNat 0x20 ++ toDec (count + 1) ++ u8!":  " ++
        q.qualifiedName ++ pinyinText q.pinyin ++ List.replicate k 0x20 ++ O ++
        List.replicate (22 - (15 + O.length)) 0x20 ++ assignedMark answers (lineLetter quizMode count) =
        (setwRight 4 (toDec (count + 1)) ++ u8!":  ") ++
          setwLeft (wideSetw (q.qualifiedName ++ pinyinText q.pinyin ++ List.replicate k 0x20 ++ O) 22)
            (q.qualifiedName ++ pinyinText q.pinyin ++ List.replicate k 0x20 ++ O) ++
          assignedMark answers (lineLetter quizMode count) := by
      rw [hbl, hsetw]; simp
    rw [hassoc]
    have hca : ∀ b ∈ setwRight 4 (toDec (count + 1)) ++ u8!":  ", 0x20 ≤ b ∧ b < 0x7f := by
      intro b hb
      rw [List.mem_append] at hb
      rcases hb with hb | hb
      · exact hn.2 b hb
      · revert hb b; decide
    have hbl0 := hbl
    generalize hE : q.qualifiedName ++ pinyinText q.pinyin ++ List.replicate k 0x20 ++ O = E at hset hbl hbl0 hz
    have hne : q.qualifiedName ≠ [] := by
      intro hn
      have := hq.name.1
      rw [hn] at this
      cases this
    have hq0 : ∀ x y, setwLeft (wideSetw E 22) E = x :: y → ¬ IsContinuation x := by
      intro x y he
      rw [hbl, ← hE] at he
      cases hqn : q.qualifiedName with
      | nil => exact absurd hqn hne
      | cons b r =>
        rw [hqn] at he
        simp only [List.cons_append, List.cons.injEq] at he
        rw [← he.1]
        exact hq.name.2.2.2 b r hqn
    have hz2 : (0 : UInt8) ∉ setwLeft (wideSetw E 22) E := by
      rw [hbl]
      simp only [List.mem_append, not_or]
      exact ⟨hz, (h0asc _ (hblank _)).1⟩
    have hz3 := (h0asc _ hca).1
    rw [C32_additive _ _ (by simp only [List.mem_append, not_or] at hz3 ⊢; exact ⟨hz3, hz2⟩) (h0asc _ hm.2).1
      (h0asc _ hm.2).2, C32_additive _ _ hz3 hz2 hq0, hset, hm.1, displaySize_printable _ hca]
    have h4 : (setwRight 4 (toDec (count + 1))).length = 4 := (displaySize_printable _ hn.2).symm.trans hn.1
    rw [List.length_append, h4]
    show 4 + 3 + _ + 4 = 33
    omega

/-- The lines of the screen: each with its letter, followed by the reading and the meaning at the same position. -/
theorem C111_screen (quizMode : Bool) (t : GroupType) (answers : List UInt8) (qs : List ShownMember)
    (rs : List (Str × Str)) (hl : rs.length = qs.length) (lefts : List Str) (hll : lefts.length = qs.length) (k : Nat)
    (h : ∀ (i : Nat) (q : ShownMember) (s : Str), qs[i]? = some q → lefts[i]? = some s →
      groupLineLeft quizMode t answers (k + i) q = .ok s) :
    showGroup quizMode t answers k qs rs =
      .ok ((((lefts.zip rs).zipIdx k).map fun p =>
        p.1.1 ++ [lineLetter quizMode p.2] ++ u8!":  " ++ p.1.2.1 ++ p.1.2.2).flatten ++ u8!"\n") := by
  induction qs generalizing rs lefts k with
  | nil =>
    have : lefts = [] := List.length_eq_zero_iff.1 hll
    subst this
    rfl
  | cons q qs ih =>
    cases rs with
    | nil => simp at hl
    | cons r rs =>
      cases lefts with
      | nil => simp at hll
      | cons s lefts =>
        have h0 := h 0 q s rfl rfl
        simp only [Nat.add_zero] at h0
        have := ih rs (by simpa using hl) lefts (by simpa using hll) (k + 1) (by
          intro i q' s' hq hs
          have := h (i + 1) q' s' (by simpa using hq) (by simpa using hs)
          rw [show k + 1 + i = k + (i + 1) by omega]
          exact this)
        rw [showGroup, h0, this]
        simp [Res.bind]

/-- The answers given so far, with the number of the question for each. -/
theorem C111_answers (answers : List UInt8) :
    printAssignedAnswers answers =
      if answers = [] then []
      else u8!"    " ++ (u8!" ").intercalate (answers.zipIdx.map fun p => toDec (p.2 + 1) ++ u8!"->" ++ [p.1]) ++
        u8!"\n" := by
  have key : ∀ (l : List (UInt8 × Nat)), l ≠ [] →
      (l.map fun p => u8!" " ++ toDec (p.2 + 1) ++ u8!"->" ++ [p.1]).flatten =
        u8!" " ++ (u8!" ").intercalate (l.map fun p => toDec (p.2 + 1) ++ u8!"->" ++ [p.1]) := by
    intro l
    induction l with
    | nil => simp
    | cons p l ih =>
      intro _
      cases l with
      | nil => simp
      | cons r l =>
        rw [List.map_cons, List.flatten_cons, ih (by simp)]
        simp [List.intercalate_cons_cons]
  unfold printAssignedAnswers
  by_cases h : answers = []
  · simp [h]
  · rw [if_neg (by simpa using h), if_neg h, key _ (by cases answers <;> simp at h ⊢)]
    simp

/-- A group of peers is shown with its first member before the name, other groups with their name. -/
theorem C111_title (p : PatternType) (name m : Str) (ms : List Str) :
    groupTitle p name (m :: ms) = if p = .peer then u8!"[Peers " ++ m ++ name ++ u8!"]" else u8!"[" ++ name ++ u8!"]" := by
  cases p <;> simp [groupTitle]

/-! ## C112: the final score -/

/-- The final score has the numbers of right answers, of questions answered or skipped and of skipped questions. -/
def C112_statement : Prop :=
  ∀ (size : Nat) (question : UInt16) (st0 st' st : QuizScore) (acts : List QuizAction) (a : QuizAction),
    size ≤ 65535 → beginQuiz question size = .ok st0 →
    quizLoop true size st0 acts = .waiting st' → quizLoop true size st0 (acts ++ [a]) = .finished st →
    finalScore st = ((acts ++ [a]).countP (· == .right), (acts ++ [a]).countP (· != .quit),
      (acts ++ [a]).countP (· == .skip))

/-- Starting at question 5 and quitting at once gives `0/4, skipped: 4`. -/
theorem C112_violated : ¬ C112_statement := by
  intro h
  have := h 10 5 { current := 4 } { current := 4 } { current := 4, stop := true } [] .quit (by decide) rfl rfl rfl
  revert this
  decide

theorem quizLoop_counts (size : Nat) (hs : size ≤ 65535) (acts : List QuizAction) (st st' : QuizScore)
    (hstop : st.stop = false) (hc : st.correct.toNat + st.mistakes ≤ st.current.toNat)
    (h : quizLoop true size st acts = .waiting st') :
    st'.stop = false ∧ st'.current.toNat < size ∧ st'.current.toNat = st.current.toNat + acts.length ∧
    st'.correct.toNat = st.correct.toNat + acts.countP (· == .right) ∧
    st'.mistakes = st.mistakes + acts.countP (· == .wrong) ∧ acts.countP (· == .prev) = 0 ∧
    acts.countP (· == .quit) = 0 := by
  induction acts generalizing st with
  | nil =>
    simp only [quizLoop] at h
    split at h
    · rename_i hw
      cases h
      simp only [hstop, Bool.not_false, Bool.true_and, decide_eq_true_iff] at hw
      simp [hstop, hw]
    · cases h
  | cons a acts ih =>
    simp only [quizLoop] at h
    split at h
    · rename_i hw
      simp only [hstop, Bool.not_false, Bool.true_and, decide_eq_true_iff] at hw
      split at h
      · rename_i ho
        have hsucc : (st.current + 1).toNat = st.current.toNat + 1 := u16_succ st.current (by omega)
        cases a with
        | quit =>
          exfalso
          cases acts with
          | nil => simp [quizLoop, QuizScore.step] at h
          | cons b acts => simp [quizLoop, QuizScore.step] at h
        | prev => simp [QuizAction.offered] at ho
        | skip =>
          have := ih (st.step .skip) (by simp [QuizScore.step, hstop]) (by simp only [QuizScore.step]; omega) h
          simp only [QuizScore.step] at this
          simp
          refine ⟨this.1, this.2.1, by omega, this.2.2.2.1, this.2.2.2.2.1, by simpa using this.2.2.2.2.2⟩
        | right =>
          have hcs : (st.correct + 1).toNat = st.correct.toNat + 1 := u16_succ st.correct (by omega)
          have := ih (st.step .right) (by simp [QuizScore.step, hstop]) (by simp only [QuizScore.step]; omega) h
          simp only [QuizScore.step] at this
          simp
          refine ⟨this.1, this.2.1, by omega, by omega, this.2.2.2.2.1, by simpa using this.2.2.2.2.2⟩
        | wrong =>
          have := ih (st.step .wrong) (by simp [QuizScore.step, hstop]) (by simp only [QuizScore.step]; omega) h
          simp only [QuizScore.step] at this
          simp
          refine ⟨this.1, this.2.1, by omega, this.2.2.2.1, by omega, by simpa using this.2.2.2.2.2⟩
      · cases h
    · cases h

theorem quizLoop_append (size : Nat) (acts : List QuizAction) (st st' : QuizScore) (r : List QuizAction)
    (h : quizLoop true size st acts = .waiting st') : quizLoop true size st (acts ++ r) = quizLoop true size st' r := by
  induction acts generalizing st with
  | nil =>
    simp only [quizLoop] at h
    split at h
    · cases h; rfl
    · cases h
  | cons a acts ih =>
    simp only [quizLoop, List.cons_append] at h ⊢
    split at h
    · rename_i hw
      rw [if_pos hw]
      split at h
      · rename_i ho
        rw [if_pos ho]
        exact ih _ h
      · cases h
    · cases h

theorem countP_actions (l : List QuizAction) (hp : l.countP (· == .prev) = 0) :
    l.countP (· != .quit) = l.countP (· == .right) + l.countP (· == .wrong) + l.countP (· == .skip) ∧
    l.length = l.countP (· != .quit) + l.countP (· == .quit) := by
  induction l with
  | nil => simp
  | cons a l ih =>
    cases a <;> simp at hp ih ⊢ <;> have := ih hp <;> omega

/-- The score of a quiz that starts at the first question is as stated; if it starts at a later one, the questions
before it are counted as skipped. -/
theorem C112_score_partial (size : Nat) (hs : size ≤ 65535) (question : UInt16) (st0 st' st : QuizScore)
    (acts : List QuizAction) (a : QuizAction) (h0 : beginQuiz question size = .ok st0)
    (h1 : quizLoop true size st0 acts = .waiting st') (h2 : quizLoop true size st0 (acts ++ [a]) = .finished st) :
    finalScore st = ((acts ++ [a]).countP (· == .right),
      (question.toNat - 1) + (acts ++ [a]).countP (· != .quit),
      (question.toNat - 1) + (acts ++ [a]).countP (· == .skip)) ∧
    st.mistakes = (acts ++ [a]).countP (· == .wrong) := by
  have hst0 : st0.stop = false ∧ st0.correct = 0 ∧ st0.mistakes = 0 ∧ st0.current.toNat = question.toNat - 1 := by
    obtain ⟨k1, k2, k3⟩ := C58_start question size
    by_cases hq : question = 0
    · rw [k1 hq] at h0; cases h0; subst hq; simp
    · by_cases hl : question.toNat ≤ size
      · obtain ⟨x, hx, e1, e2, e3, e4⟩ := k2 hq hl
        rw [hx] at h0; cases h0
        exact ⟨e4, e2, e3, by omega⟩
      · rw [k3 (by omega)] at h0; cases h0
  obtain ⟨hs0, hc0, hm0, hcur0⟩ := hst0
  have hz : (0 : UInt16).toNat = 0 := rfl
  obtain ⟨g1, g2, g3, g4, g5, g6, g7⟩ := quizLoop_counts size hs acts st0 st' hs0 (by rw [hc0, hm0]; simp) h1
  rw [hc0, hz, Nat.zero_add] at g4
  rw [hm0, Nat.zero_add] at g5
  obtain ⟨c1, c2⟩ := countP_actions acts g6
  rw [quizLoop_append size acts st0 st' [a] h1] at h2
  have hsucc : (st'.current + 1).toNat = st'.current.toNat + 1 := u16_succ st'.current (by omega)
  have hcs : (st'.correct + 1).toNat = st'.correct.toNat + 1 := u16_succ st'.correct (by omega)
  simp only [quizLoop, g1, Bool.not_false, Bool.true_and, g2, decide_true, if_true] at h2
  split at h2
  · rename_i ho
    simp only [List.countP_append]
    cases a with
    | quit =>
      simp only [QuizScore.step, Bool.not_true, Bool.false_and, if_true] at h2
      cases h2
      have hback : st'.current + 1 - 1 = st'.current := by simp
      simp only [finalScore, hback]
      simp
      omega
    | prev => simp [QuizAction.offered] at ho
    | skip =>
      simp only [QuizScore.step, g1] at h2
      split at h2
      · cases h2
      · cases h2
        simp only [finalScore]
        simp
        omega
    | right =>
      simp only [QuizScore.step, g1] at h2
      split at h2
      · cases h2
      · cases h2
        simp only [finalScore]
        simp
        omega
    | wrong =>
      simp only [QuizScore.step, g1] at h2
      split at h2
      · cases h2
      · cases h2
        simp only [finalScore]
        simp
        omega
  · cases h2

/-- The text of the final score: it is perfect exactly if there were questions and all were answered right. -/
theorem C112_message (correct total : Nat) (mistakes : List Str) (h : correct + mistakes.length ≤ total)
    (ht : total < 65536) :
    finalMessage correct total mistakes = u8!"\nFinal score: " ++ toDec correct ++ u8!"/" ++ toDec total ++
      (if total = 0 then []
       else if correct = total then u8!" - Perfect!"
       else (if correct + mistakes.length < total then
            u8!", skipped: " ++ toDec (total - correct - mistakes.length) else []) ++
          (if mistakes = [] then [] else u8!" - mistakes: " ++ (u8!" ").intercalate mistakes)) ++ u8!"\n" := by
  have hflat : ∀ l : List Str, l ≠ [] → (l.map fun i => u8!" " ++ i).flatten = u8!" " ++ (u8!" ").intercalate l := by
    intro l
    induction l with
    | nil => simp
    | cons p l ih =>
      intro _
      cases l with
      | nil => simp
      | cons r l =>
        rw [List.map_cons, List.flatten_cons, ih (by simp)]
        simp [List.intercalate_cons_cons]
  have hsk : (((total : Int) - correct - mistakes.length) % 2 ^ 64).toNat = total - correct - mistakes.length := by omega
  unfold finalMessage
  simp only [hsk]
  by_cases h0 : total = 0
  · simp [h0]
  · rw [if_pos h0, if_neg h0]
    by_cases hc : correct = total
    · have hm : mistakes = [] := List.length_eq_zero_iff.1 (by omega)
      subst hm
      simp [hc]
    · rw [if_neg hc]
      by_cases hm : mistakes = []
      · subst hm
        have hlt : correct < total := by simp at h; omega
        have hne : ¬ (total - correct = 0) := by omega
        simp [hlt, hne]
      · rw [hflat mistakes hm]
        by_cases hk : correct + mistakes.length < total
        · have : ¬ (total - correct - mistakes.length = 0) := by omega
          simp [hm, hk, this]
        · have : total - correct - mistakes.length = 0 := by omega
          simp [hm, hk, this]

end KT
