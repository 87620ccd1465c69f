import Verif.Model.ListQuiz
/-!
# Properties of list quizzes and of the quiz loop (C56, C57, C58)
-/
namespace KT

/-! ## C56 -/

theorem drawChoice_some {readings seen : List Str} : ∀ {draws : List Nat} {c : Nat} {seen' : List Str}
    {rest : List Nat}, drawChoice readings seen draws = .ok (some (c, seen', rest)) →
    ∃ r, readings[c]? = some r ∧ r ∉ seen ∧ seen' = r :: seen ∧ c ∈ draws := by
  intro draws
  induction draws with
  | nil => intro c seen' rest h; simp [drawChoice] at h
  | cons d ds ih =>
    intro c seen' rest h
    simp only [drawChoice] at h
    cases hr : readings[d]? with
    | none => simp [hr] at h
    | some r =>
      simp only [hr] at h
      by_cases hs : r ∈ seen
      · rw [if_pos (by simpa using hs)] at h
        obtain ⟨r', h1, h2, h3, h4⟩ := ih h
        exact ⟨r', h1, h2, h3, by simp [h4]⟩
      · rw [if_neg (by simpa using hs)] at h
        cases h
        exact ⟨r, hr, hs, rfl, by simp⟩

/-- What `populateLoop` delivers from position `i` on. -/
structure PopOk (readings : List Str) (current correct n i : Nat) (seen : List Str) (l : List Nat) : Prop where
  len : l.length = n
  pos : i ≤ correct → correct < i + n → l[correct - i]? = some current
  valid : ∀ j c, l[j]? = some c → i + j ≠ correct → ∃ r, readings[c]? = some r ∧ r ∉ seen
  distinct : ∀ j k c d, l[j]? = some c → l[k]? = some d → j < k → i + j ≠ correct → i + k ≠ correct →
    readings[c]? ≠ readings[d]?

theorem populateLoop_ok (readings : List Str) (current correct : Nat) :
    ∀ (n i : Nat) (seen : List Str) (draws : List Nat) (l : List Nat),
      populateLoop readings current correct n i seen draws = .ok (some l) →
      PopOk readings current correct n i seen l := by
  intro n
  induction n with
  | zero =>
    intro i seen draws l h
    simp only [populateLoop, Res.ok.injEq, Option.some.injEq] at h
    subst h
    exact ⟨rfl, by omega, by simp, by simp⟩
  | succ n ih =>
    intro i seen draws l h
    unfold populateLoop at h
    by_cases hi : i = correct
    · rw [if_pos hi] at h
      cases hp : populateLoop readings current correct n (i + 1) seen draws with
      | ub => simp [hp, Res.bind] at h
      | throw e => simp [hp, Res.bind] at h
      | ok o =>
        simp only [hp, Res.bind, Res.ok.injEq] at h
        cases o with
        | none => simp at h
        | some l' =>
          simp only [Option.map_some, Option.some.injEq] at h
          subst h
          have := ih _ _ _ _ hp
          refine ⟨by simp [this.len], ?_, ?_, ?_⟩
          · intro h1 h2; simp [hi]
          · intro j c hj hne
            cases j with
            | zero => omega
            | succ j => exact this.valid j c (by simpa using hj) (by omega)
          · intro j k c d hj hk hjk hnj hnk
            cases j with
            | zero => omega
            | succ j =>
              cases k with
              | zero => omega
              | succ k =>
                exact this.distinct j k c d (by simpa using hj) (by simpa using hk) (by omega)
                  (by omega) (by omega)
    · rw [if_neg hi] at h
      cases hd : drawChoice readings seen draws with
      | ub => simp [hd, Res.bind] at h
      | throw e => simp [hd, Res.bind] at h
      | ok o =>
        rw [hd] at h
        simp only [Res.bind] at h
        cases o with
        | none => simp at h
        | some x =>
          obtain ⟨c0, seen', draws'⟩ := x
          simp only at h
          obtain ⟨r, hr, hns, rfl, _⟩ := drawChoice_some hd
          cases hp : populateLoop readings current correct n (i + 1) (r :: seen) draws' with
          | ub => simp [hp] at h
          | throw e => simp [hp] at h
          | ok o =>
            simp only [hp, Res.ok.injEq] at h
            cases o with
            | none => simp at h
            | some l' =>
              simp only [Option.map_some, Option.some.injEq] at h
              subst h
              have := ih _ _ _ _ hp
              refine ⟨by simp [this.len], ?_, ?_, ?_⟩
              · intro h1 h2
                have : l'[correct - (i + 1)]? = some current := this.pos (by omega) (by omega)
                rw [show correct - i = (correct - (i + 1)) + 1 by omega]
                simpa using this
              · intro j c hj hne
                cases j with
                | zero =>
                  simp at hj
                  subst hj
                  exact ⟨r, hr, hns⟩
                | succ j =>
                  obtain ⟨r', h1, h2⟩ := this.valid j c (by simpa using hj) (by omega)
                  exact ⟨r', h1, fun hm => h2 (by simp [hm])⟩
              · intro j k c d hj hk hjk hnj hnk
                cases k with
                | zero => omega
                | succ k =>
                  cases j with
                  | zero =>
                    simp at hj
                    subst hj
                    obtain ⟨r', h1, h2⟩ := this.valid k d (by simpa using hk) (by omega)
                    rw [hr, h1]
                    intro he
                    cases he
                    exact h2 (by simp)
                  | succ j =>
                    exact this.distinct j k c d (by simpa using hj) (by simpa using hk) (by omega)
                      (by omega) (by omega)

/-- Whatever numbers are drawn, when the answers are chosen there are as many as configured, the one at
the correct position is the current question, all are questions of the list, and no two have the same
reading; so exactly one of them has the reading of the question. -/
theorem C56_choices (readings : List Str) (current count correct : Nat) (hc : correct < count)
    (draws : List Nat) (l : List Nat)
    (h : populateAnswers readings current count correct draws = .ok (some l)) :
    l.length = count ∧ l[correct]? = some current ∧
    (∀ c ∈ l, c < readings.length) ∧
    (∀ j k, j < k → k < count → (l[j]?).bind (readings[·]?) ≠ (l[k]?).bind (readings[·]?)) ∧
    (∀ j, j < count → ((l[j]?).bind (readings[·]?) = readings[current]? ↔ j = correct)) := by
  unfold populateAnswers at h
  cases hr : readings[current]? with
  | none => simp [hr] at h
  | some r =>
    simp only [hr] at h
    have hp := populateLoop_ok _ _ _ _ _ _ _ _ h
    have hpos : l[correct]? = some current := by simpa using hp.pos (by omega) (by omega)
    have hcur := (List.getElem?_eq_some_iff.1 hr).1
    have hother : ∀ j, j < count → j ≠ correct →
        ∃ c r', l[j]? = some c ∧ readings[c]? = some r' ∧ r' ≠ r := by
      intro j hj hne
      have hjl : j < l.length := by rw [hp.len]; exact hj
      obtain ⟨r', h1, h2⟩ := hp.valid j l[j] (List.getElem?_eq_getElem hjl) (by omega)
      exact ⟨l[j], r', List.getElem?_eq_getElem hjl, h1, fun he => h2 (by simp [he])⟩
    refine ⟨hp.len, hpos, ?_, ?_, ?_⟩
    · intro c hc'
      obtain ⟨j, hj, rfl⟩ := List.getElem_of_mem hc'
      by_cases hjc : j = correct
      · subst hjc
        rw [List.getElem?_eq_getElem hj] at hpos
        cases hpos; exact hcur
      · obtain ⟨c, r', h1, h2, _⟩ := hother j (by rw [← hp.len]; exact hj) hjc
        rw [List.getElem?_eq_getElem hj] at h1
        cases h1
        exact (List.getElem?_eq_some_iff.1 h2).1
    · intro j k hjk hk
      by_cases hjc : j = correct
      · obtain ⟨c, r', h1, h2, h3⟩ := hother k hk (by omega)
        rw [hjc, hpos, h1]
        simp only [Option.bind_some, hr, h2, ne_eq, Option.some.injEq]
        exact fun he => h3 he.symm
      · by_cases hkc : k = correct
        · obtain ⟨c, r', h1, h2, h3⟩ := hother j (by omega) hjc
          rw [hkc, hpos, h1]
          simp only [Option.bind_some, hr, h2, ne_eq, Option.some.injEq]
          exact h3
        · obtain ⟨c, _, h1, _⟩ := hother j (by omega) hjc
          obtain ⟨d, _, h2, _⟩ := hother k hk hkc
          rw [h1, h2]
          exact hp.distinct j k c d h1 h2 hjk (by omega) (by omega)
    · intro j hj
      constructor
      · intro he
        apply Classical.byContradiction
        intro hne
        obtain ⟨c, r', h1, h2, h3⟩ := hother j hj hne
        rw [h1] at he
        simp only [Option.bind_some, h2, Option.some.injEq] at he
        exact h3 he
      · rintro rfl
        rw [hpos]; exact hr

/-- Choosing never reads outside of the list: all numbers that can be drawn are positions of it. -/
theorem drawMax_lt (size : Nat) (h : 0 < size) : drawMax size < size := by
  unfold drawMax; omega

theorem drawChoice_noub (readings seen : List Str) :
    ∀ (draws : List Nat), (∀ d ∈ draws, d < readings.length) →
      (drawChoice readings seen draws = .ok none ∨
        ∃ c s rest, drawChoice readings seen draws = .ok (some (c, s, rest)) ∧
          ∀ d ∈ rest, d < readings.length) := by
  intro draws
  induction draws with
  | nil => intro _; exact Or.inl rfl
  | cons d ds ih =>
    intro h
    have hd : d < readings.length := h d (by simp)
    simp only [drawChoice, List.getElem?_eq_getElem hd]
    by_cases hs : seen.contains readings[d] = true
    · rw [if_pos hs]; exact ih fun x hx => h x (by simp [hx])
    · rw [if_neg hs]
      exact Or.inr ⟨_, _, _, rfl, fun x hx => h x (by simp [hx])⟩

theorem populateLoop_noub (readings : List Str) (current correct : Nat) :
    ∀ (n i : Nat) (seen : List Str) (draws : List Nat), (∀ d ∈ draws, d < readings.length) →
      ∃ o, populateLoop readings current correct n i seen draws = .ok o := by
  intro n
  induction n with
  | zero => intro i seen draws _; exact ⟨_, rfl⟩
  | succ n ih =>
    intro i seen draws h
    unfold populateLoop
    by_cases hi : i = correct
    · rw [if_pos hi]
      obtain ⟨o, ho⟩ := ih (i + 1) seen draws h
      exact ⟨_, by rw [ho]; rfl⟩
    · rw [if_neg hi]
      rcases drawChoice_noub readings seen draws h with h1 | ⟨c, s, rest, h1, h2⟩
      · exact ⟨_, by rw [h1]; rfl⟩
      · obtain ⟨o, ho⟩ := ih (i + 1) s rest h2
        exact ⟨o.map (c :: ·), by rw [h1]; simp only [Res.bind, ho]⟩

theorem C56_bounds (readings : List Str) (current count correct : Nat) (hcur : current < readings.length)
    (draws : List Nat) (hd : ∀ d ∈ draws, d ≤ drawMax readings.length) :
    ∃ o, populateAnswers readings current count correct draws = .ok o := by
  unfold populateAnswers
  rw [List.getElem?_eq_getElem hcur]
  refine populateLoop_noub _ _ _ _ _ _ _ fun d h => ?_
  have := hd d h
  have := drawMax_lt readings.length (by omega)
  omega

/-! ## C57 -/

/-- The numbers drawn are in range and each number in range keeps coming up. -/
structure FairDraws (size : Nat) (draw : Nat → Nat) : Prop where
  range : ∀ n, draw n ≤ drawMax size
  often : ∀ d, d ≤ drawMax size → ∀ n, ∃ m, n ≤ m ∧ draw m = d

/-- The first `n` numbers. -/
def firstDraws (draw : Nat → Nat) (n : Nat) : List Nat := (List.range n).map draw

/-- With numbers that keep coming up the choice of answers ends. -/
def C57_statement : Prop :=
  ∀ (readings : List Str) (current count correct : Nat), current < readings.length → correct < count →
    1 ≤ count → count ≤ 9 → ∀ draw, FairDraws readings.length draw →
    ∃ n l, populateAnswers readings current count correct (firstDraws draw n) = .ok (some l)

/-- The choice of `count` answers needs as many different readings. -/
theorem C57_needs_partial (readings : List Str) (current count correct : Nat) (hc : correct < count)
    (draws : List Nat) (l : List Nat)
    (h : populateAnswers readings current count correct draws = .ok (some l)) :
    ∃ rs : List Str, rs.Nodup ∧ rs.length = count ∧ ∀ r ∈ rs, r ∈ readings := by
  obtain ⟨hlen, _, hlt, hdist, _⟩ := C56_choices readings current count correct hc draws l h
  refine ⟨l.map fun c => readings.getD c [], ?_, by simp [hlen], ?_⟩
  · rw [List.nodup_iff_pairwise_ne, List.pairwise_map, List.pairwise_iff_getElem]
    intro i j hi hj hij
    have := hdist i j hij (by omega)
    rw [List.getElem?_eq_getElem hi, List.getElem?_eq_getElem hj] at this
    simp only [Option.bind_some] at this
    intro he
    apply this
    rw [List.getD_eq_getElem?_getD, List.getD_eq_getElem?_getD,
      List.getElem?_eq_getElem (hlt _ (List.getElem_mem hi)),
      List.getElem?_eq_getElem (hlt _ (List.getElem_mem hj))] at he
    rw [List.getElem?_eq_getElem (hlt _ (List.getElem_mem hi)),
      List.getElem?_eq_getElem (hlt _ (List.getElem_mem hj))]
    simpa using he
  · intro r hr
    obtain ⟨c, hc', rfl⟩ := List.mem_map.1 hr
    rw [List.getD_eq_getElem?_getD, List.getElem?_eq_getElem (hlt c hc')]
    exact List.getElem_mem _

/-- A list with a single kanji and a quiz with two choices. -/
theorem C57_violated : ¬ C57_statement := by
  intro h
  obtain ⟨n, l, hl⟩ := h [u8!"あ"] 0 2 0 (by decide) (by decide) (by decide) (by decide) (fun _ => 0)
    ⟨fun _ => Nat.zero_le _, fun d hd n => ⟨n, Nat.le_refl n, by
      have : d ≤ 0 := by simpa [drawMax] using hd
      omega⟩⟩
  obtain ⟨rs, h1, h2, h3⟩ := C57_needs_partial _ _ _ _ (by decide) _ _ hl
  have := List.Nodup.length_le_of_subset h1 (l₂ := [u8!"あ"]) fun r hr => h3 r hr
  simp [h2] at this

theorem drawChoice_append {readings seen : List Str} : ∀ {a : List Nat} (b : List Nat)
    {c : Nat} {s : List Str} {rest : List Nat},
    drawChoice readings seen a = .ok (some (c, s, rest)) →
    drawChoice readings seen (a ++ b) = .ok (some (c, s, rest ++ b)) := by
  intro a
  induction a with
  | nil => intro b c s rest h; simp [drawChoice] at h
  | cons d ds ih =>
    intro b c s rest h
    simp only [drawChoice, List.cons_append] at h ⊢
    cases hr : readings[d]? with
    | none => simp [hr] at h
    | some r =>
      simp only [hr] at h ⊢
      by_cases hs : seen.contains r = true
      · rw [if_pos hs] at h ⊢; exact ih b h
      · rw [if_neg hs] at h ⊢
        cases h; rfl

/-- If a number for a new reading is among the numbers then a choice is made. -/
theorem drawChoice_found (readings seen : List Str) (d : Nat) (r : Str) (hr : readings[d]? = some r)
    (hn : r ∉ seen) : ∀ draws : List Nat, d ∈ draws → (∀ x ∈ draws, x < readings.length) →
      ∃ c s rest, drawChoice readings seen draws = .ok (some (c, s, rest)) ∧ rest <:+ draws := by
  intro draws
  induction draws with
  | nil => intro h; cases h
  | cons x xs ih =>
    intro hm hx
    have hxl : x < readings.length := hx x (by simp)
    simp only [drawChoice, List.getElem?_eq_getElem hxl]
    by_cases hs : seen.contains readings[x] = true
    · rw [if_pos hs]
      have hne : d ≠ x := by
        rintro rfl
        rw [List.getElem?_eq_getElem hxl] at hr
        cases hr
        exact hn (by simpa using hs)
      have hm' : d ∈ xs := by simpa [hne] using hm
      obtain ⟨c, s, rest, h1, h2⟩ := ih hm' fun y hy => hx y (by simp [hy])
      exact ⟨c, s, rest, h1, h2.trans (List.suffix_cons x xs)⟩
    · rw [if_neg hs]
      exact ⟨_, _, _, rfl, List.suffix_cons x xs⟩

/-- The numbers from position `k` to `n`. -/
def drawsFrom (draw : Nat → Nat) (k n : Nat) : List Nat := (List.range' k (n - k)).map draw

theorem drawsFrom_append (draw : Nat → Nat) (k m n : Nat) (h1 : k ≤ m) (h2 : m ≤ n) :
    drawsFrom draw k n = drawsFrom draw k m ++ drawsFrom draw m n := by
  unfold drawsFrom
  rw [← List.map_append]
  congr 1
  have h : k + (m - k) = m := by omega
  have := List.range'_append_1 (s := k) (m := m - k) (n := n - m)
  rw [h] at this
  rw [this, show m - k + (n - m) = n - k by omega]

theorem suffix_drawsFrom (draw : Nat → Nat) (k n : Nat) (h : k ≤ n) (l : List Nat)
    (hl : l <:+ drawsFrom draw k n) : ∃ m, k ≤ m ∧ m ≤ n ∧ l = drawsFrom draw m n := by
  obtain ⟨t, ht⟩ := hl
  have hlen : t.length + l.length = n - k := by
    have := congrArg List.length ht
    simpa [drawsFrom] using this
  refine ⟨k + t.length, by omega, by omega, ?_⟩
  rw [drawsFrom_append draw k (k + t.length) n (by omega) (by omega)] at ht
  exact (List.append_inj ht (by simp [drawsFrom])).2

theorem populateLoop_ends (readings : List Str) (current correct count : Nat) (draw : Nat → Nat)
    (hf : FairDraws readings.length draw) (hpos : 0 < readings.length)
    (rs : List Str) (hnd : rs.Nodup) (hrs : count ≤ rs.length)
    (hmem : ∀ r ∈ rs, ∃ d, d ≤ drawMax readings.length ∧ readings[d]? = some r) :
    ∀ (n i : Nat) (seen : List Str) (k : Nat), i + n = count →
      seen.length = (if i ≤ correct then i + 1 else i) → correct < count →
      ∃ m l, k ≤ m ∧ ∀ m', m ≤ m' →
        populateLoop readings current correct n i seen (drawsFrom draw k m') = .ok (some l) := by
  intro n
  induction n with
  | zero => intro i seen k _ _ _; exact ⟨k, [], Nat.le_refl k, fun _ _ => rfl⟩
  | succ n ih =>
    intro i seen k hin hseen hcc
    unfold populateLoop
    by_cases hi : i = correct
    · obtain ⟨m, l, h1, h2⟩ := ih (i + 1) seen k (by omega)
        (by rw [hseen, if_pos (by omega), if_neg (by omega)]) hcc
      refine ⟨m, current :: l, h1, fun m' hm' => ?_⟩
      rw [if_pos hi, h2 m' hm']; rfl
    · have hlt : seen.length < rs.length := by
        rw [hseen]; split <;> omega
      have hex : ∃ r ∈ rs, r ∉ seen := by
        apply Classical.byContradiction
        intro hno
        have hsub : rs ⊆ seen := fun r hr => Classical.byContradiction fun hn => hno ⟨r, hr, hn⟩
        have := List.Nodup.length_le_of_subset hnd hsub
        omega
      obtain ⟨r, hr, hrn⟩ := hex
      obtain ⟨d, hd, hdr⟩ := hmem r hr
      obtain ⟨m1, hm1, hdm⟩ := hf.often d hd k
      have hin1 : d ∈ drawsFrom draw k (m1 + 1) := by
        unfold drawsFrom
        refine List.mem_map.2 ⟨m1, ?_, hdm⟩
        rw [List.mem_range'_1]; omega
      have hrange : ∀ a b, ∀ x ∈ drawsFrom draw a b, x < readings.length := by
        intro a b x hx
        obtain ⟨y, _, rfl⟩ := List.mem_map.1 hx
        have := hf.range y
        have := drawMax_lt readings.length hpos
        omega
      obtain ⟨c, s, rest, hc1, hc2⟩ := drawChoice_found readings seen d r hdr hrn _ hin1 (hrange _ _)
      obtain ⟨r', hr', hns, hs', _⟩ := drawChoice_some hc1
      obtain ⟨k', hk1, hk2, hk3⟩ := suffix_drawsFrom draw k (m1 + 1) (by omega) rest hc2
      obtain ⟨m, l, h1, h2⟩ := ih (i + 1) s k' (by omega)
        (by rw [hs', List.length_cons, hseen]; split <;> split <;> omega) hcc
      refine ⟨max m (m1 + 1), c :: l, by omega, fun m' hm' => ?_⟩
      rw [if_neg hi, drawsFrom_append draw k (m1 + 1) m' (by omega) (by omega),
        drawChoice_append _ hc1, hk3, ← drawsFrom_append draw k' (m1 + 1) m' hk2 (by omega)]
      simp only [Res.bind]
      rw [h2 m' (by omega)]
      rfl

/-- With numbers that keep coming up the choice of answers ends if there are as many different
readings (among the positions that can be drawn) as answers to choose. -/
theorem C57_ends_partial (readings : List Str) (current count correct : Nat)
    (hcur : current < readings.length) (hc : correct < count) (rs : List Str) (hnd : rs.Nodup)
    (hlen : count ≤ rs.length)
    (hrs : ∀ r ∈ rs, ∃ d, d ≤ drawMax readings.length ∧ readings[d]? = some r)
    (draw : Nat → Nat) (hf : FairDraws readings.length draw) :
    ∃ n l, populateAnswers readings current count correct (firstDraws draw n) = .ok (some l) := by
  obtain ⟨m, l, _, h⟩ := populateLoop_ends readings current correct count draw hf (by omega) rs hnd hlen hrs
    count 0 [readings[current]] 0 (by omega) (by simp) hc
  refine ⟨m, l, ?_⟩
  unfold populateAnswers
  rw [List.getElem?_eq_getElem hcur]
  have := h m (Nat.le_refl m)
  simpa [drawsFrom, firstDraws, List.range_eq_range'] using this

/-- For lists of up to 65536 questions: the choice ends exactly when the list has as many different
readings as there are answers. -/
theorem C57_exact_partial (readings : List Str) (current count correct : Nat)
    (hcur : current < readings.length) (h16 : readings.length ≤ 65536) (hc : correct < count)
    (draw : Nat → Nat) (hf : FairDraws readings.length draw) :
    (∃ n l, populateAnswers readings current count correct (firstDraws draw n) = .ok (some l)) ↔
      ∃ rs : List Str, rs.Nodup ∧ rs.length = count ∧ ∀ r ∈ rs, r ∈ readings := by
  constructor
  · rintro ⟨n, l, h⟩
    exact C57_needs_partial _ _ _ _ hc _ _ h
  · rintro ⟨rs, h1, h2, h3⟩
    refine C57_ends_partial _ _ _ _ hcur hc rs h1 (by omega) (fun r hr => ?_) draw hf
    obtain ⟨d, hd, rfl⟩ := List.getElem_of_mem (h3 r hr)
    refine ⟨d, ?_, List.getElem?_eq_getElem hd⟩
    unfold drawMax; omega

example : populateAnswers [u8!"あ", u8!"い", u8!"あ", u8!"う"] 0 3 1 [2, 3, 3, 1] =
    .ok (some [3, 0, 1]) := by decide

/-! ## C58 -/

/-- The score and position are consistent, whatever the actions. -/
def C58_statement : Prop :=
  ∀ (quizMode : Bool) (size : Nat) (question : UInt16) (st0 : QuizScore) (acts : List QuizAction),
    beginQuiz question size = .ok st0 →
    match quizLoop quizMode size st0 acts with
    | .invalid => True
    | .waiting st => st.current.toNat < size ∧ st.correct.toNat + st.mistakes ≤ st.current.toNat
    | .finished st => st.current.toNat ≤ size ∧ st.correct.toNat + st.mistakes ≤ st.current.toNat

/-- Skipping `k` questions. -/
theorem quizLoop_skip (size : Nat) (hs : 65536 ≤ size) (rest : List QuizAction) :
    ∀ (k : Nat) (st : QuizScore), st.stop = false →
      quizLoop true size st (List.replicate k .skip ++ rest) =
        quizLoop true size { st with current := st.current + UInt16.ofNat k } rest := by
  intro k
  induction k with
  | zero => intro st _; simp
  | succ k ih =>
    intro st hst
    have hlt : st.current.toNat < size := by have := st.current.toNat_lt; omega
    simp only [List.replicate_succ, List.cons_append, quizLoop, hst, Bool.not_false, Bool.true_and,
      hlt, decide_true, if_true, QuizAction.offered]
    rw [ih _ (by simp [QuizScore.step, hst])]
    simp only [QuizScore.step]
    congr 2
    rw [UInt16.ofNat_add, UInt16.add_comm (UInt16.ofNat k), ← UInt16.add_assoc]
    rfl

/-- With 65536 questions the number of the question wraps around: after skipping all but the last
and answering the last, one answer is counted for no questions. -/
theorem C58_violated : ¬ C58_statement := by
  intro h
  have := h true 65536 0 { current := 0 } (List.replicate 65535 .skip ++ [.right]) (by decide)
  rw [quizLoop_skip 65536 (Nat.le_refl _) _ _ _ rfl] at this
  have e : quizLoop true 65536 { current := 0 + UInt16.ofNat 65535 } [.right] =
      .waiting { current := 0, correct := 1 } := by decide
  rw [e] at this
  exact absurd this.2 (by decide)

/-- The invariant of a quiz that starts with question `start`. -/
structure ScoreInv (quizMode : Bool) (size start : Nat) (st : QuizScore) : Prop where
  bound : st.current.toNat ≤ size
  score : st.correct.toNat + st.mistakes + (if st.stop then 1 else 0) ≤ st.current.toNat
  quiz : quizMode = true → st.correct.toNat + st.mistakes + start + (if st.stop then 1 else 0) ≤ st.current.toNat
  review : quizMode = false → st.correct = 0 ∧ st.mistakes = 0

theorem u16_succ (x : UInt16) (h : x.toNat < 65535) : (x + 1).toNat = x.toNat + 1 := by
  rw [UInt16.toNat_add]; simp; omega

theorem u16_pred (x : UInt16) (h : 0 < x.toNat) : (x - 1).toNat = x.toNat - 1 := by
  rw [UInt16.toNat_sub_of_le] <;> simp [UInt16.le_iff_toNat_le]; omega

theorem u16_prev (x : UInt16) (h : x ≠ 0) : (x - 2 + 1).toNat = x.toNat - 1 := by
  have : x - 2 + 1 = x - 1 := by
    rw [UInt16.sub_eq_add_neg, UInt16.sub_eq_add_neg, UInt16.add_assoc]; rfl
  rw [this]
  refine u16_pred x ?_
  have : x.toNat ≠ 0 := fun h' => h (UInt16.toNat_inj.1 h')
  omega

theorem step_inv {quizMode : Bool} {size start : Nat} (hs : size ≤ 65535) {st : QuizScore}
    (h : ScoreInv quizMode size start st) (hst : st.stop = false) (hlt : st.current.toNat < size)
    (a : QuizAction) (ha : a.offered quizMode st = true) : ScoreInv quizMode size start (st.step a) := by
  have hsucc := u16_succ st.current (by omega)
  have h1 := h.score
  have h2 := h.quiz
  have h3 := h.review
  rw [hst] at h1 h2
  simp only [Bool.false_eq_true, if_false, Nat.add_zero] at h1 h2
  cases a with
  | quit =>
    refine ⟨?_, ?_, ?_, h3⟩
    · simp only [QuizScore.step, hsucc]; omega
    · simp only [QuizScore.step, hsucc, if_true]; omega
    · intro hq; have := h2 hq; simp only [QuizScore.step, hsucc, if_true]; omega
  | skip =>
    refine ⟨?_, ?_, ?_, h3⟩
    · simp only [QuizScore.step, hsucc]; omega
    · simp only [QuizScore.step, hsucc, hst, Bool.false_eq_true, if_false]; omega
    · intro hq; have := h2 hq; simp only [QuizScore.step, hsucc, hst, Bool.false_eq_true, if_false]; omega
  | prev =>
    simp only [QuizAction.offered, Bool.and_eq_true, Bool.not_eq_true', bne_iff_ne, ne_eq] at ha
    have hp := u16_prev st.current ha.2
    obtain ⟨h4, h5⟩ := h3 ha.1
    refine ⟨?_, ?_, ?_, h3⟩
    · simp only [QuizScore.step, hp]; omega
    · simp only [QuizScore.step, hp, hst, h4, h5, Bool.false_eq_true, if_false]
      exact Nat.zero_le _
    · intro hq; rw [ha.1] at hq; cases hq
  | right =>
    simp only [QuizAction.offered] at ha
    have hc := u16_succ st.correct (by omega)
    have := h2 ha
    refine ⟨?_, ?_, ?_, fun hq => by rw [ha] at hq; cases hq⟩
    · simp only [QuizScore.step, hsucc]; omega
    · simp only [QuizScore.step, hsucc, hc, hst, Bool.false_eq_true, if_false]; omega
    · intro hq; simp only [QuizScore.step, hsucc, hc, hst, Bool.false_eq_true, if_false]; omega
  | wrong =>
    simp only [QuizAction.offered] at ha
    have := h2 ha
    refine ⟨?_, ?_, ?_, fun hq => by rw [ha] at hq; cases hq⟩
    · simp only [QuizScore.step, hsucc]; omega
    · simp only [QuizScore.step, hsucc, hst, Bool.false_eq_true, if_false]; omega
    · intro hq; simp only [QuizScore.step, hsucc, hst, Bool.false_eq_true, if_false]; omega

theorem quizLoop_inv {quizMode : Bool} {size start : Nat} (hs : size ≤ 65535) :
    ∀ (acts : List QuizAction) (st : QuizScore), ScoreInv quizMode size start st →
      match quizLoop quizMode size st acts with
      | .invalid => True
      | .waiting st => st.stop = false ∧ st.current.toNat < size ∧ ScoreInv quizMode size start st
      | .finished st => st.current.toNat ≤ size ∧ st.correct.toNat + st.mistakes ≤ st.current.toNat ∧
          (quizMode = true → st.correct.toNat + st.mistakes + start ≤ st.current.toNat) := by
  have hfin : ∀ st : QuizScore, ScoreInv quizMode size start st →
      let st' := if st.stop then { st with current := st.current - 1 } else st
      st'.current.toNat ≤ size ∧ st'.correct.toNat + st'.mistakes ≤ st'.current.toNat ∧
        (quizMode = true → st'.correct.toNat + st'.mistakes + start ≤ st'.current.toNat) := by
    intro st h
    have h1 := h.bound
    have h2 := h.score
    have h3 := h.quiz
    cases hst : st.stop with
    | false =>
      simp only [hst, Bool.false_eq_true, if_false, Nat.add_zero] at h2 h3 ⊢
      exact ⟨h1, h2, h3⟩
    | true =>
      simp only [hst, if_true] at h2 h3 ⊢
      have := u16_pred st.current (by omega)
      rw [this]
      exact ⟨by omega, by omega, fun hq => by have := h3 hq; omega⟩
  intro acts
  induction acts with
  | nil =>
    intro st h
    unfold quizLoop
    by_cases hc : (!st.stop && decide (st.current.toNat < size)) = true
    · rw [if_pos hc]
      simp only [Bool.and_eq_true, Bool.not_eq_true', decide_eq_true_eq] at hc
      exact ⟨hc.1, hc.2, h⟩
    · rw [if_neg hc]; exact hfin st h
  | cons a r ih =>
    intro st h
    unfold quizLoop
    by_cases hc : (!st.stop && decide (st.current.toNat < size)) = true
    · rw [if_pos hc]
      simp only [Bool.and_eq_true, Bool.not_eq_true', decide_eq_true_eq] at hc
      by_cases ha : a.offered quizMode st = true
      · rw [if_pos ha]
        exact ih _ (step_inv hs h hc.1 hc.2 a ha)
      · rw [if_neg ha]; trivial
    · rw [if_neg hc]; exact hfin st h

/-- For lists of up to 65535 questions: at each question that is reached the position is in the list
and at most as many answers were counted as there are questions before it (not counting, in a quiz,
those before the start); at the end the number of questions is at most the size and the number of
skipped questions in the final score is the difference (it doesn't wrap around). -/
theorem C58_score_partial (quizMode : Bool) (size : Nat) (hs : size ≤ 65535) (question : UInt16)
    (st0 : QuizScore) (acts : List QuizAction) (h0 : beginQuiz question size = .ok st0) :
    match quizLoop quizMode size st0 acts with
    | .invalid => True
    | .waiting st => st.current.toNat < size ∧ st.correct.toNat + st.mistakes ≤ st.current.toNat ∧
        (quizMode = true → st.correct.toNat + st.mistakes + st0.current.toNat ≤ st.current.toNat)
    | .finished st => st.current.toNat ≤ size ∧ st.correct.toNat + st.mistakes ≤ st.current.toNat ∧
        (quizMode = true → st.correct.toNat + st.mistakes + st0.current.toNat ≤ st.current.toNat) ∧
        finalScore st = (st.correct.toNat, st.current.toNat,
          st.current.toNat - st.correct.toNat - st.mistakes) := by
  have hinv : ScoreInv quizMode size st0.current.toNat st0 := by
    unfold beginQuiz at h0
    by_cases hq : question = 0
    · rw [if_pos hq] at h0
      cases h0
      exact ⟨by simp, by simp, by simp, by simp⟩
    · rw [if_neg hq] at h0
      by_cases hq2 : question.toNat > size
      · rw [if_pos hq2] at h0; cases h0
      · rw [if_neg hq2] at h0
        cases h0
        have : question.toNat ≠ 0 := fun h' => hq (UInt16.toNat_inj.1 h')
        have := u16_pred question (by omega)
        exact ⟨by simp only; omega, by simp, by simp, by simp⟩
  have := quizLoop_inv hs acts st0 hinv
  revert this
  cases quizLoop quizMode size st0 acts with
  | invalid => exact id
  | waiting st =>
    rintro ⟨h1, h2, h3⟩
    have h4 := h3.score
    have h5 := h3.quiz
    simp only [h1, Bool.false_eq_true, if_false, Nat.add_zero] at h4 h5
    exact ⟨h2, h4, h5⟩
  | finished st =>
    rintro ⟨h1, h2, h3⟩
    refine ⟨h1, h2, h3, ?_⟩
    unfold finalScore
    have := st.current.toNat_lt
    congr 2
    omega

/-- Each action moves by one question: back for `prev`, which is offered only when there is a previous
question, and forward otherwise. -/
theorem C58_navigation (quizMode : Bool) (size : Nat) (hs : size ≤ 65535) (st : QuizScore)
    (h : st.current.toNat < size) (a : QuizAction) (ha : a.offered quizMode st = true) :
    ((st.step a).current.toNat : Int) = st.current.toNat + (if a = .prev then -1 else 1) ∧
    (a = .prev → 0 < st.current.toNat) := by
  have hsucc := u16_succ st.current (by omega)
  cases a with
  | prev =>
    simp only [QuizAction.offered, Bool.and_eq_true, Bool.not_eq_true', bne_iff_ne, ne_eq] at ha
    have hp := u16_prev st.current ha.2
    have : st.current.toNat ≠ 0 := fun h' => ha.2 (UInt16.toNat_inj.1 h')
    refine ⟨?_, fun _ => by omega⟩
    simp only [QuizScore.step, hp, if_true]; omega
  | _ =>
    refine ⟨?_, fun h => nomatch h⟩
    simp only [QuizScore.step, hsucc, reduceCtorEq, if_false]; omega

/-- Starting at a question: 0 means the first one, otherwise the question with that number if there is one
and a usage error if not. -/
theorem C58_start (question : UInt16) (size : Nat) :
    (question = 0 → beginQuiz question size = .ok { current := 0 }) ∧
    (question ≠ 0 → question.toNat ≤ size → ∃ st, beginQuiz question size = .ok st ∧
      st.current.toNat + 1 = question.toNat ∧ st.correct = 0 ∧ st.mistakes = 0 ∧ st.stop = false) ∧
    (question.toNat > size → beginQuiz question size = .throw .usage) := by
  refine ⟨fun h => by simp [beginQuiz, h], fun h1 h2 => ?_, fun h => ?_⟩
  · have h0 : question.toNat ≠ 0 := fun h' => h1 (UInt16.toNat_inj.1 h')
    refine ⟨{ current := question - 1 }, ?_, ?_, rfl, rfl, rfl⟩
    · rw [beginQuiz, if_neg h1, if_neg (by omega)]
    · simp only; rw [u16_pred question (by omega)]; omega
  · have : question ≠ 0 := by rintro rfl; simp at h
    rw [beginQuiz, if_neg this, if_pos h]

example : quizLoop true 3 { current := 0 } [.right, .skip, .wrong] =
    .finished { current := 3, correct := 1, mistakes := 1 } := by decide
example : quizLoop false 3 { current := 0 } [.skip, .prev, .skip, .skip, .quit] =
    .finished { current := 2, stop := true } := by decide

end KT
