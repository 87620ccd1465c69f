import Verif.Spec.Stats
import Verif.Spec.Order
import Verif.Lemmas.Order
import Verif.Lemmas.Map
import Verif.Lemmas.Utf8Char
import Verif.Props.UnicodeBlock
/-!
# Statistics: C49-C52, C78
-/
namespace KT
open Spec

/-! ## C49: listing order -/

/-- The comparison is a strict weak order and puts higher counts first. -/
def C49_statement : Prop :=
  ∀ m : UInt16, StrictWeakOrder (StatCount.lt m) ∧
    ∀ a b : StatCount, b.count < a.count → a.lt m b = true ∧ b.lt m a = false

/-- Two Hiragana (no kanji entry) with different counts are each listed before the other. -/
theorem C49_violated : ¬ C49_statement := by
  intro h
  have := ((h 0).1).asymm ⟨2, u8!"い", none⟩ ⟨1, u8!"あ", none⟩ (by decide)
  exact absurd this (by decide)

/-- The order meant: by count (highest first), then frequency, then type, then name. -/
def StatCount.ltMeant (m : UInt16) (a x : StatCount) : Bool :=
  a.count > x.count ||
    (a.count == x.count && (a.frequency m < x.frequency m ||
      (a.frequency m == x.frequency m && (a.type < x.type ||
        (a.type == x.type && strLt a.name x.name)))))

/-- The order meant is a strict weak order with higher counts first. -/
theorem C49_meant (m : UInt16) : StrictWeakOrder (StatCount.ltMeant m) ∧
    ∀ a b : StatCount, b.count < a.count → a.ltMeant m b = true ∧ b.ltMeant m a = false := by
  constructor
  · have h1 := swo_key StatCount.name strLt_total
    have h2 := swo_lex StatCount.type nat_total h1
    have h3 := swo_lex (StatCount.frequency m) u16_total h2
    have gt : StrictTotalOrder fun x y : Nat => decide (x > y) :=
      ⟨by simp, by simp only [decide_eq_true_eq]; omega, by simp only [decide_eq_true_eq]; omega⟩
    exact swo_lex StatCount.count gt h3
  · intro a b h
    have h1 : (b.count == a.count) = false := by simpa using by omega
    have h2 : ¬ a.count < b.count := by omega
    simp [StatCount.ltMeant, h, h1, h2]

/-- What holds for all values: nothing is before itself; a higher count is before a lower one (but the
lower one can also be before the higher one); values that differ in count, frequency, type or name are
comparable, so no character is dropped from a set because it is equivalent to another one. Everything
that is before in the order meant is before. On values with the same count and the same frequency the
comparison is the order meant. -/
theorem C49_partial (m : UInt16) :
    (∀ a : StatCount, a.lt m a = false) ∧
    (∀ a b : StatCount, b.count < a.count → a.lt m b = true) ∧
    (∀ a b : StatCount, a.ltMeant m b = true → a.lt m b = true) ∧
    (∀ a b : StatCount, a.lt m b = false → b.lt m a = false → a.count = b.count ∧
      a.frequency m = b.frequency m ∧ a.type = b.type ∧ a.name = b.name) ∧
    (∀ a b : StatCount, a.count = b.count → a.frequency m = b.frequency m → a.lt m b = a.ltMeant m b) := by
  refine ⟨?_, ?_, ?_, ?_, ?_⟩
  · intro a; simp [StatCount.lt, strLt_total.irrefl]
  · intro a b h; simp [StatCount.lt, h]
  · intro a b h
    simp only [StatCount.ltMeant, Bool.or_eq_true, Bool.and_eq_true] at h
    simp only [StatCount.lt, Bool.or_eq_true, Bool.and_eq_true]
    rcases h with h | ⟨h1, h | ⟨h2, h | ⟨h3, h⟩⟩⟩
    · exact .inl h
    · exact .inr (.inl ⟨h1, h⟩)
    · exact .inr (.inr (.inl ⟨h2, h⟩))
    · exact .inr (.inr (.inr ⟨h3, h⟩))
  · intro a b h1 h2
    simp only [StatCount.lt, Bool.or_eq_false_iff, Bool.and_eq_false_iff, decide_eq_false_iff_not,
      beq_eq_false_iff_ne] at h1 h2
    obtain ⟨a1, a2, a3, a4⟩ := h1
    obtain ⟨b1, b2, b3, b4⟩ := h2
    have e1 : a.count = b.count := by omega
    have f1 := a2.resolve_left (by simpa using e1)
    have f2 := b2.resolve_left (by simpa using e1.symm)
    have e2 : a.frequency m = b.frequency m :=
      (u16_total.total (a.frequency m) (b.frequency m)).elim (fun h => absurd (of_decide_eq_true h) f1)
        (·.elim id (fun h => absurd (of_decide_eq_true h) f2))
    have g1 := a3.resolve_left (by simpa using e2)
    have g2 := b3.resolve_left (by simpa using e2.symm)
    have e3 : a.type = b.type := by omega
    have k1 := a4.resolve_left (by simpa using e3)
    have k2 := b4.resolve_left (by simpa using e3.symm)
    refine ⟨e1, e2, e3, ?_⟩
    rcases strLt_total.total a.name b.name with h | h | h
    · rw [k1] at h; cases h
    · exact h
    · rw [k2] at h; cases h
  · intro a b h1 h2
    have : ¬ (b.frequency m < b.frequency m) := by simp
    simp [StatCount.lt, StatCount.ltMeant, h1, h2]

/-! ## C50: counts -/

theorem lookup_mapInc {α : Type} [BEq α] [LawfulBEq α] (m : List (α × Nat)) (k a : α) :
    ((mapInc m k).lookup a).getD 0 = (m.lookup a).getD 0 + if k == a then 1 else 0 := by
  induction m with
  | nil => rw [mapInc, lookup_single]; cases k == a <;> simp
  | cons p m ih =>
    obtain ⟨k', n⟩ := p
    rw [mapInc]
    cases hk : k' == k with
    | true =>
      have := eq_of_beq hk; subst this
      simp only [if_true, List.lookup_cons]
      rw [BEq.comm (a := a)]
      cases ha : k' == a with
      | true => simp
      | false => simp
    | false =>
      have hne : k' ≠ k := by simpa using hk
      simp only [Bool.false_eq_true, if_false, List.lookup_cons]
      cases ha : a == k' with
      | true =>
        have := eq_of_beq ha; subst this
        have : (k == a) = false := by simpa using Ne.symm hne
        simp [this]
      | false => exact ih

theorem mapInc_sum {α : Type} [BEq α] (m : List (α × Nat)) (k : α) :
    ((mapInc m k).map (·.2)).sum = (m.map (·.2)).sum + 1 := by
  induction m with
  | nil => simp [mapInc]
  | cons p m ih =>
    obtain ⟨k', n⟩ := p
    rw [mapInc]
    split
    · simp; omega
    · simp [ih]; omega

theorem mapInc_mem {α : Type} [BEq α] [LawfulBEq α] (m : List (α × Nat)) (k a : α) :
    a ∈ (mapInc m k).map (·.1) ↔ a ∈ m.map (·.1) ∨ a = k := by
  induction m with
  | nil => simp [mapInc]
  | cons p m ih =>
    obtain ⟨k', n⟩ := p
    rw [mapInc]
    split
    · rename_i h
      have := eq_of_beq h; subst this
      simp only [List.map_cons, List.mem_cons]
      constructor
      · exact .inl
      · rintro (h | h)
        · exact h
        · exact .inl h
    · simp only [List.map_cons, List.mem_cons, ih, or_assoc]

theorem mapInc_nodup {α : Type} [BEq α] [LawfulBEq α] (m : List (α × Nat)) (k : α)
    (h : (m.map (·.1)).Nodup) : ((mapInc m k).map (·.1)).Nodup := by
  induction m with
  | nil => simp [mapInc]
  | cons p m ih =>
    obtain ⟨k', n⟩ := p
    rw [List.map_cons, List.nodup_cons] at h
    rw [mapInc]
    split
    · rw [List.map_cons, List.nodup_cons]; exact h
    · rename_i hk
      rw [List.map_cons, List.nodup_cons]
      refine ⟨?_, ih h.2⟩
      rw [mapInc_mem]
      rintro (g | g)
      · exact h.1 g
      · exact hk (by simpa using g)

theorem lookup_tagInc (m : List (Str × List (Str × Nat))) (k t a : Str) :
    ((tagInc m k t).lookup a).getD [] =
      if k == a then mapInc ((m.lookup a).getD []) t else (m.lookup a).getD [] := by
  induction m with
  | nil => rw [tagInc, lookup_single]; cases k == a <;> rfl
  | cons p m ih =>
    obtain ⟨k', l⟩ := p
    rw [tagInc]
    cases hk : k' == k with
    | true =>
      have := eq_of_beq hk; subst this
      simp only [if_true, List.lookup_cons]
      rw [BEq.comm (a := a)]
      cases ha : k' == a with
      | true => simp
      | false => simp
    | false =>
      have hne : k' ≠ k := by simpa using hk
      simp only [Bool.false_eq_true, if_false, List.lookup_cons]
      cases ha : a == k' with
      | true =>
        have := eq_of_beq ha; subst this
        have : (k == a) = false := by simpa using Ne.symm hne
        simp [this]
      | false => exact ih

/-- The number found for a character and a tag. -/
def CountState.tagCount (st : CountState) (c t : Str) : Nat := (((st.tagsOf c).getD []).lookup t).getD 0
/-- The sum of the numbers found for a character in all tags. -/
def CountState.tagTotal (st : CountState) (c : Str) : Nat := (((st.tagsOf c).getD []).map (·.2)).sum

/-- What the state says about the list of counted characters (with tags). -/
structure CountInv (st : CountState) (l : List (Str × Option Str)) : Prop where
  sum : (st.map.map (·.2)).sum = l.length
  count : ∀ c, st.count c = l.countP (·.1 == c)
  keys : ∀ c, c ∈ st.map.map (·.1) ↔ c ∈ l.map (·.1)
  nodup : (st.map.map (·.1)).Nodup
  tagCount : ∀ c t, st.tagCount c t = l.count (c, some t)
  tagTotal : ∀ c, st.tagTotal c = l.countP (fun x => x.1 == c && x.2.isSome)

theorem CountInv.add_one {st : CountState} {l : List (Str × Option Str)} (h : CountInv st l) (c : Str)
    (tag : Option Str) :
    CountInv { st with
        map := mapInc st.map c,
        tags := tagIncOpt st.tags c tag } (l ++ [(c, tag)]) where
  sum := by simp only [mapInc_sum, h.sum, List.length_append]; rfl
  count a := by
    have := h.count a
    simp only [CountState.count] at this ⊢
    rw [lookup_mapInc, this, List.countP_append, List.countP_singleton]
  keys a := by
    rw [mapInc_mem, h.keys]; simp
  nodup := mapInc_nodup _ _ h.nodup
  tagCount a t := by
    have := h.tagCount a t
    simp only [CountState.tagCount, CountState.tagsOf] at this ⊢
    rw [List.count_append, ← this]
    cases tag with
    | none =>
      have : [(c, (none : Option Str))].count (a, some t) = 0 := by
        rw [List.count_eq_zero]; simp
      rw [this]; rfl
    | some t' =>
      simp only [tagIncOpt]
      rw [lookup_tagInc]
      cases hc : c == a with
      | false =>
        have : [(c, some t')].count (a, some t) = 0 := by
          rw [List.count_eq_zero]
          have : a ≠ c := fun e => by rw [e] at hc; simp at hc
          simp [this]
        rw [this]; rfl
      | true =>
        have := eq_of_beq hc; subst this
        simp only [if_true, lookup_mapInc]
        congr 1
        rw [List.count_singleton]
        by_cases e : t' = t
        · subst e; simp
        · have : (t' == t) = false := by simpa using e
          simp [this]
          intro e'; exact absurd e' e
  tagTotal a := by
    have := h.tagTotal a
    simp only [CountState.tagTotal, CountState.tagsOf] at this ⊢
    rw [List.countP_append, List.countP_singleton, ← this]
    cases tag with
    | none => simp [tagIncOpt]
    | some t' =>
      simp only [tagIncOpt]
      rw [lookup_tagInc]
      cases hc : c == a with
      | false => simp
      | true => simp [mapInc_sum]

theorem addTokens_inv (allow : Str → Bool) (tag : Option Str) (ts : List Str) :
    ∀ (st : CountState) (n : Nat) (l : List (Str × Option Str)), CountInv st l →
    ∃ st', ts.foldl (CountState.addToken allow tag) (st, n) = (st', n + (ts.filter allow).length) ∧
      CountInv st' (l ++ (ts.filter allow).map fun c => (c, tag)) ∧ st'.errors = st.errors ∧
      st'.variants = st.variants ∧ st'.combiningMarks = st.combiningMarks ∧
      st'.replacements = st.replacements := by
  induction ts with
  | nil => intro st n l h; exact ⟨st, by simp, by simpa using h, rfl, rfl, rfl, rfl⟩
  | cons t ts ih =>
    intro st n l h
    rw [List.foldl_cons]
    by_cases ha : allow t = true
    · have e : CountState.addToken allow tag (st, n) t = ({ st with
        map := mapInc st.map t,
        tags := tagIncOpt st.tags t tag }, n + 1) := by
        simp only [CountState.addToken, ha, if_true]
      rw [e]
      obtain ⟨st', h1, h2, h3⟩ := ih _ (n + 1) _ (h.add_one t tag)
      refine ⟨st', ?_, ?_, h3⟩
      · rw [h1, List.filter_cons_of_pos ha]; simp; omega
      · rw [List.filter_cons_of_pos ha]; simpa using h2
    · rw [show CountState.addToken allow tag (st, n) t = (st, n) by simp [CountState.addToken, ha],
        List.filter_cons_of_neg ha]
      exact ih st n l h

/-- Text iteration always ends. -/
theorem utf8Chars_some (s : Str) : ∃ ps st, utf8Chars s = some (ps, st) := by
  obtain ⟨ts, h⟩ := tokens_exists s
  obtain ⟨st, h, _⟩ := utf8Chars_tokens true h
  exact ⟨_, st, h⟩

theorem counted_nil (find : Option (Str → Str)) (allow : Str → Bool) : countedChars find allow [] = [] := rfl

theorem counted_cons (find : Option (Str → Str)) (allow : Str → Bool) (s : Str) (tag : Option Str)
    (r : List (Str × Option Str)) :
    countedChars find allow ((s, tag) :: r) =
      (((charsOf find s).filter allow).map fun c => (c, tag)) ++ countedChars find allow r := by
  rw [countedChars, List.flatMap_cons]; rfl

theorem addAll_inv (find : Option (Str → Str)) (allow : Str → Bool) (calls : List (Str × Option Str)) :
    ∀ (st : CountState) (l : List (Str × Option Str)), CountInv st l →
    ∃ st', st.addAll find allow calls = some (st', (countedChars find allow calls).length) ∧
      CountInv st' (l ++ countedChars find allow calls) ∧
      st'.errors = st.errors + (calls.map fun c => (endState find c.1).errors).sum ∧
      st'.variants = st.variants + (calls.map fun c => (endState find c.1).variants).sum ∧
      st'.combiningMarks =
        st.combiningMarks + (calls.map fun c => (endState find c.1).combiningMarks).sum ∧
      st'.replacements = st.replacements + calls.countP fun c => (find.getD id) c.1 != c.1 := by
  induction calls with
  | nil => intro st l h; exact ⟨st, rfl, by simpa [counted_nil] using h, rfl, rfl, rfl, rfl⟩
  | cons c r ih =>
    obtain ⟨s, tag⟩ := c
    intro st l h
    have en : replaced find s = (find.getD id) s := by cases find <;> rfl
    obtain ⟨ps, cs, hu⟩ := utf8Chars_some ((find.getD id) s)
    have ec : charsOf find s = ps := by rw [charsOf, hu]; rfl
    have ee : endState find s = cs := by rw [endState, hu]; rfl
    have h0 : CountInv { st with replacements := st.replacements +
      (if (find.getD id) s = s then 0 else 1) } l :=
      ⟨h.sum, h.count, h.keys, h.nodup, h.tagCount, h.tagTotal⟩
    obtain ⟨st1, g1, g2, g3, g4, g5, g6⟩ := addTokens_inv allow tag ps _ 0 l h0
    have ha : st.add find allow s tag = some ({ st1 with
      errors := st1.errors + cs.errors
      variants := st1.variants + cs.variants
      combiningMarks := st1.combiningMarks + cs.combiningMarks }, (ps.filter allow).length) := by
      simp only [CountState.add, en, hu, g1, Nat.zero_add]
    have h1 : CountInv { st1 with
      errors := st1.errors + cs.errors
      variants := st1.variants + cs.variants
      combiningMarks := st1.combiningMarks + cs.combiningMarks }
      (l ++ (ps.filter allow).map fun c => (c, tag)) :=
      ⟨g2.sum, g2.count, g2.keys, g2.nodup, g2.tagCount, g2.tagTotal⟩
    obtain ⟨st2, k1, k2, k3, k4, k5, k6⟩ := ih _ _ h1
    refine ⟨st2, ?_, ?_, ?_, ?_, ?_, ?_⟩
    · rw [CountState.addAll, ha]
      simp only [k1]
      rw [counted_cons, ec]; simp
    · rw [counted_cons, ec, ← List.append_assoc]; exact k2
    · rw [k3, g3]; simp [ee]; omega
    · rw [k4, g4]; simp [ee]; omega
    · rw [k5, g5]; simp [ee]; omega
    · rw [k6, g6, List.countP_cons]
      by_cases e : (find.getD id) s = s
      · simp [e]
      · simp [e]; omega

/-- After any sequence of `add` calls (for any replacement and any filter): the calls never fail; the
numbers they return add up to the number of counted characters, and so do the counts; the count of a
character is its number of occurrences; the characters with a count are exactly the counted ones, each
is there once; the number for a character and a tag is its number of occurrences in calls with this
tag; the tag counts of a character add up to its number of occurrences in calls with a tag. -/
theorem C50_counts (find : Option (Str → Str)) (allow : Str → Bool) (calls : List (Str × Option Str)) :
    ∃ st, CountState.addAll find allow {} calls = some (st, (countedChars find allow calls).length) ∧
      (st.map.map (·.2)).sum = (countedChars find allow calls).length ∧
      (∀ c, st.count c = (countedChars find allow calls).countP (·.1 == c)) ∧
      (∀ c, c ∈ st.map.map (·.1) ↔ c ∈ (countedChars find allow calls).map (·.1)) ∧
      (st.map.map (·.1)).Nodup ∧
      (∀ c t, st.tagCount c t = (countedChars find allow calls).count (c, some t)) ∧
      (∀ c, st.tagTotal c = (countedChars find allow calls).countP fun x => x.1 == c && x.2.isSome) := by
  obtain ⟨st, h1, h2, _⟩ := addAll_inv find allow calls {} []
    ⟨rfl, fun _ => rfl, by simp, by simp, fun _ _ => rfl, fun _ => rfl⟩
  rw [List.nil_append] at h2
  exact ⟨st, h1, h2.sum, h2.count, h2.keys, h2.nodup, h2.tagCount, h2.tagTotal⟩

/-- If every call has a tag, the tag counts of each character add up to its count. -/
theorem C50_tags (find : Option (Str → Str)) (allow : Str → Bool) (calls : List (Str × Option Str))
    (ht : ∀ c ∈ calls, c.2.isSome = true) (st : CountState) (n : Nat)
    (h : CountState.addAll find allow {} calls = some (st, n)) (c : Str) : st.tagTotal c = st.count c := by
  obtain ⟨st', h1, _, h2, _, _, _, h3⟩ := C50_counts find allow calls
  rw [h1] at h
  cases h
  rw [h3, h2]
  apply List.countP_congr
  intro x hx
  have : x.2.isSome = true := by
    simp only [countedChars, List.mem_flatMap, List.mem_map, List.mem_filter] at hx
    obtain ⟨cl, hcl, _, _, rfl⟩ := hx
    exact ht cl hcl
  simp [this]

/-- The other counters add up over the calls too. -/
theorem C50_counters (find : Option (Str → Str)) (allow : Str → Bool) (calls : List (Str × Option Str))
    (st : CountState) (n : Nat) (h : CountState.addAll find allow {} calls = some (st, n)) :
    st.errors = (calls.map fun c => (endState find c.1).errors).sum ∧
    st.variants = (calls.map fun c => (endState find c.1).variants).sum ∧
    st.combiningMarks = (calls.map fun c => (endState find c.1).combiningMarks).sum ∧
    st.replacements = calls.countP fun c => (find.getD id) c.1 != c.1 := by
  obtain ⟨st', h1, _, h3, h4, h5, h6⟩ := addAll_inv find allow calls {} []
    ⟨rfl, fun _ => rfl, by simp, by simp, fun _ _ => rfl, fun _ => rfl⟩
  rw [h1] at h
  cases h
  exact ⟨by simpa using h3, by simpa using h4, by simpa using h5, by simpa using h6⟩

example : ((CountState.addAll none (fun _ => true) {}
    [(u8!"かa山か", some (u8!"x")), (u8!"か", some (u8!"y")), (u8!"山", none)]).map fun r =>
      (r.2, r.1.count (u8!"か"), r.1.tagCount (u8!"か") (u8!"x"), r.1.tagTotal (u8!"か"),
        r.1.count (u8!"山"), r.1.tagTotal (u8!"山"))) = some (5, 3, 2, 3, 2, 1) := by decide +kernel

/-! ## C51: joining lines -/

theorem strFind_le (pat s : Str) (i : Nat) (h : strFind pat s = some i) : i + pat.length ≤ s.length := by
  induction s generalizing i with
  | nil =>
    rw [strFind] at h
    split at h
    · rename_i hp
      rw [List.isPrefixOf_iff_prefix] at hp
      cases h
      simpa using hp.length_le
    · cases h
  | cons b s ih =>
    rw [strFind] at h
    split at h
    · rename_i hp
      rw [List.isPrefixOf_iff_prefix] at hp
      cases h
      simpa using hp.length_le
    · rw [Option.map_eq_some_iff] at h
      obtain ⟨j, hj, rfl⟩ := h
      have := ih j hj
      simp only [List.length_cons]; omega

theorem joinPosition_le (u : Bool) (line : Str) (i : Nat) (h : joinPosition u line = some i) :
    i + closeWideBracket.length ≤ line.length := by
  unfold joinPosition at h
  apply strFind_le
  split at h
  · split at h
    · cases h
    · rename_i c hc
      split at h
      · cases h; exact hc
      · split at h
        · cases h; exact hc
        · cases h
  · split at h
    · exact h
    · cases h

theorem joinLoop_flatten (lines : List Str) : ∀ (prev : Str) (u : Bool),
    ∃ r, joinLoop prev u lines = .ok r ∧ r.flatten = prev ++ lines.flatten ∧ ∀ s ∈ r, s ≠ [] := by
  induction lines with
  | nil =>
    intro prev u
    rw [joinLoop]
    by_cases h : prev = []
    · exact ⟨[], by rw [if_pos h], by simp [h], by simp⟩
    · exact ⟨[prev], by rw [if_neg h], by simp, by simpa using h⟩
  | cons line lines ih =>
    intro prev u
    rw [joinLoop]
    by_cases h : prev = []
    · rw [if_pos h]
      obtain ⟨r, h1, h2⟩ := ih line (hasUnclosedBrackets line)
      exact ⟨r, h1, by simpa [h] using h2⟩
    · rw [if_neg h]
      cases hj : joinPosition u line with
      | none =>
        obtain ⟨r, h1, h2, h3⟩ := ih line (hasUnclosedBrackets line)
        refine ⟨prev :: r, ?_, by simp [h2], by simpa [h] using h3⟩
        simp only [h1, Res.bind]
      | some c =>
        have hle := joinPosition_le u line c hj
        have hs : substrFrom line (c + closeWideBracket.length) =
            .ok (line.drop (c + closeWideBracket.length)) := by
          rw [substrFrom, if_neg (by omega)]
        obtain ⟨r, h1, h2, h3⟩ := ih (line.drop (c + closeWideBracket.length))
          (hasUnclosedBrackets (line.drop (c + closeWideBracket.length)))
        refine ⟨(prev ++ line.take (c + closeWideBracket.length)) :: r, ?_, ?_, ?_⟩
        · simp only [processJoinedLine, hs, Res.bind, h1]
        · rw [List.flatten_cons, h2, List.flatten_cons, List.append_assoc, ← List.append_assoc (line.take _),
            List.take_append_drop]
        · intro s hs
          rcases List.mem_cons.mp hs with rfl | hs
          · simp [h]
          · exact h3 s hs

theorem getlines_flatten (d : UInt8) (s : Str) : ∀ c : Option Str,
    (getlines d s c).flatten = c.getD [] ++ s.filter (· != d) := by
  induction s with
  | nil => intro c; cases c <;> simp [getlines]
  | cons b s ih =>
    intro c
    rw [show getlines d (b :: s) c = if b = d then c.getD [] :: getlines d s none
      else getlines d s (some (c.getD [] ++ [b])) from by cases c <;> rfl]
    by_cases h : b = d
    · rw [if_pos h, List.flatten_cons, ih]; simp [h]
    · rw [if_neg h, ih, List.filter_cons_of_pos (by simpa using h)]; simp

/-- For the content of any file, with or without a replacement: nothing is thrown, and the strings given
to `add`, put together, are the content without its line ends.  With a replacement no empty string is
given to `add`. -/
theorem C51_content (withRegex : Bool) (content : Str) :
    ∃ r, fileStrings withRegex content = .ok r ∧ r.flatten = content.filter (· != 0x0a) ∧
      (withRegex = true → ∀ s ∈ r, s ≠ []) := by
  unfold fileStrings
  dsimp only
  cases withRegex with
  | false => exact ⟨_, rfl, by rw [getlines_flatten]; rfl, by simp⟩
  | true =>
    obtain ⟨r, h1, h2, h3⟩ := joinLoop_flatten (getlines 0x0a content none) [] false
    exact ⟨r, h1, by rw [h2, getlines_flatten]; rfl, fun _ => h3⟩

/-- For any list of lines, the strings given to `add` when joining, put together, are the lines put
together. -/
theorem C51_lines (lines : List Str) :
    ∃ r, joinLoop [] false lines = .ok r ∧ r.flatten = lines.flatten := by
  obtain ⟨r, h1, h2, _⟩ := joinLoop_flatten lines [] false
  exact ⟨r, h1, h2⟩

/-- Joining happens: furigana split over two lines. -/
example : joinLoop [] false [u8!"先生（せん", u8!"せい）だ", u8!"山"] =
    .ok [u8!"先生（せんせい）", u8!"だ", u8!"山"] := by decide +kernel
example : joinLoop [] false [u8!"先生", u8!"（せんせい）だ（"] =
    .ok [u8!"先生（せんせい）", u8!"だ（"] := by decide +kernel

/-! ## C52: categories -/

/-- Every multi-byte character is in exactly one category. -/
def C52_statement : Prop :=
  ∀ (ucd : Str → Bool) (c : Char), 128 ≤ c.toNat →
    (statCategories ucd (String.utf8EncodeChar c)).count true = 1

/-- The wide space is in no category: `isMBPunctuation` excludes it, `isRecognizedUtf8` doesn't. -/
theorem C52_violated : ¬ C52_statement := by
  intro h
  exact absurd (h (fun _ => false) '　' (by decide)) (by decide +kernel)

/-- The code looked at by `inWCharRange` when `sizeOne` is true. -/
def wcharOf (s : Str) : Option Nat :=
  if s.length > 1 ∧ s.length ≤ 8 then
    match decodeN s 3 with
    | [a] => some a
    | [a, b] => if isNonSpacing b then some a else none
    | _ => none
  else none

theorem inWCharRange_wcharOf (s : Str) (t : List (List Block)) :
    inWCharRange s true t = match wcharOf s with
      | some a => inRanges a t
      | none => false := by
  unfold inWCharRange wcharOf
  by_cases h1 : s.length > 1
  · by_cases h2 : s.length ≤ 8
    · simp only [h1, h2, if_true, and_self, Bool.true_eq_false, if_false]
      generalize decodeN s 3 = l
      match l with
      | [] => rfl
      | [a] => rfl
      | [a, b] => cases h : isNonSpacing b <;> simp [h]
      | _ :: _ :: _ :: _ => rfl
    · simp only [h1, h2, if_true, and_false, Bool.true_eq_false, if_false]
  · rw [if_neg h1, if_neg (by omega)]

theorem blocks_disjoint (a : Nat) :
    [inRange a hiraganaBlocks, inRange a katakanaBlocks, inRange a commonKanjiBlocks,
      inRange a rareKanjiBlocks, inRange a punctuationBlocks, inRange a symbolBlocks,
      inRange a letterBlocks].count true ≤ 1 := by
  have key : ∀ p q r s t v w : Bool, (p = true → q = false ∧ r = false ∧ s = false ∧ t = false ∧ v = false ∧
      w = false) → (q = true → r = false ∧ s = false ∧ t = false ∧ v = false ∧ w = false) →
      (r = true → s = false ∧ t = false ∧ v = false ∧ w = false) →
      (s = true → t = false ∧ v = false ∧ w = false) → (t = true → v = false ∧ w = false) →
      (v = true → w = false) → [p, q, r, s, t, v, w].count true ≤ 1 := by
    intro p q r s t v w
    cases p <;> cases q <;> cases r <;> cases s <;> cases t <;> cases v <;> cases w <;> simp
  apply key <;>
  · simp only [← Bool.not_eq_true, hiragana_iff, katakana_iff, commonKanji_iff, rareKanji_iff,
      punctuation_iff, symbol_iff, letter_iff, Hiragana, Katakana, CommonKanji, RareKanji, Punctuation,
      MBSymbol, MBLetter]
    omega

theorem blocks_exclusive (a : Nat) (u : Bool) :
    [inRanges a [hiraganaBlocks], inRanges a [katakanaBlocks], inRanges a [commonKanjiBlocks] && u,
      inRanges a [rareKanjiBlocks] && u, inRanges a [commonKanjiBlocks, rareKanjiBlocks] && !u,
      inRanges a [punctuationBlocks], inRanges a [symbolBlocks], inRanges a [letterBlocks],
      !inRanges a recognizedBlocks].count true = 1 := by
  have key : ∀ p q r s t v w : Bool, [p, q, r, s, t, v, w].count true ≤ 1 →
    [p || false, q || false, (r || false) && u, (s || false) && u, (r || (s || false)) && !u, t || false,
      v || false, w || false, !(p || (r || (s || (q || (t || (v || (w || false)))))))].count true = 1 := by
    cases u <;> decide
  exact key _ _ _ _ _ _ _ (blocks_disjoint a)

/-- Every string that doesn't start with a wide space is in exactly one category. -/
theorem C52_strings_partial (ucd : Str → Bool) (x : Str) (h : ¬ wideSpace.isPrefixOf x = true) :
    (statCategories ucd x).count true = 1 := by
  unfold statCategories isHiragana isKatakana isCommonKanji isRareKanji isKanji isMBPunctuation isMBSymbol
    isMBLetter isRecognizedUtf8
  rw [if_neg h]
  simp only [inWCharRange_wcharOf]
  cases wcharOf x with
  | none => rfl
  | some a => exact blocks_exclusive a (ucd x)

/-- Every multi-byte character except the wide space is in exactly one category, with or without a
variation selector after it; the wide space is in none. -/
theorem C52_chars_partial (ucd : Str → Bool) (c : Char) (hc : 128 ≤ c.toNat) (r : Str) :
    (c ≠ '　' → (statCategories ucd (String.utf8EncodeChar c ++ r)).count true = 1) ∧
    (statCategories ucd (String.utf8EncodeChar '　')).count true = 0 := by
  constructor
  · intro hne
    apply C52_strings_partial
    intro h
    obtain ⟨q, hq⟩ := wideSpace_prefix h
    have h1 : c.toNat ≠ 0 := by omega
    rw [utf8EncodeChar_eq_enc] at hq
    have e1 := decode_enc_append (char_isScalar c) h1 r
    have e2 := decode_enc_append (c := 0x3000) (by decide) (by decide) q
    rw [hq, e2] at e1
    apply hne
    apply Char.toNat_inj.mp
    exact (List.cons.inj e1).1.symm
  · have e : ∀ u : Bool, [isHiragana wideSpace, isKatakana wideSpace, isCommonKanji wideSpace && u,
        isRareKanji wideSpace && u, isKanji wideSpace && !u, isMBPunctuation wideSpace, isMBSymbol wideSpace,
        isMBLetter wideSpace, !isRecognizedUtf8 wideSpace].count true = 0 := by decide +kernel
    exact e (ucd wideSpace)

/-! ## C78: directory trees -/

/-- The files processed, from a list of events. -/
def filesOf (es : List CountEvent) : List (Str × Str) := es.filterMap fun
  | .file n c => some (n, c)
  | _ => none

/-- The file at a place of a directory tree. -/
def fileAt (name : Str) (n : Node) (p : List Nat) : Option (Str × Str) :=
  match nodeAt name n p with
  | some (m, .file c) => some (m, c)
  | _ => none

def fileAtEntries (es : Entries) (i : Nat) (p : List Nat) : Option (Str × Str) :=
  match entryAt es i p with
  | some (m, .file c) => some (m, c)
  | _ => none

theorem filesOf_append (a b : List CountEvent) : filesOf (a ++ b) = filesOf a ++ filesOf b :=
  List.filterMap_append

theorem filesOf_names (fileNames : Bool) (name : Str) :
    filesOf (if fileNames = true then [.name name] else []) = [] := by cases fileNames <;> rfl

theorem fileAt_dir (name : Str) (es : Entries) (i : Nat) (p : List Nat) :
    fileAt name (.dir es) (i :: p) = fileAtEntries es i p := by
  simp only [fileAt, fileAtEntries, nodeAt]

theorem fileAtEntries_zero (name : Str) (n : Node) (rest : Entries) (p : List Nat) :
    fileAtEntries (.cons name n rest) 0 p = fileAt name n p := by
  simp only [fileAt, fileAtEntries, entryAt]

theorem fileAtEntries_succ (name : Str) (n : Node) (rest : Entries) (i : Nat) (p : List Nat) :
    fileAtEntries (.cons name n rest) (i + 1) p = fileAtEntries rest i p := by
  simp only [fileAtEntries, entryAt]

theorem filesOf_entry (fileNames : Bool) (name : Str) (n : Node) (rest : Entries) :
    filesOf (addEntries fileNames (.cons name n rest) true) =
      filesOf (addNode fileNames name n true) ++ filesOf (addEntries fileNames rest true) := by
  rw [← filesOf_append]
  cases n <;> simp [addEntries, addNode]

mutual
theorem addNode_files (fileNames : Bool) (name : Str) (n : Node) :
    ∃ ps : List (List Nat), ps.Nodup ∧ (∀ p, p ∈ ps ↔ (fileAt name n p).isSome = true) ∧
      filesOf (addNode fileNames name n true) = ps.filterMap (fileAt name n) := by
  cases n with
  | file c =>
    refine ⟨[[]], by simp, ?_, ?_⟩
    · intro p
      cases p with
      | nil => simp [fileAt, nodeAt]
      | cons i p => simp [fileAt, nodeAt]
    · cases fileNames <;> simp [addNode, filesOf, fileAt, nodeAt]
  | dir es =>
    obtain ⟨ps, h1, h2, h3⟩ := addEntries_files fileNames es
    refine ⟨ps.map fun q => q.1 :: q.2, ?_, ?_, ?_⟩
    · refine List.pairwise_map.mpr (h1.imp ?_)
      intro a b hab e
      rw [List.cons.injEq] at e
      exact hab (Prod.ext e.1 e.2)
    · intro p
      cases p with
      | nil => simp [fileAt, nodeAt]
      | cons i p =>
        rw [fileAt_dir, ← h2 (i, p), List.mem_map]
        constructor
        · rintro ⟨q, hq, e⟩
          rw [List.cons.injEq] at e
          rw [← e.1, ← e.2]; exact hq
        · intro h; exact ⟨_, h, rfl⟩
    · rw [addNode, List.cons_append, ← List.singleton_append, filesOf_append, filesOf_append, filesOf_names, h3,
        List.filterMap_map]
      simp only [List.append_nil, Function.comp_def, fileAt_dir]
      rfl
  | link t => exact ⟨[], by simp, by intro p; cases p <;> simp [fileAt, nodeAt], by simp [addNode, filesOf]⟩
  | other => exact ⟨[], by simp, by intro p; cases p <;> simp [fileAt, nodeAt], by simp [addNode, filesOf]⟩

theorem addEntries_files (fileNames : Bool) (es : Entries) :
    ∃ ps : List (Nat × List Nat), ps.Nodup ∧ (∀ q, q ∈ ps ↔ (fileAtEntries es q.1 q.2).isSome = true) ∧
      filesOf (addEntries fileNames es true) = ps.filterMap fun q => fileAtEntries es q.1 q.2 := by
  cases es with
  | nil => exact ⟨[], by simp, by intro q; simp [fileAtEntries, entryAt], by simp [addEntries, filesOf]⟩
  | cons name n rest =>
    obtain ⟨ps, h1, h2, h3⟩ := addNode_files fileNames name n
    obtain ⟨qs, g1, g2, g3⟩ := addEntries_files fileNames rest
    refine ⟨ps.map (fun p => (0, p)) ++ qs.map (fun q => (q.1 + 1, q.2)), ?_, ?_, ?_⟩
    · refine List.pairwise_append.mpr ⟨List.pairwise_map.mpr (h1.imp ?_), List.pairwise_map.mpr (g1.imp ?_), ?_⟩
      · intro a b hab e; exact hab (Prod.mk.inj e).2
      · intro a b hab e
        exact hab (Prod.ext (by have := (Prod.mk.inj e).1; omega) (Prod.mk.inj e).2)
      · simp only [List.mem_map]
        rintro _ ⟨a, _, rfl⟩ _ ⟨b, _, rfl⟩ e
        have := (Prod.mk.inj e).1
        omega
    · rintro ⟨i, p⟩
      cases i with
      | zero => simp [fileAtEntries_zero, h2]
      | succ i => simpa [fileAtEntries_succ] using g2 (i, p)
    · rw [filesOf_entry, h3, g3, List.filterMap_append, List.filterMap_map, List.filterMap_map]
      simp only [Function.comp_def, fileAtEntries_zero, fileAtEntries_succ]
end

/-- Adding a directory tree processes every regular file of it exactly once, whatever is in the tree
(files behind symbolic links are not processed): the files processed are those of a list of places
without repetition, which contains exactly the places where there is a regular file. -/
theorem C78_tree (fileNames : Bool) (name : Str) (n : Node) (hl : ∀ t, n ≠ .link t) :
    ∃ es, addFile fileNames true name (some n) = .ok es ∧
      ∃ ps : List (List Nat), ps.Nodup ∧ (∀ p, p ∈ ps ↔ (fileAt name n p).isSome = true) ∧
        filesOf es = ps.filterMap (fileAt name n) := by
  refine ⟨addNode fileNames name n true, ?_, addNode_files fileNames name n⟩
  cases n with
  | link t => exact absurd rfl (hl t)
  | _ => simp [addFile]

/-- A link given as the top is followed (its own name is used), a path that doesn't exist is
refused. -/
theorem C78_top (fileNames recurse : Bool) (name : Str) :
    (∀ t, (∀ u, t ≠ .link u) →
      addFile fileNames recurse name (some (.link (some t))) = addFile fileNames recurse name (some t)) ∧
    addFile fileNames recurse name none = .throw .domain ∧
    addFile fileNames recurse name (some (.link none)) = .throw .domain := by
  refine ⟨?_, rfl, rfl⟩
  intro t ht
  cases t with
  | link u => exact absurd rfl (ht u)
  | _ => simp [addFile]

/-- Without recursion only the regular files directly in the directory are processed, in order. -/
theorem C78_flat (fileNames : Bool) (name : Str) (es : Entries) :
    ∃ ev, addFile fileNames false name (some (.dir es)) = .ok ev ∧
      filesOf ev = topFiles es := by
  refine ⟨addNode fileNames name (.dir es) false, by simp [addFile], ?_⟩
  rw [addNode, List.cons_append, ← List.singleton_append, filesOf_append, filesOf_append, filesOf_names]
  suffices h : filesOf (addEntries fileNames es false) = topFiles es by rw [h]; simp [filesOf]
  exact h es
where
  h : ∀ es, filesOf (addEntries fileNames es false) = topFiles es
  | .nil => by simp [addEntries, filesOf, topFiles]
  | .cons name n rest => by
    have ih := h rest
    cases n with
    | file c =>
      simp only [addEntries, addNode, topFiles]
      rw [filesOf_append, ih, ← List.singleton_append, filesOf_append, filesOf_names]; rfl
    | dir es => simpa [topFiles, addEntries] using ih
    | link t => simpa [topFiles, addEntries] using ih
    | other => simpa [topFiles, addEntries] using ih

example : filesOf (addNode true (u8!"top") (.dir (.cons (u8!"a") (.file (u8!"x")) (.cons (u8!"d")
    (.dir (.cons (u8!"l") (.link (some (.file (u8!"z")))) (.cons (u8!"b") (.file (u8!"y")) .nil))) .nil)))
    true) = [(u8!"a", u8!"x"), (u8!"b", u8!"y")] := by
  simp [addNode, addEntries, filesOf]

/-! ## C79: arguments -/

/-- The arguments before the first `--`. -/
def optionPart (args : List Str) : List Str := args.takeWhile (· != u8!"--")
/-- The arguments after the first `--`. -/
def filePart (args : List Str) : List Str := (args.dropWhile (· != u8!"--")).drop 1
/-- An argument read as an option. -/
def isOption (arg : Str) : Bool := (u8!"-").isPrefixOf arg
/-- The first option that isn't one of the two switches. -/
def otherOption (args : List Str) : Option Str :=
  (optionPart args).find? fun a => isOption a && a != u8!"-b" && a != u8!"-v"

theorem statsArgsLoop_end (args : List Str) (b v : Bool) (files : List Str) :
    statsArgsLoop args b true v files = .count (files ++ args) b v := by
  induction args generalizing files with
  | nil => simp [statsArgsLoop]
  | cons a r ih => rw [statsArgsLoop, if_neg (by simp), ih]; simp

theorem statsArgsLoop_eq (args : List Str) (b v : Bool) (files : List Str) :
    statsArgsLoop args b false v files = match otherOption args with
      | some a => if a = u8!"-h" then .help else .usage
      | none => .count (files ++ (optionPart args).filter (fun a => !isOption a) ++ filePart args)
          (b || (optionPart args).contains (u8!"-b")) (v || (optionPart args).contains (u8!"-v")) := by
  induction args generalizing b v files with
  | nil => simp [statsArgsLoop, otherOption, optionPart, filePart]
  | cons a r ih =>
    rw [statsArgsLoop]
    by_cases hd : a = u8!"--"
    · subst hd
      rw [if_pos (by decide), if_neg (by decide), if_neg (by decide), if_neg (by decide), if_pos rfl,
        statsArgsLoop_end]
      simp [otherOption, optionPart, filePart]
    · have ho : optionPart (a :: r) = a :: optionPart r := by
        simp [optionPart, hd]
      have hf : filePart (a :: r) = filePart r := by
        simp [filePart, hd]
      by_cases hm : (u8!"-").isPrefixOf a = true
      · rw [if_pos (by simp [hm])]
        by_cases h1 : a = u8!"-h"
        · subst h1; simp only [otherOption, ho]; rw [List.find?_cons_of_pos (by decide)]; rfl
        · rw [if_neg h1]
          by_cases h2 : a = u8!"-b"
          · subst h2
            rw [if_pos rfl, ih]
            simp only [otherOption, ho, hf]
            rw [List.find?_cons_of_neg (by decide), List.filter_cons_of_neg (by decide)]
            simp
          · rw [if_neg h2]
            by_cases h3 : a = u8!"-v"
            · subst h3
              rw [if_pos rfl, ih]
              simp only [otherOption, ho, hf]
              rw [List.find?_cons_of_neg (by decide), List.filter_cons_of_neg (by decide)]
              simp
            · rw [if_neg h3, if_neg hd]
              simp only [otherOption, ho]
              rw [List.find?_cons_of_pos (by simp [isOption, hm, h2, h3])]
              simp only [if_neg h1]
      · have e1 : isOption a = false := by simpa only [isOption, Bool.not_eq_true] using hm
        have e2 : a ≠ u8!"-b" := by rintro rfl; exact hm (by decide)
        have e3 : a ≠ u8!"-v" := by rintro rfl; exact hm (by decide)
        rw [if_neg (by simp [hm]), ih]
        simp only [otherOption, ho, hf]
        rw [List.find?_cons_of_neg (by simp [e1]), List.filter_cons_of_pos (by simp [e1])]
        simp [Ne.symm e2, Ne.symm e3]

/-- The arguments of `kanaStats` are read as documented, for all argument lists: options are looked at
only before a `--`; the first one that isn't `-b` or `-v` decides (help or a usage error); otherwise
the files are all arguments that aren't options and all arguments after the `--`, in order, and the
two switches are on if they appear; at least one file is needed unless in debug mode. -/
theorem C79_arguments (debug : Bool) (args : List Str) :
    statsArgs debug args = match otherOption args with
      | some a => if a = u8!"-h" then .help else .usage
      | none =>
        let files := (optionPart args).filter (fun a => !isOption a) ++ filePart args
        if debug = false ∧ files = [] then .usage
        else .count files ((optionPart args).contains (u8!"-b")) ((optionPart args).contains (u8!"-v")) := by
  rw [statsArgs, statsArgsLoop_eq]
  cases otherOption args with
  | some a => by_cases h : a = u8!"-h" <;> simp [h]
  | none =>
    simp only [List.nil_append, Bool.false_or]
    by_cases h1 : debug = true
    · simp [h1]
    · by_cases h2 : (optionPart args).filter (fun a => !isOption a) ++ filePart args = []
      · rw [h2]; simp [h1]
      · have : ((optionPart args).filter (fun a => !isOption a) ++ filePart args).isEmpty = false := by
          simpa using h2
        rw [this, if_neg (by simp), if_neg (fun h => h2 h.2)]

example : statsArgs false [u8!"-b", u8!"a", u8!"--", u8!"-v"] = .count [u8!"a", u8!"-v"] true false ∧
    statsArgs false [u8!"a", u8!"-h", u8!"-x"] = .help ∧ statsArgs false [u8!"-x", u8!"-h"] = .usage ∧
    statsArgs false [] = .usage := by decide

end KT
