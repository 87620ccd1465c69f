import Verif.Model.StatsReport
import Verif.Props.Stats
/-!
# The statistics report: C117-C120
-/
namespace KT
open Spec

/-! ## Sets of counts -/

theorem setEmplace_perm {α : Type} (lt : α → α → Bool) (k : α) : ∀ (t : SetTree α) (pred : Option α),
    (∀ x ∈ t.toList, lt k x = false → lt x k = true) → (∀ p, pred = some p → lt p k = true) →
    ∃ l, t.emplace lt k pred = some l ∧ l.Perm (k :: t.toList)
  | .leaf, none, _, _ => ⟨[k], rfl, List.Perm.refl _⟩
  | .leaf, some p, _, hp => ⟨[k], by simp [SetTree.emplace, hp p rfl], List.Perm.refl _⟩
  | .node l x r, pred, h, hp => by
    simp only [SetTree.toList, List.mem_append, List.mem_cons] at h
    rw [SetTree.emplace]
    by_cases hx : lt k x = true
    · rw [if_pos hx]
      obtain ⟨l', e, hl⟩ := setEmplace_perm lt k l pred (fun y hy => h y (.inl hy)) hp
      refine ⟨l' ++ x :: r.toList, by rw [e]; rfl, ?_⟩
      exact hl.append_right _
    · rw [if_neg hx]
      have hxk := h x (.inr (.inl rfl)) (by simpa using hx)
      obtain ⟨r', e, hr⟩ := setEmplace_perm lt k r (some x) (fun y hy => h y (.inr (.inr hy)))
        (by rintro p ⟨⟩; exact hxk)
      refine ⟨l.toList ++ x :: r', by rw [e]; rfl, ?_⟩
      refine ((hr.cons x).trans (List.Perm.swap k x r.toList)).append_left l.toList |>.trans ?_
      simp [SetTree.toList]

/-- If the values already there can be split by a comparison with the new one, it is put between the two parts. -/
theorem setEmplace_split {α : Type} (lt : α → α → Bool) (k : α) : ∀ (t : SetTree α) (pred : Option α),
    (∀ x ∈ t.toList, lt k x = false → lt x k = true) → (∀ p, pred = some p → lt p k = true) →
    t.toList.Pairwise (fun x y => lt k x = true → lt k y = true) →
    t.emplace lt k pred = some (t.toList.filter (fun x => !lt k x) ++ k :: t.toList.filter (lt k))
  | .leaf, none, _, _, _ => rfl
  | .leaf, some p, _, hp, _ => by simp [SetTree.emplace, hp p rfl, SetTree.toList]
  | .node l x r, pred, h, hp, hm => by
    simp only [SetTree.toList, List.mem_append, List.mem_cons] at h
    simp only [SetTree.toList, List.pairwise_append, List.pairwise_cons, List.mem_cons] at hm
    obtain ⟨hl, ⟨hxr, hr⟩, hlx⟩ := hm
    rw [SetTree.emplace]
    by_cases hx : lt k x = true
    · rw [if_pos hx, setEmplace_split lt k l pred (fun y hy => h y (.inl hy)) hp hl]
      have e1 : r.toList.filter (fun x => !lt k x) = [] := by
        rw [List.filter_eq_nil_iff]; intro y hy; simp [hxr y hy hx]
      have e2 : r.toList.filter (lt k) = r.toList := by
        rw [List.filter_eq_self]; intro y hy; exact hxr y hy hx
      simp [SetTree.toList, e1, e2, hx]
    · rw [if_neg hx, setEmplace_split lt k r (some x) (fun y hy => h y (.inr (.inr hy)))
        (by rintro p ⟨⟩; exact h x (.inr (.inl rfl)) (by simpa using hx)) hr]
      have e1 : l.toList.filter (lt k) = [] := by
        rw [List.filter_eq_nil_iff]; intro y hy hk; exact hx (hlx y hy x (.inl rfl) hk)
      have e2 : l.toList.filter (fun x => !lt k x) = l.toList := by
        rw [List.filter_eq_self]; intro y hy
        simp only [Bool.not_eq_true']
        cases hk : lt k y with
        | false => rfl
        | true => exact absurd (hlx y hy x (.inl rfl) hk) hx
      simp [SetTree.toList, e1, e2, hx]

theorem statLt_total (m : UInt16) (a b : StatCount) (hn : a.name ≠ b.name) (h : a.lt m b = false) :
    b.lt m a = true := by
  cases h2 : b.lt m a with
  | true => rfl
  | false => exact absurd ((C49_partial m).2.2.2.1 a b h h2).2.2.2 hn

/-! ## C117: what is counted is shown -/

/-- Although the comparison isn't an order (C49), the set of counts holds every character exactly once, whatever the
shape of the tree. -/
theorem C117_all (m : UInt16) {added l : List StatCount} (h : SetBuilt (StatCount.lt m) added l)
    (hn : (added.map (·.name)).Nodup) : l.Perm added := by
  induction h with
  | empty => exact List.Perm.refl _
  | @add xs v l t k hb ht he ih =>
    rw [List.map_append, List.nodup_append] at hn
    have ih := ih hn.1
    obtain ⟨l', e, hp⟩ := setEmplace_perm (StatCount.lt m) k t none (by
      intro x hx hk
      rw [ht] at hx
      refine statLt_total m k x ?_ hk
      have := hn.2.2 x.name (List.mem_map_of_mem (ih.mem_iff.mp hx)) k.name (by simp)
      exact fun e => this e.symm) (by simp)
    rw [e] at he
    cases he
    rw [ht] at hp
    exact hp.trans ((ih.cons k).trans (List.perm_append_singleton k xs).symm)
  | @present xs v t k hb ht he ih =>
    rw [List.map_append, List.nodup_append] at hn
    have ih := ih hn.1
    obtain ⟨l', e, _⟩ := setEmplace_perm (StatCount.lt m) k t none (by
      intro x hx hk
      rw [ht] at hx
      refine statLt_total m k x ?_ hk
      have := hn.2.2 x.name (List.mem_map_of_mem (ih.mem_iff.mp hx)) k.name (by simp)
      exact fun e => this e.symm) (by simp)
    rw [e] at he
    cases he

/-- Sum of the counts. -/
def countSum (l : List StatCount) : Nat := (l.map (·.count)).sum

theorem foldl_add_sum {α : Type} (f : α → Nat) (l : List α) (n : Nat) :
    l.foldl (fun n e => n + f e) n = n + (l.map f).sum := by
  induction l generalizing n with
  | nil => simp
  | cons x l ih => simp [ih, Nat.add_assoc]

/-- `unique` is the number of different characters and the total is the sum of the counts of the values shown. -/
theorem C117_numbers (m : UInt16) (findByName : Str → Option Kanji) (isKanji : Bool) (entries : List (Str × Nat))
    (hn : (entries.map (·.1)).Nodup) {l : List StatCount}
    (h : SetBuilt (StatCount.lt m) (predCounts findByName isKanji entries) l) :
    l.length = entries.length ∧ countSum l = predTotal entries ∧
    (∀ c, c ∈ l ↔ (c.name, c.count) ∈ entries ∧ c.entry = if isKanji then findByName c.name else none) := by
  have e1 : (predCounts findByName isKanji entries).map (·.name) = entries.map (·.1) := by
    simp [predCounts, Function.comp_def]
  have hp := C117_all m h (by rw [e1]; exact hn)
  refine ⟨?_, ?_, ?_⟩
  · rw [hp.length_eq]; simp [predCounts]
  · rw [predTotal, foldl_add_sum, Nat.zero_add, countSum, (hp.map _).sum_nat]
    simp [predCounts, Function.comp_def]
  · intro c
    rw [hp.mem_iff, predCounts, List.mem_map]
    constructor
    · rintro ⟨e, he, rfl⟩; exact ⟨he, rfl⟩
    · rintro ⟨he, hk⟩; refine ⟨_, he, ?_⟩; obtain ⟨a, b, c⟩ := c; simp only at hk ⊢; rw [hk]

/-! ### Lines for types -/

/-- The type of the entry. -/
def StatCount.typeOf (c : StatCount) : Option KanjiType := c.entry.map (·.type)

/-- The characters of a type in the order of the set. -/
def ofType (t : Option KanjiType) (l : List StatCount) : List StatCount := l.filter fun c => c.typeOf == t

theorem lookup_typeMapAdd (c : StatCount) (t u : Option KanjiType) : ∀ m : TypeMap,
    (m.add t c).lookup u = if t = u then some (((m.lookup u).getD {}).add c) else m.lookup u
  | [] => by
    simp only [TypeMap.add, lookup_single]
    by_cases h : t = u
    · subst h; simp
    · simp [h]
  | (v, a) :: m => by
    have ih := lookup_typeMapAdd c t u m
    simp only [TypeMap.add]
    by_cases h1 : v = t
    · subst h1
      rw [if_pos rfl, List.lookup_cons, List.lookup_cons]
      by_cases h : v = u
      · subst h; simp
      · have : (u == v) = false := by simpa using fun e => h e.symm
        simp [h, this]
    · rw [if_neg h1, List.lookup_cons, List.lookup_cons]
      by_cases h2 : u = v
      · subst h2
        have : ¬ t = u := fun e => h1 e.symm
        simp [this]
      · have : (u == v) = false := by simpa using h2
        simp only [this, ih]

/-- What is collected about characters. -/
def typeCounts (l : List StatCount) : TypeCounts := { total := countSum l, unique := l.length, found := l.take maxExamples }

theorem take_snoc (n : Nat) (l : List StatCount) (c : StatCount) :
    (if (l.take n).length < n then l.take n ++ [c] else l.take n) = (l ++ [c]).take n := by
  rw [List.length_take]
  by_cases h : l.length < n
  · rw [if_pos (by omega), List.take_of_length_le (by omega), List.take_of_length_le (by simp; omega)]
  · rw [if_neg (by omega), List.take_append_of_le_length (by omega)]

theorem typeCounts_add (l : List StatCount) (c : StatCount) : (typeCounts l).add c = typeCounts (l ++ [c]) := by
  show TypeCounts.mk (countSum l + c.count) (l.length + 1)
    (if (l.take maxExamples).length < maxExamples then l.take maxExamples ++ [c] else l.take maxExamples) = _
  rw [take_snoc]
  simp [typeCounts, countSum]

theorem typeMap_lookup (l : List StatCount) (t : Option KanjiType) :
    (typeMap l).lookup t = if ofType t l = [] then none else some (typeCounts (ofType t l)) := by
  suffices ∀ (l done : List StatCount) (m : TypeMap),
      (∀ t, m.lookup t = if ofType t done = [] then none else some (typeCounts (ofType t done))) →
      ∀ t, (l.foldl (fun m c => m.add (c.entry.map (·.type)) c) m).lookup t =
        if ofType t (done ++ l) = [] then none else some (typeCounts (ofType t (done ++ l))) by
    simpa [typeMap] using this l [] [] (by intro t; rfl) t
  intro l
  induction l with
  | nil => intro done m h t; simpa using h t
  | cons c l ih =>
    intro done m h t
    have := ih (done ++ [c]) (m.add (c.entry.map (·.type)) c) (by
      intro t
      rw [lookup_typeMapAdd, h t]
      by_cases e : c.entry.map (·.type) = t
      · have e2 : ofType t (done ++ [c]) = ofType t done ++ [c] := by simp [ofType, StatCount.typeOf, e]
        rw [if_pos e, e2, ← typeCounts_add]
        by_cases hd : ofType t done = []
        · rw [hd]; rfl
        · simp [hd]
      · have e2 : ofType t (done ++ [c]) = ofType t done := by simp [ofType, StatCount.typeOf, e]
        rw [if_neg e, e2]) t
    simpa using this

/-- One line for each type with a character, in the order of the types, with the number of occurrences, the number of
characters and the first five characters of the type.  Characters that aren't found by name have the type 'None'. -/
theorem C117_types (percent : Nat → Nat → Nat → Str) (total : Nat) (l : List StatCount) :
    typeLines percent total l =
      (allKanjiTypes.filter fun t => ofType t l ≠ []).map fun t =>
        typeLine percent total t
          { total := countSum (ofType t l), unique := (ofType t l).length, found := (ofType t l).take 5 } := by
  rw [typeLines, ← List.filterMap_eq_map, ← List.filterMap_eq_filter, List.filterMap_filterMap]
  congr 1
  funext t
  rw [typeMap_lookup]
  by_cases h : ofType t l = []
  · simp [h, Option.guard]
  · simp [h, Option.guard, typeCounts, maxExamples]

/-- Numbers of occurrences and characters of the types. -/
def typeTotals (l : List StatCount) : Nat := (allKanjiTypes.map fun t => countSum (ofType t l)).sum
def typeUniques (l : List StatCount) : Nat := (allKanjiTypes.map fun t => (ofType t l).length).sum

theorem ofType_cons (u : Option KanjiType) (c : StatCount) (l : List StatCount) :
    countSum (ofType u (c :: l)) = (if c.typeOf = u then c.count else 0) + countSum (ofType u l) ∧
    (ofType u (c :: l)).length = (if c.typeOf = u then 1 else 0) + (ofType u l).length := by
  by_cases h : c.typeOf = u
  · simp [ofType, h, countSum]; omega
  · simp [ofType, h]

theorem typeTotals_cons (c : StatCount) (l : List StatCount) :
    typeTotals (c :: l) = c.count + typeTotals l ∧ typeUniques (c :: l) = 1 + typeUniques l := by
  simp only [typeTotals, typeUniques, (ofType_cons _ c l).1, (ofType_cons _ c l).2, allKanjiTypes, List.map_cons,
    List.map_nil, List.sum_cons, List.sum_nil]
  generalize c.typeOf = t
  rcases t with _ | t
  · simp; omega
  · cases t <;> simp <;> omega

/-- Every type that a character can have is shown, so the numbers of the types add up to those of all characters. -/
theorem C117_sum (m : UInt16) (findByName : Str → Option Kanji) (isKanji : Bool) (entries : List (Str × Nat))
    (hn : (entries.map (·.1)).Nodup) {l : List StatCount}
    (h : SetBuilt (StatCount.lt m) (predCounts findByName isKanji entries) l) :
    typeTotals l = predTotal entries ∧ typeUniques l = entries.length := by
  obtain ⟨h1, h2, -⟩ := C117_numbers m findByName isKanji entries hn h
  rw [← h1, ← h2]
  clear h h1 h2
  induction l with
  | nil => exact ⟨by decide, by decide⟩
  | cons c l ih =>
    obtain ⟨e1, e2⟩ := typeTotals_cons c l
    rw [e1, e2, ih.1, ih.2]
    exact ⟨by simp [countSum], by simp; omega⟩

/-- A kanji with a type, name and frequency. -/
def witnessKanji (type : KanjiType) (name : Str) (frequency : UInt16 := 0) : Kanji :=
  ⟨type, name, none, u8!"辵", 162, ⟨12, 0⟩, none, frequency, none, none, none, false, [], none, [], [], none⟩

/-! ## C118: the order in which characters are shown -/

/-- Characters with higher counts are shown first. -/
def C118_statement : Prop :=
  ∀ (m : UInt16) (findByName : Str → Option Kanji) (entries : List (Str × Nat)) (l : List StatCount),
    entries.Pairwise (fun a b => strLt a.1 b.1 = true) →
    SetBuilt (StatCount.lt m) (predCounts findByName true entries) l →
    l.Pairwise (fun a b => b.count ≤ a.count)

theorem setBuilt_snoc {α : Type} {lt : α → α → Bool} {xs l : List α} {k : α} (h : SetBuilt lt (xs ++ [k]) l) :
    ∃ t : SetTree α, SetBuilt lt xs t.toList ∧
      (t.emplace lt k none = some l ∨ t.emplace lt k none = none ∧ l = t.toList) := by
  generalize he : xs ++ [k] = ys at h
  cases h with
  | empty => simp at he
  | @add xs' v _ t k' hb ht hk =>
    obtain ⟨rfl, h2⟩ := List.append_inj' he rfl
    cases h2
    exact ⟨t, by rw [ht]; exact hb, .inl hk⟩
  | @present xs' _ t k' hb ht hk =>
    obtain ⟨rfl, h2⟩ := List.append_inj' he rfl
    cases h2
    exact ⟨t, by rw [ht]; exact hb, .inr ⟨hk, ht.symm⟩⟩

/-- A kanji of type 'Kentei' that occurs twice and one of type 'Extra' that occurs once. -/
def kenteiTwice : StatCount := ⟨2, u8!"丐", some (witnessKanji .kentei (u8!"丐"))⟩
def extraOnce : StatCount := ⟨1, u8!"丼", some (witnessKanji .extra (u8!"丼"))⟩

/-- Whatever the shape of the tree: the kanji that occurs once is shown before the one that occurs twice. -/
theorem C118_always (l : List StatCount) (h : SetBuilt (StatCount.lt 2502) [kenteiTwice, extraOnce] l) :
    l = [extraOnce, kenteiTwice] := by
  obtain ⟨t, hb, ht⟩ := setBuilt_snoc (xs := [kenteiTwice]) h
  have hp := C117_all _ hb (by decide)
  rw [List.perm_singleton] at hp
  rw [setEmplace_split _ _ t none (by rw [hp]; decide) (by simp) (by rw [hp]; decide), hp] at ht
  rcases ht with ht | ht
  · exact (Option.some.inj ht).symm
  · simp at ht

theorem C118_violated : ¬ C118_statement := by
  intro h
  let find : Str → Option Kanji := fun s => if s = u8!"丐" then kenteiTwice.entry else extraOnce.entry
  have := h 2502 find [(u8!"丐", 2), (u8!"丼", 1)] [extraOnce, kenteiTwice]
    (by decide)
    (.add (xs := [kenteiTwice]) (t := .node .leaf kenteiTwice .leaf)
      (.add (xs := []) (t := .leaf) .empty rfl rfl) rfl (by decide))
  revert this
  decide

/-- The order of the counts and frequencies only. -/
def StatCount.ltCount (m : UInt16) (a x : StatCount) : Bool :=
  a.count > x.count || (a.count == x.count && a.frequency m < x.frequency m)

theorem statLt_later (m : UInt16) (k x : StatCount) (hn : strLt x.name k.name = true)
    (ht : k.frequency m = x.frequency m → k.type = x.type) : k.lt m x = k.ltCount m x := by
  have h1 : strLt k.name x.name = false := by
    cases h : strLt k.name x.name with
    | false => rfl
    | true =>
      have := strLt_total.trans _ _ _ hn h
      rw [strLt_total.irrefl] at this
      cases this
  have h2 : (k.frequency m == x.frequency m && decide (k.type < x.type)) = false := by
    by_cases h : k.frequency m = x.frequency m
    · simp [ht h]
    · simp [h]
  simp [StatCount.lt, StatCount.ltCount, h1, h2]

/-- If characters with the same frequency have the same type (as for all characters that aren't kanji), the sequence is
the one meant: by count (highest first), then frequency, then name. -/
theorem C118_partial (m : UInt16) {added l : List StatCount} (h : SetBuilt (StatCount.lt m) added l)
    (hs : added.Pairwise fun a b => strLt a.name b.name = true)
    (ht : ∀ a ∈ added, ∀ b ∈ added, a.frequency m = b.frequency m → a.type = b.type) :
    l.Pairwise (fun a b => a.ltMeant m b = true) := by
  suffices ∀ (n : Nat) (added : List StatCount), added.length = n → ∀ l, SetBuilt (StatCount.lt m) added l →
      (added.Pairwise fun a b => strLt a.name b.name = true) →
      (∀ a ∈ added, ∀ b ∈ added, a.frequency m = b.frequency m → a.type = b.type) →
      l.Pairwise (fun a b => a.ltMeant m b = true) from this _ added rfl l h hs ht
  intro n
  induction n with
  | zero =>
    intro added hl l h hs ht
    obtain rfl := List.length_eq_zero_iff.mp hl
    have := C117_all m h (by simp)
    rw [List.perm_nil] at this
    rw [this]; exact List.Pairwise.nil
  | succ n ih =>
    intro added hl l h hs ht
    obtain ⟨xs, k, rfl⟩ : ∃ xs k, added = xs ++ [k] := by
      refine ⟨added.dropLast, added.getLast (by rintro rfl; simp at hl), ?_⟩
      rw [List.dropLast_concat_getLast]
    obtain ⟨t, hb, he⟩ := setBuilt_snoc h
    rw [List.pairwise_append] at hs
    have hp := C117_all m hb (by
      rw [List.Nodup, List.pairwise_map]
      refine hs.1.imp ?_
      intro a b hab e
      rw [e, strLt_total.irrefl] at hab
      cases hab)
    have ih := ih xs (by simpa using hl) _ hb hs.1 (fun a ha b hb => ht a (by simp [ha]) b (by simp [hb]))
    have hname : ∀ x ∈ t.toList, strLt x.name k.name = true := fun x hx =>
      hs.2.2 x (hp.mem_iff.mp hx) k (by simp)
    have htype : ∀ x ∈ t.toList, k.frequency m = x.frequency m → k.type = x.type := fun x hx =>
      ht k (by simp) x (by simp [hp.mem_iff.mp hx])
    have hlt : ∀ x ∈ t.toList, k.lt m x = k.ltCount m x := fun x hx => statLt_later m k x (hname x hx) (htype x hx)
    have hafter : ∀ x ∈ t.toList, k.lt m x = false → x.ltMeant m k = true := by
      intro x hx hk
      rw [hlt x hx, StatCount.ltCount] at hk
      simp only [Bool.or_eq_false_iff, Bool.and_eq_false_iff, decide_eq_false_iff_not, beq_eq_false_iff_ne] at hk
      simp only [StatCount.ltMeant, Bool.or_eq_true, Bool.and_eq_true, decide_eq_true_eq, beq_iff_eq]
      by_cases h1 : x.count > k.count
      · exact .inl h1
      · have h2 : x.count = k.count := by omega
        refine .inr ⟨h2, ?_⟩
        have h3 : ¬ k.frequency m < x.frequency m := by
          rcases hk.2 with h | h
          · exact absurd h2.symm h
          · exact h
        by_cases h4 : x.frequency m < k.frequency m
        · exact .inl h4
        · have h5 : k.frequency m = x.frequency m := by
            rw [UInt16.lt_iff_toNat_lt] at h3 h4
            exact UInt16.toNat_inj.mp (by omega)
          exact .inr ⟨h5.symm, .inr ⟨(htype x hx h5).symm, hname x hx⟩⟩
    have hmono : t.toList.Pairwise (fun x y => k.lt m x = true → k.lt m y = true) := by
      refine List.Pairwise.imp_of_mem ?_ ih
      intro x y hx hy hxy hk
      rw [hlt x hx] at hk
      rw [hlt y hy]
      simp only [StatCount.ltMeant, StatCount.ltCount, Bool.or_eq_true, Bool.and_eq_true, decide_eq_true_eq,
        beq_iff_eq, UInt16.lt_iff_toNat_lt] at hxy hk ⊢
      rcases hxy with h1 | ⟨h1, h2 | ⟨h2, _⟩⟩
      · rcases hk with h3 | ⟨h3, _⟩ <;> exact .inl (by omega)
      · rcases hk with h3 | ⟨h3, h4⟩
        · exact .inl (by omega)
        · exact .inr ⟨by omega, by omega⟩
      · rw [← h1, ← h2]; exact hk
    rw [setEmplace_split _ _ t none (fun x hx hk => (C49_partial m).2.2.1 x k (hafter x hx hk)) (by simp) hmono] at he
    have he : l = t.toList.filter (fun x => !k.lt m x) ++ k :: t.toList.filter (StatCount.lt m k) := by
      rcases he with he | he
      · exact (Option.some.inj he).symm
      · simp at he
    rw [he, List.pairwise_append, List.pairwise_cons]
    have hbefore : ∀ y ∈ t.toList, k.lt m y = true → k.ltMeant m y = true := by
      intro y hy hk
      rw [hlt y hy] at hk
      simp only [StatCount.ltCount, Bool.or_eq_true, Bool.and_eq_true] at hk
      simp only [StatCount.ltMeant, Bool.or_eq_true, Bool.and_eq_true]
      rcases hk with h1 | ⟨h1, h2⟩
      · exact .inl h1
      · exact .inr ⟨h1, .inl h2⟩
    refine ⟨ih.filter _, ⟨?_, ih.filter _⟩, ?_⟩
    · intro y hy
      rw [List.mem_filter] at hy
      exact hbefore y hy.1 hy.2
    · intro x hx y hy
      rw [List.mem_filter] at hx
      have hxk := hafter x hx.1 (by simpa using hx.2)
      rw [List.mem_cons, List.mem_filter] at hy
      rcases hy with rfl | hy
      · exact hxk
      · exact (C49_meant m).1.trans _ _ _ hxk (hbefore y hy.1 hy.2)

/-- Characters that aren't kanji are always shown by count (highest first), then name. -/
theorem C118_other (m : UInt16) (findByName : Str → Option Kanji) (entries : List (Str × Nat)) {l : List StatCount}
    (hs : entries.Pairwise fun a b => strLt a.1 b.1 = true)
    (h : SetBuilt (StatCount.lt m) (predCounts findByName false entries) l) :
    l.Pairwise (fun a b => b.count < a.count ∨ b.count = a.count ∧ strLt a.name b.name = true) := by
  have hnone : ∀ c ∈ predCounts findByName false entries, c.entry = none := by
    intro c hc
    simp only [predCounts, List.mem_map] at hc
    obtain ⟨e, _, rfl⟩ := hc
    rfl
  have hs' : (predCounts findByName false entries).Pairwise fun a b => strLt a.name b.name = true := by
    rw [predCounts, List.pairwise_map]; exact hs
  have hl := C118_partial m h hs' (by
    intro a ha b hb _
    simp [StatCount.type, hnone a ha, hnone b hb])
  have hp := C117_all m h (by
    rw [List.Nodup, List.pairwise_map]
    refine hs'.imp ?_
    intro a b hab e
    rw [e, strLt_total.irrefl] at hab
    cases hab)
  refine List.Pairwise.imp_of_mem ?_ hl
  intro a b ha hb hab
  have ha := hnone a (hp.mem_iff.mp ha)
  have hb := hnone b (hp.mem_iff.mp hb)
  simp [StatCount.ltMeant, StatCount.frequency, StatCount.type, ha, hb] at hab
  rcases hab with h | h
  · exact .inl h
  · exact .inr ⟨h.1.symm, h.2⟩

end KT
