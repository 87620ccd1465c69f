import Verif.Model.KanaStart
import Verif.Lemmas.Order
import Verif.Props.Kana
/-!
C191: the checks at the start of the program succeed and the tables built there are those used in the
rest of the model.
-/
namespace KT

theorem assertThat_ok (b : Bool) : assertThat b = .ok () ↔ b = true := by
  cases b <;> simp [assertThat]

theorem assertThat_bind {α : Type} (b : Bool) (f : Unit → Res α) :
    (assertThat b).bind f = if b then f () else .ub := by
  cases b <;> rfl

theorem validate_ok (k : Kana) : k.validate = .ok () ↔
    (∀ r ∈ kanaKeys .romaji k, isAllSingleByte r = true) ∧ isAllHiragana k.hiragana = true ∧
      isAllKatakana k.katakana = true := by
  simp only [Kana.validate, assertThat_bind, kanaKeys, List.forall_mem_cons]
  cases h1 : k.rec'.variants.all isAllSingleByte <;> cases h2 : isAllSingleByte k.romaji <;>
    cases h3 : isAllHiragana k.hiragana <;> cases h4 : isAllKatakana k.katakana <;>
    simp [assertThat] <;> simp_all

theorem validateAll_ok (ks : List Kana) : validateAll ks = .ok () ↔ ∀ k ∈ ks, k.validate = .ok () := by
  induction ks with
  | nil => simp [validateAll]
  | cons k ks ih =>
    simp only [validateAll, List.forall_mem_cons]
    cases h : k.validate <;> simp [Res.bind, ih]

/-- The pairs that `populate` inserts. -/
def kanaPairs (t : CharType) (ks : List Kana) : List (Str × Kana) :=
  ks.flatMap fun k => (kanaKeys t k).map fun s => (s, k)

/-- Keys in increasing order. -/
abbrev KeysInOrder {α : Type} (m : List (Str × α)) : Prop := m.Pairwise fun a b => strLt a.1 b.1 = true

/-- Inserting the pairs one by one. -/
def emplaceAll : List (Str × Kana) → List (Str × Kana) × Nat → List (Str × Kana) × Nat
  | [], st => st
  | p :: ps, st =>
    let r := sortedEmplace p.1 p.2 st.1
    emplaceAll ps (r.1, if r.2 then st.2 else st.2 + 1)

theorem insertKeys_emplace (k : Kana) (ss : List Str) (st : List (Str × Kana) × Nat) :
    insertKeys k ss st = emplaceAll (ss.map fun s => (s, k)) st := by
  induction ss generalizing st with
  | nil => rfl
  | cons s ss ih => simp only [insertKeys, List.map_cons, emplaceAll]; exact ih _

theorem emplaceAll_append (a b : List (Str × Kana)) (st : List (Str × Kana) × Nat) :
    emplaceAll (a ++ b) st = emplaceAll b (emplaceAll a st) := by
  induction a generalizing st with
  | nil => rfl
  | cons p a ih => simp only [List.cons_append, emplaceAll]; exact ih _

theorem populateKanaLoop_emplace (t : CharType) (ks : List Kana) (st : List (Str × Kana) × Nat) :
    populateKanaLoop t ks st = emplaceAll (kanaPairs t ks) st := by
  induction ks generalizing st with
  | nil => rfl
  | cons k ks ih =>
    simp only [populateKanaLoop, kanaPairs, List.flatMap_cons, emplaceAll_append, insertKeys_emplace]
    exact ih _

theorem sortedEmplace_new {α : Type} (s : Str) (v : α) (m : List (Str × α)) (hm : KeysInOrder m) :
    (sortedEmplace s v m).2 = true ↔ s ∉ m.map Prod.fst := by
  induction m with
  | nil => simp [sortedEmplace]
  | cons p m ih =>
    rw [KeysInOrder, List.pairwise_cons] at hm
    obtain ⟨h1, h2⟩ := hm
    simp only [sortedEmplace]
    by_cases a : strLt s p.1 = true
    · rw [if_pos a]
      simp only [List.map_cons, List.mem_cons, not_or, true_iff]
      refine ⟨fun e => ?_, fun hs => ?_⟩
      · rw [e, strLt_total.irrefl] at a; cases a
      · obtain ⟨q, hq, rfl⟩ := List.mem_map.mp hs
        have := total_asymm strLt_total _ _ a
        rw [h1 q hq] at this; cases this
    · rw [if_neg a]
      by_cases b : strLt p.1 s = true
      · rw [if_pos b]
        simp only [List.map_cons, List.mem_cons, not_or]
        rw [ih h2]
        refine ⟨fun h => ⟨fun e => ?_, h⟩, fun h => h.2⟩
        rw [e, strLt_total.irrefl] at b; cases b
      · rw [if_neg b]
        have e : s = p.1 := by rcases strLt_total.total s p.1 with g | g | g <;> simp_all
        simp [e]

theorem sortedEmplace_perm {α : Type} (s : Str) (v : α) (m : List (Str × α)) :
    if (sortedEmplace s v m).2 then (sortedEmplace s v m).1.Perm ((s, v) :: m) else (sortedEmplace s v m).1 = m := by
  induction m with
  | nil => simp [sortedEmplace]
  | cons p m ih =>
    simp only [sortedEmplace]
    by_cases a : strLt s p.1 = true
    · simp [a]
    · by_cases b : strLt p.1 s = true
      · simp only [a, b, if_true]
        by_cases c : (sortedEmplace s v m).2 = true
        · simp only [c, if_true] at ih ⊢
          exact (ih.cons p).trans (.swap _ _ _)
        · simp_all
      · simp [a, b]

theorem sortedEmplace_sorted {α : Type} (s : Str) (v : α) (m : List (Str × α)) (hm : KeysInOrder m) :
    KeysInOrder (sortedEmplace s v m).1 := by
  induction m with
  | nil => simp [sortedEmplace, KeysInOrder]
  | cons p m ih =>
    have hm' := hm
    rw [KeysInOrder, List.pairwise_cons] at hm
    obtain ⟨h1, h2⟩ := hm
    simp only [sortedEmplace]
    by_cases a : strLt s p.1 = true
    · rw [if_pos a, KeysInOrder, List.pairwise_cons]
      refine ⟨fun q hq => ?_, hm'⟩
      rcases List.mem_cons.mp hq with rfl | hq
      · exact a
      · exact strLt_total.trans _ _ _ a (h1 q hq)
    · rw [if_neg a]
      by_cases b : strLt p.1 s = true
      · rw [if_pos b, KeysInOrder, List.pairwise_cons]
        refine ⟨fun q hq => ?_, ih h2⟩
        have hp := sortedEmplace_perm s v m
        by_cases c : (sortedEmplace s v m).2 = true
        · rw [if_pos c] at hp
          rcases List.mem_cons.mp (hp.mem_iff.mp hq) with rfl | hq
          · exact b
          · exact h1 q hq
        · rw [if_neg c] at hp; rw [hp] at hq; exact h1 q hq
      · rw [if_neg b]; exact hm'

theorem emplaceAll_count (ps : List (Str × Kana)) (st : List (Str × Kana) × Nat) :
    st.2 ≤ (emplaceAll ps st).2 := by
  induction ps generalizing st with
  | nil => exact Nat.le_refl _
  | cons p ps ih =>
    simp only [emplaceAll]
    refine Nat.le_trans ?_ (ih _)
    dsimp only; split <;> omega

theorem emplaceAll_sorted (ps : List (Str × Kana)) (st : List (Str × Kana) × Nat) (h : KeysInOrder st.1) :
    KeysInOrder (emplaceAll ps st).1 := by
  induction ps generalizing st with
  | nil => exact h
  | cons p ps ih => exact ih _ (sortedEmplace_sorted _ _ _ h)

theorem emplaceAll_zero (ps : List (Str × Kana)) (m : List (Str × Kana)) (h : KeysInOrder m) :
    (emplaceAll ps (m, 0)).2 = 0 ↔
      (ps.map Prod.fst).Nodup ∧ ∀ p ∈ ps, p.1 ∉ m.map Prod.fst := by
  induction ps generalizing m with
  | nil => simp [emplaceAll]
  | cons p ps ih =>
    simp only [emplaceAll, List.map_cons, List.nodup_cons, List.forall_mem_cons]
    by_cases c : (sortedEmplace p.1 p.2 m).2 = true
    · have hp := sortedEmplace_perm p.1 p.2 m
      rw [if_pos c] at hp
      rw [if_pos c, ih _ (sortedEmplace_sorted _ _ _ h)]
      have hn := (sortedEmplace_new p.1 p.2 m h).mp c
      have key : ∀ x, x ∈ (sortedEmplace p.1 p.2 m).1.map Prod.fst ↔ x = p.1 ∨ x ∈ m.map Prod.fst := by
        intro x; rw [(hp.map Prod.fst).mem_iff]; simp
      simp only [key, not_or]
      constructor
      · rintro ⟨a, b⟩
        refine ⟨⟨fun hx => ?_, a⟩, hn, fun q hq => (b q hq).2⟩
        obtain ⟨q, hq, e⟩ := List.mem_map.mp hx
        exact (b q hq).1 e
      · rintro ⟨⟨a, b⟩, _, d⟩
        exact ⟨b, fun q hq => ⟨fun e => a (e ▸ List.mem_map_of_mem hq), d q hq⟩⟩
    · have hn := mt (sortedEmplace_new p.1 p.2 m h).mpr c
      have := emplaceAll_count ps ((sortedEmplace p.1 p.2 m).1, 0 + 1)
      rw [if_neg c]
      constructor
      · intro e; dsimp only at this; omega
      · rintro ⟨_, d, _⟩; exact absurd d hn

theorem emplaceAll_perm (ps : List (Str × Kana)) (m : List (Str × Kana))
    (h : (emplaceAll ps (m, 0)).2 = 0) : (emplaceAll ps (m, 0)).1.Perm (ps ++ m) := by
  induction ps generalizing m with
  | nil => exact .refl _
  | cons p ps ih =>
    simp only [emplaceAll] at h ⊢
    by_cases c : (sortedEmplace p.1 p.2 m).2 = true
    · have hp := sortedEmplace_perm p.1 p.2 m
      rw [if_pos c] at h hp ⊢
      refine (ih _ h).trans ?_
      exact (hp.append_left ps).trans (List.perm_middle)
    · rw [if_neg c] at h
      have := emplaceAll_count ps ((sortedEmplace p.1 p.2 m).1, 0 + 1)
      dsimp only at this; omega

theorem lookup_some_mem {α : Type} (m : List (Str × α)) (hn : (m.map Prod.fst).Nodup) (s : Str) (v : α) :
    m.lookup s = some v ↔ (s, v) ∈ m := by
  induction m with
  | nil => simp
  | cons p m ih =>
    obtain ⟨a, b⟩ := p
    simp only [List.map_cons, List.nodup_cons] at hn
    by_cases e : s = a
    · subst e
      simp only [List.lookup_cons, beq_self_eq_true, Option.some.injEq, List.mem_cons, Prod.mk.injEq, true_and]
      constructor
      · rintro rfl; exact .inl rfl
      · rintro (h | h)
        · exact h.symm
        · exact absurd (List.mem_map_of_mem (f := Prod.fst) h) hn.1
    · have : (s == a) = false := by simpa using e
      simp [List.lookup_cons, this, ih hn.2, e]

theorem keysInOrder_nodup {α : Type} (m : List (Str × α)) (h : KeysInOrder m) : (m.map Prod.fst).Nodup := by
  rw [List.Nodup, List.pairwise_map]
  exact h.imp fun {a b} hab e => by rw [e, strLt_total.irrefl] at hab; cases hab

/-- `populate` fails exactly when two of the keys are equal, for any objects. -/
theorem C191_duplicates (t : CharType) (ks : List Kana) :
    populateKana t ks = .ub ↔ ¬ ((kanaPairs t ks).map Prod.fst).Nodup := by
  have h := emplaceAll_zero (kanaPairs t ks) [] .nil
  simp only [List.map_nil, List.not_mem_nil, not_false_eq_true, implies_true, and_true] at h
  rw [← h]
  simp only [populateKana, assertThat_bind, populateKanaLoop_emplace]
  by_cases c : (emplaceAll (kanaPairs t ks) ([], 0)).2 = 0 <;> simp [c]

/-- Otherwise the map has exactly the pairs, in the order of the keys. -/
theorem C191_map (t : CharType) (ks : List Kana) (m : List (Str × Kana)) (h : populateKana t ks = .ok m) :
    KeysInOrder m ∧ m.Perm (kanaPairs t ks) ∧ ∀ s, m.lookup s = (kanaPairs t ks).lookup s := by
  simp only [populateKana, assertThat_bind, populateKanaLoop_emplace] at h
  by_cases c : (emplaceAll (kanaPairs t ks) ([], 0)).2 = 0
  · simp only [c, beq_self_eq_true, if_true, Res.ok.injEq] at h
    have hp := emplaceAll_perm _ _ c
    have hs := emplaceAll_sorted (kanaPairs t ks) ([], 0) .nil
    rw [List.append_nil] at hp
    rw [h] at hp hs
    refine ⟨hs, hp, fun s => ?_⟩
    have n1 := keysInOrder_nodup m hs
    have n2 : ((kanaPairs t ks).map Prod.fst).Nodup := (hp.map Prod.fst).nodup_iff.mp n1
    apply Option.ext
    intro v
    rw [lookup_some_mem _ n1, lookup_some_mem _ n2, hp.mem_iff]
  · simp [c] at h

theorem populate_table (t : CharType) : ∃ m, populateKana t allKana = .ok m := by
  have h : populateKana t allKana ≠ .ub := fun e => (C191_duplicates t allKana).mp e (C25_keys_unique t)
  cases e : populateKana t allKana with
  | ok m => exact ⟨m, rfl⟩
  | ub => exact absurd e h
  | throw x =>
    simp only [populateKana, assertThat_bind] at e
    split at e <;> cases e

/-- Two lists with the same elements, without repetition in the first. -/
def sameSet {α : Type} [BEq α] (a b : List α) : Bool :=
  a.all b.contains && b.all a.contains && a.length == a.eraseDups.length

/-- The tokens are those of the model of the conversion. -/
def tokensAgree (t : Tokens) : Bool :=
  sameSet t.repeating repeatingConsonants &&
  sameSet t.afterNHiragana (afterN .hiragana) && sameSet t.afterNKatakana (afterN .katakana) &&
  sameSet t.smallHiragana (smallKana .hiragana) && sameSet t.smallKatakana (smallKana .katakana) &&
  t.narrowList == narrowDelimList && t.narrow == delims && t.wide == delims.map fun p => (p.2, p.1)

theorem tokens_table : (match populateKana .hiragana allKana with
    | .ok h => match buildTokens h with
      | .ok t => tokensAgree t
      | _ => false
    | _ => false) = true := by decide +kernel

theorem validate_table : ∀ k ∈ allKana, (∀ r ∈ kanaKeys .romaji k, isAllSingleByte r = true) ∧
    isAllHiragana k.hiragana = true ∧ isAllKatakana k.katakana = true := by decide +kernel

theorem sameSet_mem {α : Type} [BEq α] [LawfulBEq α] {a b : List α} (h : sameSet a b = true) (x : α) :
    x ∈ a ↔ x ∈ b := by
  simp only [sameSet, Bool.and_eq_true, List.all_eq_true, List.contains_iff_mem] at h
  exact ⟨h.1.1 x, h.1.2 x⟩

/-- The start succeeds, and every table built there answers like the tables of the model. -/
theorem C191_start : ∃ k, kanaStart = .ok k ∧
    (∀ t, KeysInOrder (k.map t) ∧ (k.map t).Perm (kanaMap t) ∧ ∀ s, (k.map t).lookup s = findKana t s) ∧
    (∀ c, c ∈ k.tokens.repeating ↔ c ∈ repeatingConsonants) ∧
    (∀ s, s ∈ k.tokens.afterNHiragana ↔ s ∈ afterN .hiragana) ∧
    (∀ s, s ∈ k.tokens.afterNKatakana ↔ s ∈ afterN .katakana) ∧
    (∀ s, s ∈ k.tokens.smallHiragana ↔ s ∈ smallKana .hiragana) ∧
    (∀ s, s ∈ k.tokens.smallKatakana ↔ s ∈ smallKana .katakana) ∧
    k.tokens.narrowList = narrowDelimList ∧ (∀ c, k.tokens.narrow.lookup c = delims.lookup c) ∧
    (∀ s, k.tokens.wide.lookup s = wideDelimFind s) := by
  obtain ⟨r, hr⟩ := populate_table .romaji
  obtain ⟨h, hh⟩ := populate_table .hiragana
  obtain ⟨a, ha⟩ := populate_table .katakana
  have ht := tokens_table
  rw [hh] at ht
  dsimp only at ht
  cases et : buildTokens h with
  | ub => rw [et] at ht; cases ht
  | throw x => rw [et] at ht; cases ht
  | ok t =>
    rw [et] at ht
    dsimp only at ht
    have hv : validateAll allKana = .ok () :=
      (validateAll_ok _).mpr fun k hk => (validate_ok k).mpr (validate_table k hk)
    have m1 : repeatPlain.validate = .ok () := by decide +kernel
    have m2 : repeatAccented.validate = .ok () := by decide +kernel
    refine ⟨⟨r, h, a, t⟩, ?_, ?_, ?_⟩
    · simp only [kanaStart, hv, hr, hh, ha, m1, m2, et, Res.bind]
    · intro t'
      cases t'
      · exact C191_map _ _ _ hh
      · exact C191_map _ _ _ ha
      · exact C191_map _ _ _ hr
    · simp only [tokensAgree, Bool.and_eq_true, beq_iff_eq] at ht
      obtain ⟨⟨⟨⟨⟨⟨⟨t1, t2⟩, t3⟩, t4⟩, t5⟩, t6⟩, t7⟩, t8⟩ := ht
      exact ⟨sameSet_mem t1, sameSet_mem t2, sameSet_mem t3, sameSet_mem t4, sameSet_mem t5, t6,
        fun c => by rw [t7], fun s => by rw [t8]; rfl⟩

/-- Every object of any table that passes the checks is written in its own script; the start fails at
an object that is not. -/
theorem C191_validate (ks : List Kana) : validateAll ks = .ok () ↔ ∀ k ∈ ks,
    (∀ r ∈ kanaKeys .romaji k, isAllSingleByte r = true) ∧ isAllHiragana k.hiragana = true ∧
      isAllKatakana k.katakana = true := by
  rw [validateAll_ok]
  exact ⟨fun h k hk => (validate_ok k).mp (h k hk), fun h k hk => (validate_ok k).mpr (h k hk)⟩

theorem assignKey_lookup {α β : Type} [BEq α] [LawfulBEq α] (a : α) (b : β) (m : List (α × β)) (x : α) :
    (assignKey a b m).lookup x = if x == a then some b else m.lookup x := by
  induction m with
  | nil => simp only [assignKey, List.lookup_cons, List.lookup_nil]; cases x == a <;> rfl
  | cons p m ih =>
    obtain ⟨k, v⟩ := p
    simp only [assignKey]
    by_cases e : k = a
    · subst e
      simp only [beq_self_eq_true, if_true, List.lookup_cons]
      cases x == k <;> rfl
    · rw [if_neg (by simpa using e)]
      simp only [List.lookup_cons, ih]
      by_cases f : x = k
      · subst f
        have : (x == a) = false := by simpa using e
        simp [this]
      · have : (x == k) = false := by simpa using f
        rw [this]

theorem lookup_append_or {α β : Type} [BEq α] (a b : List (α × β)) (x : α) :
    (a ++ b).lookup x = (a.lookup x).or (b.lookup x) := by
  induction a with
  | nil => simp
  | cons p a ih =>
    obtain ⟨k, v⟩ := p
    simp only [List.cons_append, List.lookup_cons, ih]
    cases x == k <;> simp

/-- For any list of delimiters both maps have the last entry given for a character. -/
theorem C191_delims (l : List (Str × Option UInt8)) (prev : UInt8) (t : Tokens) :
    (Tokens.addDelims prev l t).narrowList = t.narrowList ++ (delimEntries prev l).map Prod.fst ∧
    (∀ c, (Tokens.addDelims prev l t).narrow.lookup c =
      ((delimEntries prev l).reverse.lookup c).or (t.narrow.lookup c)) ∧
    (∀ w, (Tokens.addDelims prev l t).wide.lookup w =
      (((delimEntries prev l).map fun p => (p.2, p.1)).reverse.lookup w).or (t.wide.lookup w)) := by
  induction l generalizing prev t with
  | nil => simp [Tokens.addDelims, delimEntries]
  | cons p l ih =>
    obtain ⟨w, n⟩ := p
    have e : Tokens.addDelims prev ((w, n) :: l) t = Tokens.addDelims (n.getD (prev + 1)) l { t with
      narrowList := t.narrowList ++ [n.getD (prev + 1)], narrow := assignKey (n.getD (prev + 1)) w t.narrow
      wide := assignKey w (n.getD (prev + 1)) t.wide } := by cases n <;> rfl
    simp only [e, delimEntries]
    obtain ⟨i1, i2, i3⟩ := ih (n.getD (prev + 1)) { t with
      narrowList := t.narrowList ++ [n.getD (prev + 1)], narrow := assignKey (n.getD (prev + 1)) w t.narrow
      wide := assignKey w (n.getD (prev + 1)) t.wide }
    refine ⟨by rw [i1]; simp, fun c => ?_, fun x => ?_⟩
    · rw [i2, assignKey_lookup, List.reverse_cons, lookup_append_or, Option.or_assoc]
      congr 1
      simp only [List.lookup_cons, List.lookup_nil]
      cases c == n.getD (prev + 1) <;> rfl
    · rw [i3, assignKey_lookup, List.map_cons, List.reverse_cons, lookup_append_or, Option.or_assoc]
      congr 1
      simp only [List.lookup_cons, List.lookup_nil]
      cases x == w <;> rfl

-- a table with the same Hiragana twice, and one with the scripts exchanged
example : populateKana .hiragana [.kana (.mk0 (u8!"a") (u8!"あ") (u8!"ア")), .kana (.mk0 (u8!"b") (u8!"あ") (u8!"イ"))] = .ub := by
  decide +kernel
example : validateAll [.kana (.mk0 (u8!"a") (u8!"ア") (u8!"あ"))] = .ub := by decide +kernel
example : (populateKana .romaji [.kana (.mk0 (u8!"i") (u8!"い") (u8!"イ")), .kana (.mk0 (u8!"a") (u8!"あ") (u8!"ア"))]) =
    .ok [(u8!"a", .kana (.mk0 (u8!"a") (u8!"あ") (u8!"ア"))), (u8!"i", .kana (.mk0 (u8!"i") (u8!"い") (u8!"イ")))] := by
  decide +kernel

end KT
