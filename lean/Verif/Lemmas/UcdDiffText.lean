import Verif.Lemmas.UcdDiff
/-! # Lemmas for C200: the text shown, and what `diff` can mark -/
namespace KT
open Spec

/-! ## Text of fields -/

theorem sedColon_step (b : UInt8) (s : Str) (h : ¬ (b = 0x3d ∧ s.head? = some 0x22)) :
    sedColon (b :: s) = b :: sedColon s := by
  rw [sedColon, if_neg h]

theorem sedColon_plain : ∀ (u s : Str), 0x22 ∉ u → (u.getLast? ≠ some 0x3d ∨ s.head? ≠ some 0x22) →
    sedColon (u ++ s) = u ++ sedColon s
  | [], s, _, _ => rfl
  | [b], s, _, h => by
    rw [List.cons_append, List.nil_append, sedColon_step]
    · rfl
    · rintro ⟨rfl, hs⟩
      rcases h with h | h
      · exact h rfl
      · exact h hs
  | b :: c :: u, s, h1, h => by
    rw [List.cons_append, sedColon_step, sedColon_plain (c :: u) s (fun hx => h1 (List.mem_cons_of_mem _ hx)) (by
      simpa [List.getLast?_cons_cons] using h)]
    · rfl
    · rintro ⟨-, hs⟩
      cases hs
      exact h1 (by simp)

theorem withoutQuotes_plain (u s : Str) (h1 : 0x22 ∉ u) (h2 : u.getLast? ≠ some 0x3d) :
    withoutQuotes (u ++ s) = u ++ withoutQuotes s := by
  unfold withoutQuotes
  rw [sedColon_plain u s h1 (Or.inl h2), List.filter_append, List.filter_eq_self.mpr]
  intro b hb
  simp only [bne_iff_ne]
  rintro rfl
  exact h1 hb

/-- `="` and a value, with or without the closing quote. -/
theorem withoutQuotes_open (p : Str × Str) (s : Str) (h1 : 0x22 ∉ p.1 ∧ 0x3d ∉ p.1)
    (h2 : 0x22 ∉ p.2 ∧ p.2.getLast? ≠ some 0x3d) :
    withoutQuotes (p.1 ++ u8!"=\"" ++ p.2 ++ s) = shownField p ++ withoutQuotes s := by
  rw [List.append_assoc, List.append_assoc, withoutQuotes_plain _ _ h1.1]
  · have e : withoutQuotes (u8!"=\"" ++ (p.2 ++ s)) = u8!": " ++ withoutQuotes (p.2 ++ s) := by
      unfold withoutQuotes
      show List.filter _ (sedColon (0x3d :: 0x22 :: (p.2 ++ s))) = _
      rw [sedColon, if_pos ⟨rfl, rfl⟩]
      rfl
    rw [e, withoutQuotes_plain _ _ h2.1 h2.2]
    simp [shownField]
  · intro hx
    exact h1.2 (List.mem_of_getLast? hx)

theorem withoutQuotes_quote (s : Str) : withoutQuotes (0x22 :: s) = withoutQuotes s := by
  unfold withoutQuotes
  rw [sedColon_step _ _ (by simp)]
  rfl

theorem withoutQuotes_field (p : Str × Str) (s : Str) (h1 : 0x22 ∉ p.1 ∧ 0x3d ∉ p.1)
    (h2 : 0x22 ∉ p.2 ∧ p.2.getLast? ≠ some 0x3d) :
    withoutQuotes (fieldText p ++ s) = shownField p ++ withoutQuotes s := by
  have e : fieldText p ++ s = p.1 ++ u8!"=\"" ++ p.2 ++ 0x22 :: s := by simp [fieldText]
  rw [e, withoutQuotes_open p _ h1 h2, withoutQuotes_quote]

theorem withoutQuotes_nl (s : Str) : withoutQuotes (u8!"\n" ++ s) = u8!"\n" ++ withoutQuotes s :=
  withoutQuotes_plain _ _ (by decide) (by decide)

theorem withoutQuotes_fields : ∀ fs : List (Str × Str), (∀ p ∈ fs, 0x22 ∉ p.1 ∧ 0x3d ∉ p.1) →
    (∀ p ∈ fs, 0x22 ∉ p.2 ∧ p.2.getLast? ≠ some 0x3d) →
    withoutQuotes ((fs.map fieldText).flatMap (· ++ u8!"\n")) = fs.flatMap fun p => shownField p ++ u8!"\n"
  | [], _, _ => by simp [withoutQuotes, sedColon]
  | p :: fs, h1, h2 => by
    rw [List.map_cons, List.flatMap_cons, List.append_assoc,
      withoutQuotes_field p _ (h1 p List.mem_cons_self) (h2 p List.mem_cons_self), withoutQuotes_nl,
      withoutQuotes_fields fs (fun q hq => h1 q (List.mem_cons_of_mem _ hq)) fun q hq => h2 q (List.mem_cons_of_mem _ hq),
      List.flatMap_cons, List.append_assoc]

theorem echoLines_flatMap : ∀ ls : List Str, ls ≠ [] → echoLines ls = ls.flatMap (· ++ u8!"\n")
  | [], h => absurd rfl h
  | [l], _ => by simp [echoLines, List.intercalate]
  | l :: m :: ls, _ => by
    have ih := echoLines_flatMap (m :: ls) (by simp)
    rw [List.flatMap_cons, ← ih]
    unfold echoLines
    rw [List.intercalate_cons_cons]
    simp

/-! ## Fields by name -/

theorem isPrefixOf_field (n : Str) (hn : 0x3d ∉ n) (p : Str × Str) (hp : 0x3d ∉ p.1) :
    (n ++ u8!"=\"").isPrefixOf (fieldText p) = (p.1 == n) := by
  rw [Bool.eq_iff_iff, List.isPrefixOf_iff_prefix, beq_iff_eq]
  constructor
  · rintro ⟨t, e⟩
    refine (split_before (x := 0x3d) hn hp (b := 0x22 :: t) (c := 0x22 :: (p.2 ++ [0x22])) ?_).symm
    rw [show n ++ 0x3d :: 0x22 :: t = n ++ u8!"=\"" ++ t from by simp, e]
    simp [fieldText]
  · rintro rfl
    exact ⟨p.2 ++ [0x22], by simp [fieldText]⟩

theorem lookup_filter (n : Str) : ∀ fs : List (Str × Str), (fs.map Prod.fst).Nodup →
    fs.filter (fun p => p.1 == n) = match fs.lookup n with | some v => [(n, v)] | none => []
  | [], _ => rfl
  | p :: fs, h => by
    rw [List.map_cons, List.nodup_cons] at h
    rw [List.lookup_cons]
    by_cases e : p.1 = n
    · rw [List.filter_cons_of_pos (by simpa using e), List.filter_eq_nil_iff.mpr]
      · subst e
        simp
      · intro q hq hx
        exact h.1 (List.mem_map.mpr ⟨q, hq, by rw [e]; simpa using hx⟩)
    · rw [List.filter_cons_of_neg (by simpa using e), lookup_filter n fs h.2]
      have : (n == p.1) = false := by simpa using fun hx => e (Eq.symm hx)
      rw [this]

theorem general_text (n : Str) (hn : 0x3d ∉ n ∧ 0x22 ∉ n) (fs : List (Str × Str)) (hd : (fs.map Prod.fst).Nodup)
    (h1 : ∀ p ∈ fs, 0x22 ∉ p.1 ∧ 0x3d ∉ p.1) (h2 : ∀ p ∈ fs, 0x22 ∉ p.2 ∧ p.2.getLast? ≠ some 0x3d) (s : Str) :
    withoutQuotes (u8!", " ++ (u8!"\n").intercalate (((fs.map fieldText).filter fun l => (n ++ u8!"=\"").isPrefixOf l).map
      fun l => n ++ u8!"=\"" ++ (l.drop (n.length + 2)).takeWhile (· != 0x22)) ++ s) =
      generalField fs n ++ withoutQuotes s := by
  have e : (fs.map fieldText).filter (fun l => (n ++ u8!"=\"").isPrefixOf l) =
      (fs.filter fun p => p.1 == n).map fieldText := by
    rw [List.filter_map]
    congr 1
    apply List.filter_congr
    intro p hp
    exact isPrefixOf_field n hn.1 p (h1 p hp).2
  rw [e, lookup_filter n fs hd, List.append_assoc, withoutQuotes_plain _ _ (by decide) (by decide)]
  unfold generalField
  cases hl : fs.lookup n with
  | none => simp [List.intercalate]
  | some v =>
    have hm : (n, v) ∈ fs := by
      have := lookup_filter n fs hd
      rw [hl] at this
      have h3 : (n, v) ∈ fs.filter (fun p => p.1 == n) := by rw [this]; simp
      exact (List.mem_filter.mp h3).1
    have ed : (fieldText (n, v)).drop (n.length + 2) = v ++ [0x22] := by
      rw [show fieldText (n, v) = (n ++ u8!"=\"") ++ (v ++ [0x22]) from by simp [fieldText],
        show n.length + 2 = (n ++ u8!"=\"").length from by simp, List.drop_left]
    have et : (v ++ [0x22]).takeWhile (· != 0x22) = v := by
      rw [List.takeWhile_append_of_pos]
      · simp
      · intro b hb
        simp only [bne_iff_ne]
        rintro rfl
        exact (h2 _ hm).1 hb
    simp only [List.map_cons, List.map_nil, List.intercalate_singleton, ed, et]
    rw [withoutQuotes_open (n, v) s ⟨hn.2, hn.1⟩ (h2 _ hm)]
    simp [shownField]

theorem hasText_quotes_plain : ∀ u s : Str, 0x22 ∉ u → hasText (u8!"\"\"") (u ++ s) = hasText (u8!"\"\"") s
  | [], _, _ => rfl
  | b :: u, s, h => by
    rw [List.cons_append, hasText, hasText_quotes_plain u s fun hx => h (List.mem_cons_of_mem _ hx)]
    have : (u8!"\"\"").isPrefixOf (b :: (u ++ s)) = false := by
      have hb : (0x22 : UInt8) ≠ b := fun e => h (by rw [e]; exact List.mem_cons_self)
      simp [List.isPrefixOf, hb]
    rw [this, Bool.false_or]

theorem hasText_quotes (p : Str × Str) (h1 : 0x22 ∉ p.1) (h2 : 0x22 ∉ p.2) :
    hasText (u8!"\"\"") (fieldText p) = (p.2 == []) := by
  have e : fieldText p = (p.1 ++ [0x3d]) ++ 0x22 :: (p.2 ++ [0x22]) := by simp [fieldText]
  rw [e, hasText_quotes_plain _ _ (by simpa using h1)]
  cases hv : p.2 with
  | nil => decide
  | cons b v =>
    have hb : (0x22 : UInt8) ≠ b := fun e => h2 (by rw [hv, e]; exact List.mem_cons_self)
    rw [hasText, hasText_quotes_plain _ _ (by rw [← hv]; exact h2)]
    simp [List.isPrefixOf, hb, hasText]

theorem cjk_line (p : Str × Str) :
    ((fieldText p).take 1 == u8!"k" && ((fieldText p).drop 1).head?.any fun b => 0x41 ≤ b && b ≤ 0x5a) = isCjkField p := by
  obtain ⟨n, v⟩ := p
  match n with
  | [] => rfl
  | [a] =>
    unfold isCjkField
    by_cases e : a = 0x6b
    · subst e; simp [fieldText]
    · simp [fieldText, e]
  | a :: b :: n =>
    unfold isCjkField
    by_cases e : a = 0x6b
    · subst e
      simp [fieldText, UInt8.le_iff_toNat_le]
    · simp [fieldText, e]

end KT
