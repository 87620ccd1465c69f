import Verif.Model.RadicalReport
import Verif.Spec.RadicalReport
import Verif.Props.TextKanjiData
import Verif.Props.Radical
/-!
# C129-C131: the report on radicals

Model: `Verif/Model/RadicalReport.lean`.
-/
namespace KT
open Spec

/-! ## The map of lists -/

/-- The entries that the addition of a kanji gives. -/
theorem mem_addToRadical (k : KanjiRec) (m : List RadicalEntry) (hs : m.Pairwise fun a b => a.number < b.number)
    (e : RadicalEntry) :
    e ∈ addToRadical m k ↔
      (e ∈ m ∧ e.number ≠ k.kanji.radicalNumber) ∨
      (∃ x ∈ m, x.number = k.kanji.radicalNumber ∧ e = ⟨x.number, x.name, x.list ++ [k]⟩) ∨
      ((∀ x ∈ m, x.number ≠ k.kanji.radicalNumber) ∧ e = ⟨k.kanji.radicalNumber, k.kanji.radicalName, [k]⟩) := by
  induction m with
  | nil => simp [addToRadical]
  | cons a m ih =>
    rw [List.pairwise_cons] at hs
    have ih := ih hs.2
    rw [addToRadical]
    split
    · rename_i h1
      have hne : ∀ x ∈ a :: m, x.number ≠ k.kanji.radicalNumber := by
        intro x hx
        rcases List.mem_cons.mp hx with rfl | hx
        · omega
        · have := hs.1 x hx; omega
      constructor
      · intro h
        rcases List.mem_cons.mp h with h | h
        · exact .inr (.inr ⟨hne, h⟩)
        · exact .inl ⟨h, hne e h⟩
      · rintro (h | ⟨x, hx, h, _⟩ | ⟨_, h⟩)
        · exact List.mem_cons_of_mem _ h.1
        · exact absurd h (hne x hx)
        · rw [h]; exact List.mem_cons_self ..
    · rename_i h1
      split
      · rename_i h2
        rw [List.mem_cons, ih]
        constructor
        · rintro (rfl | h | ⟨x, hx, h⟩ | ⟨h, g⟩)
          · exact .inl ⟨List.mem_cons_self .., by omega⟩
          · exact .inl ⟨List.mem_cons_of_mem _ h.1, h.2⟩
          · exact .inr (.inl ⟨x, List.mem_cons_of_mem _ hx, h⟩)
          · refine .inr (.inr ⟨fun x hx => ?_, g⟩)
            rcases List.mem_cons.mp hx with rfl | hx
            · omega
            · exact h x hx
        · rintro (⟨h, g⟩ | ⟨x, hx, h, g⟩ | ⟨h, g⟩)
          · rcases List.mem_cons.mp h with rfl | h
            · exact .inl rfl
            · exact .inr (.inl ⟨h, g⟩)
          · rcases List.mem_cons.mp hx with rfl | hx
            · omega
            · exact .inr (.inr (.inl ⟨x, hx, h, g⟩))
          · exact .inr (.inr (.inr ⟨fun x hx => h x (List.mem_cons_of_mem _ hx), g⟩))
      · rename_i h2
        have heq : a.number = k.kanji.radicalNumber := by omega
        rw [List.mem_cons]
        constructor
        · rintro (rfl | h)
          · exact .inr (.inl ⟨a, List.mem_cons_self .., heq, rfl⟩)
          · exact .inl ⟨List.mem_cons_of_mem _ h, by have := hs.1 e h; omega⟩
        · rintro (⟨h, g⟩ | ⟨x, hx, h, g⟩ | ⟨h, g⟩)
          · rcases List.mem_cons.mp h with rfl | h
            · omega
            · exact .inr h
          · rcases List.mem_cons.mp hx with rfl | hx
            · exact .inl g
            · have := hs.1 x hx; omega
          · exact absurd heq (h a (List.mem_cons_self ..))

theorem addToRadical_sorted (k : KanjiRec) (m : List RadicalEntry) (hs : m.Pairwise fun a b => a.number < b.number) :
    (addToRadical m k).Pairwise fun a b => a.number < b.number := by
  induction m with
  | nil => simp [addToRadical]
  | cons a m ih =>
    have hs' := hs
    rw [List.pairwise_cons] at hs
    rw [addToRadical]
    split
    · rename_i h1
      rw [List.pairwise_cons]
      refine ⟨fun x hx => ?_, hs'⟩
      rcases List.mem_cons.mp hx with rfl | hx
      · exact h1
      · exact Nat.lt_trans h1 (hs.1 x hx)
    · split
      · rename_i h2
        rw [List.pairwise_cons]
        refine ⟨fun x hx => ?_, ih hs.2⟩
        rcases (mem_addToRadical k m hs.2 x).1 hx with h | ⟨y, hy, _, rfl⟩ | ⟨_, rfl⟩
        · exact hs.1 x h.1
        · exact hs.1 y hy
        · exact h2
      · rw [List.pairwise_cons]
        exact ⟨fun x hx => hs.1 x hx, hs.2⟩

/-- The kanji that the report is about. -/
def KanjiRec.common (k : KanjiRec) : Bool := isCommonKanji k.kanji.name

/-- What the map has after some of the kanji. -/
structure RadicalListsInv (m : List RadicalEntry) (S : List KanjiRec) : Prop where
  sorted : m.Pairwise fun a b => a.number < b.number
  lists : ∀ e ∈ m, e.list = S.filter (fun k => k.kanji.radicalNumber == e.number) ∧
    ∃ k ∈ e.list, k.kanji.radicalName = e.name
  all : ∀ k ∈ S, ∃ e ∈ m, e.number = k.kanji.radicalNumber

theorem RadicalListsInv.add {m : List RadicalEntry} {S : List KanjiRec} (h : RadicalListsInv m S) (k : KanjiRec) :
    RadicalListsInv (addToRadical m k) (S ++ [k]) := by
  refine ⟨addToRadical_sorted k m h.sorted, ?_, ?_⟩
  · intro e he
    rw [List.filter_append]
    rcases (mem_addToRadical k m h.sorted e).1 he with ⟨he, hn⟩ | ⟨x, hx, hn, rfl⟩ | ⟨hn, rfl⟩
    · obtain ⟨g1, g2⟩ := h.lists e he
      refine ⟨?_, g2⟩
      rw [List.filter_cons_of_neg (by simpa using Ne.symm hn)]
      simpa using g1
    · obtain ⟨g1, j, hj, g2⟩ := h.lists x hx
      refine ⟨?_, j, List.mem_append_left _ hj, g2⟩
      rw [List.filter_cons_of_pos (by simpa using hn.symm)]
      show x.list ++ [k] = _
      rw [g1]
      simp
    · refine ⟨?_, k, List.mem_cons_self .., rfl⟩
      have : S.filter (fun j => j.kanji.radicalNumber == k.kanji.radicalNumber) = [] := by
        rw [List.filter_eq_nil_iff]
        intro j hj hjn
        obtain ⟨x, hx, hxn⟩ := h.all j hj
        exact hn x hx (by rw [hxn]; simpa using hjn)
      show [k] = S.filter (fun j => j.kanji.radicalNumber == k.kanji.radicalNumber) ++ _
      rw [this]
      simp
  · intro j hj
    rcases List.mem_append.mp hj with hj | hj
    · obtain ⟨x, hx, hn⟩ := h.all j hj
      by_cases hk : x.number = k.kanji.radicalNumber
      · exact ⟨⟨x.number, x.name, x.list ++ [k]⟩,
          (mem_addToRadical k m h.sorted _).2 (.inr (.inl ⟨x, hx, hk, rfl⟩)), hn⟩
      · exact ⟨x, (mem_addToRadical k m h.sorted _).2 (.inl ⟨hx, hk⟩), hn⟩
    · rw [List.mem_singleton] at hj
      subst hj
      by_cases hex : ∃ x ∈ m, x.number = j.kanji.radicalNumber
      · obtain ⟨x, hx, hk⟩ := hex
        exact ⟨⟨x.number, x.name, x.list ++ [j]⟩,
          (mem_addToRadical j m h.sorted _).2 (.inr (.inl ⟨x, hx, hk, rfl⟩)), hk⟩
      · exact ⟨_, (mem_addToRadical j m h.sorted _).2
          (.inr (.inr ⟨fun x hx hk => hex ⟨x, hx, hk⟩, rfl⟩)), rfl⟩

theorem radicalLists_inv (ks : List KanjiRec) : RadicalListsInv (radicalLists ks) (ks.filter KanjiRec.common) := by
  have gen : ∀ (ks : List KanjiRec) (m : List RadicalEntry) (S : List KanjiRec), RadicalListsInv m S →
      RadicalListsInv (ks.foldl (fun m k => if isCommonKanji k.kanji.name then addToRadical m k else m) m)
        (S ++ ks.filter KanjiRec.common) := by
    intro ks
    induction ks with
    | nil => intro m S h; simpa using h
    | cons k ks ih =>
      intro m S h
      rw [List.foldl_cons]
      by_cases hc : isCommonKanji k.kanji.name = true
      · rw [if_pos hc, List.filter_cons_of_pos (by exact hc)]
        have := ih _ _ (h.add k)
        rwa [List.append_assoc] at this
      · rw [if_neg hc, List.filter_cons_of_neg (by exact hc)]
        exact ih _ _ h
  exact gen ks [] [] ⟨List.Pairwise.nil, fun e he => absurd he (by simp), fun k hk => absurd hk (by simp)⟩

/-- The kanji of the map and their order of iteration. -/
theorem mapOrder_perm {d : KanjiStore} {A : List KanjiRec} (h : StoreInv d A) : List.Perm (mapOrder d.nameMap) A := by
  obtain ⟨h1, h2⟩ := mapOrder_spec h
  have n1 : (mapOrder d.nameMap).Nodup := h2.imp fun {a b} hab e => by
    subst e; rw [strLt_total.irrefl] at hab; cases hab
  have n2 : A.Nodup := by
    have := h.nodup
    rw [List.Nodup, List.pairwise_map] at this
    exact this.imp fun {a b} hab e => hab (by rw [e])
  exact (List.perm_ext_iff_of_nodup n1 n2).2 h1

/-- There is one list for each radical of a common kanji, in the order of the numbers of the radicals.  Its list has
exactly the common kanji of this radical, and the name is the name of the radical in one of them. -/
theorem C129_lists {d : KanjiStore} {A : List KanjiRec} (h : StoreInv d A) :
    let m := radicalLists (mapOrder d.nameMap)
    (m.Pairwise fun a b => a.number < b.number) ∧
    (∀ n, (∃ e ∈ m, e.number = n) ↔ ∃ k ∈ A, k.common = true ∧ k.kanji.radicalNumber = n) ∧
    ∀ e ∈ m, List.Perm e.list (A.filter fun k => k.common && k.kanji.radicalNumber == e.number) ∧
      ∃ k ∈ e.list, k.kanji.radicalName = e.name := by
  intro m
  have hi := radicalLists_inv (mapOrder d.nameMap)
  have hp := mapOrder_perm h
  refine ⟨hi.sorted, fun n => ⟨?_, ?_⟩, fun e he => ⟨?_, (hi.lists e he).2⟩⟩
  · rintro ⟨e, he, rfl⟩
    obtain ⟨h1, k, hk, _⟩ := hi.lists e he
    rw [h1, List.mem_filter, List.mem_filter] at hk
    exact ⟨k, hp.mem_iff.1 hk.1.1, hk.1.2, by simpa using hk.2⟩
  · rintro ⟨k, hk, hc, rfl⟩
    exact hi.all k (List.mem_filter.2 ⟨hp.mem_iff.2 hk, hc⟩)
  · rw [(hi.lists e he).1, List.filter_filter]
    refine List.Perm.trans (List.Perm.of_eq ?_) (hp.filter _)
    apply List.filter_congr
    intro x _
    exact Bool.and_comm ..

/-! ## Counts -/

theorem lookup_incType (c : List (KanjiType × Nat)) (t u : KanjiType) :
    ((incType c t).lookup u).getD 0 = (c.lookup u).getD 0 + if t = u then 1 else 0 := by
  induction c with
  | nil =>
    rw [incType, List.lookup_cons]
    by_cases h : t = u
    · subst h; simp
    · have : (u == t) = false := by simpa using Ne.symm h
      rw [this, if_neg h]; rfl
  | cons p c ih =>
    obtain ⟨v, n⟩ := p
    rw [incType]
    by_cases h : v = t
    · subst h
      rw [if_pos rfl, List.lookup_cons, List.lookup_cons]
      by_cases g : v = u
      · subst g; simp
      · have : (u == v) = false := by simpa using Ne.symm g
        rw [this, if_neg g]; rfl
    · rw [if_neg h, List.lookup_cons, List.lookup_cons]
      by_cases g : v = u
      · subst g
        have : (v == v) = true := by simp
        rw [this, if_neg (Ne.symm h)]; rfl
      · have : (u == v) = false := by simpa using Ne.symm g
        rw [this]; exact ih

theorem lookup_incTypes (l : List KanjiRec) (c : List (KanjiType × Nat)) (t : KanjiType) :
    ((l.foldl (fun c k => incType c k.kanji.type) c).lookup t).getD 0 =
      (c.lookup t).getD 0 + l.countP fun k => k.kanji.type = t := by
  induction l generalizing c with
  | nil => rfl
  | cons k l ih =>
    rw [List.foldl_cons, ih, lookup_incType, List.countP_cons]
    by_cases h : k.kanji.type = t <;> simp [h] <;> omega

theorem foldl_snd (c : List (KanjiType × Nat)) (a : Nat) :
    c.foldl (fun x y => x + y.2) a = a + (c.map (·.2)).sum := by
  induction c generalizing a with
  | nil => rfl
  | cons p c ih => rw [List.foldl_cons, ih, List.map_cons, List.sum_cons]; omega

theorem sum_incType (c : List (KanjiType × Nat)) (t : KanjiType) :
    ((incType c t).map (·.2)).sum = (c.map (·.2)).sum + 1 := by
  induction c with
  | nil => rfl
  | cons p c ih =>
    obtain ⟨v, n⟩ := p
    rw [incType]
    split
    · simp; omega
    · rw [List.map_cons, List.sum_cons, ih, List.map_cons, List.sum_cons]; omega

theorem sum_incTypes (l : List KanjiRec) (c : List (KanjiType × Nat)) :
    ((l.foldl (fun c k => incType c k.kanji.type) c).map (·.2)).sum = (c.map (·.2)).sum + l.length := by
  induction l generalizing c with
  | nil => rfl
  | cons k l ih => rw [List.foldl_cons, ih, sum_incType, List.length_cons]; omega

theorem printTypeCounts_false (c : List (KanjiType × Nat)) (first : Bool) (ts : List KanjiType) :
    printTypeCounts c false first ts = (ts.map fun t => setwRight 4 (toDec ((c.lookup t).getD 0))).flatten := by
  induction ts generalizing first with
  | nil => rfl
  | cons t ts ih => rw [printTypeCounts, ih]; rfl

/-- Counts in columns of four characters. -/
def countColumns (l : List KanjiRec) : Str :=
  setwRight 4 (toDec l.length) ++ u8!" (" ++
    (typesBeforeNone.map fun t => setwRight 4 (toDec (l.countP fun k => k.kanji.type = t))).flatten ++ u8!") :"

/-- Counts separated by spaces. -/
def countSummary (l : List KanjiRec) : Str :=
  setwRight 4 (toDec l.length) ++ u8!" (" ++
    (u8!" ").intercalate (typesBeforeNone.map fun t => toDec (l.countP fun k => k.kanji.type = t)) ++ u8!")\n"

theorem printRadicalCounts_columns (l : List KanjiRec) :
    printRadicalCounts (l.foldl (fun c k => incType c k.kanji.type) []) false = countColumns l := by
  unfold printRadicalCounts countColumns
  rw [foldl_snd, sum_incTypes, printTypeCounts_false]
  simp only [lookup_incTypes]
  simp

theorem printRadicalCounts_summary (c : List (KanjiType × Nat)) (l : List KanjiRec)
    (hs : (c.map (·.2)).sum = l.length) (hl : ∀ t, (c.lookup t).getD 0 = l.countP fun k => k.kanji.type = t) :
    printRadicalCounts c true = countSummary l := by
  unfold printRadicalCounts countSummary
  rw [foldl_snd, hs]
  simp only [typesBeforeNone, printTypeCounts, hl, List.map_cons, List.map_nil, List.intercalate, List.intersperse,
    List.flatten_cons, List.flatten_nil, List.append_assoc, Nat.zero_add, List.nil_append, List.append_nil, if_true,
    Bool.false_eq_true, if_false]

theorem radicalExamples_eq (n : Nat) (l : List KanjiRec) :
    radicalExamples n l = ((l.take n).map fun k => u8!" " ++ k.kanji.name).flatten ++
      if n < l.length then u8!" ..." else [] := by
  induction l generalizing n with
  | nil => simp [radicalExamples]
  | cons k l ih =>
    cases n with
    | zero => simp [radicalExamples]
    | succ n =>
      rw [radicalExamples, ih]
      simp

/-! ## C130: lines -/

/-- The line of a radical. -/
def entryLine (e : RadicalEntry) (l : List KanjiRec) : Str :=
  radicalText e.number e.name ++ u8!":" ++ countColumns l ++
    ((l.take 12).map fun k => u8!" " ++ k.kanji.name).flatten ++ (if 12 < l.length then u8!" ..." else []) ++ u8!"\n"

theorem radicalLines_eq (sort : List KanjiRec → List KanjiRec) (m : List RadicalEntry) (total : List (KanjiType × Nat)) :
    radicalLines sort m total =
      ((m.flatMap fun e => sort e.list).foldl (fun c k => incType c k.kanji.type) total,
       (m.map fun e => entryLine e (sort e.list)).flatten) := by
  induction m generalizing total with
  | nil => rfl
  | cons e m ih =>
    simp only [radicalLines, ih, radicalLine, printRadicalCounts_columns, radicalExamples_eq, entryLine,
      List.flatMap_cons, List.foldl_append, List.map_cons, List.flatten_cons, List.append_assoc]

/-- The lists put together have the common kanji. -/
theorem lists_perm {m : List RadicalEntry} {S : List KanjiRec} (h : RadicalListsInv m S)
    (sort : List KanjiRec → List KanjiRec) (hsort : ∀ l, List.Perm (sort l) l) :
    List.Perm (m.flatMap fun e => sort e.list) S := by
  have hl : ∀ e ∈ m, List.Perm (sort e.list) (S.filter fun k => k.kanji.radicalNumber == e.number) := by
    intro e he
    have := hsort e.list
    rwa [(h.lists e he).1] at this ⊢
  have hnd : (m.map (·.number)).Nodup := by
    rw [List.Nodup, List.pairwise_map]
    exact h.sorted.imp fun {a b} hab => Nat.ne_of_lt hab
  have hall : ∀ k ∈ S, k.kanji.radicalNumber ∈ m.map (·.number) := by
    intro k hk
    obtain ⟨e, he, hn⟩ := h.all k hk
    exact List.mem_map.2 ⟨e, he, hn⟩
  clear h
  induction m generalizing S with
  | nil =>
    cases S with
    | nil => exact List.Perm.nil
    | cons k S => exact absurd (hall k (List.mem_cons_self ..)) (by simp)
  | cons e m ih =>
    rw [List.map_cons, List.nodup_cons] at hnd
    rw [List.flatMap_cons]
    have step := ih (S := S.filter fun k => !(k.kanji.radicalNumber == e.number)) (by
      intro x hx
      refine (hl x (List.mem_cons_of_mem _ hx)).trans (List.Perm.of_eq ?_)
      rw [List.filter_filter]
      apply List.filter_congr
      intro k _
      by_cases hk : k.kanji.radicalNumber = x.number
      · have : k.kanji.radicalNumber ≠ e.number := fun g =>
          hnd.1 (List.mem_map.2 ⟨x, hx, by rw [← hk, g]⟩)
        have b1 : (k.kanji.radicalNumber == x.number) = true := by simpa using hk
        have b2 : (k.kanji.radicalNumber == e.number) = false := by simpa using this
        rw [b1, b2]; rfl
      · have b1 : (k.kanji.radicalNumber == x.number) = false := by simpa using hk
        rw [b1]; rfl) hnd.2 (by
      intro k hk
      rw [List.mem_filter] at hk
      have := hall k hk.1
      rw [List.map_cons, List.mem_cons] at this
      rcases this with g | g
      · have := hk.2; simp [g] at this
      · exact g)
    refine ((hl e (List.mem_cons_self ..)).append step).trans ?_
    exact List.filter_append_perm _ _

/-- The whole report: a header with the types, a line for each radical with common kanji (in the order of their numbers),
the totals, and the radicals without common kanji. -/
theorem C130_text {d : KanjiStore} {A : List KanjiRec} (h : StoreInv d A) (rd : RadicalData)
    (sort : List KanjiRec → List KanjiRec) (hs : Sorting (fun a b => a.kanji.orderByStrokes b.kanji) sort) :
    rd.print sort d =
      u8!">>> Common Kanji Radicals (Jouyou Jinmei LinkedJinmei LinkedOld Frequency Extra Kentei Ucd):\n" ++
      ((radicalLists (mapOrder d.nameMap)).map fun e => entryLine e (sort e.list)).flatten ++
      u8!">>>   Total for " ++ toDec (radicalLists (mapOrder d.nameMap)).length ++ u8!" radicals: " ++
      countSummary (A.filter KanjiRec.common) ++
      printMissingRadicals rd.radicals (radicalLists (mapOrder d.nameMap)) := by
  have hp : List.Perm ((radicalLists (mapOrder d.nameMap)).flatMap fun e => sort e.list) (A.filter KanjiRec.common) :=
    (lists_perm (radicalLists_inv _) sort hs.perm).trans ((mapOrder_perm h).filter _)
  have hsum : printRadicalCounts (((radicalLists (mapOrder d.nameMap)).flatMap fun e => sort e.list).foldl
      (fun c k => incType c k.kanji.type) []) true = countSummary (A.filter KanjiRec.common) := by
    apply printRadicalCounts_summary
    · rw [sum_incTypes, hp.length_eq]; simp
    · intro t
      rw [lookup_incTypes, hp.countP_eq]; simp
  have hhead : u8!">>> " ++ (u8!"Common Kanji Radicals (" ++ (radicalTypes typesBeforeNone ++ u8!"):\n")) =
      u8!">>> Common Kanji Radicals (Jouyou Jinmei LinkedJinmei LinkedOld Frequency Extra Kentei Ucd):\n" := by
    decide +kernel
  simp only [RadicalData.print, printRadicalLists, radicalLines_eq, hsum]
  rw [← hhead]
  simp only [List.append_assoc]
  rfl

/-- The examples of a line: the first twelve kanji of the radical by strokes (then frequency), all kanji if there are not
more than twelve.  None of the kanji left out comes before one that is shown. -/
theorem C130_examples (sort : List KanjiRec → List KanjiRec)
    (hs : Sorting (fun a b => a.kanji.orderByStrokes b.kanji) sort) (l : List KanjiRec) :
    (∀ a ∈ (sort l).take 12, ∀ b ∈ (sort l).drop 12,
      b.kanji.orderByStrokes a.kanji = false ∧ ¬ (b.kanji.strokes.cmp a.kanji.strokes = .lt)) ∧
    ((sort l).take 12).length = min 12 l.length ∧ (sort l).length = l.length := by
  refine ⟨fun a ha b hb => ?_, by rw [List.length_take, (hs.perm l).length_eq], (hs.perm l).length_eq⟩
  have := hs.sorted l
  rw [← List.take_append_drop 12 (sort l), List.pairwise_append] at this
  have hab := this.2.2 a ha b hb
  refine ⟨hab, fun hc => ?_⟩
  rw [Kanji.orderByStrokes, hc] at hab
  simp at hab

/-- The numbers of the types in a line add up to its total. -/
theorem C130_sum (l : List KanjiRec) :
    (typesBeforeNone.map fun t => l.countP fun k => k.kanji.type = t).sum = l.length := by
  induction l with
  | nil => rfl
  | cons k l ih =>
    simp only [typesBeforeNone, List.map_cons, List.map_nil, List.sum_cons, List.sum_nil, List.countP_cons,
      List.length_cons] at ih ⊢
    cases k.kanji.type <;> simp <;> omega

/-- Each common kanji is in exactly one of the lines, under its own radical. -/
theorem C130_once {d : KanjiStore} {A : List KanjiRec} (h : StoreInv d A) (k : KanjiRec) (hk : k ∈ A) :
    ((radicalLists (mapOrder d.nameMap)).filter fun e => k ∈ e.list).map (·.number) =
      if k.common then [k.kanji.radicalNumber] else [] := by
  obtain ⟨h1, h2, h3⟩ := C129_lists h
  have hmem : ∀ e ∈ radicalLists (mapOrder d.nameMap), k ∈ e.list ↔
      (k.common = true ∧ k.kanji.radicalNumber = e.number) := by
    intro e he
    rw [(h3 e he).1.mem_iff, List.mem_filter]
    simp [hk]
  by_cases hc : k.common = true
  · rw [if_pos hc]
    obtain ⟨e, he, hn⟩ := (h2 k.kanji.radicalNumber).2 ⟨k, hk, hc, rfl⟩
    have : (radicalLists (mapOrder d.nameMap)).filter (fun e => k ∈ e.list) =
        (radicalLists (mapOrder d.nameMap)).filter (fun x => x.number == k.kanji.radicalNumber) := by
      apply List.filter_congr
      intro x hx
      have := hmem x hx
      by_cases g : k ∈ x.list
      · simp [g, (this.1 g).2.symm]
      · have g2 : x.number ≠ k.kanji.radicalNumber := fun q => g (this.2 ⟨hc, q.symm⟩)
        simp [g, g2]
    rw [this]
    generalize radicalLists (mapOrder d.nameMap) = m at h1 he
    clear this hmem h2 h3
    induction m with
    | nil => cases he
    | cons a m ih =>
      rw [List.pairwise_cons] at h1
      rcases List.mem_cons.1 he with rfl | he
      · rw [List.filter_cons_of_pos (by simpa using hn)]
        have : m.filter (fun x => x.number == k.kanji.radicalNumber) = [] := by
          rw [List.filter_eq_nil_iff]
          intro x hx hq
          have := h1.1 x hx
          have : x.number = k.kanji.radicalNumber := by simpa using hq
          omega
        rw [this]; simp [hn]
      · have := h1.1 e he
        rw [List.filter_cons_of_neg (by simp; omega)]
        exact ih h1.2 he
  · rw [if_neg hc]
    have : (radicalLists (mapOrder d.nameMap)).filter (fun e => k ∈ e.list) = [] := by
      rw [List.filter_eq_nil_iff]
      intro x hx hq
      exact hc ((hmem x hx).1 (by simpa using hq)).1
    rw [this]; rfl

/-! ## C131: radicals without kanji -/

/-- The radicals listed at the end are the loaded radicals of no common kanji, in the order of the file. -/
theorem C131_missing {d : KanjiStore} {A : List KanjiRec} (h : StoreInv d A) (rs : List Radical) :
    missingRadicals rs (radicalLists (mapOrder d.nameMap)) =
      rs.filter fun r => !(A.any fun k => k.common && k.kanji.radicalNumber == r.number) := by
  obtain ⟨_, h2, _⟩ := C129_lists h
  unfold missingRadicals
  apply List.filter_congr
  intro r _
  congr 1
  rw [Bool.eq_iff_iff, List.any_eq_true, List.any_eq_true]
  have := h2 r.number
  simpa using this

/-- Nothing is printed if there is no such radical; the text is in the plural if there are several. -/
theorem C131_text (rs : List Radical) (m : List RadicalEntry) :
    printMissingRadicals rs m =
      match missingRadicals rs m with
      | [] => []
      | [r] => u8!">>>   Found 1 radical with no Kanji: " ++ radicalText r.number r.name ++ u8!"\n"
      | missing => u8!">>>   Found " ++ toDec missing.length ++ u8!" radicals with no Kanji:" ++
          (missing.map fun r => u8!" " ++ radicalText r.number r.name).flatten ++ u8!"\n" := by
  unfold printMissingRadicals
  match missingRadicals rs m with
  | [] => rfl
  | [r] =>
    simp only [List.isEmpty_cons, Bool.false_eq_true, if_false, List.length_singleton, List.map_cons, List.map_nil,
      List.flatten_cons, List.flatten_nil, List.append_nil]
    have e : toDec 1 = [0x31] := by decide +kernel
    simp [e]
  | r :: q :: l =>
    have : 1 < (r :: q :: l).length := by simp
    simp only [List.isEmpty_cons, Bool.false_eq_true, if_false, if_pos this, List.append_assoc]
    rfl

/-- With radicals loaded from a file, all of the kanji having one of them: the numbers of radicals with and without common
kanji add up to the number of radicals, and each line has the name of the radical of this number. -/
theorem C131_sum {d : KanjiStore} {A : List KanjiRec} (h : StoreInv d A) (cols : RadicalCols) (cf : ColumnFile)
    (rd : RadicalData) (h0 : cf.currentRow = 0) (hl : RadicalData.load cols cf = .ok rd)
    (hr : ∀ k ∈ A, ∃ r ∈ rd.radicals, r.number = k.kanji.radicalNumber ∧ r.name = k.kanji.radicalName) :
    let m := radicalLists (mapOrder d.nameMap)
    m.length + (missingRadicals rd.radicals m).length = rd.radicals.length ∧
    ∀ e ∈ m, ∃ r ∈ rd.radicals, r.number = e.number ∧ r.name = e.name := by
  intro m
  obtain ⟨h1, h2, h3⟩ := C129_lists h
  have hnum := (C47_load cols cf rd h0 hl).2
  have hfrom : ∀ e ∈ m, ∃ r ∈ rd.radicals, r.number = e.number ∧ r.name = e.name := by
    intro e he
    obtain ⟨g1, k, hk, g2⟩ := h3 e he
    have := g1.mem_iff.1 hk
    rw [List.mem_filter] at this
    obtain ⟨r, q1, q2, q3⟩ := hr k this.1
    have hn : k.kanji.radicalNumber = e.number := by
      have := this.2; simp at this; exact this.2
    exact ⟨r, q1, by rw [q2, hn], by rw [q3, g2]⟩
  refine ⟨?_, hfrom⟩
  have hmn : (m.map (·.number)).Nodup := by
    rw [List.Nodup, List.pairwise_map]
    exact h1.imp fun {a b} hab => Nat.ne_of_lt hab
  have hrn : (rd.radicals.map (·.number)).Nodup := by
    rw [List.Nodup, List.pairwise_iff_getElem]
    intro i j hi hj hij
    rw [List.length_map] at hi hj
    have a1 := hnum i _ (List.getElem?_eq_getElem hi)
    have a2 := hnum j _ (List.getElem?_eq_getElem hj)
    simp only [List.getElem_map]
    omega
  have hpres : List.Perm (m.map (·.number))
      ((rd.radicals.filter fun r => m.any fun e => e.number == r.number).map (·.number)) := by
    refine (List.perm_ext_iff_of_nodup hmn ?_).2 ?_
    · exact hrn.sublist (List.filter_sublist.map _)
    · intro n
      simp only [List.mem_map, List.mem_filter, List.any_eq_true, beq_iff_eq]
      constructor
      · rintro ⟨e, he, rfl⟩
        obtain ⟨r, q1, q2, _⟩ := hfrom e he
        exact ⟨r, ⟨q1, e, he, q2.symm⟩, q2⟩
      · rintro ⟨r, ⟨_, e, he, q⟩, rfl⟩
        exact ⟨e, he, q⟩
  have hlen := hpres.length_eq
  rw [List.length_map, List.length_map] at hlen
  rw [hlen]
  unfold missingRadicals
  rw [← List.countP_eq_length_filter, ← List.countP_eq_length_filter]
  have := List.length_eq_countP_add_countP (p := fun r : Radical => m.any fun e => e.number == r.number) (l := rd.radicals)
  rw [this]
  congr 1
  apply List.countP_congr
  intro x _
  simp

/-! ## Examples -/

/-- The outputs of `PrintWithOneMissing` and `PrintWithMultipleMissing` (RadicalDataTest.cpp). -/
example : RadicalData.print ⟨[⟨1, u8!"一", [], [], []⟩], []⟩ id {} =
    u8!">>> Common Kanji Radicals (Jouyou Jinmei LinkedJinmei LinkedOld Frequency Extra Kentei Ucd):\n" ++
    u8!">>>   Total for 0 radicals:    0 (0 0 0 0 0 0 0 0)\n" ++
    u8!">>>   Found 1 radical with no Kanji: [001] 一\n" := by decide +kernel

example : RadicalData.print ⟨[⟨1, u8!"一", [], [], []⟩, ⟨2, u8!"水", [], [], []⟩], []⟩ id {} =
    u8!">>> Common Kanji Radicals (Jouyou Jinmei LinkedJinmei LinkedOld Frequency Extra Kentei Ucd):\n" ++
    u8!">>>   Total for 0 radicals:    0 (0 0 0 0 0 0 0 0)\n" ++
    u8!">>>   Found 2 radicals with no Kanji: [001] 一 [002] 水\n" := by decide +kernel

/-- A kanji of the example. -/
def radicalKanji (t : KanjiType) (name : Str) (number : Nat) (radical : Str) (strokes : UInt8) : KanjiRec :=
  ⟨{ type := t, name := name, radicalName := radical, radicalNumber := number, strokes := ⟨strokes, 0⟩ }, {}, []⟩

def radicalSample : KanjiStore where
  nameMap := [radicalKanji .jouyou (u8!"海") 85 (u8!"水") 9, radicalKanji .jouyou (u8!"一") 1 (u8!"一") 1,
    radicalKanji .jinmei (u8!"丞") 1 (u8!"一") 6].map fun k => (k.kanji.name, k)

/-- Sorting by merging. -/
def sortByStrokes (l : List KanjiRec) : List KanjiRec :=
  l.mergeSort fun a b => !(b.kanji.orderByStrokes a.kanji)

/-- Non-vacuity: there is a function that sorts. -/
theorem sorting_sortByStrokes : Sorting (fun a b : KanjiRec => a.kanji.orderByStrokes b.kanji) sortByStrokes where
  perm l := List.mergeSort_perm ..
  sorted l := by
    have ho := C42_strokes
    have := List.pairwise_mergeSort (le := fun a b : KanjiRec => !(b.kanji.orderByStrokes a.kanji)) (by
      intro a b c hab hbc
      simp only [Bool.not_eq_true'] at *
      cases hca : c.kanji.orderByStrokes a.kanji with
      | false => rfl
      | true =>
        cases hba : a.kanji.orderByStrokes b.kanji with
        | true => rw [ho.trans _ _ _ hca hba] at hbc; cases hbc
        | false =>
          cases hcb : b.kanji.orderByStrokes c.kanji with
          | true => rw [ho.trans _ _ _ hcb hca] at hab; cases hab
          | false =>
            have := (ho.incomp _ _ _ ⟨hba, hab⟩ ⟨hcb, hbc⟩).2
            rw [this] at hca; cases hca) (by
      intro a b
      cases h : b.kanji.orderByStrokes a.kanji with
      | false => rfl
      | true => simp [ho.asymm _ _ h]) l
    exact this.imp fun {a b} h => by simpa using h

example : RadicalData.print ⟨[⟨1, u8!"一", [], [], []⟩, ⟨2, u8!"丨", [], [], []⟩, ⟨85, u8!"水", [], [], []⟩], []⟩
    id radicalSample =
    u8!">>> Common Kanji Radicals (Jouyou Jinmei LinkedJinmei LinkedOld Frequency Extra Kentei Ucd):\n" ++
    u8!"[001] 一:   2 (   1   1   0   0   0   0   0   0) : 一 丞\n" ++
    u8!"[085] 水:   1 (   1   0   0   0   0   0   0   0) : 海\n" ++
    u8!">>>   Total for 2 radicals:    3 (2 1 0 0 0 0 0 0)\n" ++
    u8!">>>   Found 1 radical with no Kanji: [002] 丨\n" := by decide +kernel

end KT
