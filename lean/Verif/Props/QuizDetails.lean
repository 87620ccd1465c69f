import Verif.Model.QuizDetails
import Verif.Spec.Details
import Verif.Spec.Digits
import Verif.Props.DisplaySize
import Verif.Props.GroupData
import Verif.Props.Kanji
import Verif.Lemmas.Decimal
/-!
# Properties of what is shown about a kanji (C108, C109)
-/
namespace KT
open Spec

/-! ## C108: the lists of Jukugo -/

theorem setwLeft_blanks (s : Str) (w : Nat) (hw : w + s.length < 2 ^ 31) :
    setwLeft (wideSetw s w) s = s ++ List.replicate (w - displaySize s) 0x20 := by
  have hb := C32_bounded s
  have hn : ((wideSetw s w : Int) - s.length).toNat = w - displaySize s := by
    rw [wideSetw_eq s w hw]; omega
  rw [setwLeft, hn]

theorem jukugoColumn_eq (w : Nat) (s : Str) (hw : w ≤ 30) :
    jukugoColumn w s = min 30 (max w (displaySize s + 2)) := by
  unfold jukugoColumn maxJukugoSize
  simp only
  split
  · split
    · split <;> omega
    · omega
  · omega

theorem foldl_jukugoColumn (l : List Str) (w : Nat) (hw : w ≤ 30) :
    l.foldl jukugoColumn w = min 30 (max w (greatest (l.map fun s => displaySize s + 2))) := by
  induction l generalizing w with
  | nil => simp [greatest]; omega
  | cons s l ih =>
    rw [List.foldl_cons, jukugoColumn_eq w s hw, ih _ (by omega)]
    simp only [greatest, List.map_cons, List.foldr_cons]
    omega

theorem jukugoColumns_eq (l : List Str) (i a b c : Nat) (hi : i % 3 = 0) :
    jukugoColumns i l [a, b, c] =
      [(column (inThrees l) 0).foldl jukugoColumn a, (column (inThrees l) 1).foldl jukugoColumn b,
       (column (inThrees l) 2).foldl jukugoColumn c] := by
  have h1 : (i + 1) % 3 = 1 := by omega
  have h2 : (i + 1 + 1) % 3 = 2 := by omega
  induction l using inThrees.induct generalizing i a b c with
  | case1 => rfl
  | case2 x => simp [jukugoColumns, hi, inThrees, column]
  | case3 x y => simp [jukugoColumns, hi, h1, inThrees, column]
  | case4 x y z r ih =>
    simp only [jukugoColumns, hi, h1, h2]
    simp only [List.modify_succ_cons, List.modify_zero_cons]
    rw [ih (i + 1 + 1 + 1) _ _ _ (by omega) (by omega) (by omega)]
    simp [inThrees, column]

theorem jukugoRows_eq (ws : List Nat) (l : List Str) (i : Nat) (hi : i % 3 = 0)
    (hs : ∀ s ∈ l, ∀ j, ws.getD j 0 + s.length < 2 ^ 31) :
    jukugoRows ws i l = tableText displaySize (fun j => ws.getD j 0) (inThrees l) := by
  have h1 : (i + 1) % 3 = 1 := by omega
  have h2 : (i + 1 + 1) % 3 = 2 := by omega
  have n1 : ¬ (1 = 0) := by decide
  have n2 : ¬ (2 = 0) := by decide
  have e : (u8!"\n") = [0x0a] := rfl
  induction l using inThrees.induct generalizing i with
  | case1 => rfl
  | case2 x =>
    simp only [jukugoRows, hi, inThrees, tableText]
    rw [setwLeft_blanks _ _ (hs x (by simp) 0), e]
    simp
  | case3 x y =>
    simp only [jukugoRows, hi, h1, inThrees, tableText]
    rw [setwLeft_blanks _ _ (hs x (by simp) 0), setwLeft_blanks _ _ (hs y (by simp) 1), e]
    simp
  | case4 x y z r ih =>
    simp only [jukugoRows, hi, h1, h2, inThrees, tableText]
    rw [setwLeft_blanks _ _ (hs x (by simp) 0), setwLeft_blanks _ _ (hs y (by simp) 1),
      setwLeft_blanks _ _ (hs z (by simp) 2), e,
      ih (i + 1 + 1 + 1) (by omega) (fun s h => hs s (by simp [h])) (by omega) (by omega)]
    simp [tableText]

/-- The width of a column of Jukugo: two more than its widest entry, but at most 30. -/
def jukugoWidth (list : List Jukugo) (j : Nat) : Nat :=
  min 30 (greatest ((column (inThrees (list.map Jukugo.nameAndReading)) j).map fun s => displaySize s + 2))

/-- An entry of a list of Jukugo that isn't extremely long. -/
def JukugoFits (list : List Jukugo) : Prop := ∀ j ∈ list, j.nameAndReading.length < 2 ^ 30

/-- Up to three Jukugo are written on one line, each after a blank.  More are counted and shown in three columns;
the width of a column is that of its widest entry and two blanks, but at most 30. -/
theorem C108_layout (name : Str) (list : List Jukugo) :
    (list.length ≤ 3 → printJukugoList name list =
      u8!"    " ++ name ++ u8!":" ++ (list.map fun j => u8!" " ++ j.nameAndReading).flatten ++ u8!"\n") ∧
    (3 < list.length → JukugoFits list → printJukugoList name list =
      u8!"    " ++ name ++ u8!": " ++ toDec list.length ++
        tableText displaySize (jukugoWidth list) (inThrees (list.map Jukugo.nameAndReading)) ++ u8!"\n") := by
  constructor
  · intro h
    unfold printJukugoList
    simp only [if_pos h, List.map_map]
    rfl
  · intro h hf
    unfold printJukugoList
    simp only [if_neg (show ¬ list.length ≤ 3 by omega)]
    rw [jukugoColumns_eq _ 0 0 0 0 (by rfl)]
    simp only [foldl_jukugoColumn _ 0 (by omega), Nat.zero_max]
    rw [jukugoRows_eq _ _ 0 (by rfl)]
    · have e : tableText displaySize
          (fun j => List.getD [jukugoWidth list 0, jukugoWidth list 1, jukugoWidth list 2] j 0)
            (inThrees (list.map Jukugo.nameAndReading)) =
          tableText displaySize (jukugoWidth list) (inThrees (list.map Jukugo.nameAndReading)) := by
        have hr : ∀ (l : List Str), ∀ row ∈ inThrees l, row.length ≤ 3 := by
          intro l
          induction l using inThrees.induct with
          | case1 => simp [inThrees]
          | case2 => simp [inThrees]
          | case3 => simp [inThrees]
          | case4 x y z r ih =>
            intro row hrow
            rw [inThrees, List.mem_cons] at hrow
            rcases hrow with rfl | hrow
            · simp
            · exact ih row hrow
        unfold tableText
        congr 1
        apply List.map_congr_left
        intro row hrow
        congr 2
        apply List.map_congr_left
        rintro ⟨s, j⟩ hp
        have hj := List.snd_lt_of_mem_zipIdx hp
        have := hr _ row hrow
        have hj3 : j = 0 ∨ j = 1 ∨ j = 2 := by omega
        rcases hj3 with rfl | rfl | rfl <;> rfl
      have e' := e
      simp only [jukugoWidth] at e'
      simp only [e', show (u8!": ") = u8!":" ++ u8!" " from rfl, List.append_assoc]
    · intro s hs j
      obtain ⟨x, hx, rfl⟩ := List.mem_map.1 hs
      have := hf x hx
      have : ∀ a b c : Nat, a ≤ 30 → b ≤ 30 → c ≤ 30 → List.getD [a, b, c] j 0 ≤ 30 := by
        intro a b c ha hb hc
        rcases j with _ | _ | _ | j <;> simp <;> omega
      refine Nat.lt_of_le_of_lt (Nat.add_le_add_right
        (this _ _ _ (Nat.min_le_left 30 _) (Nat.min_le_left 30 _) (Nat.min_le_left 30 _)) _) ?_
      omega

/-- What a table should look like: an entry never touches the next one, and the entries of a column start at the
same place. -/
def C108_statement : Prop :=
  ∀ (name : Str) (list : List Jukugo), 3 < list.length → JukugoFits list →
    ∃ width : Nat → Nat,
      printJukugoList name list = u8!"    " ++ name ++ u8!": " ++ toDec list.length ++
        tableText displaySize width (inThrees (list.map Jukugo.nameAndReading)) ++ u8!"\n" ∧
      ∀ j, ∀ s ∈ column (inThrees (list.map Jukugo.nameAndReading)) j, displaySize s < width j

/-- Some entries of the file of Jukugo; the first is 32 columns wide. -/
def wideJukugo : List Jukugo :=
  [⟨u8!"汗牛充棟", u8!"かんぎゅうじゅうとう", .s⟩, ⟨u8!"充棟", u8!"じゅうとう", .s⟩, ⟨u8!"充実", u8!"じゅうじつ", .s⟩,
   ⟨u8!"充電", u8!"じゅうでん", .s⟩]

/-- An entry that takes 30 columns or more touches the next one. -/
theorem C108_violated : ¬ C108_statement := by
  intro h
  have hl : JukugoFits wideJukugo := by unfold JukugoFits; decide
  obtain ⟨w, he, hw⟩ := h [] wideJukugo (by decide) hl
  rw [(C108_layout [] wideJukugo).2 (by decide) hl] at he
  have h0 := hw 0 (u8!"汗牛充棟（かんぎゅうじゅうとう）") (by decide)
  rw [show displaySize (u8!"汗牛充棟（かんぎゅうじゅうとう）") = 32 from by decide +kernel] at h0
  have e : inThrees (wideJukugo.map Jukugo.nameAndReading) =
      [[u8!"汗牛充棟（かんぎゅうじゅうとう）", u8!"充棟（じゅうとう）", u8!"充実（じゅうじつ）"],
       [u8!"充電（じゅうでん）"]] := by decide
  have hj : jukugoWidth wideJukugo 0 = 30 := by decide +kernel
  obtain ⟨n, hn⟩ : ∃ n, w 0 - 32 = n + 1 := ⟨w 0 - 32 - 1, by omega⟩
  rw [e] at he
  simp only [tableText, List.map_cons, List.zipIdx_cons, List.zipIdx_nil, List.map_nil, List.flatten_cons,
    show displaySize (u8!"汗牛充棟（かんぎゅうじゅうとう）") = 32 from by decide +kernel, hj, hn,
    List.append_assoc, List.cons_append, List.replicate_succ] at he
  revert he
  simp

/-- Without entries that take 30 columns or more the table is as it should be; with at most 28 there are at least
two blanks after each entry. -/
theorem C108_separate_partial (name : Str) (list : List Jukugo) (hl : 3 < list.length) (hf : JukugoFits list)
    (n : Nat) (hn : 1 ≤ n) (hn2 : n ≤ 2) (hw : ∀ j ∈ list, displaySize j.nameAndReading + n ≤ 30) :
    ∃ width : Nat → Nat,
      printJukugoList name list = u8!"    " ++ name ++ u8!": " ++ toDec list.length ++
        tableText displaySize width (inThrees (list.map Jukugo.nameAndReading)) ++ u8!"\n" ∧
      ∀ j, ∀ s ∈ column (inThrees (list.map Jukugo.nameAndReading)) j, displaySize s + n ≤ width j := by
  refine ⟨jukugoWidth list, (C108_layout name list).2 hl hf, ?_⟩
  intro j s hs
  have hmem : ∀ (l : List Str), ∀ row ∈ inThrees l, ∀ x ∈ row, x ∈ l := by
    intro l
    induction l using inThrees.induct with
    | case1 => simp [inThrees]
    | case2 => simp [inThrees]
    | case3 => simp [inThrees]
    | case4 a b c r ih =>
      intro row hrow x hx
      rw [inThrees, List.mem_cons] at hrow
      rcases hrow with rfl | hrow
      · simp at hx ⊢; grind
      · have := ih row hrow x hx; simp [this]
  have hin : s ∈ list.map Jukugo.nameAndReading := by
    unfold column at hs
    obtain ⟨row, hrow, hx⟩ := List.mem_filterMap.1 hs
    exact hmem _ row hrow s (List.mem_of_getElem? hx)
  obtain ⟨y, hy, rfl⟩ := List.mem_map.1 hin
  have h30 := hw y hy
  have hg : ∀ (l : List Nat), ∀ x ∈ l, x ≤ greatest l := by
    intro l
    induction l with
    | nil => simp
    | cons a l ih =>
      intro x hx
      simp only [greatest, List.foldr_cons]
      rcases List.mem_cons.1 hx with rfl | hx
      · omega
      · have := ih x hx; unfold greatest at this; omega
  have := hg _ _ (List.mem_map.2 ⟨_, hs, rfl⟩ : displaySize y.nameAndReading + 2 ∈
    (column (inThrees (list.map Jukugo.nameAndReading)) j).map fun s => displaySize s + 2)
  unfold jukugoWidth
  omega

/-- Every line of the table but the last has three entries, and the entries are those of the list in its order. -/
theorem C108_lines {α : Type} (l : List α) :
    (inThrees l).flatten = l ∧ (∀ row ∈ inThrees l, 1 ≤ row.length ∧ row.length ≤ 3) ∧
    ∀ row ∈ (inThrees l).dropLast, row.length = 3 := by
  induction l using inThrees.induct with
  | case1 => simp [inThrees]
  | case2 => simp [inThrees]
  | case3 => simp [inThrees]
  | case4 a b c r ih =>
    obtain ⟨h1, h2, h3⟩ := ih
    rw [inThrees]
    refine ⟨by simp [h1], ?_, ?_⟩
    · intro row hrow
      rcases List.mem_cons.1 hrow with rfl | hrow
      · simp
      · exact h2 row hrow
    · intro row hrow
      cases hr : inThrees r with
      | nil => simp [hr] at hrow
      | cons x xs =>
        rw [hr, List.dropLast_cons_of_ne_nil (by simp)] at hrow
        rcases List.mem_cons.1 hrow with rfl | hrow
        · rfl
        · exact h3 row (by rw [hr]; exact hrow)

/-- Which lists are shown: nothing without Jukugo; for a kanji with a grade and more than three Jukugo, one list of
those with this grade and one of the others, unless there are no others; otherwise one list of all. -/
theorem C108_lists (grade : Option KanjiGrade) (list : List Jukugo) :
    (list = [] → printJukugo grade list = u8!"\n") ∧
    (list ≠ [] → (list.length ≤ 3 ∨ grade = none ∨ ∀ j ∈ list, grade = some j.grade) →
      printJukugo grade list = printJukugoList (u8!" Jukugo") list ++ u8!"\n") ∧
    (3 < list.length → grade ≠ none → (∃ j ∈ list, grade ≠ some j.grade) →
      ∃ same other, same.Sublist list ∧ other.Sublist list ∧ (same ++ other).Perm list ∧
        (∀ j ∈ same, some j.grade = grade) ∧ (∀ j ∈ other, some j.grade ≠ grade) ∧
        printJukugo grade list = printJukugoList (u8!"Same Grade Jukugo") same ++
          printJukugoList (u8!"Other Grade Jukugo") other ++ u8!"\n") := by
  refine ⟨?_, ?_, ?_⟩
  · rintro rfl; rfl
  · intro hne h
    unfold printJukugo
    rw [if_neg (by simpa using hne)]
    cases grade with
    | none => rfl
    | some g =>
      simp only
      by_cases h3 : list.length > 3
      · rw [if_pos h3]
        have hall : ∀ j ∈ list, g = j.grade := by
          rcases h with h | h | h
          · omega
          · cases h
          · intro j hj; exact Option.some.inj (h j hj)
        rw [if_pos]
        rw [List.isEmpty_iff, List.filter_eq_nil_iff]
        intro j hj
        simp [hall j hj]
      · rw [if_neg h3]
  · intro h3 hg hex
    cases grade with
    | none => exact absurd rfl hg
    | some g =>
      refine ⟨list.filter fun j => g == j.grade, list.filter fun j => !(g == j.grade), List.filter_sublist,
        List.filter_sublist, ?_, ?_, ?_, ?_⟩
      · exact List.filter_append_perm _ _
      · intro j hj
        have := (List.mem_filter.1 hj).2
        simp at this
        rw [this]
      · intro j hj
        have := (List.mem_filter.1 hj).2
        simp at this
        intro he
        exact this (Option.some.inj he).symm
      · unfold printJukugo
        rw [if_neg (by intro hh; rw [List.isEmpty_iff] at hh; subst hh; simp at h3)]
        simp only
        rw [if_pos h3, if_neg]
        intro hh
        rw [List.isEmpty_iff, List.filter_eq_nil_iff] at hh
        obtain ⟨j, hj, hne⟩ := hex
        have := hh j hj
        simp at this
        exact hne (by rw [this])

example : printJukugo (some .g1) (wideJukugo.take 1) =
    u8!"     Jukugo: 汗牛充棟（かんぎゅうじゅうとう）\n\n" := by decide

/-! ## C109: what else is shown about a kanji -/

theorem similarNames_eq (k : KanjiRec) (suffix : KanjiRec → UInt8)
    (hs : ∀ j : KanjiRec, j.kanji.qualifiedName = .ok (j.kanji.name ++ [suffix j])) (l : List KanjiRec) :
    similarNames k l = .ok ((l.filter fun j => j.kanji.name ≠ k.kanji.name).map fun j =>
      u8!" " ++ j.kanji.name ++ [suffix j]).flatten := by
  induction l with
  | nil => rfl
  | cons j l ih =>
    rw [similarNames]
    by_cases h : j.kanji.name = k.kanji.name
    · rw [if_pos h, ih]; simp [h]
    · rw [if_neg h, hs j, ih]; simp [Res.bind, h]

/-- The line of similar kanji: it is written for the members of pattern groups that aren't named by a reading, and it
has every other member of the group (the first with this kanji) once, with its suffix and in the order of qualified names. -/
theorem C109_similar (sort : List KanjiRec → List KanjiRec) (hsort : ∀ l, (sort l).Perm l ∧
      (sort l).Pairwise fun a b => b.kanji.orderByQualifiedName a.kanji = false)
    (find : Str → Option KanjiRec) (rows : List GroupRow) (d : PatternGroups) (hd : loadPattern find rows {} = .ok d)
    (k : KanjiRec) (suffix : KanjiRec → UInt8)
    (hs : ∀ j : KanjiRec, j.kanji.qualifiedName = .ok (j.kanji.name ++ [suffix j])) :
    ((∀ g, d.groups.find? (hasMember k.kanji.name) = some g → g.patternType = .reading) →
      similarLine sort d k = .ok []) ∧
    ∀ g, d.groups.find? (hasMember k.kanji.name) = some g → g.patternType ≠ .reading →
      ∃ shown : List KanjiRec,
        (shown.Pairwise fun a b => b.kanji.orderByQualifiedName a.kanji = false) ∧
        shown.Perm (g.members.filter fun j => j.kanji.name ≠ k.kanji.name) ∧
        (shown.map (·.kanji.name)).Nodup ∧
        similarLine sort d k = .ok (u8!"    Similar:" ++
          (shown.map fun j => u8!" " ++ j.kanji.name ++ [suffix j]).flatten ++ u8!"\n") := by
  have hl := (C90_pattern find rows d hd).1 k.kanji.name
  have hg := ((C89_load find rows).2.1 d.groups).1 ⟨d, hd, rfl⟩
  unfold similarLine
  rw [hl]
  constructor
  · intro h
    cases hf : d.groups.find? (hasMember k.kanji.name) with
    | none => rfl
    | some g => simp only; rw [if_pos (h g hf)]
  · intro g hf hr
    rw [hf]
    simp only
    rw [if_neg hr, similarNames_eq k suffix hs]
    refine ⟨(sort g.members).filter fun j => j.kanji.name ≠ k.kanji.name,
      (hsort g.members).2.sublist List.filter_sublist, (hsort g.members).1.filter _, ?_, rfl⟩
    have hd := groupsOf_distinct _ _ _ _ hg g (List.mem_of_find?_eq_some hf)
    have hp := ((hsort g.members).1.map fun j => j.kanji.name).nodup_iff.2 hd
    exact hp.sublist (List.filter_sublist.map _)

theorem categoryNames_eq (gs : List Group) (b : Bool) :
    categoryNames b gs = (if b || gs.isEmpty then [] else u8!", ") ++
      (u8!", ").intercalate (gs.map fun g => u8!"[" ++ g.name ++ u8!"]") := by
  induction gs generalizing b with
  | nil => simp [categoryNames]
  | cons g gs ih =>
    rw [categoryNames, ih]
    cases gs with
    | nil => simp
    | cons h gs =>
      simp [List.intercalate_cons_cons]

/-- The categories: the names of all meaning groups with this kanji in the order of the file. -/
theorem C109_categories (find : Str → Option KanjiRec) (rows : List GroupRow) (d : MeaningGroups)
    (hd : loadMeaning find rows {} = .ok d) (k : KanjiRec) (gs : List Group)
    (hgs : gs = d.groups.filter (hasMember k.kanji.name)) :
    categoryLine d k =
      if gs = [] then []
      else (if gs.length = 1 then u8!"   Category: " else u8!" Categories: ") ++
        (u8!", ").intercalate (gs.map fun g => u8!"[" ++ g.name ++ u8!"]") ++ u8!"\n" := by
  unfold categoryLine
  simp only [(C90_meaning find rows d hd).2 k.kanji.name, ← hgs, categoryNames_eq]
  by_cases h : gs = []
  · simp [h]
  · simp [h]

theorem takeWhile_digits (ds r : Str) (hd : ds.all isDigitChar = true) (hr : r.head?.all (fun b => !isDigitChar b)) :
    (ds ++ r).takeWhile isDigitChar = ds := by
  induction ds with
  | nil =>
    cases r with
    | nil => rfl
    | cons b r => simp at hr; simp [hr]
  | cons b ds ih =>
    simp only [List.all_cons, Bool.and_eq_true] at hd
    simp [hd.1, ih hd.2]

theorem readNelsonIds_list (ns : List UInt16) (sp : Str) (hsp : sp = [] ∨ sp = [0x20]) (fuel : Nat)
    (hf : ns.length < fuel) :
    readNelsonIds fuel (sp ++ [(0x20 : UInt8)].intercalate (ns.map fun n => toDec n.toNat)) = ns := by
  have hsd : ∀ (t : Str), (sp ++ t).dropWhile (· == 0x20) = t.dropWhile (· == 0x20) := by
    intro t; rcases hsp with rfl | rfl <;> simp
  induction ns generalizing sp fuel with
  | nil =>
    cases fuel with
    | zero => rfl
    | succ fuel =>
      unfold readNelsonIds
      simp only [hsd]
      rfl
  | cons n ns ih =>
    cases fuel with
    | zero => simp at hf
    | succ fuel =>
      unfold readNelsonIds
      simp only [hsd]
      have hlt : n.toNat < 65536 := n.toNat_lt
      obtain ⟨t, ht, hhead⟩ : ∃ t, [(0x20 : UInt8)].intercalate ((n :: ns).map fun n => toDec n.toNat) =
          toDec n.toNat ++ t ∧ t.head?.all (fun b => !isDigitChar b) ∧
          t = (if ns = [] then [] else [0x20]) ++ [(0x20 : UInt8)].intercalate (ns.map fun n => toDec n.toNat) := by
        cases ns with
        | nil => exact ⟨[], by simp, by simp, by simp⟩
        | cons m ns =>
          refine ⟨_, ?_, ?_, rfl⟩
          · simp [List.intercalate_cons_cons]
          · simp; decide
      obtain ⟨hhead, hteq⟩ := hhead
      have hdw : (toDec n.toNat ++ t).dropWhile (· == 0x20) = toDec n.toNat ++ t := by
        have h1 := toDec_ne_nil n.toNat
        have h2 := toDec_digits n.toNat
        cases hd : toDec n.toNat with
        | nil => exact absurd hd h1
        | cons b r =>
          rw [hd] at h2
          simp only [List.all_cons, Bool.and_eq_true] at h2
          have : (b == 0x20) = false := by
            cases hb : b == 0x20 with
            | false => rfl
            | true =>
              have := eq_of_beq hb
              rw [this] at h2
              exact absurd h2.1 (by decide)
          simp [this]
      rw [ht, hdw, takeWhile_digits _ _ (toDec_digits _) hhead]
      have hne : (toDec n.toNat).isEmpty = false := by
        cases hd : toDec n.toNat with
        | nil => exact absurd hd (toDec_ne_nil _)
        | cons => rfl
      rw [if_neg (by simp [hne]), toDec_value, if_neg (by omega), List.drop_left, hteq]
      congr 1
      · simp
      · have := ih (if ns = [] then [] else [0x20]) (by split <;> simp) fuel (by simp at hf; omega)
          (by intro t; split <;> simp)
        exact this

/-- The Nelson IDs of a kanji are the numbers of the column separated by commas. -/
theorem C109_nelson (ns : List UInt16) :
    getNelsonIds ([(0x2c : UInt8)].intercalate (ns.map fun n => toDec n.toNat)) = ns := by
  have hdig : ∀ (ds : Str), ds.all isDigitChar = true → ds.map (fun b => if b = 0x2c then 0x20 else b) = ds := by
    intro ds h
    induction ds with
    | nil => rfl
    | cons b ds ih =>
      simp only [List.all_cons, Bool.and_eq_true] at h
      rw [List.map_cons, ih h.2, if_neg]
      rintro rfl
      exact absurd h.1 (by decide)
  have hmap : ∀ (ns : List UInt16), ([(0x2c : UInt8)].intercalate (ns.map fun n => toDec n.toNat)).map
      (fun b => if b = 0x2c then 0x20 else b) = [(0x20 : UInt8)].intercalate (ns.map fun n => toDec n.toNat) := by
    intro ns
    induction ns with
    | nil => rfl
    | cons n ns ih =>
      cases ns with
      | nil => simp [hdig _ (toDec_digits _)]
      | cons m ns =>
        simp only [List.map_cons, List.intercalate_cons_cons] at ih ⊢
        rw [List.map_append, List.map_append, ih, hdig _ (toDec_digits _)]
        rfl
  unfold getNelsonIds
  simp only [hmap]
  have hlen : ∀ (ns : List UInt16), ns.length ≤
      ([(0x20 : UInt8)].intercalate (ns.map fun n => toDec n.toNat)).length := by
    intro ns
    induction ns with
    | nil => simp
    | cons n ns ih =>
      have h1 : 0 < (toDec n.toNat).length := List.length_pos_iff.2 (toDec_ne_nil _)
      cases ns with
      | nil => simp; omega
      | cons m ns =>
        simp only [List.map_cons, List.intercalate_cons_cons, List.length_append, List.length_cons] at ih ⊢
        omega
  have := readNelsonIds_list ns [] (.inl rfl)
    (([(0x20 : UInt8)].intercalate (ns.map fun n => toDec n.toNat)).length + 1) (by have := hlen ns; omega)
  simpa using this

/-- The lines with IDs: the Morohashi ID if there is one, and all Nelson IDs. -/
theorem C109_ids (k : KanjiRec) :
    (k.morohashiId.id = 0 → k.nelsonIds = [] → idLines k = []) ∧
    (k.morohashiId.id ≠ 0 → k.nelsonIds = [] →
      idLines k = u8!"  Morohashi: " ++ k.morohashiId.toString ++ u8!"\n") ∧
    (∀ n, k.morohashiId.id = 0 → k.nelsonIds = [n] → idLines k = u8!"  Nelson ID: " ++ toDec n.toNat ++ u8!"\n") ∧
    (k.morohashiId.id = 0 → 2 ≤ k.nelsonIds.length →
      idLines k = u8!" Nelson IDs: " ++ (u8!" ").intercalate (k.nelsonIds.map fun n => toDec n.toNat) ++ u8!"\n") ∧
    (k.morohashiId.id ≠ 0 → idLines k =
      u8!"  Morohashi: " ++ k.morohashiId.toString ++ u8!"\n" ++ idLines { k with morohashiId := {} }) := by
  have hflat : ∀ (l : List UInt16), l ≠ [] → (l.map fun i => u8!" " ++ toDec i.toNat).flatten =
      u8!" " ++ (u8!" ").intercalate (l.map fun n => toDec n.toNat) := by
    intro l
    induction l with
    | nil => simp
    | cons n l ih =>
      intro _
      cases l with
      | nil => simp
      | cons m l =>
        rw [List.map_cons, List.flatten_cons, ih (by simp)]
        simp [List.intercalate_cons_cons]
  unfold idLines
  refine ⟨?_, ?_, ?_, ?_, ?_⟩
  · intro h1 h2; simp [h1, h2]
  · intro h1 h2; simp [h1, h2]
  · intro n h1 h2; simp [h1, h2]
  · intro h1 h2
    rw [if_neg (by simp [h1]), if_neg (by cases h : k.nelsonIds <;> simp [h] at h2 ⊢),
      if_neg (by omega), hflat _ (by rintro h; simp [h] at h2)]
    simp
  · intro h1; simp [h1]

/-- The legend is written once if there is any kanji to show, and never if there isn't; every kanji with the ID is
shown once in the order of the list. -/
theorem C109_matches (found : Str → Res Str) (text : Str → Str) (list : List Str)
    (hf : ∀ k ∈ list, found k = .ok (text k)) (name arg : Str) :
    (list = [] → printMatches found list name arg =
      .ok (u8!"Found 0 matches for " ++ name ++ u8!" ID " ++ arg ++ u8!"\n")) ∧
    (∀ k, list = [k] → printMatches found list name arg = printOneDetail found k true) ∧
    (2 ≤ list.length → printMatches found list name arg = .ok (printLegend {} ++ u8!"\nFound " ++ toDec list.length ++
      u8!" matches for " ++ name ++ u8!" ID " ++ arg ++ u8!":\n\n" ++ (list.map text).flatten)) := by
  refine ⟨?_, ?_, ?_⟩
  · rintro rfl
    simp only [printMatches, printEach, Res.bind, List.length_nil, List.append_nil, List.isEmpty_nil,
      if_pos (show ¬ (0 = 1) by decide), if_neg (show ¬ (0 > 1) by decide), if_true]
    rw [show toDec 0 = u8!"0" from by decide]
    rfl
  · rintro k rfl
    have := hf k (by simp)
    simp [printMatches, printEach, printOneDetail, this, Res.bind]
  · intro h
    have e : (list.length == 1) = false := by rw [beq_eq_false_iff_ne]; omega
    have e2 : ∀ l : List Str, (∀ k ∈ l, found k = .ok (text k)) → printEach found false l = .ok (l.map text).flatten := by
      intro l hl
      induction l with
      | nil => rfl
      | cons k ks ih =>
        rw [printEach, ih fun k hk => hl k (by simp [hk])]
        simp [printOneDetail, hl k (by simp), Res.bind]
    unfold printMatches
    rw [e, e2 list hf]
    show Res.ok _ = _
    rw [if_pos (by omega), if_pos (by omega), if_neg (by cases list <;> simp at h ⊢)]
    simp only [List.append_assoc]
    rfl

/-- The legend explains exactly the shown ones of level, kyu and grade, separated by commas. -/
theorem C109_legend (f : InfoFields) :
    printLegend f = u8!">>> Legend:\nFields:" ++ (u8!",").intercalate
      ((if f.level then [u8!" N[1-5]=JLPT Level"] else []) ++ (if f.kyu then [u8!" K[1-10]=Kentei Kyu"] else []) ++
       (if f.grade then [u8!" G[1-6]=Grade (S=Secondary School)"] else [])) ++
      u8!"\nSuffix: .=常用 '=JLPT \"=Freq ^=人名用 ~=LinkJ %=LinkO +=Extra @=検定 #=1級 *=Ucd\n" := by
  unfold printLegend
  cases f.level <;> cases f.kyu <;> cases f.grade <;> rfl

/-- A part that is no number, or a number that is too large, ends the list without an error. -/
example : getNelsonIds (u8!"12,x,13") = [12] ∧ getNelsonIds (u8!"12,70000,13") = [12] ∧
    getNelsonIds (u8!"12,13") = [12, 13] := by decide

/-- All details of a kanji: reading, similar kanji, IDs, categories and the Jukugo with this kanji, in this order;
showing them never fails. -/
theorem C109_review (sort : List KanjiRec → List KanjiRec) (d : DetailData) (k : KanjiRec) :
    ∃ similar, similarLine sort d.patterns k = .ok similar ∧
      printReviewDetails sort d k = .ok ([u8!"    Reading: " ++ d.reading k ++ u8!"\n", similar, idLines k,
        categoryLine d.meanings k, printJukugo k.kanji.grade (d.jukugo.find k.kanji.name)].flatten) := by
  have hs : ∃ suffix : KanjiRec → UInt8, ∀ j : KanjiRec, j.kanji.qualifiedName = .ok (j.kanji.name ++ [suffix j]) :=
    ⟨fun j => Classical.choose (C74_suffix j.kanji), fun j => (Classical.choose_spec (C74_suffix j.kanji)).1⟩
  obtain ⟨suffix, hs⟩ := hs
  have : ∃ similar, similarLine sort d.patterns k = .ok similar := by
    unfold similarLine
    split
    · split
      · exact ⟨_, rfl⟩
      · rw [similarNames_eq k suffix hs]; exact ⟨_, rfl⟩
    · exact ⟨_, rfl⟩
  obtain ⟨similar, h⟩ := this
  refine ⟨similar, h, ?_⟩
  unfold printReviewDetails
  rw [h]
  simp [Res.bind]

/-- The meaning is shown exactly if asked for and present, and the line is always ended. -/
theorem C109_meaning (meaning : Option Str) (useNewLine showMeaning : Bool) :
    (showMeaning = false ∨ meaning = none → printMeaning meaning useNewLine showMeaning = u8!"\n") ∧
    ∀ m, showMeaning = true → meaning = some m → printMeaning meaning useNewLine showMeaning =
      (if useNewLine then u8!"\n    Meaning: " else u8!" : ") ++ m ++ u8!"\n" := by
  unfold printMeaning
  refine ⟨?_, ?_⟩
  · rintro (rfl | rfl)
    · cases meaning <;> rfl
    · rfl
  · rintro m rfl rfl; simp

end KT
