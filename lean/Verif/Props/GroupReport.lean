import Verif.Model.GroupReport
import Verif.Props.GroupData
import Verif.Props.GroupQuiz
import Verif.Props.DisplaySize
import Verif.Props.Kanji
import Verif.Props.QuizScreen
/-!
# C135-C137: printed lists of groups

Model: `Verif/Model/GroupReport.lean`.
-/
namespace KT
open Spec

/-! ## C135: lines of groups -/

/-- A stream on which nothing was set. -/
def freshFormat : OutFormat := {}

theorem freshFormat_setw (n : Int) (s : Str) : freshFormat.setw n s = setwRight n s := rfl

/-- The text of a kanji: its name and one character of the legend. -/
theorem shownName_eq (k : KanjiRec) : ∃ c : UInt8, shownName k = k.kanji.name ++ [c] ∧ k.kanji.qualifiedName = .ok (shownName k) := by
  obtain ⟨c, h, _⟩ := C74_suffix k.kanji
  exact ⟨c, by rw [shownName, h], by rw [shownName, h]⟩

/-- The line of a meaning group. -/
def meaningLine (setw : Int → Str → Str) (width : Nat) (g : Group) : Str :=
  u8!"[" ++ setw width (toDec g.number) ++ u8!"]  " ++ g.name ++ groupPad g.name ++ u8!" (" ++
    setw 2 (toDec g.members.length) ++ u8!")   :" ++ (g.members.map fun k => u8!" " ++ shownName k).flatten ++ u8!"\n"

/-- The line of a pattern group: the first member is before the colon if the name has it as parent; there is no colon if
the name has none. -/
def patternLine (setw : Int → Str → Str) (width : Nat) (g : Group) : Str :=
  u8!"[" ++ setw width (toDec g.number) ++ u8!"]  " ++ setw (wideSetw g.name 25) g.name ++ u8!"(" ++
    setw 2 (toDec g.members.length) ++ u8!")   " ++
    (match g.patternType with
     | .peer => u8!"　 : " ++ (u8!" ").intercalate (g.members.map shownName)
     | .reading => (u8!" ").intercalate (g.members.map shownName)
     | _ => ((g.members.head?.map shownName).getD []) ++ u8!":" ++ (g.members.tail.map fun k => u8!" " ++ shownName k).flatten) ++
    u8!"\n"

theorem intercalate_space (s : Str) (l : List Str) :
    (u8!" ").intercalate (s :: l) = s ++ (l.map fun x => u8!" " ++ x).flatten := by
  induction l generalizing s with
  | nil => simp [List.intercalate]
  | cons a l ih =>
    have := ih a
    simp only [List.intercalate, List.intersperse, List.flatten_cons, List.map_cons] at this ⊢
    rw [this]
    simp

theorem patternMembers_eq (t : PatternType) (l : List KanjiRec) (h : l ≠ []) :
    patternMembers t l = (match t with
     | .peer => u8!"　 : " ++ (u8!" ").intercalate (l.map shownName)
     | .reading => (u8!" ").intercalate (l.map shownName)
     | _ => ((l.head?.map shownName).getD []) ++ u8!":" ++ (l.tail.map fun k => u8!" " ++ shownName k).flatten) := by
  cases l with
  | nil => exact absurd rfl h
  | cons k l =>
    rw [patternMembers]
    cases t <;> simp only [firstMember, List.map_cons, intercalate_space, List.map_map, Function.comp_def,
      List.append_assoc, List.head?_cons, Option.map_some, Option.getD_some, List.tail_cons]

/-- The lines of the groups, on a stream that fills with spaces. -/
theorem groupLines_eq (t : GroupType) (width : Nat) (f : OutFormat) (gs : List Group) (hf : f.fill = 0x20)
    (hm : ∀ g ∈ gs, g.members ≠ []) :
    groupLines t width f gs =
      ((gs.map fun g => if t = .meaning then meaningLine f.setw width g else patternLine f.setw width g).flatten, f) := by
  have hfe : ({ f with fill := 0x20 } : OutFormat) = f := by rw [← hf]
  induction gs with
  | nil => rfl
  | cons g gs ih =>
    have ih := ih fun g hg => hm g (List.mem_cons_of_mem _ hg)
    rw [groupLines]
    cases t with
    | meaning =>
      simp only [meaningGroupText, hfe, if_true, List.map_cons, List.flatten_cons]
      simp only [if_true] at ih
      rw [ih]
      simp only [meaningLine, List.append_assoc]
    | pattern =>
      simp only [patternGroupText, List.map_cons, List.flatten_cons]
      simp only [reduceCtorEq, if_false] at ih ⊢
      rw [ih]
      simp only [patternMembers_eq _ _ (hm g (List.mem_cons_self ..)), patternLine, List.append_assoc]

/-- The text printed about the groups does not depend on what was printed before. -/
def C135_statement : Prop := ∀ (t : GroupType) (full : Bool) (f f' : OutFormat) (keys : List Str) (groups : List Group)
    (all : KanjiType → List Str),
  (printGroups t full f keys groups all).1 = (printGroups t full f' keys groups all).1

/-- A group of the examples. -/
def exampleGroup : Group :=
  ⟨1, u8!"：いち", [u8!"一", u8!"二"].filterMap exampleFind, .peer⟩

/-- After the table of kanji with variation selectors (UcdData.cpp:224) the stream aligns to the left. -/
theorem C135_violated : ¬ C135_statement := by
  intro h
  have := h .pattern true {} { left := true } [u8!"一", u8!"二"] [exampleGroup] (fun _ => [])
  revert this
  decide +kernel

/-- After a list with any group the alignment is to the right, so that the second list is always aligned to the right. -/
theorem C135_right (full : Bool) (f : OutFormat) (m : MeaningGroups) (all : KanjiType → List Str)
    (h : ∃ g ∈ m.groups, g.members ≠ []) :
    (printGroups .meaning full f (m.map.map (·.1)) m.groups all).2.left = false := by
  have hb : ∀ (found : KanjiType → List Str) (ts : List KanjiType) (a : OutFormat),
      (a.left = false ∨ ∃ t ∈ ts, found t ≠ []) → (groupTypeLines found all a ts).2.left = false := by
    intro found ts
    induction ts with
    | nil => intro a h; rcases h with h | ⟨t, ht, _⟩
             · exact h
             · cases ht
    | cons x ts ih =>
      intro a h
      rw [groupTypeLines]
      split
      · rename_i hx
        apply ih
        rcases h with h | ⟨t, ht, hne⟩
        · exact .inl h
        · rcases List.mem_cons.1 ht with rfl | ht
          · exact absurd (List.isEmpty_iff.1 hx) hne
          · exact .inr ⟨t, ht, hne⟩
      · exact ih _ (.inl rfl)
  unfold printGroups
  apply hb
  right
  obtain ⟨g, hg, hne⟩ := h
  simp only [if_true]
  have hex : ∃ k l, m.groups.flatMap (·.members) = k :: l := by
    cases hc : m.groups.flatMap (·.members) with
    | cons k l => exact ⟨k, l, rfl⟩
    | nil =>
      rw [List.flatMap_eq_nil_iff] at hc
      exact absurd (hc g hg) hne
  obtain ⟨k, l, hkl⟩ := hex
  refine ⟨k.kanji.type, by cases k.kanji.type <;> decide, ?_⟩
  rw [hkl, meaningTypeNames]
  simp

/-- The columns: names of pattern groups take 25 columns if they fit.  (The bytes are all from 128, so there is no byte
zero; the first byte is not a continuation byte.) -/
theorem C135_columns (g : Group) (h0 : (0 : UInt8) ∉ g.name) (hl : g.name.length < 1000)
    (hc : ∀ x y, g.name = x :: y → ¬ IsContinuation x) (hw : displaySize g.name ≤ 25) (left : Bool) :
    displaySize (({ left := left } : OutFormat).setw (wideSetw g.name 25) g.name) = 25 := by
  have := C32_setw g.name 25 h0 (by omega)
  cases left with
  | true =>
    have := this.1
    rw [show max 25 (displaySize g.name) = 25 by omega] at this
    exact this
  | false =>
    have := this.2 hc
    rw [show max 25 (displaySize g.name) = 25 by omega] at this
    exact this

/-- The width of the numbers: it is at least that of every number up to the number of groups, and not more than that
of the number of groups (or 2). -/
theorem C135_width (count n : Nat) (hn : n ≤ count) (hc : count < 10000) : (toDec n).length ≤ numberWidth count ∧
    10 ^ (numberWidth count - 1) ≤ max 10 count := by
  unfold numberWidth
  by_cases h1 : count < 100
  · rw [if_pos h1]; exact ⟨toDec_length n 2 (by omega) (by omega), by simp; omega⟩
  · rw [if_neg h1]
    by_cases h2 : count < 1000
    · rw [if_pos h2]; exact ⟨toDec_length n 3 (by omega) (by omega), by simp; omega⟩
    · rw [if_neg h2]; exact ⟨toDec_length n 4 (by omega) (by omega), by simp; omega⟩

/-- The size of a meaning group is filled with spaces, whatever the stream was set to, and later lines are as well. -/
theorem C135_fill (left : Bool) (fill : UInt8) (g : Group) :
    meaningGroupText ⟨left, fill⟩ g = meaningGroupText ⟨left, 0x20⟩ g ∧ (meaningGroupText ⟨left, fill⟩ g).2.fill = 0x20 :=
  ⟨rfl, rfl⟩

/-! ## C136: breakdown by type -/

/-- One line for each type of which there is a member: the number of names found, the number of kanji of the type and
the examples of kanji that are in no group. -/
theorem C136_lines (found all : KanjiType → List Str) (f : OutFormat) (hf : f.fill = 0x20) :
    (groupTypeLines found all f breakdownTypes).1 =
      ((breakdownTypes.filter fun t => found t ≠ []).map fun t =>
        setwRight 14 (kanjiTypeText t) ++ u8!": " ++ toDec (found t).length ++ u8!" / " ++ toDec (all t).length ++
        missingText (all t) (found t) ++ u8!"\n").flatten := by
  have gen : ∀ (ts : List KanjiType) (f : OutFormat), f.fill = 0x20 → (groupTypeLines found all f ts).1 =
      ((ts.filter fun t => found t ≠ []).map fun t =>
        setwRight 14 (kanjiTypeText t) ++ u8!": " ++ toDec (found t).length ++ u8!" / " ++ toDec (all t).length ++
        missingText (all t) (found t) ++ u8!"\n").flatten := by
    intro ts
    induction ts with
    | nil => intro f _; rfl
    | cons t ts ih =>
      intro f hf
      rw [groupTypeLines]
      by_cases h : found t = []
      · rw [if_pos (by simp [h]), List.filter_cons_of_neg (by simp [h])]
        exact ih f hf
      · rw [if_neg (by simpa using h), List.filter_cons_of_pos (by simpa using h), List.map_cons, List.flatten_cons]
        simp only
        rw [ih { f with left := false } hf]
        simp only [groupTypeLine, OutFormat.setw, hf, setwRight, Bool.false_eq_true, if_false]
  exact gen breakdownTypes f hf

/-- The legend. -/
def legendText : Str := u8!">>> .=常用 '=JLPT \"=Freq ^=人名用 ~=LinkJ %=LinkO +=Extra @=検定 #=1級 *=Ucd\n"

/-- The heading of the columns. -/
def columnsText : Str := u8!"Name (number of entries)   Parent Member : Other Members\n"

/-- The heading of the breakdown. -/
def breakdownText : Str := u8!"Type Breakdown (showing up to 12 missing examples per type)\n"

/-- What comes after the lines of the groups: for meaning groups of which some kanji are in more than one group the
numbers of unique kanji, then the breakdown by type. -/
def groupsEnd (t : GroupType) (keys : List Str) (groups : List Group) (all : KanjiType → List Str) : Str :=
  let members := groups.flatMap (·.members)
  let unique := (members.map (·.kanji.name)).eraseDups.length
  let found (k : KanjiType) : List Str := if t = .meaning then meaningTypeNames k members [] else patternTypeNames k members
  (if t = .meaning ∧ 0 < unique ∧ unique < keys.length then uniqueText (printUniqueNames keys unique) else []) ++
    breakdownText ++
    ((breakdownTypes.filter fun t => found t ≠ []).map fun t =>
        setwRight 14 (kanjiTypeText t) ++ u8!": " ++ toDec (found t).length ++ u8!" / " ++ toDec (all t).length ++
        missingText (all t) (found t) ++ u8!"\n").flatten

theorem uniqueNames_length (l : List Str) : (uniqueNames l []).length = l.eraseDups.length := by
  obtain ⟨u1, u2⟩ := uniqueNames_spec l [] List.nodup_nil
  exact nodup_length_eq _ _ u1 (nodup_eraseDups _) (fun c => by rw [u2, List.mem_eraseDups]; simp)

/-- On streams that fill with spaces (alignment in either way): without full debug the text does not depend on the
alignment; with full debug it has a line for each group, in the order of the file, in which the numbers (and the names of
pattern groups) are aligned as the stream says. -/
theorem C135_lines_partial (t : GroupType) (f : OutFormat) (hf : f.fill = 0x20) (keys : List Str) (groups : List Group)
    (all : KanjiType → List Str) (hm : ∀ g ∈ groups, g.members ≠ []) :
    (printGroups t false f keys groups all).1 =
        u8!">>> Loaded " ++ toDec keys.length ++ u8!" kanji into " ++ toDec groups.length ++ u8!" groups\n" ++
        groupsEnd t keys groups all ∧
    (printGroups t true f keys groups all).1 =
        u8!">>> Loaded " ++ toDec keys.length ++ u8!" kanji into " ++ toDec groups.length ++ u8!" groups\n" ++
        legendText ++ columnsText ++
        (groups.map fun g => if t = .meaning then meaningLine f.setw (numberWidth groups.length) g
          else patternLine f.setw (numberWidth groups.length) g).flatten ++ groupsEnd t keys groups all := by
  have hleg : u8!">>> " ++ kanjiLegend ++ groupHeader = legendText ++ columnsText := by decide +kernel
  have hload : u8!">>> " ++ u8!"Loaded " = u8!">>> Loaded " := by decide +kernel
  have htb : breakdownHeader = breakdownText := by decide +kernel
  have hend : (if !(if t = .meaning then uniqueNames ((groups.flatMap (·.members)).map (·.kanji.name)) [] else []).isEmpty &&
        decide ((if t = .meaning then uniqueNames ((groups.flatMap (·.members)).map (·.kanji.name)) [] else []).length <
          keys.length) then
        uniqueText (printUniqueNames keys
          (if t = .meaning then uniqueNames ((groups.flatMap (·.members)).map (·.kanji.name)) [] else []).length)
       else []) ++
      (breakdownText ++
        (groupTypeLines (fun k => if t = .meaning then meaningTypeNames k (groups.flatMap (·.members)) []
          else patternTypeNames k (groups.flatMap (·.members))) all f breakdownTypes).1) = groupsEnd t keys groups all := by
    rw [C136_lines _ _ f hf]
    unfold groupsEnd
    rw [List.append_assoc]
    congr 1
    have hl := uniqueNames_length ((groups.flatMap (·.members)).map (·.kanji.name))
    cases t with
    | pattern => simp
    | meaning =>
      simp only [if_true, hl]
      have he : (uniqueNames ((groups.flatMap (·.members)).map (·.kanji.name)) []).isEmpty =
          decide (((groups.flatMap (·.members)).map (·.kanji.name)).eraseDups.length = 0) := by
        rw [← hl, Bool.eq_iff_iff, List.isEmpty_iff, decide_eq_true_eq, List.length_eq_zero_iff]
      rw [he]
      by_cases h0 : ((groups.flatMap (·.members)).map (·.kanji.name)).eraseDups.length = 0
      · rw [if_neg (by simp [h0]), if_neg (by omega)]
      · by_cases h1 : ((groups.flatMap (·.members)).map (·.kanji.name)).eraseDups.length < keys.length
        · rw [if_pos (by simp only [h0, h1]; rfl), if_pos ⟨trivial, by omega, h1⟩]
        · rw [if_neg (by simp only [h1]; simp), if_neg (fun h => h1 h.2.2)]
  constructor
  · rw [← hend]
    simp only [printGroups, Bool.false_eq_true, if_false, List.append_nil, hload, htb]
    simp only [List.append_assoc]
  · rw [← hend]
    simp only [printGroups, if_true, groupLines_eq t _ f groups hf hm, hleg, hload, htb]
    simp only [List.append_assoc]

/-- The fill character stays a space. -/
theorem printGroups_fill (t : GroupType) (full : Bool) (f : OutFormat) (hf : f.fill = 0x20) (keys : List Str)
    (groups : List Group) (all : KanjiType → List Str) (hm : ∀ g ∈ groups, g.members ≠ []) :
    (printGroups t full f keys groups all).2.fill = 0x20 := by
  have hb : ∀ (found : KanjiType → List Str) (ts : List KanjiType) (a : OutFormat), a.fill = 0x20 →
      (groupTypeLines found all a ts).2.fill = 0x20 := by
    intro found ts
    induction ts with
    | nil => intro a h; exact h
    | cons x ts ih =>
      intro a h
      rw [groupTypeLines]
      split
      · exact ih a h
      · exact ih _ h
  unfold printGroups
  apply hb
  cases full
  · exact hf
  · rw [if_pos rfl, groupLines_eq t _ f groups hf hm]; exact hf

/-- Both lists: the lines of the pattern groups are always aligned to the right, those of the meaning groups as the
stream was before. -/
theorem C135_both (full : Bool) (f : OutFormat) (hf : f.fill = 0x20) (m : MeaningGroups) (p : PatternGroups)
    (all : KanjiType → List Str) (hm : ∀ g ∈ m.groups, g.members ≠ []) (hne : m.groups ≠ []) :
    (printAllGroups full f m p all).1 =
      (printGroups .meaning full f (m.map.map (·.1)) m.groups all).1 ++
      (printGroups .pattern full freshFormat (p.map.map (·.1)) p.groups all).1 := by
  have h1 := printGroups_fill .meaning full f hf (m.map.map (·.1)) m.groups all hm
  have h2 := C135_right full f m all (by
    cases hg : m.groups with
    | nil => exact absurd hg hne
    | cons g l => exact ⟨g, by simp, hm g (by rw [hg]; simp)⟩)
  unfold printAllGroups
  have : (printGroups .meaning full f (m.map.map (·.1)) m.groups all).2 = freshFormat := by
    cases hx : (printGroups .meaning full f (m.map.map (·.1)) m.groups all).2 with
    | mk l fl => rw [hx] at h1 h2; cases h1; cases h2; rfl
  simp only [this]

/-- Every type comes once in the breakdown; all names have 13 characters at most, so that the colons are in one column. -/
theorem C136_types : (∀ t, breakdownTypes.count t = 1) ∧ ∀ t, (setwRight 14 (kanjiTypeText t)).length = 14 := by
  refine ⟨fun t => ?_, fun t => ?_⟩ <;> cases t <;> decide +kernel

/-- The types come in the order of the enumeration (where `None` is last). -/
theorem C136_order : breakdownTypes.map some ++ [none] = allKanjiTypes := by decide

theorem missingText_none (all found : List Str) (h : printMissingFromType all found = none) : missingText all found = [] := by
  rw [missingText, h]; rfl

theorem missingText_some (all found names : List Str) (h : printMissingFromType all found = some names) :
    missingText all found = u8!" (" ++ (u8!" ").intercalate names ++ u8!")" := by
  rw [missingText, h]; rfl

/-- For meaning groups the line of a type has the number of its kanji that are in a group, and up to 12 of those in no
group. -/
theorem C136_meaning (t : KanjiType) (gs : List Group) (all : List Str) (h : TypeNames t gs all)
    (huniq : ∀ k ∈ allMembers gs, ∀ k' ∈ allMembers gs, k.kanji.name = k'.kanji.name → k.kanji.type = k'.kanji.type) :
    let found := meaningTypeNames t (allMembers gs) []
    found.length = (all.filter fun n => decide (∃ k ∈ allMembers gs, k.kanji.type = t ∧ k.kanji.name = n)).length ∧
    missingText all found =
      if all.all (fun n => found.contains n) then []
      else u8!" (" ++ (u8!" ").intercalate ((all.filter fun n => !found.contains n).take 12) ++ u8!")" := by
  intro found
  obtain ⟨a, b⟩ := meaningTypeNames_spec t (allMembers gs) []
  have hf := C92_meaning_found t gs huniq
  constructor
  · refine (List.Perm.length_eq ?_)
    refine (List.perm_ext_iff_of_nodup a (h.distinct.sublist List.filter_sublist)).2 fun n => ?_
    rw [List.mem_filter, hf n, decide_eq_true_eq]
    constructor
    · rintro ⟨k, hk, ht, rfl⟩
      exact ⟨h.complete k hk ht, k, hk, ht, rfl⟩
    · exact fun h => h.2
  · have hm := C92_meaning t gs all h
    rw [missingExamples] at hm
    by_cases hc : (all.all fun n => found.contains n) = true
    · rw [if_pos hc] at hm ⊢
      exact missingText_none _ _ hm
    · rw [if_neg hc] at hm ⊢
      exact missingText_some _ _ _ hm

/-! ## C137: messages about a group -/

theorem dupNames_mem (ms names dups : List Str) (n : Str) :
    n ∈ dupNames ms names dups ↔ n ∈ dups ∨ (n ∈ names ∧ n ∈ ms) ∨ 2 ≤ ms.count n := by
  induction ms generalizing names dups with
  | nil => simp [dupNames]
  | cons m ms ih =>
    rw [dupNames]
    by_cases hc : names.contains m = true
    · rw [if_pos hc, ih]
      have hm : m ∈ names := by simpa using hc
      have hd : n ∈ (if dups.contains m then dups else dups ++ [m]) ↔ n ∈ dups ∨ n = m := by
        by_cases hdm : dups.contains m = true
        · rw [if_pos hdm]
          constructor
          · exact .inl
          · rintro (h | rfl)
            · exact h
            · simpa using hdm
        · rw [if_neg hdm]; simp
      rw [hd, List.count_cons]
      by_cases e : n = m
      · subst e; simp [hm]
      · have : (m == n) = false := by simpa using Ne.symm e
        simp [e, this]
    · rw [if_neg hc, ih]
      have hm : m ∉ names := by simpa using hc
      rw [List.count_cons]
      by_cases e : n = m
      · subst e
        simp only [List.mem_cons, true_or, true_and, beq_self_eq_true, if_true, hm, false_and, false_or]
        have : n ∈ ms ↔ 1 ≤ ms.count n := by rw [Nat.succ_le_iff, List.count_pos_iff]
        rw [this]
        constructor
        · rintro (h | h | h)
          · exact .inl h
          · exact .inr (by omega)
          · exact .inr (by omega)
        · rintro (h | h)
          · exact .inl h
          · exact .inr (.inl (by omega))
      · have : (m == n) = false := by simpa using Ne.symm e
        simp [e, this]

theorem dupNames_nodup (ms names dups : List Str) (h : dups.Nodup) : (dupNames ms names dups).Nodup := by
  induction ms generalizing names dups with
  | nil => exact h
  | cons m ms ih =>
    rw [dupNames]
    split
    · apply ih
      split
      · exact h
      · rename_i hd
        rw [List.nodup_append]
        refine ⟨h, by simp, ?_⟩
        intro a ha b hb e
        rw [List.mem_singleton] at hb
        subst e hb
        exact hd (by simpa using ha)
    · exact ih _ _ h

/-- The names of the list, each once, in the order of the members. -/
theorem dupList_eq (ms dups : List Str) (hn : dups.Nodup) :
    dupList ms dups = ((ms.eraseDups.filter fun n => dups.contains n).map fun n => u8!" " ++ n).flatten := by
  induction hlen : ms.length using Nat.strongRecOn generalizing ms dups with
  | _ len ih =>
    cases ms with
    | nil => rfl
    | cons m ms =>
      rw [dupList, List.eraseDups_cons]
      have skip : ∀ (l d : List Str), m ∉ d → dupList l d = dupList (l.filter fun b => !b == m) d := by
        intro l
        induction l with
        | nil => intro d _; rfl
        | cons x l ihl =>
          intro d hd
          by_cases e : x = m
          · subst e
            rw [List.filter_cons_of_neg (by simp), dupList, if_neg (by simpa using hd)]
            exact ihl d hd
          · rw [List.filter_cons_of_pos (by simpa using e), dupList, dupList]
            split
            · rw [ihl _ fun h => hd (List.mem_of_mem_erase h)]
            · exact ihl d hd
      have hlt : (ms.filter fun b => !b == m).length < len := by
        have := List.length_filter_le (fun b => !b == m) ms
        rw [← hlen]; simp; omega
      by_cases hc : dups.contains m = true
      · rw [if_pos hc, List.filter_cons_of_pos (by exact hc), List.map_cons, List.flatten_cons]
        have hne : m ∉ dups.erase m := fun h => ((hn.mem_erase_iff).1 h).1 rfl
        rw [skip ms _ hne, ih _ hlt _ _ (hn.erase m) rfl]
        congr 3
        apply List.filter_congr
        intro x hx
        have hxm : x ≠ m := by
          have := List.mem_eraseDups.1 hx
          rw [List.mem_filter] at this
          simpa using this.2
        rw [Bool.eq_iff_iff]
        simp only [List.contains_iff_mem, hn.mem_erase_iff]
        simp [hxm]
      · have hm : m ∉ dups := by simpa using hc
        rw [if_neg hc, List.filter_cons_of_neg (by exact hc), skip ms _ hm, ih _ hlt _ _ hn rfl]

/-- The message names the first problem: no members, one member, more than 58 members, or members that are there more
than once: their number and their names, each once and in the order of the members. -/
theorem C137_message (number : Nat) (name : Str) (ms : List Str) :
    let dups := ms.eraseDups.filter fun n => decide (2 ≤ ms.count n)
    groupError number name ms =
      if ms.length = 0 then some (u8!"group [" ++ toDec number ++ u8!" " ++ name ++ u8!"] has no members")
      else if ms.length = 1 then some (u8!"group [" ++ toDec number ++ u8!" " ++ name ++ u8!"] has only one member")
      else if 58 < ms.length then some (u8!"group [" ++ toDec number ++ u8!" " ++ name ++ u8!"] has more than 58 members")
      else if dups = [] then none
      else some (u8!"group [" ++ toDec number ++ u8!" " ++ name ++ u8!"] has " ++ toDec dups.length ++
        (if dups.length = 1 then u8!" duplicate member:" else u8!" duplicate members:") ++
        (dups.map fun n => u8!" " ++ n).flatten) := by
  intro dups
  have hnd := dupNames_nodup ms [] [] (by simp)
  have hmem : ∀ n, n ∈ dupNames ms [] [] ↔ 2 ≤ ms.count n := by
    intro n; rw [dupNames_mem]; simp
  have hdn : ms.eraseDups.Nodup := nodup_eraseDups ms
  have hperm : List.Perm (dupNames ms [] []) dups := by
    refine (List.perm_ext_iff_of_nodup hnd (hdn.sublist List.filter_sublist)).2 fun n => ?_
    rw [hmem, List.mem_filter, List.mem_eraseDups, decide_eq_true_eq]
    constructor
    · intro h; exact ⟨List.count_pos_iff.1 (by omega), h⟩
    · exact fun h => h.2
  have hlist : dupList ms (dupNames ms [] []) = (dups.map fun n => u8!" " ++ n).flatten := by
    rw [dupList_eq ms _ hnd]
    congr 2
    apply List.filter_congr
    intro n _
    rw [Bool.eq_iff_iff, List.contains_iff_mem, hmem, decide_eq_true_eq]
  have hlen := hperm.length_eq
  have e58 : toDec 58 = u8!"58" := by decide +kernel
  unfold groupError groupProblem
  cases ms with
  | nil => simp [groupToString, addBrackets]
  | cons m ms =>
    rw [if_neg (show ¬ (m :: ms).isEmpty = true by simp), if_neg (show ¬ (m :: ms).length = 0 by simp)]
    by_cases h1 : (m :: ms).length = 1
    · rw [if_pos h1, if_pos h1]; simp [groupToString, addBrackets]
    · rw [if_neg h1, if_neg h1]
      by_cases h2 : (m :: ms).length > 58
      · rw [if_pos h2, if_pos h2, e58]; simp [groupToString, addBrackets]
      · rw [if_neg h2, if_neg h2]
        by_cases h3 : dups = []
        · have : dupNames (m :: ms) [] [] = [] := by
            rw [h3] at hlen
            exact List.length_eq_zero_iff.1 hlen
          simp only [this]
          rw [if_neg (by simp), if_pos h3]; rfl
        · have hne : (dupNames (m :: ms) [] []).isEmpty = false := by
            cases hd : dupNames (m :: ms) [] [] with
            | nil => rw [hd] at hlen; exact absurd (List.length_eq_zero_iff.1 hlen.symm) h3
            | cons => rfl
          have hpos : 0 < dups.length := by
            cases hd : dups with
            | nil => exact absurd hd h3
            | cons => simp
          simp only [hne, hlist, hlen]
          rw [if_pos (by simp), if_neg h3, Option.map_some]
          by_cases h4 : dups.length = 1
          · rw [if_neg (by omega), if_pos h4]; simp [groupToString, addBrackets]
          · rw [if_pos (by omega), if_neg h4]; simp [groupToString, addBrackets]

/-- There is a message exactly if the group isn't created. -/
theorem C137_created (number : Nat) (name : Str) (ms : List Str) :
    groupError number name ms = none ↔ createGroup ms = .ok ms := by
  have h := (C55_groups ms).1
  rw [h, C137_message]
  have hd : ms.eraseDups.filter (fun n => decide (2 ≤ ms.count n)) = [] ↔ ms.Nodup := by
    rw [List.filter_eq_nil_iff, List.nodup_iff_count]
    constructor
    · intro g a
      by_cases ha : a ∈ ms
      · have := g a (List.mem_eraseDups.2 ha)
        simp at this; omega
      · rw [List.count_eq_zero_of_not_mem ha]; omega
    · intro g a _
      have := g a
      simp; omega
  simp only [hd]
  by_cases h0 : ms.length = 0
  · simp [h0]
  · by_cases h1 : ms.length = 1
    · simp [h1]
    · by_cases h2 : 58 < ms.length
      · rw [if_neg h0, if_neg h1, if_pos h2]
        constructor
        · intro h; cases h
        · intro h; omega
      · rw [if_neg h0, if_neg h1, if_neg h2]
        by_cases h3 : ms.Nodup
        · rw [if_pos h3]
          exact ⟨fun _ => ⟨by omega, by omega, h3⟩, fun _ => rfl⟩
        · rw [if_neg h3]
          constructor
          · intro h; cases h
          · intro h; exact absurd h.2.2 h3

/-! ## Examples: the texts of GroupTest.cpp and GroupDataTest.cpp -/

example : groupError 0 (u8!"m") [u8!"甲", u8!"乙", u8!"甲", u8!"乙"] =
    some (u8!"group [0 m] has 2 duplicate members: 甲 乙") ∧
    groupError 1 (u8!"方向") [u8!"北", u8!"艮", u8!"北"] = some (u8!"group [1 方向] has 1 duplicate member: 北") ∧
    groupError 0 (u8!"empty") [] = some (u8!"group [0 empty] has no members") ∧
    groupError 0 (u8!"one") [u8!"甲"] = some (u8!"group [0 one] has only one member") ∧
    groupError 0 (u8!"big") (List.replicate 59 (u8!"甲")) = some (u8!"group [0 big] has more than 58 members") := by
  decide +kernel

example : groupShown exampleGroup = u8!"[Peers 一：いち]" ∧
    groupShown { exampleGroup with patternType := .reading } = u8!"[：いち]" ∧
    alreadyIn (u8!"勇") ⟨2, u8!"勇：ユウ", [], .family⟩ ⟨1, u8!"男：ダン、リョ、ドウ", [], .family⟩ =
      u8!"勇 from [2 勇：ユウ] already in [1 男：ダン、リョ、ドウ]" := by decide +kernel

example : (printGroups .pattern true {} [u8!"一", u8!"二"] [exampleGroup] (fun _ => [u8!"一", u8!"二", u8!"三"])).1 =
    u8!">>> Loaded 2 kanji into 1 groups\n>>> .=常用 '=JLPT \"=Freq ^=人名用 ~=LinkJ %=LinkO +=Extra @=検定 #=1級 *=Ucd\n" ++
    u8!"Name (number of entries)   Parent Member : Other Members\n" ++
    u8!"[ 1]                     ：いち( 2)   　 : 一. 二.\n" ++
    u8!"Type Breakdown (showing up to 12 missing examples per type)\n        Jouyou: 2 / 3 (三)\n" := by decide +kernel

example : (printGroups .meaning true { left := true } [u8!"一", u8!"一", u8!"三", u8!"二"]
      [⟨1, u8!"い", [u8!"一", u8!"二"].filterMap exampleFind, .none⟩,
       ⟨2, u8!"ろは", [u8!"一", u8!"三"].filterMap exampleFind, .none⟩] (fun _ => [u8!"一", u8!"二", u8!"三"])) =
    (u8!">>> Loaded 4 kanji into 2 groups\n>>> .=常用 '=JLPT \"=Freq ^=人名用 ~=LinkJ %=LinkO +=Extra @=検定 #=1級 *=Ucd\n" ++
    u8!"Name (number of entries)   Parent Member : Other Members\n" ++
    u8!"[1 ]  い　　 (2 )   : 一. 二.\n[2 ]  ろは　 (2 )   : 一. 三.\n" ++
    u8!">>> Unique kanji: 3 (once 2, multi 1)\n  Kanji in 2 groups: 一\n" ++
    u8!"Type Breakdown (showing up to 12 missing examples per type)\n        Jouyou: 3 / 3\n", {}) := by decide +kernel

end KT
