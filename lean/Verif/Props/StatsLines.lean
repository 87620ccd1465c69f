import Verif.Props.StatsReport
/-!
# The statistics report, texts of the lines: C117, C121
-/
namespace KT
open Spec

/-- A character with its count. -/
def exampleText (c : StatCount) : Str := c.name ++ u8!" " ++ toDec c.count

theorem exampleTexts_eq (l : List StatCount) : exampleTexts l = (u8!", ").intercalate (l.map exampleText) := by
  induction l with
  | nil => rfl
  | cons c l ih =>
    cases l with
    | nil => simp [exampleTexts, exampleText, List.intercalate]
    | cons d l =>
      rw [exampleTexts, ih]
      · simp [exampleText, List.intercalate]
      · simp

/-- The names of the types in the order of their lines. -/
theorem C117_typeNames : allKanjiTypes.map anyTypeText =
    [u8!"Jouyou", u8!"Jinmei", u8!"LinkedJinmei", u8!"LinkedOld", u8!"Frequency", u8!"Extra", u8!"Kentei", u8!"Ucd",
     u8!"None"] := by decide

/-- The line of a type: its name, the number of occurrences, the number of characters, the share of all occurrences and
up to five characters with their counts. -/
theorem C117_line (percent : Nat → Nat → Nat → Str) (total : Nat) (t : Option KanjiType) (a : TypeCounts) :
    typeLine percent total t a =
      u8!">>> " ++ setwRight 16 (u8!"[" ++ anyTypeText t ++ u8!"] ") ++ u8!": " ++ setwRight 6 (toDec a.total) ++
      u8!", unique: " ++ setwRight 4 (toDec a.unique) ++ u8!", " ++ setwRight 6 (percent 2 a.total total) ++ u8!"%  (" ++
      (u8!", ").intercalate (a.found.map exampleText) ++ u8!")\n" := by
  rw [typeLine, exampleTexts_eq, totalAndUnique]

/-- The text of each category: only kanji have examples, common kanji by type and others five in all; the breakdown is
shown for kanji if asked for, and always for characters that aren't recognized. -/
theorem C121_text (percent : Nat → Nat → Nat → Str) (b : Bool) (tags : Str → Option (List (Str × Nat))) (total : Nat)
    (l : List StatCount) (ht : total ≠ 0) :
    let text (name : Str) := predText percent name b tags total l
    let breakdown (name : Str) (k : Bool) := breakdownHeading name k ++ (breakdownLines b tags l).flatten
    let five := List.replicate 11 0x20 ++ u8!"(" ++ (u8!", ").intercalate ((l.take 5).map exampleText) ++ u8!")\n"
    (∀ name ∈ [u8!"Hiragana", u8!"Katakana", u8!"MB-Punctuation", u8!"MB-Symbol", u8!"MB-Letter"],
      text name = totalAndUnique name total l.length ++ u8!"\n") ∧
    text (u8!"Common Kanji") = totalAndUnique (u8!"Common Kanji") total l.length ++ u8!", 100.00%\n" ++
      (typeLines percent total l).flatten ++ (if b then breakdown (u8!"Common Kanji") true else []) ∧
    (∀ name ∈ [u8!"Rare Kanji", u8!"Non-UCD Kanji"],
      text name = totalAndUnique name total l.length ++ five ++ (if b then breakdown name true else [])) ∧
    text (u8!"Unrecognized") = totalAndUnique (u8!"Unrecognized") total l.length ++ u8!"\n" ++
      breakdown (u8!"Unrecognized") false := by
  have hr : rareExamples l = List.replicate 11 0x20 ++ u8!"(" ++ (u8!", ").intercalate ((l.take 5).map exampleText) ++
      u8!")\n" := by
    rw [rareExamples, exampleTexts_eq]; rfl
  have key : ∀ (name : Str) (k u c : Bool), predIsKanji name = k → decide (name = u8!"Unrecognized") = u →
      (k && (u8!"Common").isPrefixOf name) = c →
      predText percent name b tags total l = totalAndUnique name total l.length ++
        (if c then u8!", 100.00%\n" ++ (typeLines percent total l).flatten
         else if k then rareExamples l else u8!"\n") ++
        (if u || k && b then breakdownHeading name k ++ (breakdownLines b tags l).flatten else []) := by
    rintro name _ _ _ rfl rfl rfl
    rw [predText, if_neg ht]
  intro text breakdown five
  refine ⟨?_, ?_, ?_, ?_⟩
  · intro name hn
    simp only [List.mem_cons, List.not_mem_nil, or_false] at hn
    rcases hn with rfl | rfl | rfl | rfl | rfl <;>
    · simp only [text]
      rw [key _ false false false (by decide) (by decide) (by decide)]
      simp
  · simp only [text, breakdown]
    rw [key _ true false true (by decide) (by decide) (by decide)]
    simp
  · intro name hn
    simp only [List.mem_cons, List.not_mem_nil, or_false] at hn
    rcases hn with rfl | rfl <;>
    · simp only [text, breakdown, five]
      rw [key _ true false false (by decide) (by decide) (by decide), hr]
      simp
  · simp only [text, breakdown]
    rw [key _ false true false (by decide) (by decide) (by decide)]
    simp

/-- A line of the breakdown: the rank (if asked for), the character and its count; then frequency, level and type of a
kanji, or the code and the file with the highest count for other characters. -/
theorem C121_line (b : Bool) (tags : Str → Option (List (Str × Nat))) (rank : Nat) (c : StatCount) :
    breakdownLine b tags rank c =
      u8!"  " ++ (if b then setwLeft 5 (toDec rank) ++ u8!" " else []) ++
      u8!"[" ++ c.name ++ u8!" " ++ List.replicate (4 - (toDec c.count).length) 0x20 ++ toDec c.count ++ u8!"]" ++
      (match c.entry with
       | some k => List.replicate (5 - (toDec k.frequency.toNat).length) 0x20 ++ toDec k.frequency.toNat ++ u8!", " ++
          (k.level.map (·.toString)).getD (u8!"--") ++ u8!", " ++ kanjiTypeText k.type
       | none => u8!", " ++ setwRight 7 (u8!"U+" ++ toUnicodeStr c.name) ++
          ((tags c.name).map fun ts => u8!", " ++ highestTag ts).getD []) ++ u8!"\n" := by
  have e (n : Nat) (s : Str) : setwRight n s = List.replicate (n - s.length) 0x20 ++ s := by
    rw [setwRight]; congr 2; omega
  have e4 := e 4 (toDec c.count)
  rw [breakdownLine, countText]
  cases hc : c.entry with
  | none =>
    simp only [Option.isNone_none, if_true, List.append_assoc] at e4 ⊢
    rw [show (4 : Int) = ((4 : Nat) : Int) from rfl, e4]
    cases tags c.name <;> simp
  | some k =>
    have e5 := e 5 (toDec k.frequency.toNat)
    simp only [Option.isNone_some, Bool.false_eq_true, if_false, List.append_assoc] at e4 e5 ⊢
    rw [show (4 : Int) = ((4 : Nat) : Int) from rfl, e4, show (5 : Int) = ((5 : Nat) : Int) from rfl, e5]
    cases k.level <;> simp

end KT
