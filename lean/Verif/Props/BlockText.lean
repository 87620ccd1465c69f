import Verif.Model.BlockText
import Verif.Props.UcdDiff
/-!
# C201: text of Unicode blocks

Blocks are written with name and version, or with their limits when they are not official; the text shows which block it
is.
-/
namespace KT
open Spec

/-- What the checks at compile time make sure of for official blocks. -/
structure OfficialBlock (b : FullBlock) : Prop where
  name : b.name ≠ []
  version : ∃ v, b.version = some v ∧ 0x28 ∉ v.version ∧ 0x3a ∉ v.version ∧ 1 ≤ v.month ∧ v.month ≤ 12
  less : b.block.start < b.block.stop
  limits : 0x7f < b.block.start ∧ b.block.stop ≤ 0x10ffff
  aligned : b.block.start % 16 = 0 ∧ b.block.stop % 16 = 15

/-- Other blocks. -/
structure OtherBlock (b : FullBlock) : Prop where
  name : b.name = []
  version : b.version = none
  le : b.block.start ≤ b.block.stop
  limits : 0x7f < b.block.start ∧ b.block.stop ≤ 0x10ffff

theorem digits_none (n : Nat) (x : UInt8) (hx : isDigitChar x = false) : x ∉ toDec n := by
  intro h
  have := List.all_eq_true.mp (toDec_digits n) x h
  rw [hx] at this
  cases this

theorem last_split {x : UInt8} {a i b c : Str} (h1 : x ∉ b) (h2 : x ∉ c) (h : a ++ x :: b = i ++ x :: c) : a = i ∧ b = c := by
  have hr : b.reverse ++ x :: a.reverse = c.reverse ++ x :: i.reverse := by
    have := congrArg List.reverse h
    simpa using this
  have := split_before (by simpa using h1) (by simpa using h2) hr
  have hb : b = c := by simpa using this
  rw [hb] at h
  exact ⟨List.append_cancel_right h, hb⟩

theorem toUnicode_injective (c d : Nat) (h : toUnicode c = toUnicode d) : c = d := by
  have h1 := (toUnicode_facts c).1
  rw [h, (toUnicode_facts d).1] at h1
  exact (Option.some.inj h1).symm

/-- An official block is written as name and version with month and year. -/
theorem C201_official (b : FullBlock) (h : OfficialBlock b) (v : BlockVersion) (hv : b.version = some v) :
    blockText b = b.name ++ u8!" (v" ++ v.version ++ u8!": " ++ toDec v.month ++ u8!", " ++ toDec v.year ++ u8!")" := by
  unfold blockText versionText
  rw [if_neg h.name, hv]
  simp

/-- Another block is written as its limits. -/
theorem C201_other (b : FullBlock) (h : OtherBlock b) :
    blockText b = u8!"start=" ++ toUnicode b.block.start ++ u8!", end=" ++ toUnicode b.block.stop := by
  unfold blockText
  rw [if_pos h.name, h.version]
  simp

/-- Official blocks with the same text have the same name and the same version. -/
theorem C201_same_official (b b' : FullBlock) (h : OfficialBlock b) (h' : OfficialBlock b') (e : blockText b = blockText b') :
    b.name = b'.name ∧ b.version = b'.version := by
  obtain ⟨v, hv, v1, v2, -, -⟩ := h.version
  obtain ⟨v', hv', w1, w2, -, -⟩ := h'.version
  rw [C201_official b h v hv, C201_official b' h' v' hv'] at e
  have form : ∀ (n : Str) (v : BlockVersion), n ++ u8!" (v" ++ v.version ++ u8!": " ++ toDec v.month ++ u8!", " ++ toDec v.year ++ u8!")" =
      (n ++ [0x20]) ++ 0x28 :: (0x76 :: (v.version ++ 0x3a :: (0x20 :: (toDec v.month ++ 0x2c :: (0x20 :: (toDec v.year ++ [0x29])))))) := by
    intro n v; simp
  have none28 : ∀ v : BlockVersion, 0x28 ∉ v.version → 0x28 ∉
      (0x76 :: (v.version ++ 0x3a :: (0x20 :: (toDec v.month ++ 0x2c :: (0x20 :: (toDec v.year ++ [0x29])))))) := by
    intro v hv hx
    have d1 := digits_none v.month 0x28 (by decide)
    have d2 := digits_none v.year 0x28 (by decide)
    simp [hv, d1, d2] at hx
  rw [form, form] at e
  obtain ⟨e1, e2⟩ := last_split (none28 v v1) (none28 v' w1) e
  have e3 := (List.cons.inj e2).2
  have e4 := split_before v2 w2 e3
  rw [e4] at e3
  have e5 := (List.cons.inj (List.cons.inj (List.append_cancel_left e3)).2).2
  have e6 := split_before (digits_none _ 0x2c (by decide)) (digits_none _ 0x2c (by decide)) e5
  rw [e6] at e5
  have e7 := (List.cons.inj (List.cons.inj (List.append_cancel_left e5)).2).2
  refine ⟨List.append_cancel_right e1, ?_⟩
  rw [hv, hv']
  obtain ⟨a, m, y⟩ := v
  obtain ⟨a', m', y'⟩ := v'
  simp only at e4 e6 e7
  rw [e4, toDec_injective e6, toDec_injective (List.append_cancel_right e7)]

/-- Other blocks with the same text are the same. -/
theorem C201_same_other (b b' : FullBlock) (h : OtherBlock b) (h' : OtherBlock b') (e : blockText b = blockText b') :
    b = b' := by
  rw [C201_other b h, C201_other b' h'] at e
  have comma : ∀ c, 0x2c ∉ toUnicode c := by
    intro c hx
    exact absurd (toUnicode_digits c _ hx) (by decide)
  have form : ∀ c d : Nat, u8!"start=" ++ toUnicode c ++ u8!", end=" ++ toUnicode d =
      u8!"start=" ++ (toUnicode c ++ 0x2c :: (u8!" end=" ++ toUnicode d)) := by
    intro c d; simp
  rw [form, form] at e
  have e1 := List.append_cancel_left e
  have e2 := split_before (comma _) (comma _) e1
  rw [e2] at e1
  have e3 := List.append_cancel_left (List.cons.inj (List.append_cancel_left e1)).2
  obtain ⟨⟨s, t⟩, v, n⟩ := b
  obtain ⟨⟨s', t'⟩, v', n'⟩ := b'
  have := h.name; have := h'.name; have := h.version; have := h'.version
  simp only at *
  subst_vars
  rw [toUnicode_injective _ _ e2, toUnicode_injective _ _ e3]

/-- Official blocks and others never have the same text. -/
theorem C201_different (b b' : FullBlock) (h : OfficialBlock b) (h' : OtherBlock b') : blockText b ≠ blockText b' := by
  obtain ⟨v, hv, -⟩ := h.version
  rw [C201_official b h v hv, C201_other b' h']
  intro e
  have e1 := congrArg List.getLast? e
  obtain ⟨-, -, h3, -⟩ := toUnicode_facts b'.block.stop
  rw [List.getLast?_append, List.getLast?_append (l' := toUnicode b'.block.stop)] at e1
  cases hl : (toUnicode b'.block.stop).getLast? with
  | none =>
    rw [List.getLast?_eq_none_iff] at hl
    rw [hl] at h3
    cases h3
  | some x =>
    rw [hl] at e1
    simp at e1
    subst e1
    exact absurd (toUnicode_digits _ _ (List.mem_of_getLast? hl)) (by decide)

/-- The blocks of the program are official, belong to the tables used for characters, and no two have the same text or the same
name. -/
theorem C201_tables :
    (∀ b ∈ allFullBlocks, OfficialBlock b) ∧ (allFullBlocks.map blockText).Nodup ∧ (allFullBlocks.map FullBlock.name).Nodup ∧
    (∀ b ∈ allFullBlocks, ∃ v ∈ blockVersions, b.version = some v) ∧
    hiraganaFull.map FullBlock.block = hiraganaBlocks ∧ katakanaFull.map FullBlock.block = katakanaBlocks ∧
    commonKanjiFull.map FullBlock.block = commonKanjiBlocks ∧ rareKanjiFull.map FullBlock.block = rareKanjiBlocks ∧
    punctuationFull.map FullBlock.block = punctuationBlocks ∧ symbolFull.map FullBlock.block = symbolBlocks ∧
    letterFull.map FullBlock.block = letterBlocks ∧ nonSpacingFull.map FullBlock.block = nonSpacingBlocks ∧
    (∀ c, commonKanaFull.block.contains c = true ↔
      ∃ b ∈ hiraganaFull ++ katakanaFull.take 1, b.block.contains c = true) := by
  refine ⟨?_, by decide +kernel, by decide +kernel, by decide, by decide, by decide, by decide, by decide, by decide, by decide, by decide, by decide, ?_⟩
  · have h : ∀ b ∈ allFullBlocks, b.name ≠ [] ∧ (∃ v ∈ blockVersions, b.version = some v) ∧ b.block.start < b.block.stop ∧
        (0x7f < b.block.start ∧ b.block.stop ≤ 0x10ffff) ∧ (b.block.start % 16 = 0 ∧ b.block.stop % 16 = 15) := by decide +kernel
    have hv : ∀ v ∈ blockVersions, 0x28 ∉ v.version ∧ 0x3a ∉ v.version ∧ 1 ≤ v.month ∧ v.month ≤ 12 := by decide +kernel
    intro b hb
    obtain ⟨h1, ⟨v, h2, h3⟩, h4, h5, h6⟩ := h b hb
    exact ⟨h1, ⟨v, h3, hv v h2⟩, h4, h5, h6⟩
  · intro c
    have e : hiraganaFull ++ katakanaFull.take 1 = [officialBlock 0x3040 0x309f uVer1_1 (u8!"Hiragana"),
      officialBlock 0x30a0 0x30ff uVer1_1 (u8!"Katakana")] := rfl
    have k : ∀ b ∈ [officialBlock 0x3040 0x309f uVer1_1 (u8!"Hiragana"), officialBlock 0x30a0 0x30ff uVer1_1 (u8!"Katakana")],
        0x3040 ≤ b.block.start ∧ b.block.stop ≤ 0x30ff := by decide
    rw [e]
    unfold Block.contains
    simp only [Bool.and_eq_true, decide_eq_true_eq, ge_iff_le]
    constructor
    · intro ⟨h1, h2⟩
      replace h1 : 0x3040 ≤ c := h1
      replace h2 : c ≤ 0x30ff := h2
      by_cases h : c ≤ 0x309f
      · exact ⟨_, List.mem_cons_self, h1, h⟩
      · exact ⟨_, List.mem_cons_of_mem _ List.mem_cons_self, (by omega : 0x30a0 ≤ c), h2⟩
    · rintro ⟨b, hb, h1, h2⟩
      have := k b hb
      exact ⟨Nat.le_trans this.1 h1, Nat.le_trans h2 this.2⟩

/-- Versions are in the order of their numbers, which is the order of their dates. -/
theorem C201_versions :
    blockVersions.Pairwise (fun a b => a.year < b.year ∨ a.year = b.year ∧ a.month < b.month) ∧
    (blockVersions.map BlockVersion.version).Nodup ∧ ∀ v ∈ blockVersions, 1 ≤ v.month ∧ v.month ≤ 12 := by
  decide +kernel

/-! ## Samples -/

example : blockText (otherBlock 0x26a1 0x26a1) = u8!"start=26A1, end=26A1" := by decide
example : allFullBlocks.map blockText |>.contains (u8!"Kanbun (Annotations) (v1.1: 6, 1993)") := by decide +kernel
example : (officialBlock 0x20000 0x2a6df uVer3_1 (u8!"CJK Extension B")).range = 42720 := by decide

end KT
