/-!
# Specification of the character classes (ranges of the Unicode standard)
-/
namespace Spec

/-- Hiragana block. -/
def Hiragana (c : Nat) : Prop := 0x3040 ≤ c ∧ c ≤ 0x309f
/-- Katakana and Katakana Phonetic Extensions. -/
def Katakana (c : Nat) : Prop := (0x30a0 ≤ c ∧ c ≤ 0x30ff) ∨ (0x31f0 ≤ c ∧ c ≤ 0x31ff)
/-- CJK Extension A, Unified Ideographs, Compatibility Ideographs, Extension B. -/
def CommonKanji (c : Nat) : Prop :=
  (0x3400 ≤ c ∧ c ≤ 0x4dbf) ∨ (0x4e00 ≤ c ∧ c ≤ 0x9fff) ∨ (0xf900 ≤ c ∧ c ≤ 0xfaff) ∨
  (0x20000 ≤ c ∧ c ≤ 0x2a6df)
/-- Radicals Supplement, CJK Extensions C to F, Compatibility Supplement, Extension G. -/
def RareKanji (c : Nat) : Prop :=
  (0x2e80 ≤ c ∧ c ≤ 0x2eff) ∨ (0x2a700 ≤ c ∧ c ≤ 0x2ebef) ∨ (0x2f800 ≤ c ∧ c ≤ 0x2fa1f) ∨
  (0x30000 ≤ c ∧ c ≤ 0x3134f)
/-- General Punctuation, CJK Symbols and Punctuation, Specials. -/
def Punctuation (c : Nat) : Prop :=
  (0x2000 ≤ c ∧ c ≤ 0x206f) ∨ (0x3000 ≤ c ∧ c ≤ 0x303f) ∨ (0xfff0 ≤ c ∧ c ≤ 0xffff)
/-- Letterlike, Arrows + Mathematical, Box Drawing, Geometric + Miscellaneous, Description
Characters, Kanbun, CJK Strokes. -/
def MBSymbol (c : Nat) : Prop :=
  (0x2100 ≤ c ∧ c ≤ 0x214f) ∨ (0x2190 ≤ c ∧ c ≤ 0x22ff) ∨ (0x2500 ≤ c ∧ c ≤ 0x257f) ∨
  (0x25a0 ≤ c ∧ c ≤ 0x26ff) ∨ (0x2ff0 ≤ c ∧ c ≤ 0x2fff) ∨ (0x3190 ≤ c ∧ c ≤ 0x319f) ∨
  (0x31c0 ≤ c ∧ c ≤ 0x31ef)
/-- Latin-1 Supplement to Latin Extended-B, Number Forms, Enclosed Alphanumerics, Latin Extended-C,
Halfwidth and Fullwidth Forms. -/
def MBLetter (c : Nat) : Prop :=
  (0x80 ≤ c ∧ c ≤ 0x24f) ∨ (0x2150 ≤ c ∧ c ≤ 0x218f) ∨ (0x2460 ≤ c ∧ c ≤ 0x24ff) ∨
  (0x2c60 ≤ c ∧ c ≤ 0x2c7f) ∨ (0xff00 ≤ c ∧ c ≤ 0xffef)

def Kana (c : Nat) : Prop := Hiragana c ∨ Katakana c
def Kanji (c : Nat) : Prop := CommonKanji c ∨ RareKanji c
def Recognized (c : Nat) : Prop :=
  Hiragana c ∨ Katakana c ∨ CommonKanji c ∨ RareKanji c ∨ Punctuation c ∨ MBSymbol c ∨ MBLetter c

/-- Variation selectors and the two combining (semi-)voiced marks. -/
def NonSpacing (c : Nat) : Prop := (0xfe00 ≤ c ∧ c ≤ 0xfe0f) ∨ c = 0x3099 ∨ c = 0x309a

instance : DecidablePred Hiragana := fun c => by unfold Hiragana; infer_instance
instance : DecidablePred Katakana := fun c => by unfold Katakana; infer_instance
instance : DecidablePred CommonKanji := fun c => by unfold CommonKanji; infer_instance
instance : DecidablePred RareKanji := fun c => by unfold RareKanji; infer_instance
instance : DecidablePred Punctuation := fun c => by unfold Punctuation; infer_instance
instance : DecidablePred MBSymbol := fun c => by unfold MBSymbol; infer_instance
instance : DecidablePred MBLetter := fun c => by unfold MBLetter; infer_instance
instance : DecidablePred Kana := fun c => by unfold Kana; infer_instance
instance : DecidablePred Kanji := fun c => by unfold Kanji; infer_instance
instance : DecidablePred Recognized := fun c => by unfold Recognized; infer_instance
instance : DecidablePred NonSpacing := fun c => by unfold NonSpacing; infer_instance

/-- A sequence of characters of class `X`, each optionally followed by one non-spacing mark. -/
inductive AllOf (X : Nat → Prop) : List Nat → Prop where
  | nil : AllOf X []
  | char {c cs} : X c → AllOf X cs → AllOf X (c :: cs)
  | marked {c m cs} : X c → NonSpacing m → AllOf X cs → AllOf X (c :: m :: cs)

/-- One character of class `X`, optionally followed by a non-spacing mark. -/
def OneOf (X : Nat → Prop) (cs : List Nat) : Prop :=
  ∃ c, X c ∧ (cs = [c] ∨ ∃ m, NonSpacing m ∧ cs = [c, m])

end Spec
