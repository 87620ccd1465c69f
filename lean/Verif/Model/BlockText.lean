import Verif.Model.UnicodeBlock
import Verif.Model.Decimal
/-!
# Model of the text of versions and blocks (UnicodeBlock.cpp:5-18), and of the names in UnicodeBlock.h

The stream has its default flags.  `consteval` constructors and `static_assert`s are the conditions of `OfficialBlock`.
-/
namespace KT

/-- `UnicodeBlock::Version` (UnicodeBlock.h:24-44). -/
structure BlockVersion where
  version : Str
  month : Nat
  year : Nat
  deriving DecidableEq

/-- `UnicodeBlock` with version and name (UnicodeBlock.h:101-104). -/
structure FullBlock where
  block : Block
  version : Option BlockVersion := none
  name : Str := []
  deriving DecidableEq

/-- `operator<<` for versions (UnicodeBlock.cpp:5-10). -/
def versionText (v : BlockVersion) : Str := u8!"v" ++ v.version ++ u8!": " ++ toDec v.month ++ u8!", " ++ toDec v.year

/-- `operator<<` for blocks (UnicodeBlock.cpp:12-19). -/
def blockText (b : FullBlock) : Str :=
  (if b.name = [] then u8!"start=" ++ toUnicode b.block.start ++ u8!", end=" ++ toUnicode b.block.stop else b.name) ++
  match b.version with
  | some v => u8!" (" ++ versionText v ++ u8!")"
  | none => []

/-- `range()` (UnicodeBlock.h:49-51). -/
def FullBlock.range (b : FullBlock) : Nat := b.block.stop - b.block.start + 1

/-! ## Versions (UnicodeBlock.h:145-150) -/
def uVer1_0 : BlockVersion := ⟨u8!"1.0", 10, 1991⟩
def uVer1_1 : BlockVersion := ⟨u8!"1.1", 6, 1993⟩
def uVer2_0 : BlockVersion := ⟨u8!"2.0", 7, 1996⟩
def uVer3_0 : BlockVersion := ⟨u8!"3.0", 9, 1999⟩
def uVer3_1 : BlockVersion := ⟨u8!"3.1", 3, 2001⟩
def uVer3_2 : BlockVersion := ⟨u8!"3.2", 3, 2002⟩
def uVer4_1 : BlockVersion := ⟨u8!"4.1", 3, 2005⟩
def uVer5_0 : BlockVersion := ⟨u8!"5.0", 7, 2006⟩
def uVer5_2 : BlockVersion := ⟨u8!"5.2", 10, 2009⟩
def uVer13_0 : BlockVersion := ⟨u8!"13.0", 3, 2020⟩

def blockVersions : List BlockVersion :=
  [uVer1_0, uVer1_1, uVer2_0, uVer3_0, uVer3_1, uVer3_2, uVer4_1, uVer5_0, uVer5_2, uVer13_0]

/-- `makeBlock` for official blocks (UnicodeBlock.h:130-141). -/
def officialBlock (start stop : Nat) (v : BlockVersion) (n : Str) : FullBlock := ⟨⟨start, stop⟩, some v, n⟩
/-- `makeBlock` for other blocks (UnicodeBlock.h:113-127). -/
def otherBlock (start stop : Nat) : FullBlock := ⟨⟨start, stop⟩, none, []⟩

/-! ## Tables (UnicodeBlock.h:153-230) -/
def hiraganaFull : List FullBlock := [officialBlock 0x3040 0x309f uVer1_1 (u8!"Hiragana")]
def katakanaFull : List FullBlock :=
  [officialBlock 0x30a0 0x30ff uVer1_1 (u8!"Katakana"), officialBlock 0x31f0 0x31ff uVer3_2 (u8!"Katakana Phonetic Extension")]
/-- `CommonKanaBlock` (UnicodeBlock.h:163-165). -/
def commonKanaFull : FullBlock := officialBlock 0x3040 0x30ff uVer1_1 (u8!"Kana")
def commonKanjiFull : List FullBlock :=
  [officialBlock 0x3400 0x4dbf uVer3_0 (u8!"CJK Extension A"),
   officialBlock 0x4e00 0x9fff uVer1_1 (u8!"CJK Unified Ideographs"),
   officialBlock 0xf900 0xfaff uVer1_1 (u8!"CJK Compat. Ideographs"),
   officialBlock 0x20000 0x2a6df uVer3_1 (u8!"CJK Extension B")]
def rareKanjiFull : List FullBlock :=
  [officialBlock 0x2e80 0x2eff uVer3_0 (u8!"Radicals Supp."),
   officialBlock 0x2a700 0x2ebef uVer5_2 (u8!"CJK Extension C-F"),
   officialBlock 0x2f800 0x2fa1f uVer3_1 (u8!"CJK Compat. Supp."),
   officialBlock 0x30000 0x3134f uVer13_0 (u8!"CJK Extension G")]
def punctuationFull : List FullBlock :=
  [officialBlock 0x2000 0x206f uVer1_1 (u8!"General Punctuation"),
   officialBlock 0x3000 0x303f uVer1_1 (u8!"CJK Symbols and Punctuation"),
   officialBlock 0xfff0 0xffff uVer1_1 (u8!"Specials")]
def symbolFull : List FullBlock :=
  [officialBlock 0x2100 0x214f uVer1_1 (u8!"Letter like Symbols"),
   officialBlock 0x2190 0x21ff uVer1_1 (u8!"Arrows"),
   officialBlock 0x2200 0x22ff uVer1_1 (u8!"Mathematical Operators"),
   officialBlock 0x2500 0x257f uVer1_1 (u8!"Box Drawing"),
   officialBlock 0x25a0 0x25ff uVer1_1 (u8!"Geometric Shapes"),
   officialBlock 0x2600 0x26ff uVer1_1 (u8!"Miscellaneous Symbols"),
   officialBlock 0x2ff0 0x2fff uVer3_0 (u8!"CJK Ideographic Desc. Chars"),
   officialBlock 0x3190 0x319f uVer1_1 (u8!"Kanbun (Annotations)"),
   officialBlock 0x31c0 0x31ef uVer4_1 (u8!"CJK Strokes")]
def letterFull : List FullBlock :=
  [officialBlock 0x0080 0x00ff uVer1_1 (u8!"Latin-1 Supplement"),
   officialBlock 0x0100 0x017f uVer1_1 (u8!"Latin Extended-A"),
   officialBlock 0x0180 0x024f uVer1_1 (u8!"Latin Extended-B"),
   officialBlock 0x2150 0x218f uVer1_1 (u8!"Number Forms"),
   officialBlock 0x2460 0x24ff uVer1_1 (u8!"Enclosed Alphanumerics"),
   officialBlock 0x2c60 0x2c7f uVer5_0 (u8!"Latin Extended-C"),
   officialBlock 0xff00 0xffef uVer1_1 (u8!"Halfwidth and Fullwidth Forms")]
def nonSpacingFull : List FullBlock := [officialBlock 0xfe00 0xfe0f uVer3_2 (u8!"Variation Selectors")]

/-- All official blocks of the program. -/
def allFullBlocks : List FullBlock :=
  hiraganaFull ++ katakanaFull ++ [commonKanaFull] ++ commonKanjiFull ++ rareKanjiFull ++ punctuationFull ++ symbolFull ++
    letterFull ++ nonSpacingFull

end KT
