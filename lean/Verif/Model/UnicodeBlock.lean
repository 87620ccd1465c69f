import Verif.Model.Str
/-!
# Model of libs/utils/include/kt_utils/UnicodeBlock.h and libs/utils/src/UnicodeBlock.cpp
-/
namespace KT

/-- `UnicodeBlock` (UnicodeBlock.h:21-106): only `start` and `end` are modelled. -/
structure Block where
  start : Nat
  stop : Nat
  deriving DecidableEq, Repr

/-- `operator()(Code)` (UnicodeBlock.h:54-56). -/
def Block.contains (b : Block) (x : Nat) : Bool := x ≥ b.start && x ≤ b.stop

/-- UnicodeBlock.h:153-154. -/
def hiraganaBlocks : List Block := [⟨0x3040, 0x309f⟩]
/-- UnicodeBlock.h:157-159. -/
def katakanaBlocks : List Block := [⟨0x30a0, 0x30ff⟩, ⟨0x31f0, 0x31ff⟩]
/-- UnicodeBlock.h:174-179. -/
def commonKanjiBlocks : List Block :=
  [⟨0x3400, 0x4dbf⟩, ⟨0x4e00, 0x9fff⟩, ⟨0xf900, 0xfaff⟩, ⟨0x20000, 0x2a6df⟩]
/-- UnicodeBlock.h:188-193. -/
def rareKanjiBlocks : List Block :=
  [⟨0x2e80, 0x2eff⟩, ⟨0x2a700, 0x2ebef⟩, ⟨0x2f800, 0x2fa1f⟩, ⟨0x30000, 0x3134f⟩]
/-- UnicodeBlock.h:196-200. -/
def punctuationBlocks : List Block := [⟨0x2000, 0x206f⟩, ⟨0x3000, 0x303f⟩, ⟨0xfff0, 0xffff⟩]
/-- UnicodeBlock.h:204-214. -/
def symbolBlocks : List Block :=
  [⟨0x2100, 0x214f⟩, ⟨0x2190, 0x21ff⟩, ⟨0x2200, 0x22ff⟩, ⟨0x2500, 0x257f⟩, ⟨0x25a0, 0x25ff⟩,
   ⟨0x2600, 0x26ff⟩, ⟨0x2ff0, 0x2fff⟩, ⟨0x3190, 0x319f⟩, ⟨0x31c0, 0x31ef⟩]
/-- UnicodeBlock.h:218-225. -/
def letterBlocks : List Block :=
  [⟨0x80, 0xff⟩, ⟨0x100, 0x17f⟩, ⟨0x180, 0x24f⟩, ⟨0x2150, 0x218f⟩, ⟨0x2460, 0x24ff⟩,
   ⟨0x2c60, 0x2c7f⟩, ⟨0xff00, 0xffef⟩]
/-- UnicodeBlock.h:229-230. -/
def nonSpacingBlocks : List Block := [⟨0xfe00, 0xfe0f⟩]

/-- `inRange(Code, const std::array&)` (UnicodeBlock.h:236-244). -/
def inRange (c : Nat) : List Block → Bool
  | [] => false
  | i :: t => if c < i.start then false else if i.contains c then true else inRange c t

/-- `inRange(Code, const std::array&, Ts&...)` (UnicodeBlock.h:249-253). -/
def inRanges (c : Nat) : List (List Block) → Bool
  | [] => false
  | t :: ts => inRange c t || inRanges c ts

/-- `isNonSpacing` (UnicodeBlock.h:256-259); `CombiningVoicedChar` and `CombiningSemiVoicedChar` are
at Utf8.h:149-150. -/
def isNonSpacing (c : Nat) : Bool := inRange c nonSpacingBlocks || c == 0x3099 || c == 0x309a

/-- `inWCharRange(const String&, bool sizeOne, T&...)` (UnicodeBlock.h:264-282);
`MaxMBSize` is 4 (Utf8.h:145). -/
def inWCharRange (s : Str) (sizeOne : Bool) (t : List (List Block)) : Bool :=
  if s.length > 1 then
    if sizeOne = false then
      match decodeN s 1 with
      | [a] => inRanges a t
      | _ => false
    else if s.length ≤ 4 * 2 then
      match decodeN s 3 with
      | [a] => inRanges a t
      | [a, b] => isNonSpacing b && inRanges a t
      | _ => false
    else false
  else false

/-- Loop of `inWCharRange(const String&, T&...)` (UnicodeBlock.h:288-295). -/
def allInRangeLoop (t : List (List Block)) : Bool → List Nat → Bool
  | _, [] => true
  | allowNonSpacing, i :: r =>
    if allowNonSpacing && isNonSpacing i then allInRangeLoop t false r
    else if inRanges i t then allInRangeLoop t true r
    else false

/-- `inWCharRange(const String&, T&...)` (UnicodeBlock.h:285-296). -/
def allInWCharRange (s : Str) (t : List (List Block)) : Bool := allInRangeLoop t false (decode s)

/-- `isKana` ... `isMBLetter` (UnicodeBlock.cpp:23-53). -/
def isKana (s : Str) (sizeOne : Bool := true) := inWCharRange s sizeOne [hiraganaBlocks, katakanaBlocks]
def isHiragana (s : Str) (sizeOne : Bool := true) := inWCharRange s sizeOne [hiraganaBlocks]
def isKatakana (s : Str) (sizeOne : Bool := true) := inWCharRange s sizeOne [katakanaBlocks]
def isKanji (s : Str) (sizeOne : Bool := true) :=
  inWCharRange s sizeOne [commonKanjiBlocks, rareKanjiBlocks]
def isCommonKanji (s : Str) (sizeOne : Bool := true) := inWCharRange s sizeOne [commonKanjiBlocks]
def isRareKanji (s : Str) (sizeOne : Bool := true) := inWCharRange s sizeOne [rareKanjiBlocks]
def isMBSymbol (s : Str) (sizeOne : Bool := true) := inWCharRange s sizeOne [symbolBlocks]
def isMBLetter (s : Str) (sizeOne : Bool := true) := inWCharRange s sizeOne [letterBlocks]

/-- The wide space `"　"` (UnicodeBlock.cpp:56). -/
def wideSpace : Str := u8!"　"

/-- `isMBPunctuation` (UnicodeBlock.cpp:55-58). -/
def isMBPunctuation (s : Str) (includeSpace : Bool := false) (sizeOne : Bool := true) : Bool :=
  if wideSpace.isPrefixOf s then includeSpace && (s.length < 4 || !sizeOne)
  else inWCharRange s sizeOne [punctuationBlocks]

/-- All block tables, in the order of UnicodeBlock.cpp:61-63. -/
def recognizedBlocks : List (List Block) :=
  [hiraganaBlocks, commonKanjiBlocks, rareKanjiBlocks, katakanaBlocks, punctuationBlocks,
   symbolBlocks, letterBlocks]

/-- `isRecognizedUtf8` (UnicodeBlock.cpp:60-64). -/
def isRecognizedUtf8 (s : Str) (sizeOne : Bool := true) := inWCharRange s sizeOne recognizedBlocks

/-- `isAll...` (UnicodeBlock.cpp:68-99). -/
def isAllKana (s : Str) := allInWCharRange s [hiraganaBlocks, katakanaBlocks]
def isAllHiragana (s : Str) := allInWCharRange s [hiraganaBlocks]
def isAllKatakana (s : Str) := allInWCharRange s [katakanaBlocks]
def isAllKanji (s : Str) := allInWCharRange s [commonKanjiBlocks, rareKanjiBlocks]
def isAllCommonKanji (s : Str) := allInWCharRange s [commonKanjiBlocks]
def isAllRareKanji (s : Str) := allInWCharRange s [rareKanjiBlocks]
def isAllMBSymbol (s : Str) := allInWCharRange s [symbolBlocks]
def isAllMBLetter (s : Str) := allInWCharRange s [letterBlocks]
def isAllMBPunctuation (s : Str) := allInWCharRange s [punctuationBlocks]
def isAllRecognizedUtf8 (s : Str) := allInWCharRange s recognizedBlocks

end KT
