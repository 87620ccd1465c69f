import Verif.Model.Basic
/-!
# The tables of libs/kana/src/Kana.cpp

Generated from the source text by `tools/gen_kana_table.py`, in source order.
-/
namespace KT

/-- Data members of class `Kana` (libs/kana/include/kt_kana/Kana.h:252-276); `variants` and
`kunreiVariant` are the two members of `_variants` (`RomajiVariants`, Kana.h:61-98). -/
structure KanaRec where
  romaji : Str
  hiragana : Str
  katakana : Str
  hepburn : Option Str
  kunrei : Option Str
  variants : List Str
  kunreiVariant : Bool
  deriving DecidableEq, Repr

/-- `Kana` constructor with three arguments (Kana.cpp:379-381). -/
def KanaRec.mk0 (r h k : Str) : KanaRec := ⟨r, h, k, none, none, [], false⟩
/-- `Kana` constructor with Hepburn and Kunrei values (Kana.cpp:383-395). -/
def KanaRec.mk2 (r h k hep kun : Str) : KanaRec := ⟨r, h, k, some hep, some kun, [], false⟩
/-- `Kana` constructor with variants (Kana.cpp:397-400). -/
def KanaRec.mkV (r h k : Str) (v : List Str) (kun : Bool) : KanaRec := ⟨r, h, k, none, none, v, kun⟩

open KanaRec

/-- `KanaList` (Kana.cpp:20-70). -/
def kanaList : List KanaRec := [
  mk0 (u8!"a") (u8!"あ") (u8!"ア"),
  mk0 (u8!"na") (u8!"な") (u8!"ナ"),
  mk0 (u8!"ma") (u8!"ま") (u8!"マ"),
  mk0 (u8!"ya") (u8!"や") (u8!"ヤ"),
  mk0 (u8!"ra") (u8!"ら") (u8!"ラ"),
  mk0 (u8!"wa") (u8!"わ") (u8!"ワ"),
  mk0 (u8!"qwa") (u8!"くゎ") (u8!"クヮ"),
  mk0 (u8!"swa") (u8!"すぁ") (u8!"スァ"),
  mk0 (u8!"tsa") (u8!"つぁ") (u8!"ツァ"),
  mk0 (u8!"nya") (u8!"にゃ") (u8!"ニャ"),
  mkV (u8!"fa") (u8!"ふぁ") (u8!"ファ") [u8!"fwa", u8!"hwa"] false,
  mk0 (u8!"fya") (u8!"ふゃ") (u8!"フャ"),
  mk0 (u8!"mya") (u8!"みゃ") (u8!"ミャ"),
  mk0 (u8!"rya") (u8!"りゃ") (u8!"リャ"),
  mk0 (u8!"i") (u8!"い") (u8!"イ"),
  mk0 (u8!"ni") (u8!"に") (u8!"ニ"),
  mk0 (u8!"mi") (u8!"み") (u8!"ミ"),
  mk0 (u8!"ri") (u8!"り") (u8!"リ"),
  mk2 (u8!"wyi") (u8!"ゐ") (u8!"ヰ") (u8!"i") (u8!"i"),
  mk0 (u8!"swi") (u8!"すぃ") (u8!"スィ"),
  mk0 (u8!"tsi") (u8!"つぃ") (u8!"ツィ"),
  mk0 (u8!"nyi") (u8!"にぃ") (u8!"ニィ"),
  mkV (u8!"fi") (u8!"ふぃ") (u8!"フィ") [u8!"fyi", u8!"fwi", u8!"hwi"] false,
  mk0 (u8!"myi") (u8!"みぃ") (u8!"ミィ"),
  mk0 (u8!"ryi") (u8!"りぃ") (u8!"リィ"),
  mk0 (u8!"nu") (u8!"ぬ") (u8!"ヌ"),
  mk0 (u8!"mu") (u8!"む") (u8!"ム"),
  mk0 (u8!"yu") (u8!"ゆ") (u8!"ユ"),
  mk0 (u8!"ru") (u8!"る") (u8!"ル"),
  mk0 (u8!"swu") (u8!"すぅ") (u8!"スゥ"),
  mk0 (u8!"nyu") (u8!"にゅ") (u8!"ニュ"),
  mk0 (u8!"fwu") (u8!"ふぅ") (u8!"フゥ"),
  mk0 (u8!"fyu") (u8!"ふゅ") (u8!"フュ"),
  mk0 (u8!"myu") (u8!"みゅ") (u8!"ミュ"),
  mk0 (u8!"ryu") (u8!"りゅ") (u8!"リュ"),
  mk0 (u8!"e") (u8!"え") (u8!"エ"),
  mk0 (u8!"ne") (u8!"ね") (u8!"ネ"),
  mk0 (u8!"me") (u8!"め") (u8!"メ"),
  mk0 (u8!"re") (u8!"れ") (u8!"レ"),
  mk2 (u8!"wye") (u8!"ゑ") (u8!"ヱ") (u8!"e") (u8!"e"),
  mk0 (u8!"ye") (u8!"いぇ") (u8!"イェ"),
  mk0 (u8!"swe") (u8!"すぇ") (u8!"スェ"),
  mk0 (u8!"tse") (u8!"つぇ") (u8!"ツェ"),
  mk0 (u8!"nye") (u8!"にぇ") (u8!"ニェ"),
  mkV (u8!"fe") (u8!"ふぇ") (u8!"フェ") [u8!"fye", u8!"fwe", u8!"hwe"] false,
  mk0 (u8!"mye") (u8!"みぇ") (u8!"ミェ"),
  mk0 (u8!"rye") (u8!"りぇ") (u8!"リェ"),
  mk0 (u8!"o") (u8!"お") (u8!"オ"),
  mk0 (u8!"no") (u8!"の") (u8!"ノ"),
  mk0 (u8!"mo") (u8!"も") (u8!"モ"),
  mk0 (u8!"yo") (u8!"よ") (u8!"ヨ"),
  mk0 (u8!"ro") (u8!"ろ") (u8!"ロ"),
  mk2 (u8!"wo") (u8!"を") (u8!"ヲ") (u8!"o") (u8!"o"),
  mk0 (u8!"swo") (u8!"すぉ") (u8!"スォ"),
  mk0 (u8!"tso") (u8!"つぉ") (u8!"ツォ"),
  mk0 (u8!"nyo") (u8!"にょ") (u8!"ニョ"),
  mkV (u8!"fo") (u8!"ふぉ") (u8!"フォ") [u8!"fwo", u8!"hwo"] false,
  mk0 (u8!"fyo") (u8!"ふょ") (u8!"フョ"),
  mk0 (u8!"myo") (u8!"みょ") (u8!"ミョ"),
  mk0 (u8!"ryo") (u8!"りょ") (u8!"リョ"),
  mk0 (u8!"va") (u8!"ゔぁ") (u8!"ヴァ"),
  mk0 (u8!"vo") (u8!"ゔぉ") (u8!"ヴォ"),
  mk0 (u8!"vya") (u8!"ゔゃ") (u8!"ヴャ"),
  mk0 (u8!"vyu") (u8!"ゔゅ") (u8!"ヴュ"),
  mk0 (u8!"vyo") (u8!"ゔょ") (u8!"ヴョ"),
  mkV (u8!"la") (u8!"ぁ") (u8!"ァ") [u8!"xa"] false,
  mkV (u8!"li") (u8!"ぃ") (u8!"ィ") [u8!"xi"] false,
  mkV (u8!"lu") (u8!"ぅ") (u8!"ゥ") [u8!"xu"] false,
  mkV (u8!"le") (u8!"ぇ") (u8!"ェ") [u8!"xe", u8!"lye", u8!"xye"] false,
  mkV (u8!"lo") (u8!"ぉ") (u8!"ォ") [u8!"xo"] false,
  mkV (u8!"lka") (u8!"ゕ") (u8!"ヵ") [u8!"xka"] false,
  mkV (u8!"lke") (u8!"ゖ") (u8!"ヶ") [u8!"xke"] false,
  mkV (u8!"lya") (u8!"ゃ") (u8!"ャ") [u8!"xya"] false,
  mkV (u8!"lyu") (u8!"ゅ") (u8!"ュ") [u8!"xyu"] false,
  mkV (u8!"lyo") (u8!"ょ") (u8!"ョ") [u8!"xyo"] false,
  mkV (u8!"lwa") (u8!"ゎ") (u8!"ヮ") [u8!"xwa"] false,
  mkV (u8!"ltu") (u8!"っ") (u8!"ッ") [u8!"xtu"] false,
  mk0 (u8!"n") (u8!"ん") (u8!"ン")]

/-- `DakutenKanaList` (Kana.cpp:74-137): plain and voiced. -/
def dakutenKanaList : List (KanaRec × KanaRec) := [
  (mk0 (u8!"ka") (u8!"か") (u8!"カ"), mk0 (u8!"ga") (u8!"が") (u8!"ガ")),
  (mk0 (u8!"sa") (u8!"さ") (u8!"サ"), mk0 (u8!"za") (u8!"ざ") (u8!"ザ")),
  (mk0 (u8!"ta") (u8!"た") (u8!"タ"), mk0 (u8!"da") (u8!"だ") (u8!"ダ")),
  (mk0 (u8!"kya") (u8!"きゃ") (u8!"キャ"), mk0 (u8!"gya") (u8!"ぎゃ") (u8!"ギャ")),
  (mkV (u8!"qa") (u8!"くぁ") (u8!"クァ") [u8!"kwa"] false, mk0 (u8!"gwa") (u8!"ぐぁ") (u8!"グァ")),
  (mkV (u8!"sha") (u8!"しゃ") (u8!"シャ") [u8!"sya"] true, mkV (u8!"ja") (u8!"じゃ") (u8!"ジャ") [u8!"zya", u8!"jya"] true),
  (mkV (u8!"cha") (u8!"ちゃ") (u8!"チャ") [u8!"tya"] true, mk2 (u8!"dya") (u8!"ぢゃ") (u8!"ヂャ") (u8!"ja") (u8!"zya")),
  (mk0 (u8!"tha") (u8!"てゃ") (u8!"テャ"), mk0 (u8!"dha") (u8!"でゃ") (u8!"デャ")),
  (mk0 (u8!"twa") (u8!"とぁ") (u8!"トァ"), mk0 (u8!"dwa") (u8!"どぁ") (u8!"ドァ")),
  (mk0 (u8!"ki") (u8!"き") (u8!"キ"), mk0 (u8!"gi") (u8!"ぎ") (u8!"ギ")),
  (mkV (u8!"shi") (u8!"し") (u8!"シ") [u8!"si"] true, mkV (u8!"ji") (u8!"じ") (u8!"ジ") [u8!"zi"] true),
  (mkV (u8!"chi") (u8!"ち") (u8!"チ") [u8!"ti"] true, mk2 (u8!"di") (u8!"ぢ") (u8!"ヂ") (u8!"ji") (u8!"zi")),
  (mk0 (u8!"wi") (u8!"うぃ") (u8!"ウィ"), mk0 (u8!"vi") (u8!"ゔぃ") (u8!"ヴィ")),
  (mkV (u8!"qi") (u8!"くぃ") (u8!"クィ") [u8!"kwi", u8!"qwi"] false, mk0 (u8!"gwi") (u8!"ぐぃ") (u8!"グィ")),
  (mk0 (u8!"kyi") (u8!"きぃ") (u8!"キィ"), mk0 (u8!"gyi") (u8!"ぎぃ") (u8!"ギィ")),
  (mk0 (u8!"syi") (u8!"しぃ") (u8!"シィ"), mkV (u8!"jyi") (u8!"じぃ") (u8!"ジィ") [u8!"zyi"] false),
  (mk0 (u8!"tyi") (u8!"ちぃ") (u8!"チィ"), mk0 (u8!"dyi") (u8!"ぢぃ") (u8!"ヂィ")),
  (mk0 (u8!"twi") (u8!"とぃ") (u8!"トィ"), mk0 (u8!"dwi") (u8!"どぃ") (u8!"ドィ")),
  (mk0 (u8!"thi") (u8!"てぃ") (u8!"ティ"), mk0 (u8!"dhi") (u8!"でぃ") (u8!"ディ")),
  (mkV (u8!"u") (u8!"う") (u8!"ウ") [u8!"wu"] false, mk0 (u8!"vu") (u8!"ゔ") (u8!"ヴ")),
  (mk0 (u8!"ku") (u8!"く") (u8!"ク"), mk0 (u8!"gu") (u8!"ぐ") (u8!"グ")),
  (mk0 (u8!"su") (u8!"す") (u8!"ス"), mk0 (u8!"zu") (u8!"ず") (u8!"ズ")),
  (mkV (u8!"tsu") (u8!"つ") (u8!"ツ") [u8!"tu"] true, mk2 (u8!"du") (u8!"づ") (u8!"ヅ") (u8!"zu") (u8!"zu")),
  (mk0 (u8!"kyu") (u8!"きゅ") (u8!"キュ"), mk0 (u8!"gyu") (u8!"ぎゅ") (u8!"ギュ")),
  (mkV (u8!"qu") (u8!"くぅ") (u8!"クゥ") [u8!"kwu", u8!"qwu"] false, mk0 (u8!"gwu") (u8!"ぐぅ") (u8!"グゥ")),
  (mkV (u8!"shu") (u8!"しゅ") (u8!"シュ") [u8!"syu"] true, mkV (u8!"ju") (u8!"じゅ") (u8!"ジュ") [u8!"zyu", u8!"jyu"] true),
  (mkV (u8!"chu") (u8!"ちゅ") (u8!"チュ") [u8!"tyu"] true, mk2 (u8!"dyu") (u8!"ぢゅ") (u8!"ヂュ") (u8!"ju") (u8!"zyu")),
  (mk0 (u8!"thu") (u8!"てゅ") (u8!"テュ"), mk0 (u8!"dhu") (u8!"でゅ") (u8!"デュ")),
  (mk0 (u8!"twu") (u8!"とぅ") (u8!"トゥ"), mk0 (u8!"dwu") (u8!"どぅ") (u8!"ドゥ")),
  (mk0 (u8!"ke") (u8!"け") (u8!"ケ"), mk0 (u8!"ge") (u8!"げ") (u8!"ゲ")),
  (mk0 (u8!"kye") (u8!"きぇ") (u8!"キェ"), mk0 (u8!"gye") (u8!"ぎぇ") (u8!"ギェ")),
  (mk0 (u8!"se") (u8!"せ") (u8!"セ"), mk0 (u8!"ze") (u8!"ぜ") (u8!"ゼ")),
  (mk0 (u8!"te") (u8!"て") (u8!"テ"), mk0 (u8!"de") (u8!"で") (u8!"デ")),
  (mk0 (u8!"we") (u8!"うぇ") (u8!"ウェ"), mk0 (u8!"ve") (u8!"ゔぇ") (u8!"ヴェ")),
  (mkV (u8!"qe") (u8!"くぇ") (u8!"クェ") [u8!"kwe", u8!"qwe"] false, mk0 (u8!"gwe") (u8!"ぐぇ") (u8!"グェ")),
  (mk0 (u8!"she") (u8!"しぇ") (u8!"シェ"), mkV (u8!"je") (u8!"じぇ") (u8!"ジェ") [u8!"zye", u8!"jye"] false),
  (mkV (u8!"che") (u8!"ちぇ") (u8!"チェ") [u8!"tye"] false, mk0 (u8!"dye") (u8!"ぢぇ") (u8!"ヂェ")),
  (mk0 (u8!"the") (u8!"てぇ") (u8!"テェ"), mk0 (u8!"dhe") (u8!"でぇ") (u8!"デェ")),
  (mk0 (u8!"twe") (u8!"とぇ") (u8!"トェ"), mk0 (u8!"dwe") (u8!"どぇ") (u8!"ドェ")),
  (mk0 (u8!"ko") (u8!"こ") (u8!"コ"), mk0 (u8!"go") (u8!"ご") (u8!"ゴ")),
  (mk0 (u8!"so") (u8!"そ") (u8!"ソ"), mk0 (u8!"zo") (u8!"ぞ") (u8!"ゾ")),
  (mk0 (u8!"to") (u8!"と") (u8!"ト"), mk0 (u8!"do") (u8!"ど") (u8!"ド")),
  (mk0 (u8!"kyo") (u8!"きょ") (u8!"キョ"), mk0 (u8!"gyo") (u8!"ぎょ") (u8!"ギョ")),
  (mkV (u8!"qo") (u8!"くぉ") (u8!"クォ") [u8!"kwo", u8!"qwo"] false, mk0 (u8!"gwo") (u8!"ぐぉ") (u8!"グォ")),
  (mkV (u8!"sho") (u8!"しょ") (u8!"ショ") [u8!"syo"] true, mkV (u8!"jo") (u8!"じょ") (u8!"ジョ") [u8!"zyo", u8!"jyo"] true),
  (mkV (u8!"cho") (u8!"ちょ") (u8!"チョ") [u8!"tyo"] true, mk2 (u8!"dyo") (u8!"ぢょ") (u8!"ヂョ") (u8!"jo") (u8!"zyo")),
  (mk0 (u8!"tho") (u8!"てょ") (u8!"テョ"), mk0 (u8!"dho") (u8!"でょ") (u8!"デョ")),
  (mk0 (u8!"two") (u8!"とぉ") (u8!"トォ"), mk0 (u8!"dwo") (u8!"どぉ") (u8!"ドォ"))]

/-- `HanDakutenKanaList` (Kana.cpp:142-159): plain, voiced and semi-voiced. -/
def hanDakutenKanaList : List (KanaRec × KanaRec × KanaRec) := [
  (mk0 (u8!"ha") (u8!"は") (u8!"ハ"), mk0 (u8!"ba") (u8!"ば") (u8!"バ"),
    mk0 (u8!"pa") (u8!"ぱ") (u8!"パ")),
  (mk0 (u8!"hi") (u8!"ひ") (u8!"ヒ"), mk0 (u8!"bi") (u8!"び") (u8!"ビ"),
    mk0 (u8!"pi") (u8!"ぴ") (u8!"ピ")),
  (mkV (u8!"fu") (u8!"ふ") (u8!"フ") [u8!"hu"] true, mk0 (u8!"bu") (u8!"ぶ") (u8!"ブ"),
    mk0 (u8!"pu") (u8!"ぷ") (u8!"プ")),
  (mk0 (u8!"he") (u8!"へ") (u8!"ヘ"), mk0 (u8!"be") (u8!"べ") (u8!"ベ"),
    mk0 (u8!"pe") (u8!"ぺ") (u8!"ペ")),
  (mk0 (u8!"ho") (u8!"ほ") (u8!"ホ"), mk0 (u8!"bo") (u8!"ぼ") (u8!"ボ"),
    mk0 (u8!"po") (u8!"ぽ") (u8!"ポ")),
  (mk0 (u8!"hya") (u8!"ひゃ") (u8!"ヒャ"), mk0 (u8!"bya") (u8!"びゃ") (u8!"ビャ"),
    mk0 (u8!"pya") (u8!"ぴゃ") (u8!"ピャ")),
  (mk0 (u8!"hyi") (u8!"ひぃ") (u8!"ヒィ"), mk0 (u8!"byi") (u8!"びぃ") (u8!"ビィ"),
    mk0 (u8!"pyi") (u8!"ぴぃ") (u8!"ピィ")),
  (mk0 (u8!"hyu") (u8!"ひゅ") (u8!"ヒュ"), mk0 (u8!"byu") (u8!"びゅ") (u8!"ビュ"),
    mk0 (u8!"pyu") (u8!"ぴゅ") (u8!"ピュ")),
  (mk0 (u8!"hye") (u8!"ひぇ") (u8!"ヒェ"), mk0 (u8!"bye") (u8!"びぇ") (u8!"ビェ"),
    mk0 (u8!"pye") (u8!"ぴぇ") (u8!"ピェ")),
  (mk0 (u8!"hyo") (u8!"ひょ") (u8!"ヒョ"), mk0 (u8!"byo") (u8!"びょ") (u8!"ビョ"),
    mk0 (u8!"pyo") (u8!"ぴょ") (u8!"ピョ"))]

end KT
