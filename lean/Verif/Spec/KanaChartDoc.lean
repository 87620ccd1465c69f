import Verif.Model.Basic
/-!
# The documented Kana chart

The text of /repo/docs/KanaConversionChart.md from the table on (lines 20-236), copied line by line.
-/
namespace Spec
open KT

def chartPart1 : List Str := [
  u8!"| No. | Type | Roma | Hira | Kata | HUni | KUni | Hepb | Kunr | Roma Variants |",
  u8!"| --- | --- | --- | --- | --- | --- | --- | --- | --- | --- |",
  u8!"| **1** | **P** | **la** | **ぁ** | **ァ** | **3041** | **30A1** |  |  | **xa** |",
  u8!"| 2 | P | a | あ | ア | 3042 | 30A2 |  |  |  |",
  u8!"| 3 | P | li | ぃ | ィ | 3043 | 30A3 |  |  | xi |",
  u8!"| 4 | P | i | い | イ | 3044 | 30A4 |  |  |  |",
  u8!"| 5 | P | ye | いぇ | イェ |  |  |  |  |  |",
  u8!"| 6 | P | lu | ぅ | ゥ | 3045 | 30A5 |  |  | xu |",
  u8!"| 7 | P | u | う | ウ | 3046 | 30A6 |  |  | wu |",
  u8!"| 8 | P | wi | うぃ | ウィ |  |  |  |  |  |",
  u8!"| 9 | P | we | うぇ | ウェ |  |  |  |  |  |",
  u8!"| 10 | P | le | ぇ | ェ | 3047 | 30A7 |  |  | xe, lye, xye |",
  u8!"| 11 | P | e | え | エ | 3048 | 30A8 |  |  |  |",
  u8!"| 12 | P | lo | ぉ | ォ | 3049 | 30A9 |  |  | xo |",
  u8!"| 13 | P | o | お | オ | 304A | 30AA |  |  |  |",
  u8!"| **14** | **P** | **ka** | **か** | **カ** | **304B** | **30AB** |  |  |  |",
  u8!"| 15 | D | ga | が | ガ | 304C | 30AC |  |  |  |",
  u8!"| 16 | P | ki | き | キ | 304D | 30AD |  |  |  |",
  u8!"| 17 | P | kyi | きぃ | キィ |  |  |  |  |  |",
  u8!"| 18 | P | kye | きぇ | キェ |  |  |  |  |  |",
  u8!"| 19 | P | kya | きゃ | キャ |  |  |  |  |  |",
  u8!"| 20 | P | kyu | きゅ | キュ |  |  |  |  |  |",
  u8!"| 21 | P | kyo | きょ | キョ |  |  |  |  |  |",
  u8!"| 22 | D | gi | ぎ | ギ | 304E | 30AE |  |  |  |",
  u8!"| 23 | D | gyi | ぎぃ | ギィ |  |  |  |  |  |",
  u8!"| 24 | D | gye | ぎぇ | ギェ |  |  |  |  |  |",
  u8!"| 25 | D | gya | ぎゃ | ギャ |  |  |  |  |  |",
  u8!"| 26 | D | gyu | ぎゅ | ギュ |  |  |  |  |  |",
  u8!"| 27 | D | gyo | ぎょ | ギョ |  |  |  |  |  |",
  u8!"| 28 | P | ku | く | ク | 304F | 30AF |  |  |  |",
  u8!"| 29 | P | qa | くぁ | クァ |  |  |  |  | kwa |",
  u8!"| 30 | P | qi | くぃ | クィ |  |  |  |  | kwi, qwi |",
  u8!"| 31 | P | qu | くぅ | クゥ |  |  |  |  | kwu, qwu |",
  u8!"| 32 | P | qe | くぇ | クェ |  |  |  |  | kwe, qwe |",
  u8!"| 33 | P | qo | くぉ | クォ |  |  |  |  | kwo, qwo |",
  u8!"| 34 | P | qwa | くゎ | クヮ |  |  |  |  |  |",
  u8!"| 35 | D | gu | ぐ | グ | 3050 | 30B0 |  |  |  |",
  u8!"| 36 | D | gwa | ぐぁ | グァ |  |  |  |  |  |",
  u8!"| 37 | D | gwi | ぐぃ | グィ |  |  |  |  |  |",
  u8!"| 38 | D | gwu | ぐぅ | グゥ |  |  |  |  |  |"]

def chartPart2 : List Str := [
  u8!"| 39 | D | gwe | ぐぇ | グェ |  |  |  |  |  |",
  u8!"| 40 | D | gwo | ぐぉ | グォ |  |  |  |  |  |",
  u8!"| 41 | P | ke | け | ケ | 3051 | 30B1 |  |  |  |",
  u8!"| 42 | D | ge | げ | ゲ | 3052 | 30B2 |  |  |  |",
  u8!"| 43 | P | ko | こ | コ | 3053 | 30B3 |  |  |  |",
  u8!"| 44 | D | go | ご | ゴ | 3054 | 30B4 |  |  |  |",
  u8!"| **45** | **P** | **sa** | **さ** | **サ** | **3055** | **30B5** |  |  |  |",
  u8!"| 46 | D | za | ざ | ザ | 3056 | 30B6 |  |  |  |",
  u8!"| 47 | P | shi | し | シ | 3057 | 30B7 |  | si | si |",
  u8!"| 48 | P | syi | しぃ | シィ |  |  |  |  |  |",
  u8!"| 49 | P | she | しぇ | シェ |  |  |  |  |  |",
  u8!"| 50 | P | sha | しゃ | シャ |  |  |  | sya | sya |",
  u8!"| 51 | P | shu | しゅ | シュ |  |  |  | syu | syu |",
  u8!"| 52 | P | sho | しょ | ショ |  |  |  | syo | syo |",
  u8!"| 53 | D | ji | じ | ジ | 3058 | 30B8 |  | zi | zi |",
  u8!"| 54 | D | jyi | じぃ | ジィ |  |  |  |  | zyi |",
  u8!"| 55 | D | je | じぇ | ジェ |  |  |  |  | zye, jye |",
  u8!"| 56 | D | ja | じゃ | ジャ |  |  |  | zya | zya, jya |",
  u8!"| 57 | D | ju | じゅ | ジュ |  |  |  | zyu | zyu, jyu |",
  u8!"| 58 | D | jo | じょ | ジョ |  |  |  | zyo | zyo, jyo |",
  u8!"| 59 | P | su | す | ス | 3059 | 30B9 |  |  |  |",
  u8!"| 60 | P | swa | すぁ | スァ |  |  |  |  |  |",
  u8!"| 61 | P | swi | すぃ | スィ |  |  |  |  |  |",
  u8!"| 62 | P | swu | すぅ | スゥ |  |  |  |  |  |",
  u8!"| 63 | P | swe | すぇ | スェ |  |  |  |  |  |",
  u8!"| 64 | P | swo | すぉ | スォ |  |  |  |  |  |",
  u8!"| 65 | D | zu | ず | ズ | 305A | 30BA |  |  |  |",
  u8!"| 66 | P | se | せ | セ | 305B | 30BB |  |  |  |",
  u8!"| 67 | D | ze | ぜ | ゼ | 305C | 30BC |  |  |  |",
  u8!"| 68 | P | so | そ | ソ | 305D | 30BD |  |  |  |",
  u8!"| 69 | D | zo | ぞ | ゾ | 305E | 30BE |  |  |  |",
  u8!"| **70** | **P** | **ta** | **た** | **タ** | **305F** | **30BF** |  |  |  |",
  u8!"| 71 | D | da | だ | ダ | 3060 | 30C0 |  |  |  |",
  u8!"| 72 | P | chi | ち | チ | 3061 | 30C1 |  | ti | ti |",
  u8!"| 73 | P | tyi | ちぃ | チィ |  |  |  |  |  |",
  u8!"| 74 | P | che | ちぇ | チェ |  |  |  |  | tye |",
  u8!"| 75 | P | cha | ちゃ | チャ |  |  |  | tya | tya |",
  u8!"| 76 | P | chu | ちゅ | チュ |  |  |  | tyu | tyu |",
  u8!"| 77 | P | cho | ちょ | チョ |  |  |  | tyo | tyo |",
  u8!"| 78 | D | di | ぢ | ヂ | 3062 | 30C2 | (ji) | (zi) |  |"]

def chartPart3 : List Str := [
  u8!"| 79 | D | dyi | ぢぃ | ヂィ |  |  |  |  |  |",
  u8!"| 80 | D | dye | ぢぇ | ヂェ |  |  |  |  |  |",
  u8!"| 81 | D | dya | ぢゃ | ヂャ |  |  | (ja) | (zya) |  |",
  u8!"| 82 | D | dyu | ぢゅ | ヂュ |  |  | (ju) | (zyu) |  |",
  u8!"| 83 | D | dyo | ぢょ | ヂョ |  |  | (jo) | (zyo) |  |",
  u8!"| 84 | P | ltu | っ | ッ | 3063 | 30C3 |  |  | xtu |",
  u8!"| 85 | P | tsu | つ | ツ | 3064 | 30C4 |  | tu | tu |",
  u8!"| 86 | P | tsa | つぁ | ツァ |  |  |  |  |  |",
  u8!"| 87 | P | tsi | つぃ | ツィ |  |  |  |  |  |",
  u8!"| 88 | P | tse | つぇ | ツェ |  |  |  |  |  |",
  u8!"| 89 | P | tso | つぉ | ツォ |  |  |  |  |  |",
  u8!"| 90 | D | du | づ | ヅ | 3065 | 30C5 | (zu) | (zu) |  |",
  u8!"| 91 | P | te | て | テ | 3066 | 30C6 |  |  |  |",
  u8!"| 92 | P | thi | てぃ | ティ |  |  |  |  |  |",
  u8!"| 93 | P | the | てぇ | テェ |  |  |  |  |  |",
  u8!"| 94 | P | tha | てゃ | テャ |  |  |  |  |  |",
  u8!"| 95 | P | thu | てゅ | テュ |  |  |  |  |  |",
  u8!"| 96 | P | tho | てょ | テョ |  |  |  |  |  |",
  u8!"| 97 | D | de | で | デ | 3067 | 30C7 |  |  |  |",
  u8!"| 98 | D | dhi | でぃ | ディ |  |  |  |  |  |",
  u8!"| 99 | D | dhe | でぇ | デェ |  |  |  |  |  |",
  u8!"| 100 | D | dha | でゃ | デャ |  |  |  |  |  |",
  u8!"| 101 | D | dhu | でゅ | デュ |  |  |  |  |  |",
  u8!"| 102 | D | dho | でょ | デョ |  |  |  |  |  |",
  u8!"| 103 | P | to | と | ト | 3068 | 30C8 |  |  |  |",
  u8!"| 104 | P | twa | とぁ | トァ |  |  |  |  |  |",
  u8!"| 105 | P | twi | とぃ | トィ |  |  |  |  |  |",
  u8!"| 106 | P | twu | とぅ | トゥ |  |  |  |  |  |",
  u8!"| 107 | P | twe | とぇ | トェ |  |  |  |  |  |",
  u8!"| 108 | P | two | とぉ | トォ |  |  |  |  |  |",
  u8!"| 109 | D | do | ど | ド | 3069 | 30C9 |  |  |  |",
  u8!"| 110 | D | dwa | どぁ | ドァ |  |  |  |  |  |",
  u8!"| 111 | D | dwi | どぃ | ドィ |  |  |  |  |  |",
  u8!"| 112 | D | dwu | どぅ | ドゥ |  |  |  |  |  |",
  u8!"| 113 | D | dwe | どぇ | ドェ |  |  |  |  |  |",
  u8!"| 114 | D | dwo | どぉ | ドォ |  |  |  |  |  |",
  u8!"| **115** | **P** | **na** | **な** | **ナ** | **306A** | **30CA** |  |  |  |",
  u8!"| 116 | P | ni | に | ニ | 306B | 30CB |  |  |  |",
  u8!"| 117 | P | nyi | にぃ | ニィ |  |  |  |  |  |",
  u8!"| 118 | P | nye | にぇ | ニェ |  |  |  |  |  |"]

def chartPart4 : List Str := [
  u8!"| 119 | P | nya | にゃ | ニャ |  |  |  |  |  |",
  u8!"| 120 | P | nyu | にゅ | ニュ |  |  |  |  |  |",
  u8!"| 121 | P | nyo | にょ | ニョ |  |  |  |  |  |",
  u8!"| 122 | P | nu | ぬ | ヌ | 306C | 30CC |  |  |  |",
  u8!"| 123 | P | ne | ね | ネ | 306D | 30CD |  |  |  |",
  u8!"| 124 | P | no | の | ノ | 306E | 30CE |  |  |  |",
  u8!"| **125** | **P** | **ha** | **は** | **ハ** | **306F** | **30CF** |  |  |  |",
  u8!"| 126 | D | ba | ば | バ | 3070 | 30D0 |  |  |  |",
  u8!"| 127 | H | pa | ぱ | パ | 3071 | 30D1 |  |  |  |",
  u8!"| 128 | P | hi | ひ | ヒ | 3072 | 30D2 |  |  |  |",
  u8!"| 129 | P | hyi | ひぃ | ヒィ |  |  |  |  |  |",
  u8!"| 130 | P | hye | ひぇ | ヒェ |  |  |  |  |  |",
  u8!"| 131 | P | hya | ひゃ | ヒャ |  |  |  |  |  |",
  u8!"| 132 | P | hyu | ひゅ | ヒュ |  |  |  |  |  |",
  u8!"| 133 | P | hyo | ひょ | ヒョ |  |  |  |  |  |",
  u8!"| 134 | D | bi | び | ビ | 3073 | 30D3 |  |  |  |",
  u8!"| 135 | D | byi | びぃ | ビィ |  |  |  |  |  |",
  u8!"| 136 | D | bye | びぇ | ビェ |  |  |  |  |  |",
  u8!"| 137 | D | bya | びゃ | ビャ |  |  |  |  |  |",
  u8!"| 138 | D | byu | びゅ | ビュ |  |  |  |  |  |",
  u8!"| 139 | D | byo | びょ | ビョ |  |  |  |  |  |",
  u8!"| 140 | H | pi | ぴ | ピ | 3074 | 30D4 |  |  |  |",
  u8!"| 141 | H | pyi | ぴぃ | ピィ |  |  |  |  |  |",
  u8!"| 142 | H | pye | ぴぇ | ピェ |  |  |  |  |  |",
  u8!"| 143 | H | pya | ぴゃ | ピャ |  |  |  |  |  |",
  u8!"| 144 | H | pyu | ぴゅ | ピュ |  |  |  |  |  |",
  u8!"| 145 | H | pyo | ぴょ | ピョ |  |  |  |  |  |",
  u8!"| 146 | P | fu | ふ | フ | 3075 | 30D5 |  | hu | hu |",
  u8!"| 147 | P | fa | ふぁ | ファ |  |  |  |  | fwa, hwa |",
  u8!"| 148 | P | fi | ふぃ | フィ |  |  |  |  | fyi, fwi, hwi |",
  u8!"| 149 | P | fwu | ふぅ | フゥ |  |  |  |  |  |",
  u8!"| 150 | P | fe | ふぇ | フェ |  |  |  |  | fye, fwe, hwe |",
  u8!"| 151 | P | fo | ふぉ | フォ |  |  |  |  | fwo, hwo |",
  u8!"| 152 | P | fya | ふゃ | フャ |  |  |  |  |  |",
  u8!"| 153 | P | fyu | ふゅ | フュ |  |  |  |  |  |",
  u8!"| 154 | P | fyo | ふょ | フョ |  |  |  |  |  |",
  u8!"| 155 | D | bu | ぶ | ブ | 3076 | 30D6 |  |  |  |",
  u8!"| 156 | H | pu | ぷ | プ | 3077 | 30D7 |  |  |  |",
  u8!"| 157 | P | he | へ | ヘ | 3078 | 30D8 |  |  |  |",
  u8!"| 158 | D | be | べ | ベ | 3079 | 30D9 |  |  |  |"]

def chartPart5 : List Str := [
  u8!"| 159 | H | pe | ぺ | ペ | 307A | 30DA |  |  |  |",
  u8!"| 160 | P | ho | ほ | ホ | 307B | 30DB |  |  |  |",
  u8!"| 161 | D | bo | ぼ | ボ | 307C | 30DC |  |  |  |",
  u8!"| 162 | H | po | ぽ | ポ | 307D | 30DD |  |  |  |",
  u8!"| **163** | **P** | **ma** | **ま** | **マ** | **307E** | **30DE** |  |  |  |",
  u8!"| 164 | P | mi | み | ミ | 307F | 30DF |  |  |  |",
  u8!"| 165 | P | myi | みぃ | ミィ |  |  |  |  |  |",
  u8!"| 166 | P | mye | みぇ | ミェ |  |  |  |  |  |",
  u8!"| 167 | P | mya | みゃ | ミャ |  |  |  |  |  |",
  u8!"| 168 | P | myu | みゅ | ミュ |  |  |  |  |  |",
  u8!"| 169 | P | myo | みょ | ミョ |  |  |  |  |  |",
  u8!"| 170 | P | mu | む | ム | 3080 | 30E0 |  |  |  |",
  u8!"| 171 | P | me | め | メ | 3081 | 30E1 |  |  |  |",
  u8!"| 172 | P | mo | も | モ | 3082 | 30E2 |  |  |  |",
  u8!"| **173** | **P** | **lya** | **ゃ** | **ャ** | **3083** | **30E3** |  |  | **xya** |",
  u8!"| 174 | P | ya | や | ヤ | 3084 | 30E4 |  |  |  |",
  u8!"| 175 | P | lyu | ゅ | ュ | 3085 | 30E5 |  |  | xyu |",
  u8!"| 176 | P | yu | ゆ | ユ | 3086 | 30E6 |  |  |  |",
  u8!"| 177 | P | lyo | ょ | ョ | 3087 | 30E7 |  |  | xyo |",
  u8!"| 178 | P | yo | よ | ヨ | 3088 | 30E8 |  |  |  |",
  u8!"| **179** | **P** | **ra** | **ら** | **ラ** | **3089** | **30E9** |  |  |  |",
  u8!"| 180 | P | ri | り | リ | 308A | 30EA |  |  |  |",
  u8!"| 181 | P | ryi | りぃ | リィ |  |  |  |  |  |",
  u8!"| 182 | P | rye | りぇ | リェ |  |  |  |  |  |",
  u8!"| 183 | P | rya | りゃ | リャ |  |  |  |  |  |",
  u8!"| 184 | P | ryu | りゅ | リュ |  |  |  |  |  |",
  u8!"| 185 | P | ryo | りょ | リョ |  |  |  |  |  |",
  u8!"| 186 | P | ru | る | ル | 308B | 30EB |  |  |  |",
  u8!"| 187 | P | re | れ | レ | 308C | 30EC |  |  |  |",
  u8!"| 188 | P | ro | ろ | ロ | 308D | 30ED |  |  |  |",
  u8!"| **189** | **P** | **lwa** | **ゎ** | **ヮ** | **308E** | **30EE** |  |  | **xwa** |",
  u8!"| 190 | P | wa | わ | ワ | 308F | 30EF |  |  |  |",
  u8!"| 191 | P | wyi | ゐ | ヰ | 3090 | 30F0 | (i) | (i) |  |",
  u8!"| 192 | P | wye | ゑ | ヱ | 3091 | 30F1 | (e) | (e) |  |",
  u8!"| 193 | P | wo | を | ヲ | 3092 | 30F2 | (o) | (o) |  |",
  u8!"| 194 | P | n | ん | ン | 3093 | 30F3 |  |  |  |",
  u8!"| 195 | D | vu | ゔ | ヴ | 3094 | 30F4 |  |  |  |",
  u8!"| 196 | D | va | ゔぁ | ヴァ |  |  |  |  |  |",
  u8!"| 197 | D | vi | ゔぃ | ヴィ |  |  |  |  |  |",
  u8!"| 198 | D | ve | ゔぇ | ヴェ |  |  |  |  |  |"]

def chartPart6 : List Str := [
  u8!"| 199 | D | vo | ゔぉ | ヴォ |  |  |  |  |  |",
  u8!"| 200 | D | vya | ゔゃ | ヴャ |  |  |  |  |  |",
  u8!"| 201 | D | vyu | ゔゅ | ヴュ |  |  |  |  |  |",
  u8!"| 202 | D | vyo | ゔょ | ヴョ |  |  |  |  |  |",
  u8!"| 203 | P | lka | ゕ | ヵ | 3095 | 30F5 |  |  | xka |",
  u8!"| 204 | P | lke | ゖ | ヶ | 3096 | 30F6 |  |  | xke |",
  u8!"| **205** | **N** | **/** |  | **・** |  | **30FB** |  |  |  |",
  u8!"| 206 | N |  |  | ー |  | 30FC |  |  |  |",
  u8!"| 207 | N |  | ゝ | ヽ | 309D | 30FD |  |  |  |",
  u8!"| 208 | N |  | ゞ | ヾ | 309E | 30FE |  |  |  |",
  u8!"",
  u8!"**Totals:**",
  u8!"",
  u8!"- **Monographs:** 86 (Plain=48, Dakuten=21, HanDakuten=5, Small=12)",
  u8!"- **Digraphs:** 118 (Plain=71, Dakuten=42, HanDakuten=5)",
  u8!"- **All Kana:** 204 (Monographs=86, Digraphs=118), Rōmaji Variants=55",
  u8!"- **Types:** 208 (P=131, D=63, H=10, N=4), N types aren't included in 'All Kana'"]

/-- The lines of the document. -/
def documentedChart : List Str := chartPart1 ++ chartPart2 ++ chartPart3 ++ chartPart4 ++ chartPart5 ++ chartPart6

end Spec
