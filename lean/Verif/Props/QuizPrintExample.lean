import Verif.Props.QuizPrintFill
/-!
# Examples for C185, C186 and C187: what is printed for the sample data
-/
namespace KT
open Spec

/-- With debug. -/
example : (loadDataPrinting .info (fun x => x) true sampleData).prints.out =
    u8!">>> Loaded 4 Kanji (Jouyou 1 Jinmei 0 LinkedJinmei 0 LinkedOld 1 Frequency 1 Extra 0 Kentei 1 Ucd 0)\n" ++
    u8!">>> Grade breakdown:\n" ++
    u8!">>>   Total for grade G1: 1 (N5 1)\n" ++
    u8!">>>   Total for all grades: 1\n" ++
    u8!">>> Loaded 3 kanji into 1 groups\n" ++
    u8!"Type Breakdown (showing up to 12 missing examples per type)\n" ++
    u8!"        Jouyou: 1 / 1\n" ++
    u8!"     Frequency: 1 / 1\n" ++
    u8!"        Kentei: 1 / 1\n" ++
    u8!">>> Loaded 0 kanji into 0 groups\n" ++
    u8!"Type Breakdown (showing up to 12 missing examples per type)\n" ++
    u8!">>>\n" ++
    u8!">>> Begin Loading Jukugo\n" ++
    u8!">>>\n" ++
    u8!">>> Loaded 1 for Grade: G1\n" ++
    u8!">>> Loaded 0 for Grade: G2\n" ++
    u8!">>> Loaded 0 for Grade: G3\n" ++
    u8!">>> Loaded 0 for Grade: G4\n" ++
    u8!">>> Loaded 0 for Grade: G5\n" ++
    u8!">>> Loaded 0 for Grade: G6\n" ++
    u8!">>> Loaded 0 for Grade: S\n" ++
    u8!">>> Total Kanji with Jukugo: 2, unique jukugo: 1\n" ++
    u8!"        Jouyou: 1 (一)\n" ++
    u8!"     Frequency: 1 (三)\n" := by decide +kernel

/-- With full debug, a radical without kanji, no kanji with variation selector and no meaning group: after what is printed for
the kanji. -/
example : (loadDataPrinting .full (fun x => x) true zeroData).prints.out =
    (loadTextDataPrinting .full (fun x => x) true zeroData).prints.out ++
    u8!">>> Loaded 0 kanji into 0 groups\n" ++
    u8!">>> .=常用 '=JLPT \"=Freq ^=人名用 ~=LinkJ %=LinkO +=Extra @=検定 #=1級 *=Ucd\n" ++
    u8!"Name (number of entries)   Parent Member : Other Members\n" ++
    u8!"Type Breakdown (showing up to 12 missing examples per type)\n" ++
    u8!">>> Loaded 3 kanji into 2 groups\n" ++
    u8!">>> .=常用 '=JLPT \"=Freq ^=人名用 ~=LinkJ %=LinkO +=Extra @=検定 #=1級 *=Ucd\n" ++
    u8!"Name (number of entries)   Parent Member : Other Members\n" ++
    u8!"[01]  00000000000000000一：イチ(02)   一.: 三\"\n" ++
    u8!"[02]  0000000000000000000：シチ(02)   　 : 七# 三\"\n" ++
    u8!"Type Breakdown (showing up to 12 missing examples per type)\n" ++
    u8!"00000000Jouyou: 1 / 1\n" ++
    u8!"00000Frequency: 2 / 1 ()\n" ++
    u8!"00000000Kentei: 1 / 1\n" ++
    u8!">>>\n" ++
    u8!">>> Begin Loading Jukugo\n" ++
    u8!">>>\n" ++
    u8!">>> Loaded 1 for Grade: G1\n" ++
    u8!">>> Loaded 0 for Grade: G2\n" ++
    u8!">>> Loaded 0 for Grade: G3\n" ++
    u8!">>> Loaded 0 for Grade: G4\n" ++
    u8!">>> Loaded 0 for Grade: G5\n" ++
    u8!">>> Loaded 0 for Grade: G6\n" ++
    u8!">>> Loaded 0 for Grade: S\n" ++
    u8!">>> Total Kanji with Jukugo: 2, unique jukugo: 1\n" ++
    u8!"00000000Jouyou: 1 (一)\n" ++
    u8!"00000Frequency: 1 (三)\n" := by decide +kernel

/-- The messages: a kanji in two pattern groups. -/
example : (loadDataPrinting .none (fun x => x) true zeroData).prints.errors =
    [u8!"一 [4E00] not marked as 'Joyo' in _ucd", u8!"三 from [2 ：シチ] already in [1 一：イチ]"] := by decide +kernel

/-- Members that aren't found. -/
example : (loadDataPrinting .none (fun x => x) true { zeroData with patterns :=
      [⟨u8!"7", u8!"：シチ", u8!"四,七,五"⟩, ⟨u8!"8", u8!"：イチ", u8!"六"⟩] }).prints.errors =
    [u8!"一 [4E00] not marked as 'Joyo' in _ucd", u8!"failed to find member 四 in group: '：シチ', number: 7",
      u8!"failed to find member 五 in group: '：シチ', number: 7"] := by decide +kernel

/-- Words in several files are counted once; the kanji are in the order of their bytes; a file that is rejected has no line. -/
example : (loadJukugoPrinting true {} (fun n => if n = u8!"一" then some .jouyou else none)
      [u8!"見一 (けんいち)\n一見 (いちげん)\n一見 (いちげん)\n", u8!"", u8!"見見 (けんけん)\n"]).prints.out =
    u8!">>>\n>>> Begin Loading Jukugo\n>>>\n" ++
    u8!">>> Loaded 2 for Grade: G1\n" ++
    u8!">>> Loaded 0 for Grade: G2\n" ++
    u8!">>> Loaded 1 for Grade: G3\n" ++
    u8!">>> Total Kanji with Jukugo: 2, unique jukugo: 3\n" ++
    u8!"        Jouyou: 1 (一)\n" ++
    u8!"          None: 1 (見)\n" := by decide +kernel
example : (loadJukugoPrinting true {} (fun _ => none)
      [u8!"一見 (いちげん)\n", u8!"一見 (いちげん)\n", u8!"見見 (けんけん)\n"]).prints.out =
    u8!">>>\n>>> Begin Loading Jukugo\n>>>\n" ++
    u8!">>> Loaded 1 for Grade: G1\n" := by decide +kernel

end KT
