import Verif.Props.LoadPrintAll
import Verif.Props.LoadSafeProgram
/-!
# Example for C184: what is printed for the sample directory
-/
namespace KT
open Spec

/-- With full debug. -/
example : (loadTextDataPrinting .full (fun x => x) true sampleData).prints.out =
    u8!">>>\n" ++
    u8!">>> Begin Loading Data\n" ++
    u8!">>>\n" ++
    u8!">>> Found 1 non-Jouyou/Jinmei/JLPT in Frequency: 三\n" ++
    u8!">>>\n" ++
    u8!">>> Finished Loading Data\n" ++
    u8!">>>\n" ++
    u8!">>> Loaded 4 Kanji (Jouyou 1 Jinmei 0 LinkedJinmei 0 LinkedOld 1 Frequency 1 Extra 0 Kentei 1 Ucd 0)\n" ++
    u8!">>>   Has JLPT level 1 (Jouyou 1)\n" ++
    u8!">>>   Has frequency and not in Jouyou or JLPT 1 (Frequency 1)\n" ++
    u8!">>>   NF (no-frequency) 2 (LinkedOld 1, Kentei 1)\n" ++
    u8!">>> Old Forms 1 (Jouyou 1)\n" ++
    u8!">>> Grade breakdown:\n" ++
    u8!">>>   Total for grade G1: 1 (N5 1)\n" ++
    u8!">>>   Total for all grades: 1\n" ++
    u8!">>> Level breakdown:\n" ++
    u8!">>>   Total for Level N5: 1 (Jouyou 1)\n" ++
    u8!">>>   Total for Level None: 3 (LinkedOld 1 nf 1, Frequency 1, Kentei 1 nf 1)\n" ++
    u8!">>>   Total for all Levels: 4\n" ++
    u8!">>> Kyu breakdown:\n" ++
    u8!">>>   Total for Kyu K10: 1 (Jouyou 1)\n" ++
    u8!">>>   Total for Kyu K1: 1 (Kentei 1)\n" ++
    u8!">>>   Total for Kyu None: 2 (LinkedOld 1, Frequency 1)\n" ++
    u8!">>>   Total for all Kyus: 4\n" ++
    u8!">>> Common Kanji Radicals (Jouyou Jinmei LinkedJinmei LinkedOld Frequency Extra Kentei Ucd):\n" ++
    u8!"[001] 一:   3 (   1   0   0   0   1   0   1   0) : 一 七 三\n" ++
    u8!"[002] 丨:   1 (   0   0   0   1   0   0   0   0) : 壱\n" ++
    u8!">>>   Total for 2 radicals:    4 (1 0 0 1 1 0 1 0)\n" ++
    u8!">>> Kanji Loaded from Unicode 'ucd' file:\n" ++
    u8!">>>   Total: 4 (Jouyou 0, Jinmei 0, Other 4)\n" ++
    u8!">>>   Links: 0 (Jouyou 0, Jinmei 0, Other 0)\n" ++
    u8!">>>   VStrokes: 0 (Jouyou 0, Jinmei 0, Other 0)\n" ++
    u8!">>>   Meanings: 4 (Jouyou 0, Jinmei 0, Other 4)\n" ++
    u8!">>>   On Readings: 4 (Jouyou 0, Jinmei 0, Other 4)\n" ++
    u8!">>>   Kun Readings: 0 (Jouyou 0, Jinmei 0, Other 0)\n" ++
    u8!">>>   Morohashi Ids: 0 (Jouyou 0, Jinmei 0, Other 0)\n" ++
    u8!">>>   Nelson Ids: 0 (Jouyou 0, Jinmei 0, Other 0)\n" ++
    u8!">>> Frequency Kanji with links 0:\n" ++
    u8!">>> Extra Kanji with links 0:\n" ++
    u8!">>>   Standard Kanji with 'Variation Selectors' vs UCD Variants:\n" ++
    u8!">>>     #      Standard Kanji with Selector    UCD Compatibility Kanji\n" ++
    u8!">>>     -      ----------------------------    -----------------------\n" := by decide +kernel

/-- The message to the error stream: the Unicode entry has no 'Joyo' mark. -/
example : (loadTextDataPrinting .none (fun x => x) true sampleData).prints.errors =
    [u8!"一 [4E00] not marked as 'Joyo' in _ucd"] := by decide +kernel

example : printErrors 0 (loadTextDataPrinting .info (fun x => x) true sampleData).prints.errors =
    u8!"ERROR[0001] --- 一 [4E00] not marked as 'Joyo' in _ucd\n" := by decide +kernel

/-- With debug. -/
example : (loadTextDataPrinting .info (fun x => x) true sampleData).prints.out =
    u8!">>> Loaded 4 Kanji (Jouyou 1 Jinmei 0 LinkedJinmei 0 LinkedOld 1 Frequency 1 Extra 0 Kentei 1 Ucd 0)\n" ++
    u8!">>> Grade breakdown:\n" ++
    u8!">>>   Total for grade G1: 1 (N5 1)\n" ++
    u8!">>>   Total for all grades: 1\n" := by decide +kernel

end KT
