import Verif.Props.Utf8
import Verif.Props.Str
import Verif.Props.ColumnFile
import Verif.Props.UnicodeBlock
import Verif.Props.Enum
import Verif.Props.Symbol
import Verif.Props.Utf8Char
import Verif.Props.Kana
import Verif.Props.DisplaySize
import Verif.Props.Converter
import Verif.Props.ConverterPlace
import Verif.Props.Choice
import Verif.Props.ChoiceRange
import Verif.Props.EnumAt
import Verif.Props.Table
import Verif.Props.MorohashiId
import Verif.Props.ListFile
import Verif.Props.Kanji
import Verif.Props.Radical
import Verif.Props.KanjiArgs
import Verif.Props.KanjiFreq
import Verif.Props.KanjiData
import Verif.Props.Stats
import Verif.Props.GroupQuiz
import Verif.Props.ListQuiz
import Verif.Props.QuizLauncher
import Verif.Props.Jukugo
import Verif.Props.Format
import Verif.Props.KanaConvert
import Verif.Props.GroupData
import Verif.Props.UcdData
import Verif.Model.KanaChart
import Verif.Spec.KanaChartDoc
import Verif.Props.KanaChart
import Verif.Model.TextKanjiData
import Verif.Props.TextKanjiData
import Verif.Spec.Romaji
import Verif.Props.ConverterLong
import Verif.Props.KanjiErrors
import Verif.Props.KanjiRows
import Verif.Props.QuizDetails
import Verif.Props.QuizScreen
import Verif.Props.Choices
import Verif.Props.Searches
import Verif.Props.Furigana
import Verif.Props.StatsReport
import Verif.Props.StatsTotals
import Verif.Props.StatsLines
import Verif.Props.KanjiReportLists
import Verif.Props.DataDir
import Verif.Model.RadicalReport
import Verif.Spec.RadicalReport
import Verif.Props.RadicalReport
import Verif.Model.UcdReport
import Verif.Props.UcdReport
import Verif.Model.GroupReport
import Verif.Props.GroupReport
import Verif.Model.ListFileText
import Verif.Spec.ListFileText
import Verif.Props.ListFileText
import Verif.Model.LoadReport
import Verif.Props.LoadReport
import Verif.Model.CharConv
import Verif.Spec.Ascii
import Verif.Lemmas.AsciiMap
import Verif.Props.CharConv
import Verif.Model.ListSession
import Verif.Spec.ListSession
import Verif.Props.ListSession
import Verif.Model.Bitmask
import Verif.Props.Bitmask
import Verif.Model.HelpText
import Verif.Spec.HelpText
import Verif.Props.HelpText
import Verif.Model.ColumnText
import Verif.Props.ColumnText
import Verif.Model.LaunchSession
import Verif.Spec.LaunchSession
import Verif.Props.LaunchSession
import Verif.Model.GroupSession
import Verif.Spec.GroupSession
import Verif.Spec.GroupTalk
import Verif.Props.GroupSession
import Verif.Props.GroupPrompt
import Verif.Props.GroupStart
import Verif.Props.StrList
import Verif.Spec.GroupTranscript
import Verif.Spec.ListTranscript
import Verif.Props.GroupTranscript
import Verif.Props.GroupExample
import Verif.Props.ListTranscript
import Verif.Model.KanjiDetails
import Verif.Spec.KanjiDetails
import Verif.Props.KanjiDetails
import Verif.Model.LaunchText
import Verif.Spec.LaunchText
import Verif.Props.LaunchText
import Verif.Spec.LaunchDialog
import Verif.Props.LaunchDialog
import Verif.Model.QuizProgram
import Verif.Spec.QuizProgram
import Verif.Props.QuizProgram
import Verif.Props.QuizProgramExample
import Verif.Model.ConvertProgram
import Verif.Spec.ConvertProgram
import Verif.Spec.ChartDocument
import Verif.Props.ChartDocument
import Verif.Props.ConvertProgram
import Verif.Props.ConvertModels
import Verif.Props.ConvertExample
import Verif.Model.LoadData
import Verif.Props.KanjiNames
import Verif.Props.LoadData
import Verif.Props.LoadedProgram
import Verif.Props.LoadedExample
import Verif.Props.LoadedValues
import Verif.Model.Percent
import Verif.Props.Percent
import Verif.Model.StatsProgram
import Verif.Spec.StatsProgram
import Verif.Lemmas.Tally
import Verif.Props.StatsProgram
import Verif.Props.StatsExample
import Verif.Spec.StatsText
import Verif.Props.StatsText
import Verif.Model.FormatProgram
import Verif.Spec.FormatProgram
import Verif.Props.FormatProgram
import Verif.Props.LoadedLists
import Verif.Model.DataTexts
import Verif.Spec.DataTexts
import Verif.Props.DataTables
import Verif.Props.DataTexts
import Verif.Props.DataDirectory
import Verif.Props.DataDirectoryExample
import Verif.Props.DataDirectoryQuiz
import Verif.Props.LoadSafe
import Verif.Props.LoadSafeLists
import Verif.Props.LoadSafeFiles
import Verif.Props.LoadSafeData
import Verif.Props.LoadSafeDirectory
import Verif.Props.LoadSafeProgram
import Verif.Model.QuizFiles
import Verif.Props.FileTree
import Verif.Props.QuizFiles
import Verif.Props.QuizFilesExample
import Verif.Model.StatsFiles
import Verif.Props.StatsFiles
import Verif.Props.StatsFilesExample
import Verif.Model.LoadPrint
import Verif.Spec.LoadPrint
import Verif.Props.LoadPrint
import Verif.Props.LoadPrintText
import Verif.Props.LoadPrintAll
import Verif.Props.LoadPrintExample
import Verif.Model.QuizPrint
import Verif.Model.ProgramOutput
import Verif.Spec.QuizPrint
import Verif.Props.JukugoReport
import Verif.Props.QuizPrint
import Verif.Props.QuizPrintAll
import Verif.Props.QuizPrintFill
import Verif.Props.QuizPrintExample
import Verif.Props.ProgramOutputLoad
import Verif.Props.ProgramOutput
import Verif.Props.ProgramOutputEnds
import Verif.Props.StatsOutput
import Verif.Props.ProgramOutputExample
import Verif.Lemmas.ConverterMixed
import Verif.Props.ConverterMixed
import Verif.Model.KanaStart
import Verif.Props.KanaStart
import Verif.Props.StatsFrequency
import Verif.Model.WidthScript
import Verif.Spec.WidthFile
import Verif.Lemmas.WidthScript
import Verif.Props.WidthScript
import Verif.Model.UcdScript
import Verif.Spec.UcdEntry
import Verif.Lemmas.UcdScript
import Verif.Lemmas.UcdTexts
import Verif.Lemmas.UcdMarks
import Verif.Lemmas.UcdArrays
import Verif.Lemmas.UcdLinkChoice
import Verif.Props.UcdScript
import Verif.Props.UcdScriptSample
import Verif.Model.UcdFile
import Verif.Lemmas.UcdLoad
import Verif.Props.UcdFile
import Verif.Props.UcdFileLoad
import Verif.Props.UcdFileSample
import Verif.Model.UcdDefinition
import Verif.Spec.DefinitionLink
import Verif.Lemmas.UcdDefinition
import Verif.Lemmas.UcdDefinitionFound
import Verif.Props.UcdDefinition
import Verif.Props.UcdDefinitionNames
import Verif.Props.UcdDefinitionSample
import Verif.Model.UcdTotals
import Verif.Spec.UcdTotals
import Verif.Lemmas.UcdTotals
import Verif.Props.UcdTotals
import Verif.Props.UcdTotalsText
import Verif.Props.UcdTotalsSample
import Verif.Model.UcdLinkCounts
import Verif.Spec.LinkCounts
import Verif.Lemmas.UcdLinkCounts
import Verif.Props.UcdLinkCounts
import Verif.Props.UcdLinkCountsText
import Verif.Props.UcdLinkCountsSample
import Verif.Model.UcdDiff
import Verif.Spec.UcdDiff
import Verif.Lemmas.UcdDiff
import Verif.Lemmas.UcdDiffText
import Verif.Lemmas.UcdDiffLines
import Verif.Lemmas.UcdDiffArgs
import Verif.Props.UcdDiff
import Verif.Props.UcdDiffStatus
import Verif.Model.BlockText
import Verif.Props.BlockText
import Verif.Model.StatsThreads
import Verif.Lemmas.StatsThreads
import Verif.Props.StatsThreads
import Verif.Model.Terminal
import Verif.Props.Terminal
import Verif.Spec.IterationMark
import Verif.Lemmas.ConverterMarks
import Verif.Props.ConverterMarks
import Verif.Spec.Romanization
import Verif.Lemmas.ConverterRoman
import Verif.Props.ConverterRoman
import Verif.Spec.TypedRomaji
import Verif.Lemmas.ConverterTyped
import Verif.Props.ConverterTyped
import Verif.Spec.TypedKeys
import Verif.Lemmas.ConverterKeys
import Verif.Props.ConverterKeys
import Verif.Props.ConverterCase
