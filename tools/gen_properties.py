#!/usr/bin/env python3
"""Writes /verif/properties.jsonl (one property per line)."""
import json, os
P = []
def p(id, title, statement, quantifier, why, anchors):
    P.append(dict(id=id, title=title, statement=statement, quantifier=quantifier,
                  why_tests_cant=why, anchors=anchors))
U = "libs/utils/src/"; UI = "libs/utils/include/kt_utils/"
K = "libs/kana/src/"; KI = "libs/kana/include/kt_kana/"
J = "libs/kanji/src/"; JI = "libs/kanji/include/kt_kanji/"
Q = "libs/quiz/src/"; S = "libs/stats/src/"

p("C01", "UTF-8 decoding is safe and total",
  "For every byte sequence (well-formed or not) fromUtf8 and getCode finish, read no byte after the terminating NUL, consume at least one byte per produced code, and produce only Unicode scalar values (<= U+10FFFF and not a surrogate).",
  "all byte strings of any length, including truncated and malformed ones",
  "There are infinitely many malformed inputs; a sanitizer run only covers the sampled ones and an over-read past the NUL is usually silent.",
  [U+"Utf8.cpp:convertOneUtf8", U+"Utf8.cpp:convertFromUtf8", UI+"Utf8.h:fromUtf8", UI+"Utf8.h:getCode"])
p("C02", "UTF-32 to UTF-8 and back is lossless",
  "For every sequence of non-NUL Unicode scalar values cs, fromUtf8(toUtf8(cs)) == cs.",
  "all finite sequences of the 1,112,063 non-zero scalar values",
  "The claim is about all sequences; tests sample code points and never all juxtapositions.",
  [U+"Utf8.cpp:convertToUtf8", U+"Utf8.cpp:convertFromUtf8", UI+"Utf8.h:toUtf8", UI+"Utf8.h:fromUtf8"])
p("C03", "toUtf8 is the standard UTF-8 encoding",
  "toUtf8(c) is exactly the RFC 3629 encoding of c for every Unicode scalar value c, and is the encoding of U+FFFD for every other 32-bit value; the byte conversions inside never throw.",
  "all 2^32 code values",
  "2^32 inputs; unit tests only check a handful of boundaries.",
  [U+"Utf8.cpp:convertToUtf8", U+"String.cpp:toChar", UI+"Utf8.h:toUtf8"])
p("C04", "Decoding followed by encoding reproduces exactly the well-formed strings",
  "For every NUL-free byte string s: toUtf8(fromUtf8(s)) == s if and only if s is well-formed UTF-8.",
  "all NUL-free byte strings",
  "Needs all overlong, surrogate, truncated and stray-continuation combinations to be covered.",
  [U+"Utf8.cpp:convertOneUtf8", U+"Utf8.cpp:convertToUtf8"])
p("C05", "First-character validation is exact",
  "validateMBUtf8(s) is NotMultiByte iff s is empty or starts with an Ascii byte; it is Valid iff s starts with a well-formed 2-4 byte UTF-8 character and, when sizeOne is true, nothing (or a NUL) follows it; otherwise NotValid. It never reads past the terminator.",
  "all byte strings, both values of sizeOne",
  "Every byte combination of the first four bytes and every tail must be decided correctly.",
  [U+"Utf8.cpp:validateMB", U+"Utf8.cpp:validateMBUtf8", UI+"Utf8.h:isValidMBUtf8"])
p("C06", "isValidUtf8 accepts only valid UTF-8 strings",
  "isValidUtf8(s) returns true only if the whole of s is well-formed UTF-8 (and, with sizeOne, is a single character).",
  "all byte strings",
  "A validator is relied on for all inputs; the failing inputs are those with an Ascii or valid first character followed by garbage.",
  [U+"Utf8.cpp:isValidUtf8", UI+"Utf8.h:validateUtf8"])
p("C07", "Limited conversion returns a prefix",
  "fromUtf8(s, n) with n > 0 returns exactly the first n codes of fromUtf8(s) (all of them if there are fewer), and getCode(s) is the first code or 0 if s is empty.",
  "all byte strings and all n",
  "Unbounded s and n.",
  [U+"Utf8.cpp:convertFromUtf8", U+"Utf8.cpp:getCode"])
p("C08", "Decoding is compositional at character boundaries",
  "If b does not begin with a continuation byte (10xxxxxx) then fromUtf8(a + b) == fromUtf8(a) + fromUtf8(b) for all NUL-free a, including malformed a: an error never swallows a following character.",
  "all pairs of NUL-free byte strings",
  "Error recovery must be right for all malformed prefixes and all continuations.",
  [U+"Utf8.cpp:convertOneUtf8", U+"Utf8.cpp:convertFromUtf8"])
p("C09", "Hex and binary text represent the number exactly",
  "Reading the digits of toHex(x)/toBinary(x) back in base 16/2 gives x; the text is as long as the requested minimum size, contains only digits of the requested case, and is longer than the minimum only when the number needs it.",
  "all unsigned values, all minimum sizes, both cases",
  "All numeric values and sizes.",
  [UI+"String.h:toHex", UI+"String.h:toBinary", U+"String.cpp:addLeadingZeroes"])
p("C10", "Unicode text and code agree both ways",
  "For every code c <= 0xFFFFF, reading toUnicode(c) with ColumnFile::getChar32 gives c back; and getChar32 accepts exactly the strings of 4 or 5 digits 0-9A-F, giving their base-16 value.",
  "all codes and all strings",
  "All strings must be classified; the code ranges over 2^20 values.",
  [U+"String.cpp:toUnicode", U+"ColumnFile.cpp:getChar32"])
p("C11", "Block search with early exit equals set membership",
  "For every code point and each of the block tables (kana, kanji, punctuation, symbols, letters), the early-exit search answers true exactly when some block of the table contains the code point.",
  "all code points and all ordered block tables",
  "Needs every code point of the Unicode range and depends on table ordering.",
  [UI+"UnicodeBlock.h:inRange"])
p("C12", "Character classes do not overlap",
  "A string is recognized by at most one of isHiragana, isKatakana, isCommonKanji, isRareKanji, isMBSymbol, isMBLetter and isMBPunctuation; isKana is exactly isHiragana or isKatakana, isKanji exactly isCommonKanji or isRareKanji, and isRecognizedUtf8 exactly the union of all classes (with wide space counted).",
  "all byte strings, both values of sizeOne",
  "All strings; overlap of any two tables would double count characters in statistics.",
  [U+"UnicodeBlock.cpp:isKana", U+"UnicodeBlock.cpp:isRecognizedUtf8", UI+"UnicodeBlock.h:inWCharRange"])
p("C13", "isAll functions decide every character",
  "isAllX(s) is true exactly when s decodes to a sequence of class X characters, each optionally followed by one non-spacing mark; it is true for the empty string, and is preserved when two such strings are concatenated.",
  "all byte strings",
  "Unbounded strings with arbitrary placement of variation selectors.",
  [UI+"UnicodeBlock.h:inWCharRange", U+"UnicodeBlock.cpp:isAllKanji"])
p("C14", "Malformed UTF-8 is never classified as Japanese text",
  "If the first character of s is malformed UTF-8 then none of the is/isAll classification functions returns true for s.",
  "all malformed byte strings",
  "All malformed strings; the decoder's replacement character U+FFFD can itself fall in a block.",
  [UI+"UnicodeBlock.h:PunctuationBlocks", U+"UnicodeBlock.cpp:isMBPunctuation", U+"UnicodeBlock.cpp:isRecognizedUtf8"])
p("C15", "Enum lists reject every out-of-range index",
  "For an EnumList of N values, list[i] returns the i-th value for 0 <= i < N and throws RangeError for every other integer i.",
  "all list sizes 1..255 and all 64-bit integers",
  "2^64 indices; narrowing to 8 bits happens before the check.",
  [UI+"EnumContainer.h:checkIndex", UI+"EnumList.h:operator[]"])
p("C16", "Enum iterators never leave [begin, end]",
  "Starting from begin, after any sequence of ++, --, += and -= (with any argument, failing operations leaving the iterator unchanged) the position is between begin and end; an operation whose exact result lies outside that interval throws RangeError; dereferencing throws exactly at end, and it[i] is the element i places from the iterator or throws RangeError.",
  "all operation sequences of any length with any 64-bit arguments",
  "Infinite set of histories; argument narrowing to 8 bits.",
  [UI+"EnumContainer.h:Iterator", UI+"EnumList.h:ConstIterator"])
p("C17", "Enum names and values correspond one-to-one",
  "If create(names) succeeds then toString and fromString are mutually inverse between the values and names, every other name is rejected, and with a None value: fromStringAllowEmpty/AllowNone accept exactly the extra spellings. create fails exactly when a name is duplicated (or is \"None\" for lists with None).",
  "all lists of names (at most 255, the largest Enum::Size) and all lookups",
  "All name lists and all lookup strings.",
  [UI+"EnumList.h:create", UI+"EnumList.h:toString", UI+"EnumList.h:fromString"])
p("C18", "EnumMap behaves as a total map",
  "After any sequence of writes m[k]=v, reading m[k] gives the last value written for k (default if none); None reads as the default and can't be written; iteration visits each key once in order.",
  "all write histories",
  "All histories.",
  [UI+"EnumMap.h:operator[]"])
p("C19", "Symbols intern names",
  "After any history of Symbol constructions, two symbols compare equal iff their names are equal; name() returns the constructing name forever; ids are stable, 0 is used only for the empty name; at most 65534 distinct names are stored, at capacity known names still resolve and new ones fail leaving the table unchanged.",
  "all histories of constructions, including at capacity",
  "Unbounded histories and the capacity boundary with 65534 names.",
  [UI+"Symbol.h:Symbol", U+"Symbol.cpp:getId"])
p("C20", "Column lookups return the field under the matching header",
  "If opening a file succeeds, then for every accepted row and requested column, get(column) returns the field at the position where that column's name occurs in the header row, whatever the order of the header or of the requested columns; the header must be a permutation of the requested columns.",
  "all files, column sets and orders, and all previously registered column names",
  "All header permutations and all rows; column numbers are global state shared between files.",
  [U+"ColumnFile.cpp:processHeaderRow", U+"ColumnFile.cpp:nextRow", U+"ColumnFile.cpp:get"])
p("C21", "Rows with the wrong number of fields are rejected",
  "nextRow accepts a row of an n-column file exactly when the row has n delimiter-separated fields and then stores precisely those fields, otherwise it throws.",
  "all rows and all n >= 1",
  "All rows; getline drops an empty last field so the empty-field corner cases multiply.",
  [U+"ColumnFile.cpp:nextRow"])
p("C22", "Numeric columns accept only unsigned numbers in range",
  "getU64(c, max) returns v exactly when the cell is a decimal representation of v with v <= max (max = 0 meaning the type's limit), otherwise throws DomainError.",
  "all cell strings and limits",
  "All strings, including signs, blanks and trailing text.",
  [U+"ColumnFile.cpp:processU64", U+"ColumnFile.cpp:getU64"])
p("C23", "Column numbers identify column names globally",
  "After any history of Column constructions two columns have equal numbers iff their names are equal, and numbers are always smaller than the number of registered names (so lookups in a file opened later never index out of bounds).",
  "all histories of Column and ColumnFile constructions",
  "All histories.",
  [U+"ColumnFile.cpp:getColumnNumber", U+"ColumnFile.cpp:get"])
p("C24", "Argument list access is bounds checked",
  "Args accepts exactly 0 <= argc <= 65535 with argv present iff argc > 0, and args[i] never reads outside argv: it returns argv[i] for i < argc and throws otherwise, for every index of its parameter type (uint16_t; a wider number is reduced to it by the caller).",
  "all argc, argv and i",
  "All integer values.",
  [U+"Args.cpp"])
p("C25", "Kana tables are unambiguous",
  "No Romaji, Hiragana or Katakana key occurs twice in the Kana tables, each table key finds the Kana it came from, and the Hiragana and Katakana of an entry are corresponding letters (code points differ by 0x60 letter by letter).",
  "all entries of the Kana tables",
  "The uniqueness is only checked by asserts that disappear in release builds.",
  [K+"Kana.cpp:KanaList", K+"Kana.cpp:populate"])
p("C26", "Hiragana to Katakana and back is lossless",
  "Converting any string of Hiragana letters (and prolong marks, iteration marks and delimiters) to Katakana maps it letter by letter, and converting the result back to Hiragana returns the original string.",
  "all strings over the table's Hiragana letters, of any length",
  "All strings; digraph grouping, small tsu and n make the converter stateful.",
  [K+"Converter.cpp:fromKana", K+"Converter.cpp:processKana"])
p("C27", "Hiragana to Romaji and back is lossless",
  "For every string of Hiragana letters and prolong marks, converting to Romaji (default flags) and back to Hiragana gives the original string; same for Katakana.",
  "all strings over the kana letters, of any length",
  "All strings: sokuon, n-apostrophe, digraph and macron rules interact across unbounded context.",
  [K+"Converter.cpp:fromKana", K+"Converter.cpp:toKana", K+"Converter.cpp:convert"])
p("C28", "Text without convertible letters passes through unchanged",
  "Converting from a kana source leaves every character that is not kana of that type (nor a wide delimiter for a Romaji target, nor the prolong mark or an iteration mark) unchanged and in place: the result is that of the text before, the character, and the rest; a string with no such kana is returned unchanged.",
  "all strings",
  "All strings and all mixtures.",
  [K+"Converter.cpp:fromKana"])
p("C29", "Converting kana to Romaji leaves no kana behind",
  "Converting any string of Hiragana letters to Romaji yields a string that contains no Hiragana letters.",
  "all strings of Hiragana letters",
  "All letter sequences; the source has a branch labelled impossible by design.",
  [K+"Converter.cpp:processKana", K+"Converter.cpp:processOneKana"])
p("C30", "Romaji input is case-insensitive",
  "For every Ascii-letter string r, converting r to kana gives the same result as converting its lower-case form.",
  "all Romaji strings whose lower-case form converts completely",
  "All casings of all words.",
  [K+"Converter.cpp:processRomaji", KI+"Converter.h:Converter"])
p("C31", "Incomplete Romaji keeps its place",
  "When Romaji input containing unconvertible letters is converted, the unconverted letters appear in the output in their original position relative to the surrounding text.",
  "all mixed strings of letters and multi-byte characters",
  "All mixtures of partial groups with other text.",
  [K+"Converter.cpp:toKana"])
p("C32", "Display width is additive and bounded",
  "displaySize(s) is the sum of the widths of the characters, is at most the byte size of s for well-formed text, and padding a field with wideSetw gives a column of exactly the requested display width whenever the text fits (text without NUL and shorter than 2^31 bytes; aligned to the right also: not starting with a continuation byte).",
  "all strings and widths",
  "All strings; the computation subtracts display size from byte size.",
  [K+"DisplaySize.cpp:displaySize", KI+"DisplaySize.h:wideSetw"])
p("C33", "Character iteration partitions the string",
  "Repeatedly calling Utf8Char::next on well-formed text yields consecutive pieces whose concatenation is the text (without Ascii when onlyMB is set; a kana followed by a combining mark is one composed character, marks that cannot be composed are dropped and counted), each piece one character plus any variation selector, and ends; peek shows what next will return.",
  "all strings",
  "All strings, any placement of combining marks.",
  [K+"Utf8Char.cpp:next", K+"Utf8Char.cpp:peek"])
p("C34", "Prompts return only offered answers",
  "Whatever the user types, a prompt that returns gives back one of the offered characters (or the default, or quit when quit is enabled). A prompt with a range of characters behaves as a prompt for the given choices and the characters of the range, and is rejected exactly if the ends are not printable or not in order or a character of the range is a choice already.",
  "all input streams and choice sets",
  "All input streams.",
  [K+"Choice.cpp:get"])
p("C35", "Prompts always end",
  "For every finite input stream, a prompt eventually returns.",
  "all finite input streams",
  "Non-termination on end of input can't be exhibited by a finite passing test.",
  [K+"Choice.cpp:get"])
p("C36", "Tables are rectangular",
  "Every body, header and border line printed for a table has the same display width, for every number of columns and every cell content; the Markdown form has the same number of columns in every row.",
  "all tables with any number of rows and columns, any cell text",
  "All tables.",
  [K+"Table.cpp:print", K+"Table.cpp:printMarkdown"])
p("C37", "Morohashi Ids accept exactly valid dictionary numbers",
  "Constructing a Morohashi id from text succeeds exactly for a decimal number up to 65535 with at most one of the documented prefix/suffix marks (non-plain ids being non-zero, no text giving the empty id) and yields that number and kind; no overflow can produce a wrong number.",
  "all strings",
  "All strings; overflow check on 16-bit arithmetic.",
  [J+"MorohashiId.cpp:getId", J+"MorohashiId.cpp:validate"])
p("C38", "Morohashi Ids print and parse back",
  "For every valid non-empty Morohashi id, parsing its printed form gives the same id; distinct ids print differently; ordering is a total order consistent with equality.",
  "all ids",
  "All 4 x 65536 ids and all pairs.",
  [J+"MorohashiId.cpp:toString", JI+"MorohashiId.h:MorohashiId"])
p("C39", "Stroke counts are validated",
  "A Strokes value can be built exactly from a count 1..64, or a count and a different variant within the documented ranges; every constructed value satisfies these bounds.",
  "all integers",
  "All values.",
  [J+"Strokes.cpp"])
p("C40", "Kanji list files give each entry one position",
  "If loading a list file succeeds, entries are pairwise distinct, exists(x) is true exactly for the entries, getIndex is the 1-based position of the entry and 0 for other strings; the entries are the tokens of the file in order.",
  "all file contents, both file types",
  "All files.",
  [J+"ListFile.cpp:load", J+"ListFile.cpp:getIndex"])
p("C41", "Typed lists never share an entry",
  "After loading any sequence of kanji list files successfully, no kanji belongs to two lists loaded with the same kind of uniqueness set.",
  "all sequences of files",
  "All sequences.",
  [J+"ListFile.cpp:validate"])
p("C42", "Kanji orderings are strict weak orders",
  "Sorting kanji by qualified name and by strokes uses comparisons that are irreflexive, asymmetric, transitive and have transitive incomparability.",
  "all triples of kanji",
  "All triples; std::sort has undefined behaviour otherwise.",
  [J+"Kanji.cpp:orderByQualifiedName", J+"Kanji.cpp:orderByStrokes"])
p("C43", "Ties are broken by Unicode order",
  "Kanji that tie on all other criteria are sorted by their Unicode code point.",
  "all pairs of kanji names",
  "All pairs; the comparison is between hexadecimal strings of differing length.",
  [J+"Kanji.cpp:orderByQualifiedName", J+"Kanji.cpp:orderByStrokes"])
p("C44", "Lookup by frequency finds the ranked kanji",
  "For a frequency list of any length with ranks 1..n inserted in order, findByFrequency(r) returns the kanji with rank r for 1 <= r <= n and nothing for any other r, without out-of-bounds access.",
  "all list lengths and ranks",
  "All lengths, in particular beyond the bucket capacity.",
  [J+"KanjiData.cpp:findByFrequency", J+"KanjiData.cpp:addToFrequencies"])
p("C45", "Program arguments skip data arguments exactly",
  "Iterating with nextArg visits, in order, exactly the arguments that are not data options (-data and its value, -debug, -info) and terminates.",
  "all argument lists",
  "All lists.",
  [J+"KanjiData.cpp:nextArg"])
p("C46", "UCD source letters are preserved",
  "The letters stored for a UCD entry's sources are exactly the valid letters given, and printing gives each once; invalid letters are reported.",
  "all source strings",
  "All strings.",
  [J+"Ucd.cpp:getSources", J+"Ucd.cpp:sources"])
p("C47", "Radical lookups agree",
  "After loading a radical file successfully, looking up number n returns the radical with number n, looking up a radical's name returns the radical with that name, and other numbers and names are rejected.",
  "all radical files",
  "All files.",
  [J+"RadicalData.cpp"])
p("C48", "Old and new kanji names are exclusive",
  "No kanji reports both a new name and old names derived from its link data, and a linked kanji's new name is its link.",
  "all link types and link lists",
  "All combinations.",
  [J+"Kanji.cpp:OtherKanji", J+"OfficialKanji.cpp:ExtraKanji"])
p("C49", "Statistics are listed by decreasing count",
  "The comparison used to list character statistics is a strict weak order that puts higher counts first.",
  "all pairs and triples of counted characters",
  "All pairs; a comparison that is inconsistent for rare combinations gives undefined behaviour in an ordered set.",
  [S+"Stats.cpp:Count::operator<"])
p("C50", "Character counts add up",
  "After any sequence of add calls, the total equals the number of counted characters, the count of each character equals its number of occurrences, and the per-tag counts of a character sum to its count if every text was added with a tag.",
  "all sequences of added texts",
  "All histories.",
  [S+"Utf8Count.cpp:add"])
p("C51", "No text is lost or duplicated when joining bracketed lines",
  "When processing a file with a replacement pattern, the concatenation of the strings passed on for counting equals the concatenation of the lines of the file, whatever brackets are left open at line ends.",
  "all files",
  "All sequences of lines with any placement of brackets.",
  [S+"Utf8Count.cpp:processFileWithRegex", S+"Utf8Count.cpp:processJoinedLine"])
p("C52", "Every character is reported in one statistics category",
  "Every multi-byte character is counted in exactly one of the statistics categories (Hiragana, Katakana, common kanji, rare kanji, non-UCD kanji, symbols, punctuation, letters, unrecognized).",
  "all characters",
  "All code points.",
  [S+"Stats.cpp:countKanji", S+"Stats.cpp:processKanjiCount"])
p("C53", "Group quiz answers refer to the displayed member",
  "For each displayed group member, typing the letter shown next to it selects that member when answers are checked, for every allowed group size (2 to 58).",
  "all group sizes and members",
  "Only large groups exercise the letters after z.",
  [Q+"GroupQuiz.cpp:showGroup", Q+"GroupQuiz.cpp:checkAnswers", "libs/quiz/include/kt_quiz/Group.h"])
p("C54", "Group quiz answers never repeat",
  "While answering and editing, the answers entered so far are pairwise distinct, the remaining letters are exactly the ones not yet used, and editing an answer replaces only that answer.",
  "all interaction histories",
  "All histories.",
  [Q+"GroupQuiz.cpp:getAnswers", Q+"GroupQuiz.cpp:editAnswer"])
p("C55", "Groups have 2 to 58 distinct members",
  "A group can be created exactly when it has between 2 and 58 pairwise distinct member names.",
  "all member lists",
  "All lists.",
  [Q+"Group.cpp:Group"])
p("C56", "List quiz choices are fair",
  "The choices shown for a list quiz question contain the correct reading exactly once, are pairwise distinct readings, come from the list, and there are exactly as many as configured, whatever the random numbers drawn.",
  "all lists, questions and random sequences",
  "All random sequences.",
  [Q+"ListQuiz.cpp:populateAnswers"])
p("C57", "List quiz choices can always be produced",
  "Choosing the answers for a list quiz question ends for every list that can be loaded.",
  "all lists",
  "Non-termination can't be shown by a passing test.",
  [Q+"ListQuiz.cpp:populateAnswers"])
p("C58", "Quiz score is consistent",
  "At all times correct + mistakes <= number of questions seen, the question index stays within the list, and previous/skip navigation moves exactly one question, for any sequence of user actions.",
  "all interaction histories",
  "All histories; 16-bit arithmetic with -= 2.",
  [Q+"Quiz.cpp", Q+"ListQuiz.cpp:start", Q+"GroupQuiz.cpp:start"])
p("C59", "Malformed quiz options are reported as domain errors",
  "Processing a program-mode option either yields the mode, order and start position it denotes or fails with DomainError.",
  "all option strings",
  "All strings.",
  [Q+"QuizLauncher.cpp:processProgramModeArg"])
p("C60", "Menu letters select the documented list",
  "Every offered letter of the grade, level, kyu and frequency prompts selects the list it is documented to select, no two letters select the same list, and no index is out of range.",
  "all offered letters",
  "The mapping arithmetic must be right for every letter.",
  [Q+"QuizLauncher.cpp:start", Q+"QuizLauncher.cpp:getKyuList"])
p("C61", "Jukugo lookup is complete and exact",
  "After loading any jukugo files, looking up a kanji returns exactly the words that contain it, once each.",
  "all load histories",
  "All histories, including words that repeat a kanji.",
  [Q+"JukugoData.cpp:find", Q+"JukugoData.cpp:createJukugo"])
p("C62", "Jukugo lines are parsed strictly",
  "A jukugo entry is accepted only when it has the form name(reading) with a name of at least two kanji and a kana reading; then name and reading are those of the text.",
  "all lines",
  "All lines, including misplaced brackets.",
  [Q+"JukugoData.cpp:findOpenBracket", Q+"JukugoData.cpp:findCloseBracket", Q+"JukugoData.cpp:createJukugo"])
p("C63", "Formatting keeps every line",
  "The format program writes every input line (possibly with a following kana-only line folded into brackets), in order, and drops none.",
  "all input files",
  "All files, in particular their last lines.",
  ["apps/formatMain.cpp:main"])
p("C64", "Variation selector detection is exact",
  "A string is reported as a character with a variation selector exactly when it is one multi-byte character followed by one variation selector.",
  "all strings",
  "All strings of 5 to 7 bytes and more.",
  [K+"Utf8Char.cpp:isCharWithVariationSelector"])
p("C65", "Dakuten relations are mutually inverse",
  "For each kana with a voiced (or semi-voiced) form, the voiced form's unaccented version is the kana itself, and the string lookups agree with it.",
  "all kana entries",
  "All table entries.",
  [K+"Kana.cpp:findDakuten", K+"Kana.cpp:findHanDakuten", KI+"Kana.h:DakutenKana"])
p("C66", "Command-line conversion keeps arguments apart",
  "Converting several strings on the command line prints the conversions separated from each other.",
  "all argument lists and targets",
  "All argument lists.",
  [K+"KanaConvert.cpp:start"])
p("C67", "Restarting a quiz asks for its settings again",
  "After a quiz session returns (by completing or by quitting at any prompt) a new session prompts again for every setting that was not given on the command line.",
  "all prompt interaction histories",
  "All quit points and histories.",
  [Q+"QuizLauncher.cpp:start"])
p("C68", "Name lookup agrees with loaded data",
  "Kanji inserted under a name (and its compatibility name) are found again under that name after any further successful insertions, and a duplicate insertion is reported without replacing the existing entry.",
  "all insertion histories",
  "All histories.",
  [J+"KanjiData.cpp:checkInsert", J+"KanjiData.cpp:findByName"])
p("C69", "First character of a string",
  "getFirst returns the multi-byte character (with its variation selector) at the start of the string, or an empty string if the string doesn't start with a multi-byte character.",
  "all strings",
  "All strings.",
  [K+"Utf8Char.cpp:getFirst"])
p("C70", "Character counts agree with iteration",
  "For well-formed text Utf8Char::size is the number of characters not counting variation selectors and combining marks, which is the number of pieces that iterating delivers; size terminates and stays in bounds for every string.",
  "all strings",
  "All strings, any placement of marks.",
  [K+"Utf8Char.cpp:size"])
p("C71", "Kana conversion never fails",
  "Converting any byte string from any source to any target, with any flags, returns a string: no exception, no access outside of a string or table, no endless loop.",
  "all byte strings, targets, sources and flags",
  "All byte strings, including malformed Utf8.",
  [K+"Converter.cpp:convert", K+"Converter.cpp:fromKana", K+"Converter.cpp:toKana"])
p("C72", "Prompts list the choices",
  "The text of a prompt lists exactly the offered characters in order, each described choice with its description and the others grouped in maximal runs such as a-d, and nothing is asked when the choices can't be offered (clash with quit, none, unprintable, default not offered).",
  "all choice sets, messages, quit options and defaults",
  "All choice sets.",
  [K+"Choice.cpp:add", K+"Choice.cpp:get"])
p("C73", "Kanji descriptions list the chosen fields",
  "The description of a kanji lists exactly the chosen fields that have a value, in a fixed order, separated by a comma and a space, with no leading or trailing separator, for every kanji whose pinyin and old names are not empty texts.",
  "all kanji and field selections",
  "All 2^n selections and all kanji.",
  [J+"Kanji.cpp:info"])
p("C74", "The suffix of the qualified name tells the group of the kanji",
  "The suffix character of a qualified name determines the group (jouyou, JLPT, frequency, jinmei, linked, extra, kentei, ucd) that the kanji belongs to, and different groups have different suffixes.",
  "all kanji",
  "All combinations of type, level, kyu and frequency.",
  [J+"Kanji.cpp:qualifiedNameRank", J+"Kanji.cpp:qualifiedName"])
p("C75", "Debug mode argument",
  "The debug mode is the one asked for by the only -debug or -info argument, None without such an argument, and more than one such argument is a usage error.",
  "all argument lists",
  "All lists.",
  [J+"KanjiData.cpp:getDebugMode"])
p("C76", "Lookups by id and grade give exactly the inserted kanji",
  "After any history of insertions, findByMorohashiId, findByNelsonId and the grade lists give exactly the accepted kanji with that id or grade, in the order of insertion.",
  "all insertion histories and ids",
  "All histories.",
  [J+"KanjiData.cpp:checkInsert", J+"KanjiData.cpp:findByMorohashiId", J+"KanjiData.cpp:findByNelsonId"])
p("C77", "Processing lists finds or makes one kanji per entry",
  "After processing a frequency, level or kyu list (or the Unicode entries) successfully every entry is found by name, kanji were made only for entries not found before and none of them was rejected, new kanji are in the list of their type, and one kanji per entry was added in order to the list of its level, kyu or frequency.",
  "all lists, prior states and lookup contexts",
  "All lists and states.",
  [J+"TextKanjiData.cpp:processList", J+"KanjiData.cpp:processUcd", J+"KanjiData.cpp:addToKyus", J+"KanjiData.cpp:addToLevels"])
p("C78", "Every file of a directory tree is counted once",
  "Adding a directory with recursion processes every regular file of the tree exactly once, however deep, and nothing reached through a symbolic link inside of the tree; without recursion exactly the regular files directly in the directory are processed.",
  "all directory trees",
  "Trees of any depth with any mix of entries.",
  [S+"Utf8Count.cpp:addFile", S+"Utf8Count.cpp:doAddFile"])
p("C79", "Arguments of the statistics program are read consistently",
  "For every argument list: options are only looked at before '--', the first option that isn't -b or -v decides between help and a usage error, otherwise all other arguments and all arguments after '--' are processed as files in order, and having no file is a usage error unless in debug mode.",
  "all argument lists",
  "All combinations and orders of options and files.",
  [S+"Stats.cpp:Stats::Stats"])
p("C80", "Groups are selected for a quiz consistently",
  "For every member selection type the members shown are exactly the documented ones, a wider selection shows all members of a narrower one, and the six buckets of pattern groups together contain every group with enough members exactly once.",
  "all selection types, kanji and ordered group lists",
  "All combinations of kanji attributes and all group lists.",
  [Q+"GroupQuiz.cpp:includeMember", Q+"GroupQuiz.cpp:prepareList"])
p("C81", "Arguments of the quiz program are read consistently",
  "For every accepted argument list the quiz type is one of the offered ones, a list letter is only set together with a quiz type that offers it and a start question fits 16 bits; the first argument that isn't an option is shown as a kanji; giving two quiz types is an error.",
  "all argument lists",
  "All combinations and orders of options.",
  [Q+"QuizLauncher.cpp:processArgs", Q+"QuizLauncher.cpp:processArg", Q+"QuizLauncher.cpp:setQuizType"])
p("C82", "Kanji arguments of the quiz program denote what they say",
  "A kanji argument is read as a frequency, Morohashi id, Nelson id, Unicode value or kanji exactly when it has the documented form, with the number that is written; everything else is an error.",
  "all argument strings",
  "All strings.",
  [Q+"QuizLauncher.cpp:processKanjiArg", Q+"QuizLauncher.cpp:getId"])
p("C83", "Loading jukugo files",
  "Loading the jukugo files succeeds exactly when every entry is well-formed and no word is in files of different grades; then there is one word per name and reading, in order of first appearance. Otherwise the load fails with a DomainError.",
  "for all contents of the jukugo files",
  "tests load the project's own files; duplicates across files and entries on one line come in unbounded combinations",
  [Q+"JukugoData.cpp:loadFile", Q+"JukugoData.cpp:createJukugo", Q+"JukugoData.cpp:create"])

p("C84", "Regex ranges match exactly their character class",
  "The bracket expression built from Unicode blocks matches a code point exactly when the block lookup puts it in the class (for kanji: or it is a variation selector), and indexing a block is defined exactly for the indexes inside the list.",
  "for all code points and all indexes",
  "tests match a handful of characters per range; one code point missing at a block boundary would go unnoticed",
  ["libs/utils/include/kt_utils/BlockRange.h", "libs/utils/src/BlockRange.cpp:checkIndex"])

p("C85", "Arguments of kanaConvert are read as documented",
  "For every list of arguments the program reads options, flags and strings as its usage text says: '--' ends the options, '-f' takes one documented flag letter, at most one of -i, -m, -n, -p is accepted, and what is neither option nor string is an error.",
  "for all lists of arguments",
  "options, flag values and strings combine without bound; tests try single combinations",
  [K+"KanaConvert.cpp:KanaConvert", K+"KanaConvert.cpp:processArg", K+"KanaConvert.cpp:charTypeArgs"])

p("C86", "Option -n suppresses the newline",
  "With '-n' no newline is written after conversions, neither for strings given as arguments nor for lines of the input.",
  "for all strings and inputs",
  "no test combines -n with strings",
  [K+"KanaConvert.cpp:start", K+"KanaConvert.cpp:getInput"])

p("C87", "The dialogue of kanaConvert",
  "In interactive mode every input line is answered as documented: 'q' ends, 'c' clears the flags, 'f' asks for a flag until one is given, '-x' changes source or target type, and everything else is converted with the options in force. Piped input is converted line by line.",
  "for all input texts and all initial options",
  "a session is a state machine over unbounded input; tests feed a few short scripts",
  [K+"KanaConvert.cpp:getInput", K+"KanaConvert.cpp:processLine", K+"KanaConvert.cpp:flagArgs"])

p("C88", "Boolean, optional and limited cells of column files",
  "A Boolean cell is true for 'Y' and 'T', false for 'N', 'F' and an empty cell and an error otherwise; an optional number is absent exactly when the cell is empty; a number is never larger than the limit asked for.",
  "for all cell texts and all limits",
  "cells hold arbitrary text; tests try a few values",
  ["libs/utils/src/ColumnFile.cpp:processBool", "libs/utils/src/ColumnFile.cpp:getOptU64", "libs/utils/src/ColumnFile.cpp:processU64"])

p("C89", "Rows of group files",
  "A row of a group file gives a group exactly when its name consists of multi-byte characters, its number fits 16 bits, its members do not end with a comma, and its 2 to 58 members are known and different; the kind of a pattern group follows from the wide colon in its name, and the first character of a family name is its first member. A file with any other row is rejected.",
  "for all rows and all sets of known kanji",
  "row texts are unbounded; tests use a handful of malformed rows",
  [Q+"GroupData.cpp:loadGroup", Q+"GroupData.cpp:getKanjiNames", Q+"GroupData.cpp:createGroup"])

p("C90", "The groups of a kanji",
  "After loading, the meaning groups found for a kanji are exactly the groups of the file that have it as a member, in file order; the pattern group found for a kanji is the first one with it as a member, and one error was printed for every further one.",
  "for all group files",
  "needs all combinations of members over any number of groups",
  [Q+"GroupData.cpp:loadGroup", Q+"GroupData.cpp:GroupData"])

p("C91", "Summary of meaning groups",
  "The printed numbers of unique kanji, of kanji in one group and of kanji in several groups are right, and each kanji in n > 1 groups is listed exactly in the line for n.",
  "for all meaning group files",
  "the loop depends on the order of a multimap; the tests check one data set",
  [Q+"GroupData.cpp:printUniqueNames", Q+"GroupData.cpp:printMeaningGroup"])

p("C92", "Missing kanji of a type",
  "The type breakdown of groups shows the first 12 kanji of each type that are in no group, and shows none exactly when all kanji of the type are in a group.",
  "for all group files and all lists of kanji",
  "the number of missing kanji is computed as a difference of sizes, which is only right if no kanji was counted twice; the data tested has no duplicates",
  [Q+"GroupData.cpp:printTypeBreakdown", Q+"GroupData.cpp:printMissingFromType", Q+"GroupData.cpp:printPatternGroup"])

p("C93", "Rows of the UCD file",
  "A row of the UCD file is accepted exactly if it is well-formed (a reading, Morohashi id or J source is given; the name has at most 4 bytes and is a kanji with the given code; radical 1 to 214; not both joyo and jinmei; joyo has a meaning and no links; link names, codes and type are given together; strokes, sources, Morohashi id and link type are valid), its name is new and (for jinmei) no link was used before. The entry has exactly the values of the row. Otherwise there is a DomainError, never undefined behaviour.",
  "for all rows and all data loaded before",
  "tests have one example for each message; the conditions interact and are checked in a fixed order while the maps are already changed",
  [J+"UcdData.cpp:load", J+"UcdData.cpp:loadLinks", J+"UcdData.cpp:processLinks", J+"Ucd.cpp:Entry", J+"Ucd.cpp:getSources"])
p("C94", "Link names and link codes correspond",
  "In an accepted row of the UCD file the link names and link codes correspond one to one and every link name has the code given.",
  "for all accepted rows",
  "tests only have a row with fewer codes than names",
  [J+"UcdData.cpp:loadLinks"])
p("C95", "Contents of the UCD data",
  "A UCD file is loaded exactly if all rows are well-formed, no name occurs twice and no kanji is linked to by two jinmei entries. Then the map has one entry for each row, and the two link maps lead from a kanji exactly to the loaded jinmei (or other) entries with a link to it.",
  "for all files",
  "this is an invariant of three maps over any number of rows; tests look at a few entries",
  [J+"UcdData.cpp:load", J+"UcdData.cpp:processLinks"])
p("C96", "Finding UCD entries",
  "find returns the entry with the given name. For a kanji with a variation selector it returns the (only) jinmei entry with a link to the kanji or, as documented, another entry with a link to it.",
  "for all loaded files and all names",
  "tests look up a few names; that at most one jinmei entry fits depends on all rows",
  [J+"UcdData.cpp:find", JI+"UcdData.h:find"])
p("C97", "Readings as kana",
  "getReadingsAsKana gives the words of the on readings converted to Katakana and then the words of the kun readings converted to Hiragana with a wide comma between any two of them; words are separated by spaces or commas.",
  "for all entries",
  "tests have a single entry; the words are converted together in one text, so they could influence each other",
  [J+"UcdData.cpp:getReadingsAsKana", K+"Converter.cpp:convert"])
p("C98", "Printed UCD counts",
  "In the printed summary each number for Jouyou, Jinmei and Other is the number of entries of this kind with the feature, every entry is in exactly one of the kinds and the totals are the numbers among all entries.",
  "for all loaded files",
  "tests compare one printed summary",
  [J+"UcdData.cpp:print", J+"UcdData.cpp:PrintCount"])

p("C99", "The Kana chart keeps the promises of its notes",
  "The chart lists every kana once, sorted by Hiragana, with a border before each group; values in parentheses are exactly the Hepburn and Kunrei readings that lead to a different kana when typed, every variant leads to the same kana, Unicode values are shown for single letters only, and the totals count the rows. With -m it is the text of docs/KanaConversionChart.md.",
  "for all kana and both output formats",
  "tests compare a few rows; nothing ties the notes to the table",
  [K+"KanaConvert.cpp:printKanaChart", K+"KanaConvert.cpp:printChartFooter", K+"KanaConvert.cpp:getKunrei", K+"KanaConvert.cpp:getHepburn"])

p("C100", "Level, kyu and frequency come from the list files",
  "The level (kyu) found for a name is the one in whose file it is an entry, and none if it is in no such file; the files of a kind have no entry in common, and its frequency is the number of its line in the frequency file, or 0 if it isn't there.",
  "for all list files that load",
  "tests use files with a few entries; the checks for uniqueness work over all files of a kind",
  [J+"TextKanjiData.cpp:level", J+"TextKanjiData.cpp:kyu", J+"TextKanjiData.cpp:frequency", J+"ListFile.cpp:load"])
p("C101", "The lists of types are the kanji found by name",
  "After loading all data files the list of each type has exactly the kanji of that type that are found by name, in the order in which they were loaded. For Jouyou, Jinmei and Extra kanji this is one kanji per row of the file.",
  "for all data files that load",
  "tests load one set of files; files with repeated rows are only reported",
  [J+"TextKanjiData.cpp:loadJouyouKanji", J+"TextKanjiData.cpp:loadJinmeiKanji", J+"TextKanjiData.cpp:loadExtraKanji", J+"KanjiData.cpp:checkInsert"])
p("C102", "Linked kanji lead to loaded kanji",
  "The new name of each linked kanji is the name of a loaded kanji (if no error was printed: Jouyou, or Jinmei for linked Jinmei kanji), both kanji of each line of 'linked-jinmei' and all old names of Jouyou and Jinmei kanji are found, and an old form that several Jouyou kanji share is linked to the first of them in the order of names.",
  "for all data files that load",
  "depends on the order in which files are loaded and on the iteration over a map that is changed in the loop",
  [J+"TextKanjiData.cpp:loadOfficialLinkedKanji", J+"TextKanjiData.cpp:loadJinmeiKanji", J+"OfficialKanji.cpp:check"])
p("C103", "Every kanji comes from the file of its type",
  "Each loaded kanji comes from a row, line, old name, list entry or Unicode entry that belongs to its type and has the values given there: grades only for Jouyou kanji, levels only for Jouyou and Jinmei kanji, kyus as in the kyu files for all kanji and frequencies as in the frequency file for all but Extra, Kentei and Ucd kanji.",
  "for all data files that load and all kanji",
  "tests look at a few kanji",
  [J+"TextKanjiData.cpp:TextKanjiData", J+"OfficialKanji.cpp:OfficialKanji", J+"TextKanjiData.cpp:processList", J+"KanjiData.cpp:processUcd"])
p("C104", "All entries of the list files are found",
  "After loading, every entry of the level, kyu and frequency files and of the Unicode file is found by name; the kanji of a level or kyu are the entries of its file in order and the kanji of frequency n is the one of line n.",
  "for all data files that load (frequency files of at most 2750 lines, entries that aren't compatibility names of other kanji)",
  "tests look at a few entries; relies on invariants over all files loaded before",
  [J+"TextKanjiData.cpp:processList", J+"KanjiData.cpp:findByFrequency", J+"KanjiData.cpp:addToLevels", J+"KanjiData.cpp:processUcd"])

p("C105", "Long vowels in Rōmaji",
  "Rōmaji syllables with macrons become their kana, each followed by the kana of its vowel (あいうえお) when the target is Hiragana and NoProlongMark is set and by ー otherwise; Katakana always has ー.",
  "for all sequences of syllables of the table and all converters with a kana target",
  "tests have a few words; the flag must have an effect for one target only",
  [K+"Converter.cpp:processRomajiMacron", K+"Converter.cpp:toKana"])
p("C106", "Letters that are no syllables",
  "No letter is lost: consonants without vowels are kept at their places, except that n becomes ん (unless exactly one other letter stands between it and the next n or the end of the word) and the first of a doubled consonant becomes っ (if a third letter other than n follows).",
  "for all words of consonants after any syllables",
  "tests have few malformed words; the result depends on up to two letters that wait to be read",
  [K+"Converter.cpp:toKana", K+"Converter.cpp:processRomaji"])

p("C107", "Cells of the kanji files",
  "A row of the Jouyou, Jinmei or Extra file with numbers in its number columns is accepted exactly if the numbers are in range (number and year below 65536, strokes 1 to 64), the grade is one of 1-6 and S, the reason is one of the six names, the radical exists and the name is one character; then the kanji has exactly these values and its extra text is made of the cells. Readings of frequency kanji are the rows of their file, whose names must differ.",
  "for all rows",
  "tests use a few values; limits of types and enum names matter only at the borders",
  [J+"OfficialKanji.cpp:getGrade", J+"OfficialKanji.cpp:extraTypeInfo", J+"OfficialKanji.cpp:OfficialKanji", J+"TextKanjiData.cpp:loadFrequencyReadings"])

p("C108", "Lists of Jukugo",
  "All Jukugo with a kanji are shown once and in order: up to three on one line, more in a table of three columns in which entries of a column start at the same place and are separated by blanks. For kanji with a grade and more than three Jukugo those of the same and of other grades are shown separately unless all have the same grade.",
  "for all kanji and all lists of Jukugo",
  "tests show a few lists; only entries of 30 or more columns (there are some in the data) run into the next entry",
  [Q+"QuizLauncher.cpp:printJukugo", Q+"QuizLauncher.cpp:printJukugoList", Q+"Jukugo.cpp:nameAndReading"])
p("C109", "Details of a kanji",
  "The details of a kanji show every other member of its first pattern group once (unless the group is named by a reading), all its meaning groups in the order of the file, its Morohashi and Nelson IDs and its Jukugo; looking up an ID shows the legend once and every match once.",
  "for all group files that load, all kanji and all matches",
  "tests show a few kanji",
  [Q+"QuizLauncher.cpp:printReviewDetails", Q+"QuizLauncher.cpp:printDetails", Q+"QuizLauncher.cpp:printLegend", Q+"QuizLauncher.cpp:printMeaning", J+"KanjiData.cpp:getNelsonIds"])

p("C110", "Which groups are asked",
  "A group quiz asks exactly the groups with at least two members to show; using the original list when all members are shown from the beginning makes no difference.",
  "for all lists of groups, member types and orders",
  "tests use groups whose members all have readings",
  [Q+"GroupQuiz.cpp:start", Q+"GroupQuiz.cpp:enoughMembers"])
p("C111", "The screen of a group question",
  "Each member of a group is shown on its own line with its number, name, pinyin and letter, with the letters aligned in the same column; the answers given so far are listed in order.",
  "for all groups of at most 58 members, all names and pinyin and all answers given so far",
  "tests show a few groups with short pinyin",
  [Q+"GroupQuiz.cpp:showGroup", Q+"GroupQuiz.cpp:printAssignedAnswers", Q+"GroupQuiz.cpp:addPinyin", Q+"GroupQuiz.cpp:addOtherGroupName"])
p("C112", "The final score",
  "The final score shows the number of right answers, of questions answered or skipped and of skipped questions; it is perfect exactly if all were answered right, and the mistakes are listed in order.",
  "for all sequences of answers to a quiz of at most 65535 questions, from any first question",
  "tests answer a few questions from the first one",
  [Q+"Quiz.cpp:~Quiz", Q+"ListQuiz.cpp:start", Q+"GroupQuiz.cpp:start"])

p("C113", "Furigana is removed and nothing else",
  "A reading (kana in wide brackets) after a kanji, a variation selector or a wide letter is removed, from left to right; all other characters are kept in order, a text changes exactly if it has such a reading, and none is left afterwards.",
  "for all texts",
  "tests have a few lines; overlapping candidates depend on the leftmost match of a regular expression",
  [S+"Utf8Count.cpp:add"])
p("C114", "Number of lines with Furigana",
  "The number shown as 'Furigana Removed' is the number of lines with Furigana.",
  "for all sequences of lines",
  "tests use well-formed files",
  [S+"Utf8Count.cpp:add", S+"Stats.cpp:printHeaderInfo"])
p("C115", "Number of errors",
  "The number of errors shown in the header is the number of errors of the text.",
  "for all sequences of lines, well-formed or not",
  "tests use well-formed files",
  [S+"Utf8Count.cpp:add", S+"Stats.cpp:printHeaderInfo"])
p("C116", "Verbose output",
  "With the verbose option every line changed by the removal of Furigana is shown below the name of its file, numbered, before and after the change.",
  "for all files and lines",
  "tests have one file; files of the same name can be in several directories",
  [S+"Utf8Count.cpp:add"])
p("C117", "Numbers of the report",
  "The set of counts has every character exactly once although its comparison isn't an order; 'unique' and the total are those of the text, each kanji type with characters has one line with its total, number of characters and first five characters, and these add up to the numbers of all common kanji.",
  "for all texts and all shapes of the tree of the set",
  "the comparison isn't transitive, so what a std::set does depends on the order of insertion and the balance of the tree",
  [S+"Stats.cpp:run", S+"Stats.cpp:printKanjiTypeCounts", S+"Stats.cpp:operator<"])
p("C118", "Order of the report",
  "Characters with higher counts are shown first.",
  "for all texts and all shapes of the tree of the set",
  "the order is wrong only for kanji of the same frequency and different types",
  [S+"Stats.cpp:operator<", S+"Stats.cpp:printBreakdown", S+"Stats.cpp:printRareExamples"])
p("C119", "Header of the report",
  "The header shows the number of files and directories if there is more than one and the counters on a second line whenever one of them isn't 0.",
  "for all numbers",
  "tests never have errors",
  [S+"Stats.cpp:printHeaderInfo"])
p("C120", "Total of the report",
  "The last line shows the number of characters that are Hiragana, Katakana or Kanji and the shares of each; every such character is counted in exactly one of the first five categories.",
  "for all texts and all sets of known kanji",
  "tests have a few texts; categories are defined by many Unicode blocks",
  [S+"Stats.cpp:countKanji"])
p("C121", "Breakdown of the report",
  "Nothing is shown for a category without characters; the breakdown has one line for each character with ranks from 1, and the file shown for a character is the first one in which it occurs most often.",
  "for all texts and files",
  "tests have one file",
  [S+"Stats.cpp:run", S+"Stats.cpp:printBreakdown"])

p("C122", "Number of loaded kanji",
  "The line printed after loading shows the number of kanji found by name and the number of kanji of each type, and these add up.",
  "for all data files",
  "tests only see the one set of files, in which no kanji is twice",
  [J+"KanjiData.cpp:printCountsAndStats"])
p("C123", "Counts of kanji with a feature",
  "Each count shows how many kanji have the feature, in total and for each type with such kanji, with the names of the first of them if examples are asked for, separated by commas; nothing is shown if no kanji has it. What is printed depends on the debug mode only.",
  "for all loaded kanji, features and numbers of examples",
  "where commas are needed follows from subtracting counts from a total, so any miscount would show up as a wrong separator",
  [J+"KanjiData.cpp:printCount", J+"KanjiData.cpp:printCountsAndStats", J+"KanjiData.cpp:finishedLoadingData"])
p("C124", "Breakdown of grades",
  "Each grade with kanji has one line with its number, the number of those without a frequency and the numbers for each level, which add up; all grades together are the Jouyou kanji, and after loading no kanji is without a grade.",
  "for all loaded kanji",
  "tests only see the one set of files",
  [J+"KanjiData.cpp:printGrades", J+"KanjiData.cpp:noFreq"])
p("C125", "Breakdown of levels and kyus",
  "Each level or kyu with kanji has one line with its number and the numbers for each type, which add up; every loaded kanji is counted once ('None' if it has no level or kyu), and if no error was printed the number of a kyu is that of the kanji in its file and the number of a level that of the Jouyou and Jinmei kanji in its file.",
  "for all data files",
  "tests check a few lines for the one set of files",
  [J+"KanjiData.cpp:printListStats", J+"KanjiData.cpp:noFreq"])
p("C126", "The argument -data",
  "The argument after the first -data is the data directory if it is a directory with ten '.txt' files, otherwise there is an error that tells why; a directory that is used always has ten '.txt' files.",
  "for all argument lists and file systems",
  "tests have a handful of argument lists on the one file system",
  [J+"KanjiData.cpp:getDataDir", J+"KanjiData.cpp:isValidDataDir"])
p("C127", "Searching for the data directory",
  "Without -data the nearest 'data' directory with ten '.txt' files at or above the current directory is used, otherwise the nearest one in a parent directory of the program, otherwise there is an error that names the places searched.",
  "for all argument lists, current directories and file systems",
  "tests run inside of the source tree",
  [J+"KanjiData.cpp:getDataDir", J+"KanjiData.cpp:searchUpForDataDir"])
p("C128", "The value of -data is no option",
  "The argument after -data is never taken for a debug option.",
  "for all argument lists",
  "no test has a directory with such a name",
  [J+"KanjiData.cpp:getDebugMode", J+"KanjiData.cpp:getDataDir", J+"KanjiData.cpp:nextArg"])
p("C129", "Lists of kanji by radical",
  "The report on radicals has one list for each radical of a common kanji, in the order of the numbers of the radicals; each list has exactly the common kanji of this radical.",
  "for all loaded kanji",
  "tests have a handful of kanji with one or two radicals",
  [J+"RadicalData.cpp:print", J+"RadicalData.cpp:printRadicalLists"])
p("C130", "Lines of the report on radicals",
  "Each line has the number and the name of the radical, the number of its kanji, the numbers by type (which add up) and the first twelve kanji by strokes; every common kanji is in exactly one line.",
  "for all loaded kanji and all sorts that respect the order",
  "tests have a handful of kanji; the order among equal kanji is not fixed by std::sort",
  [J+"RadicalData.cpp:print", J+"RadicalData.cpp:printCounts", J+"RadicalData.cpp:printRadicalLists"])
p("C131", "Radicals without kanji",
  "The radicals listed at the end are the radicals of no common kanji, in the order of the file; the radicals with and without kanji add up to the number of radicals.",
  "for all loaded kanji and radicals",
  "tests have one file of radicals",
  [J+"RadicalData.cpp:printMissingRadicals"])
p("C132", "Counts of the report on Unicode data",
  "For each feature the line has the number of entries with it, split into Jouyou, Jinmei and other entries; the total is the number of entries in the file.",
  "for all Unicode data files",
  "tests have files of a few lines",
  [J+"UcdData.cpp:print", J+"UcdData.cpp:printCount"])
p("C133", "Listing of links",
  "The listing has a line with codes and names for each kanji whose entry has links; it says 'not found in UCD' exactly for the kanji without entry.",
  "for all Unicode data and kanji lists",
  "tests list one or two kanji",
  [J+"UcdData.cpp:printVariationSelectorKanji", J+"UcdData.cpp:print"])
p("C134", "Table of kanji with variation selectors",
  "The table has a numbered row for each kanji with a variation selector, in the order of the names; there is a DomainError if one of them has no entry.",
  "for all Unicode data and loaded kanji",
  "tests have one such kanji",
  [J+"UcdData.cpp:printVariationSelectorKanji"])
p("C135", "Printed lists of groups",
  "The list of groups has a line with number, name, size and members for each group, in the order of the file, and its layout does not depend on what was printed before.",
  "for all groups and states of the stream",
  "tests print to a new stream",
  [Q+"GroupData.cpp:printGroups", Q+"GroupData.cpp:printMeaningGroup", Q+"GroupData.cpp:printPatternGroup"])
p("C136", "Breakdown of groups by type",
  "The breakdown has one line for each type of which a kanji is in a group, with the number of these kanji, the number of all kanji of the type and up to twelve kanji that are in no group.",
  "for all groups and kanji",
  "tests have a few groups",
  [Q+"GroupData.cpp:printTypeBreakdown", Q+"GroupData.cpp:printMissingFromType"])
p("C137", "Messages about wrong groups",
  "The message for a group that can't be created tells the first thing that is wrong; names that are there more than once are each listed once, in the order of the members, and there is a message exactly if the group isn't created.",
  "for all lists of members",
  "tests have one or two lists for each message",
  [Q+"Group.cpp:Group", Q+"Group.cpp:toString", Q+"Group.cpp:error"])
p("C138", "Finding list files",
  "The file found for a name is the file itself or, for a name without extension that names no file, the file with the extension '.txt'; otherwise the error tells which of the conditions fails; the constructor finds the same file as getFile.",
  "for all names and file systems",
  "tests have one directory with a few files",
  [J+"ListFile.cpp:getFile", J+"ListFile.cpp:ListFile"])
p("C139", "Errors of list files",
  "The error for a list file is about the first token with a problem and has the number of its line; without such a token it lists all tokens that were in an earlier file. 'got multiple tokens' is reported only for lines with several tokens.",
  "for all texts and sets of names",
  "tests have one file per error",
  [J+"ListFile.cpp:load", J+"ListFile.cpp:validate"])
p("C140", "Lists printed while list files are processed",
  "In full debug mode the entries of a list for which a kanji was created and those found by type are printed with their numbers, Jinmei kanji of the frequency list by whether they have a level; this does not change what is loaded.",
  "for all lists and loaded kanji",
  "tests use the real files and look at the output only in part",
  [J+"TextKanjiData.cpp:processList", J+"TextKanjiData.cpp:printListData", J+"ListFile.cpp:print"])
p("C141", "Differences of strokes",
  "The names listed for a type are those of kanji with other strokes than their Unicode entry; after loading only Jouyou and Extra kanji can be listed.",
  "for all data files",
  "tests use the real files",
  [J+"KanjiData.cpp:checkStrokes"])
p("C142", "Messages for errors while loading",
  "Every insertion prints a message for each error, with the reason and the name; the messages are numbered one after the other, with four digits.",
  "for all sequences of insertions",
  "tests have one or two errors",
  [J+"KanjiData.cpp:printError", J+"KanjiData.cpp:checkInsert", J+"KanjiData.cpp:insertSanityChecks"])
p("C143", "Conversion of upper and lower case",
  "toLower and toUpper change exactly the ASCII letters of a text: decoding and converting commute, other bytes are unchanged, converting twice is converting once; firstLower and firstUpper convert only the first byte and change nothing in a text that starts with another character.",
  "for all byte strings",
  "tests have a few English words and one Japanese word",
  [U+"String.cpp:toLower", U+"String.cpp:toUpper", U+"String.cpp:firstLower", U+"String.cpp:firstUpper"])
p("C144", "Conversion of numbers to char",
  "Each overload of toChar gives the character with this number exactly if it is in the allowed range and otherwise throws a RangeError whose message has the number and the type; the overloads agree where they all apply.",
  "for all integers",
  "tests have the boundary values of some overloads",
  [U+"String.cpp:toChar", UI+"String.h:toUChar"])
p("C145", "Tests for single byte characters",
  "The overloads of isSingleByte, isAllSingleByte and isAnySingleByte agree on a text and on its decoded characters if it has no NUL, and tell whether one, all or some characters are ASCII.",
  "for all byte strings without NUL",
  "tests have a few texts",
  [U+"String.cpp:isSingleByte", UI+"String.h:isSingleByte", UI+"String.h:isAnySingleByte", UI+"String.h:isAllSingleByte"])
p("C146", "Choices of a list quiz question",
  "The prompt of every question lists exactly the keys that are accepted: the numbers of the lines in quiz mode, the way back in a review (from the second question), the meanings switch, skip and quit; the meanings switch only changes its own text.",
  "for all numbers of lines from 1 to 9, questions and switches",
  "tests look at a few questions",
  [Q+"ListQuiz.cpp:start", Q+"Quiz.cpp:getDefaultChoices", Q+"ListQuiz.cpp:getAnswer"])
p("C147", "Judging answers of list quizzes",
  "A number is judged correct exactly if the kanji of that line has the reading of the one asked for; otherwise the message names the only line that has.",
  "for all questions with at most 9 lines",
  "the lines are random, tests fix the seed of a few questions",
  [Q+"ListQuiz.cpp:getAnswer", Q+"Quiz.cpp:correctMessage", Q+"Quiz.cpp:incorrectMessage"])
p("C148", "List quiz sessions",
  "A session with any input goes through the questions like the score keeping loop: every question is answered, skipped or left for the previous one with an action that was offered, and the mistakes listed at the end are the names of the questions answered wrongly, in order.",
  "for all lists, inputs and random choices",
  "tests play a few sessions of a few questions",
  [Q+"ListQuiz.cpp:start", Q+"ListQuiz.cpp:getAnswer", Q+"Quiz.cpp:~Quiz"])
p("C149", "Text of a list quiz",
  "For each question the output has the screen, one prompt for each line read and the verdict; lines that aren't a choice only repeat the prompt, and switching meanings repeats the same question.",
  "for all inputs",
  "tests look at parts of the output",
  [K+"Choice.cpp:get", Q+"ListQuiz.cpp:start", Q+"ListQuiz.cpp:getAnswer"])
p("C150", "Final score only after a quiz",
  "A final score is printed only if the quiz was started.",
  "for all lists and start questions",
  "tests start quizzes only with valid lists",
  [Q+"Quiz.cpp:~Quiz", Q+"ListQuiz.cpp:ListQuiz"])
p("C151", "Bitmask operators",
  "For an enum with any number of bits the operators are the operations on sets of bits: and, or, xor and not; hasValue tells whether there is a bit; adding and removing a flag changes only this flag.",
  "for all widths and values",
  "tests have one enum with three values",
  [UI+"Bitmask.h:operator~", UI+"Bitmask.h:hasValue", KI+"KanaEnums.h:ConvertFlags"])
p("C152", "Conversion flags as text",
  "The text shown for a set of flags has the names of exactly these flags, and the options shown by kanaConvert determine source, target and flags.",
  "for all sets of flags and types",
  "tests have a few sets",
  [K+"Converter.cpp:flagString", K+"KanaConvert.cpp:printOptions"])
p("C153", "Fields left out of list quizzes",
  "The field that is the criterion of a list quiz, and only this, is missing in the legend and in the kanji shown.",
  "for all quiz types and sets of fields",
  "tests look at the legend of one quiz",
  [J+"Kanji.cpp:info", Q+"QuizLauncher.cpp:start"])
p("C154", "Options and help texts",
  "Each program accepts exactly the one letter options that its help text explains.",
  "for all characters",
  "tests have valid options and a few invalid ones",
  [Q+"QuizLauncher.cpp:HelpMessage", S+"Stats.cpp:HelpMessage", K+"KanaConvert.cpp:usage"])
p("C155", "Values of quiz options and the synopsis",
  "kanjiQuiz accepts exactly the values of -f, -g, -k, -l, -m and -p that the synopsis of its help text gives.",
  "for all options and characters",
  "tests have a few values",
  [Q+"QuizLauncher.cpp:HelpMessage", Q+"QuizLauncher.cpp:setQuizType"])
p("C156", "Questions before a quiz",
  "kanjiQuiz asks for mode, order, type and list unless they are given by options, and in a test with a list for the number of choices and the style, until one is answered by quitting. Each prompt is repeated until its answer is valid, and the quiz started has the mode, order, list, number of choices and style that the answers denote. No input leads to an error.",
  "for all options and inputs",
  "tests answer the prompts with a few valid inputs",
  [Q+"QuizLauncher.cpp:start", Q+"QuizLauncher.cpp:startListQuiz", Q+"QuizLauncher.cpp:startGroupQuiz", Q+"QuizLauncher.cpp:getQuestionOrder", K+"Choice.cpp:get"])
p("C157", "Messages for errors in column files",
  "The message for an error in a column file tells the reason, the file, and the row, column and value if there are such; it is about the first error found, missing columns are listed in order, and there is a message exactly if there is an error.",
  "for all files, columns and values",
  "tests have one file for each message",
  [U+"ColumnFile.cpp:nextRow", U+"ColumnFile.cpp:error", U+"ColumnFile.cpp:verifyHeaderColumns"])
p("C158", "Answering a group question",
  "Whatever is entered while a group question is asked, there is no error for groups with up to 58 members shown; answers are distinct letters of members, one for each member if the question is complete, and one can only go back in a review after the first question.",
  "for all groups, states and inputs",
  "tests answer two groups",
  [Q+"GroupQuiz.cpp:getAnswers", Q+"GroupQuiz.cpp:getAnswer", Q+"GroupQuiz.cpp:editAnswer", Q+"GroupQuiz.cpp:getAnswerToEdit"])
p("C159", "Group quiz sessions",
  "No input leads to an error in a group quiz if each member has a letter. The verdict counts the members for which the reading chosen, and the meaning if meanings are shown, is the right one; the score counts the groups with only right answers and the mistakes are the names of the others in order.",
  "for all lists of groups, orders and inputs",
  "tests have groups of two to five members",
  [Q+"GroupQuiz.cpp:start", Q+"GroupQuiz.cpp:checkAnswers"])
p("C160", "Dialog of a group question",
  "While a group question is asked, the group is shown at first and again after refresh and when meanings are switched; each prompt offers exactly the letters not chosen and the commands that make sense, has a default only where documented, and is repeated until the answer is valid.",
  "for all groups with up to 58 members and all inputs",
  "tests look for single lines in the output",
  [Q+"GroupQuiz.cpp:getAnswers", Q+"GroupQuiz.cpp:getAnswer", Q+"GroupQuiz.cpp:editAnswer", K+"Choice.cpp:get"])
p("C161", "Start of a group quiz",
  "A group quiz asks for the part of the pattern groups, then has a heading, the questions and a final score. It is an error if there are no groups or the question to start with doesn't exist. Quitting at the prompt counts as skipped only the questions before the one to start with.",
  "for all lists of groups, start questions and inputs",
  "tests quit at the prompt without a start question",
  [Q+"GroupQuiz.cpp:GroupQuiz", Q+"GroupQuiz.cpp:getGroupType", Q+"GroupQuiz.cpp:start", Q+"Quiz.cpp:beginQuizMessage"])
p("C162", "Transcript of a group quiz",
  "A group quiz writes exactly a heading, for each question the group with its members and readings aligned in columns, the prompts with the choices possible at that time and the verdict, and at the end the final score, whatever is entered.",
  "for all lists of groups with up to 26 members shown, start questions, orders and inputs",
  "tests look for single lines in the output",
  [Q+"GroupQuiz.cpp:start", Q+"GroupQuiz.cpp:showGroup", Q+"GroupQuiz.cpp:getAnswers", Q+"Quiz.cpp:~Quiz", K+"Choice.cpp:get"])
p("C163", "Transcript of a list quiz",
  "A list quiz writes exactly a heading, for each question its text, the numbered answers (the right one at the position drawn, around it the kanji drawn that have new readings, in the order drawn), the prompts with the choices possible at that time and the verdict, and at the end the final score, whatever is drawn and entered.",
  "for all lists of kanji with readings, start questions, draws and inputs",
  "tests look for single lines in the output and don't shuffle the answers",
  [Q+"ListQuiz.cpp:start", Q+"ListQuiz.cpp:populateAnswers", Q+"ListQuiz.cpp:printQuestion", Q+"ListQuiz.cpp:getAnswer", Q+"Quiz.cpp:~Quiz", K+"Choice.cpp:get"])
p("C164", "The program that shows kanji",
  "For any argument the quiz program either shows the kanji asked for (by name, frequency, Morohashi ID, Nelson ID or code: a legend, then one text per kanji with that ID) or ends with the documented message. Whichever way a kanji is named, the same text is shown, and there is a text for every name.",
  "for all arguments and all loaded data in which every frequency is found and no kanji has both new and old names",
  "tests have two kanji and one list of three",
  [Q+"QuizLauncher.cpp:processKanjiArg", Q+"QuizLauncher.cpp:printDetails", Q+"QuizLauncher.cpp:printExtraTypeInfo", Q+"QuizLauncher.cpp:getId", J+"MorohashiId.cpp:validate"])
p("C165", "Options of kanjiQuiz and messages for wrong ones",
  "kanjiQuiz reads options until the first argument that is none, -h or --; the first option with a problem ends the program with the documented message, otherwise it shows the help, the kanji given, or starts a quiz with exactly the settings that the options stand for.",
  "for all lists of arguments",
  "tests have one wrong option per message and few combinations",
  [Q+"QuizLauncher.cpp:QuizLauncher", Q+"QuizLauncher.cpp:processArg", Q+"QuizLauncher.cpp:processProgramModeArg", Q+"QuizLauncher.cpp:setQuizType"])
p("C166", "Dialog before a quiz for any input",
  "For any input, including wrong answers and input that ends early, the questions before a quiz are exactly those that the options leave open, in the order mode, order, type, list, number of choices and style; each is repeated until the line is one of the keys offered (or empty if there is a default), and the quiz chosen is the one the answers stand for.",
  "for all options and inputs",
  "tests answer the prompts with a few valid inputs",
  [Q+"QuizLauncher.cpp:start", Q+"QuizLauncher.cpp:startListQuiz", Q+"QuizLauncher.cpp:startGroupQuiz", Q+"QuizLauncher.cpp:getQuestionOrder", K+"Choice.cpp:get"])
p("C167", "kanjiQuiz from its command line to its output",
  "For any arguments, any input and any random numbers, kanjiQuiz writes exactly the specified text to standard output and standard error and exits with the specified code: the help, a kanji, the message for the first wrong argument, or the dialog followed by the list or group quiz chosen, with the kanji of the list or the groups of the part chosen in the order chosen; for data that fits it never has undefined behaviour.",
  "for all arguments, inputs, random draws and loaded data",
  "tests construct quizzes directly with a few inputs; main isn't tested",
  ["apps/quizMain.cpp:main", Q+"Quiz.cpp:run", Q+"QuizLauncher.cpp:start", Q+"ListQuiz.cpp:ListQuiz", Q+"GroupQuiz.cpp:prepareList", Q+"GroupQuiz.cpp:start"])
p("C168", "kanaConvert from its command line to its output",
  "For any arguments and any input kanaConvert writes exactly the specified text to standard output and standard error and exits with the specified code: the usage, the message for the first wrong argument, the conversions of the strings, the chart, the conversions of the lines of the input up to a line with q, or the dialog of the interactive mode with every prompt, option line, help and message; it never throws anything else and has no undefined behaviour.",
  "for all argument lists (fewer than 65534) and all inputs",
  "tests cover one option or one dialog at a time; main isn't tested",
  ["apps/convertMain.cpp:main", K+"KanaConvert.cpp:KanaConvert", K+"KanaConvert.cpp:processArg", K+"KanaConvert.cpp:getInput", K+"KanaConvert.cpp:processLine", K+"KanaConvert.cpp:printOptions", K+"KanaConvert.cpp:start"])
p("C169", "The documented Kana chart is what the program prints",
  "The text that kanaConvert prints with -m is the file docs/KanaConversionChart.md, byte for byte: notes, every row with its variants, Unicode values and styles, and the totals. With -p it prints the same notes, then the chart for a terminal.",
  "for the whole chart (about 12 KB)",
  "the test compares only the start and the totals of the chart; the file in docs isn't tested",
  [K+"KanaConvert.cpp:printKanaChart", "docs/KanaConversionChart.md"])
p("C170", "A kanji's name is one character",
  "Every kanji that is loaded has a name of exactly one character (a variation selector and combining marks not counted). A row of the Jouyou, Jinmei or Extra file whose name isn't one character is reported as an error like its other cells.",
  "for all rows and files",
  "the names in the files are right; a row with an empty name or two characters doesn't occur in tests",
  [J+"Kanji.cpp:KanjiName", J+"OfficialKanji.cpp:OfficialKanji"])
p("C171", "Loaded data is good enough for the quiz program",
  "Every kanji that can be loaded from the data files has what the quiz program shows of it (a name that can be displayed, a stroke number and other values in the ranges of their types, entries of the Unicode file). The lists of the quizzes (grades, levels, Kyus, frequencies) have only loaded kanji. If the data files can be loaded and stay within the limits (fewer than 65536 Jouyou rows, at most 2750 frequency entries, no list entry that is only the base character of a kanji with variation selector, groups with as many members as can be shown), then the quiz program with this data ends with an exit code for every list of arguments, every input and every sequence of random numbers: no failing assertion and no access outside of a list.",
  "for all data files, arguments and inputs",
  "tests load a few hand-written files or the project's own data and run few dialogs",
  [Q+"Quiz.cpp:run", J+"TextKanjiData.cpp:TextKanjiData", J+"TextKanjiData.cpp:processList", Q+"QuizLauncher.cpp:start"])
p("C172", "Readings and meanings of loaded kanji",
  "The reading and the meaning of a loaded kanji are: those of its row for Jouyou and Extra kanji; the reading of its row and the meaning of the Unicode file for Jinmei kanji; both those of the Jouyou (or Jinmei) kanji it belongs to for linked kanji; for all others the meaning of the Unicode file and the reading converted from the On and Kun readings of the Unicode file, except for Frequency kanji with a row in the file of frequency readings, which have the reading of that row. Only Jouyou, Jinmei and Extra kanji have additional information.",
  "for all data files and all loaded kanji",
  "tests look at a few kanji of each type",
  [J+"Kanji.cpp:LoadedKanji", J+"OfficialKanji.cpp:JouyouKanji", J+"TextKanjiData.cpp:TextKanjiData"])
p("C173", "Radical, strokes, Pinyin and dictionary numbers of loaded kanji",
  "A loaded Jouyou or Extra kanji has the radical named in its row and the number of strokes in its row; a Jinmei kanji has the radical named in its row and the strokes of its entry in the Unicode file; all other kanji have the strokes of their entry and the radical with the number in the entry. The Pinyin, the Morohashi Id and the Nelson Ids of every kanji are those of its entry (none without entry or when the entry has none). The entry is the one found for the name of the kanji, and the compatibility name of the kanji is the name of this entry. Readings are marked as linked exactly for linked kanji and for kanji made only from an entry whose link type says so.",
  "for all data files and all loaded kanji",
  "tests look at a few kanji of each type",
  [J+"Kanji.cpp:OtherKanji", J+"OfficialKanji.cpp:OfficialKanji", J+"KanjiData.cpp:ucdRadical", J+"KanjiData.cpp:getNelsonIds"])
p("C174", "Percentages are rounded correctly",
  "A percentage in the report of kanjiStats (one or two digits after the point, computed with doubles as amount * 100 / total) is a decimal number nearest to the exact value: it differs by at most half a unit of the last digit. A larger amount never has a smaller percentage; nothing is 0 and everything is 100.",
  "for all amounts and totals up to 2^38",
  "tests compare a few percentages of small texts; rounding twice in binary and once in decimal could be off by one digit for some of the totals",
  [S+"Stats.cpp:asPercent", S+"Stats.cpp:printKanjiTypeCounts"])
p("C175", "kanjiStats from its command line to its output",
  "Everything kanjiStats writes is determined by its arguments, the data and the files, as described without the counting maps of the program: for each path (a link is followed, a directory is searched with everything below it) the heading has the numbers of files and directories and of replaced Furigana, combining marks, variation selectors and errors; then each of the nine categories that has characters is shown with the number of its characters and of the different ones in the lines and names, with a line per kanji type and share for the common kanji, examples for other kanji, and a list with ranks and the file with most occurrences where it is asked for; then the totals with percentages. An unknown option, missing arguments or a missing file give the documented message on the error output and exit code 1; the reports for the files before stay. The program doesn't crash.",
  "for all arguments, directory trees, file contents and kanji data, given the set of counts the library builds",
  "tests count a handful of small files with a few characters; what is written for a whole tree with all categories depends on nine counting runs with different settings that have to agree",
  ["apps/statsMain.cpp:main", S+"Stats.cpp:countKanji", S+"Stats.cpp:run", S+"Stats.cpp:printHeaderInfo", S+"Stats.cpp:printTotalAndUnique", S+"Stats.cpp:printBreakdown", S+"Utf8Count.cpp:addFile", S+"Utf8Count.cpp:doAddFile"])
p("C176", "The numbers of a statistics report are the numbers of characters in the text",
  "For a directory tree whose files and names are UTF-8 text without combining marks and variation selectors, the number shown for a category that counts Furigana is the number of characters of the whole text (however it is divided into lines, files and directories) whose code points are in the set of that category; without wide opening brackets this is so for all categories, and then every multi-byte character except the wide space is counted in exactly one category. Every kanji is in exactly one of the three kanji categories.",
  "for all directory trees of such text and all contents of the Unicode file",
  "tests count texts of a few characters; that cutting a text into lines, joining lines and removing readings loses or repeats no character is about all texts",
  [S+"Utf8Count.cpp:processFile", S+"Utf8Count.cpp:add", S+"Stats.cpp:countKanji"])
p("C177", "kanjiFormat from its command line to its output",
  "kanjiFormat writes the text of the file named by its first argument in which every line of Hiragana and Katakana that directly follows a line ending with a kanji (or a variation selector) is written in wide brackets at the end of that line, with the following text on the same line; all other lines are written as they are, each with a line end. This is said about lines of characters, for texts whose last line doesn't end with a kanji (C63 has the others). A missing argument, a path that isn't a regular file and an argument count above 65535 give their message on the error output and exit code 1; otherwise the exit code is 0 and nothing is written to the error output.",
  "for all arguments, file systems and file contents",
  "the program has no tests",
  ["apps/formatMain.cpp:main", "apps/formatMain.cpp:format", U+"Args.cpp:checkInt"])
p("C178", "kanjiStats counts the output of kanjiFormat as the text without its reading lines",
  "For a text without wide brackets whose last line doesn't end with a kanji: after kanjiStats joins the lines that belong together and removes the readings in brackets from what kanjiFormat wrote for the text, the remaining texts put together are exactly the lines of the original text that aren't readings. So for each category that doesn't count Furigana the characters counted in the output of kanjiFormat are those counted in a file that has only these lines.",
  "for all texts and all categories without Furigana",
  "the programs are in different directories and are never tested together; that the brackets written by one are exactly those understood by the other depends on two regular expressions, line joining and a limit on kanji before a bracket",
  ["apps/formatMain.cpp:format", S+"Utf8Count.cpp:processJoinedLine", S+"Utf8Count.cpp:processFile"])
p("C179", "The lists of the quiz program are the lists in the files",
  "After the data is loaded the kanji that a quiz asks for each of the five JLPT levels and the twelve Kentei Kyus are exactly the words of the file of that level or Kyu, in their order; the kanji with frequency n is the one in line n of the frequency file; if loading printed no error, the kanji of a grade are those of the rows of the Jouyou file with this grade, in their order. Kanji that are only in the Unicode file are in the order of their names. The meaning and pattern groups are those of the rows of their own file, the jukugo are the different words of the jukugo files, and the reading, meaning and additional text shown for a kanji are its own. For the lists it is assumed that no list has the compatibility name of another kanji, and for frequencies that there are at most 2750 (C44).",
  "for all data files",
  "tests load small lists for a few levels, Kyus and grades; the project's own files are compared by their totals",
  [J+"TextKanjiData.cpp:TextKanjiData", J+"TextKanjiData.cpp:processList", J+"KanjiData.cpp:processUcd", Q+"Quiz.cpp:run"])
p("C180", "Loading a data directory is loading the texts of its files",
  "The data is loaded from a directory exactly when the directory is there, every needed file is there (with or without the extension .txt), each file read as a table has a header row with exactly the columns the program asks for, in any order, and all its rows have the number of cells of the header (perhaps with another tab at the end), and what the rows and lists say can be loaded (C173, C179). The cells a row gives for the Unicode entries, radicals, readings, Jouyou, Jinmei and Extra kanji and groups are those below the named columns. The result doesn't depend on which columns were registered before. The quiz program then runs with any arguments and input (within the limits of C171).",
  "for all contents of the disk and all directories",
  "tests load small files one at a time, with their columns in the usual order",
  [U+"ColumnFile.cpp:nextRow", JI+"OfficialKanji.h:fromFile", J+"TextKanjiData.cpp:TextKanjiData", J+"UcdData.cpp:load", J+"RadicalData.cpp:load", Q+"GroupData.cpp:loadGroup", Q+"JukugoData.cpp:JukugoData", J+"ListFile.cpp:getFile"])
p("C181", "Loading data ends with the data or an error",
  "Loading a data directory ends with the data or an exception. (Violated: an entry of a JLPT level list that is not a Jouyou or Jinmei kanji, an entry of the frequency list that is in extra.txt, or a name that isn't one character fails an assertion.) Each of the files other than those of the kanji (lists, Unicode data, radicals, readings, groups, jukugo) is loaded or gives an exception whatever its text is. If the names in the files fit together - every name is one character, level entries are in jouyou.txt or are official Jinmei kanji, frequency entries are not in extra.txt, and a Unicode entry that links to the plain form of a name with a variation selector is in no list - then loading ends with the data or an exception, and with an exception exactly if a file is missing, a table doesn't have the right columns or the rows and texts can't be loaded.",
  "for all contents of the disk and all directories",
  "tests can't try all files; the assertions hold for the data of the project",
  [J+"KanjiData.cpp:addToLevels", J+"KanjiData.cpp:addToFrequencies", J+"KanjiData.cpp:addToKyus", J+"KanjiData.cpp:processUcd", J+"TextKanjiData.cpp:processList", J+"TextKanjiData.cpp:TextKanjiData", J+"UcdData.cpp:load", J+"RadicalData.cpp:load", Q+"GroupData.cpp:loadGroup", Q+"JukugoData.cpp:JukugoData"])
p("C182", "kanjiQuiz from its command line and the files to its output",
  "What kanjiQuiz does depends on nothing but the contents of the data directory it finds, its arguments without '-data' and its value, the input and the numbers drawn: where the directory is, whether it was given with '-data' (with or without a slash at the end) or found by searching up, and what else is on the disk make no difference; neither do '.' and '..' in its path. Run without '-data' at or below a directory that has the data in 'data' it does the same as with '-data' and that directory. It ends with a message about its arguments exactly if no data directory is found or there is more than one debug option, and, if the names in the files fit together (C181), with an error of loading exactly if a file is missing, a table has wrong columns or its contents aren't accepted. If the names fit together and the data is within the limits of the program (C171) it ends with an exit code or waits for input, whatever is typed.",
  "for all trees of files, current directories, arguments (fewer than 65535), inputs and random numbers",
  "two tests run the program in a debug mode with the data of the project and look for a few lines, others construct its parts; runs with other data, or with copies of the data in different places, are not compared",
  ["apps/quizMain.cpp:main", Q+"Quiz.cpp:run", J+"TextKanjiData.cpp:TextKanjiData", J+"KanjiData.cpp:getDataDir", J+"KanjiData.cpp:getDebugMode", J+"ListFile.cpp:getFile"])
p("C183", "kanjiStats and kanjiFormat from their command lines and the files to their output",
  "When kanjiStats finds its data directory, there is at most one debug option and the data can be loaded, it writes, after what loading prints, the report specified in C175 for its arguments without '-data' and its value, the loaded data and what is found at the paths, and its exit code tells whether there was a message. Nothing else counts: two runs whose data directories have the same contents, with the same other arguments and the same files at their paths do the same, wherever the directories are; without '-data' at or below a directory that has the data in 'data' it does the same as with '-data' and that directory. It ends with a message about its arguments exactly if no data directory is found or there is more than one debug option, and, if the names in the files fit together (C181), with an error of loading exactly if a file is missing, a table has wrong columns or its contents aren't accepted, and otherwise with the report, without a crash. A kanji that isn't a compatibility name is counted as Jouyou, Jinmei or Extra exactly if it is in the file of that name, if there were no errors when loading, and as 'Non-UCD' exactly if it isn't a name in 'ucd.txt'. In the order of the lists a kanji without frequency counts as one more than the number of entries of 'frequency.txt' (up to 65534), which is after all its kanji, if no entry stands for a compatibility name. kanjiFormat writes the formatted text (C177) of the file at its argument; when its output is put into a file, kanjiStats counts the characters of the lines that aren't readings, for categories without Furigana, in texts without brackets, variation selectors and combining marks that don't end with a kanji.",
  "for all trees of files, current directories and arguments (fewer than 65535), and for every order in which the set of counts may be built",
  "the tests construct Stats with the data of the project and run it for some sample files; neither main function is run, and no test uses other data, another place of the data directory or the output of kanjiFormat",
  ["apps/statsMain.cpp:main", "apps/formatMain.cpp:main", S+"Stats.cpp:Stats", J+"TextKanjiData.cpp:TextKanjiData", J+"KanjiData.cpp:getDataDir", J+"KanjiData.cpp:getDebugMode"])
p("C184", "Everything printed while the kanji are loaded",
  "Without debug option nothing is written to the output stream while the kanji are loaded; with '-info' nothing but the counts of all kanji and the breakdown by grade, once everything is loaded. With '-debug' the text is: the start, for every list in the order of the levels, the frequency list and the Kyus the lines about its entries (for a JLPT level the Jinmei kanji; for the frequency list the Linked Old kanji, the entries for which there was no kanji, and the Jinmei and Linked Jinmei kanji with and without JLPT level; nothing for a Kyu), where 'there' means the kanji of the other files or an earlier entry, then the kanji with different strokes, the counts, the breakdowns by grade, level and Kyu, and the summaries of the radicals and of the Unicode data. The messages to the error stream are the same with every option: they are those for the kanji of the files, offered one after the other, namely for a name that is there already, for a contradiction to the Unicode entry, and for a second kanji with variation selector for the same compatibility kanji; the number of errors is the number of messages, and the kanji loaded are the first of each name. What is printed doesn't change the data or the exceptions, except that with '-debug' loading ends with an exception if a kanji with variation selector has no Unicode entry, which can't be if there are no messages.",
  "for all contents of the data files and all debug options, and for every order of kanji with equal keys in the radical summary",
  "the tests load only the data of the project: for '-info' the text is compared, for '-debug' 12 of its 362 lines, and messages only for single calls with test files",
  [J+"TextKanjiData.cpp:TextKanjiData", J+"TextKanjiData.cpp:processList", J+"TextKanjiData.cpp:printListData", J+"KanjiData.cpp:finishedLoadingData", J+"KanjiData.cpp:checkInsert", J+"KanjiData.cpp:printError", J+"KanjiData.cpp:checkStrokes", J+"KanjiData.cpp:processUcd"])
p("C185", "What is printed while the Jukugo are loaded",
  "Without debug option nothing is printed while the Jukugo are loaded and never an error message. With one the text is: a heading, a line for each file with the number of its words that aren't in an earlier file or line, up to the first file that is rejected; when all are loaded the number of different kanji in the words and the number of different words, and for every type of which there are kanji a line with the type in a column of 14, how many there are and the first 12 in the order of their bytes. The numbers of the files add up to the number of words, those of the types to the number of kanji. What is loaded is the same with every option.",
  "for all contents of the seven files, types of kanji and formats of the stream",
  "one test looks for the line with the totals for the data of the project, the other lines aren't compared",
  [Q+"JukugoData.cpp:JukugoData", Q+"JukugoData.cpp:loadFile"])
p("C186", "Everything printed while the data of the quiz program is loaded",
  "Loading the data of the quiz program prints nothing to the output stream without debug option; otherwise it prints what is printed for the kanji (C184), the two lists of groups and the text for the Jukugo (C185), in this order; alignment and fill character are those that the part before has left: to the left if there is a kanji with variation selector, to the right and filled with zeros if there is none and a radical has no common kanji, otherwise to the right and filled with blanks. The messages to the error stream don't depend on the option: those for the kanji and then, in the order of the file, one for each member of a pattern group that is in an earlier group, which names the first such group; members that aren't found have a message each, and loading then ends with an exception. When everything is loaded the number of messages is the sum of the counted errors. Data and exceptions are those without printing.",
  "for all contents of the data files and all debug options",
  "the tests look for 3 lines with '-info' and 5 with '-debug' for the data of the project and have one test file for each message",
  [Q+"Quiz.cpp:run", Q+"GroupData.cpp:GroupData", Q+"GroupData.cpp:loadGroup", Q+"GroupData.cpp:add", Q+"GroupData.cpp:printGroups", Q+"JukugoData.cpp:JukugoData", J+"Radical.cpp:operator<<", J+"UcdData.cpp:printVariationSelectorKanji"])
p("C187", "Columns of the texts for Jukugo are filled with blanks",
  "In every debug mode the names of the types in the lines about kanji with Jukugo are aligned with blanks, whatever was printed before.",
  "for all contents of the data files and debug modes",
  "in the data of the project there are kanji with variation selector and meaning groups, both of which set the fill character to a blank",
  [Q+"JukugoData.cpp:JukugoData", J+"Radical.cpp:operator<<", Q+"GroupData.cpp:printMeaningGroup"])
p("C188", "All output of kanjiQuiz with debug options",
  "For every file system, current directory and command line, kanjiQuiz writes the report of loading the data (nothing without debug option) followed by what it writes without the report; messages about the arguments are written before loading begins; an exception while loading ends the program after what was printed until then. With a debug option no quiz is started, otherwise the report is put before the same output. If the names in the files fit together and the data is within the limits of the program, it never crashes.",
  "for all file systems, command lines, debug modes, drawn numbers and typed input",
  "the tests run the program with a debug option and no further argument, with the data of the project; state left on the stream by the report shows only in the output that follows with other data",
  ["apps/quizMain.cpp:main", Q+"QuizLauncher.cpp:printJukugoList", Q+"Quiz.cpp:run", J+"Radical.cpp:operator<<", J+"KanjiData.cpp:getDebugMode"])
p("C189", "All output of kanjiStats with debug options",
  "For every file system, current directory and command line, kanjiStats writes the report of loading the data (nothing without debug option) followed by what it writes for the arguments without the report; messages about the arguments before loading are all that is written; an exception while loading ends the program after what was printed until then. With a debug option and no other argument the report is everything and the program ends with 0. If the names in the files fit together it never crashes.",
  "for all file systems, command lines and debug modes",
  "the tests run Stats with the data of the project and without the report on the same stream",
  ["apps/statsMain.cpp:main", S+"Stats.cpp:Stats", J+"KanjiData.cpp:getDebugMode", J+"TextKanjiData.cpp:TextKanjiData"])
p("C190", "Text in both scripts is converted completely",
  "Without given source, text is converted from Hiragana, Katakana and Romaji in this order, without the target. With a kana target all letters of the other script are written in it. With Romaji as target no kana letters of either script remain, each conversion keeps the letters and iteration marks of the other script in their order, and characters that are not kana stay in place between the conversions of the text before and after them.",
  "for all texts, targets and flags",
  "the tests convert two texts with more than one script; what the first conversion leaves together for the second depends on the whole text",
  [K+"Converter.cpp:convert", K+"Converter.cpp:fromKana", K+"Kana.cpp:get", K+"KanaConvert.cpp:convert"])
p("C191", "The checks at the start succeed and build the tables of the conversion",
  "The checks of the static kana objects, the three maps, the iteration marks and the tokens of the converter all succeed. Each map is in the order of its keys, has exactly the pairs of a reading or spelling and its kana, and finds what the lists say; the sets of letters after 'n', small kana and repeated consonants and the two maps of delimiters are those used by the conversions. For any table of kana objects in place of the project's, filling a map fails exactly when two keys are equal, and the objects are accepted exactly when every spelling is in its own script.",
  "for all lists of kana objects (checks and maps), and for the whole table of the project",
  "the tests compare sizes and entries of the finished maps; the tables are constants, so no test can show which other tables would be rejected, and the tokens are private to the converter",
  [K+"Kana.cpp:populate", K+"Kana.cpp:validate", K+"Converter.cpp:verifyData", K+"Converter.cpp:populateDelimLists"])
p("C192", "The table of wide characters is what the script prints",
  "The script that generates the table 'WideBlocks' prints blocks with exactly the codes that the entries of 'EastAsianWidth.txt' give as full or wide, whatever the order of the entries, the comments and the other lines; if the entries are in ascending order the blocks are too, and adjacent entries are always joined, so that the result is the only one possible for these codes. For every file in ascending order that has the codes of the table in DisplaySize.h the script prints the blocks of that table. The output is the C++ text with one line for each block, separated by commas, with the numbers spelled as in the entries.",
  "for all files in the format of 'EastAsianWidth.txt' (Unicode 14)",
  "there are no tests of the scripts",
  ["scripts/parseEastAsianWidth.sh:process", "scripts/parseEastAsianWidth.sh:one_bigger", "scripts/parseEastAsianWidth.sh:out", KI+"DisplaySize.h:WideBlocks"])
p("C193", "Rows of the UCD file",
  "The script that generates 'data/ucd.txt' writes, in the order of the records, one row for each record that has a reading, a link to a kanji with readings, readings given by the script, or a number in a Japanese dictionary or source, except for records with a simplified radical other than 199 and 211. The row has the values of the record: the first Pinyin, the first Morohashi number without leading zeros and selector and with 'P' for each apostrophe, the Nelson numbers without leading zeros separated by commas, the letters of the sources, 'Y' for Joyo (unless another kanji is listed instead) and Jinmei. Joyo kanji have no links; Jinmei kanji have the link in the record or the one of the record that links to them (the 18 links that lead from the standard form to the variant are turned round); other kanji have the best possible links: all different traditional forms, a simplified form, a compatibility variant, the kanji in the definition or a semantic variant that have readings, otherwise traditional forms or a simplified form in Japanese sources, never the kanji itself as its traditional or simplified form. Meaning and readings are those of the record, or of the first link when it has none, which '*' behind the type of the links shows. The script ends early exactly at a record that has readings of another kanji but no link.",
  "for all lists of records in the format of 'ucd.all.flat.xml', whether empty attributes are left out or not, and all links found in definitions",
  "there are no tests of the scripts",
  ["scripts/parseUcdAllFlat.sh:populateArrays", "scripts/parseUcdAllFlat.sh:getLinks", "scripts/parseUcdAllFlat.sh:getTraditionalLinks", "scripts/parseUcdAllFlat.sh:processRecord", "scripts/parseUcdAllFlat.sh:printResults", "scripts/parseUcdAllFlat.sh:setVars"])
p("C194", "Strokes from glyph references",
  "The strokes in 'data/ucd.txt' are those of the first glyph reference of a record (radical strokes plus remaining strokes), or the total strokes if there are no references; the other number of strokes is the first different number among the other references, and it is empty if there is none. The two numbers change places exactly when the second reference has the different number and is the one for the radical, the remaining strokes and the total strokes of the record. The other number is never equal to the strokes.",
  "for all records with any number of references",
  "there are no tests of the scripts",
  ["scripts/parseUcdAllFlat.sh:getStrokesFromAdobeRef", "scripts/parseUcdAllFlat.sh:processRecord"])
p("C195", "Kana readings of the own record",
  "The last column of 'data/ucd.txt' has the kana readings of the record of the row and is empty if there are none.",
  "for all lists of records",
  "there are no tests of the scripts, and the loader doesn't use the column",
  ["scripts/parseUcdAllFlat.sh:printResults", "scripts/parseUcdAllFlat.sh:setVars"])
p("C196", "Loading the generated UCD file",
  "The file that the script writes is a table with the columns the loader expects, and its cells are those of the rows. If the records have proper data (codes and links are codes of kanji, radicals 1 to 214, strokes within the limits of the loader, Morohashi numbers of at most 16 bits with at most two apostrophes or the letter 'H', a meaning for Joyo kanji that aren't Jinmei, readings for the kanji that Jinmei kanji and the script itself link to, different codes, different links of Jinmei kanji) and no text with a tab, newline or backslash, the loader accepts the file, and the data has exactly one entry for each row: name, names of the links, radical, strokes, Joyo, Jinmei, sources, link type, and the Morohashi number are those of the record.",
  "for all lists of records with these conditions",
  "there are no tests of the scripts, and tests of the loader use a few rows",
  ["scripts/parseUcdAllFlat.sh:printResults", "scripts/parseUcdAllFlat.sh:processRecord", J + "UcdData.cpp:load", J + "UcdData.cpp:loadLinks"])
p("C197", "Links found in definitions",
  "The script that generates 'data/ucd.txt' looks in the definitions of kanji that have no simplified radical for words like 'same' and 'variant'. A definition in which such a word is followed by kanji (with only letters, blanks, commas and the like between) gives a link when one of the kanji has readings. The links found are those of the kanji and codes behind the last such word in each of the first three parts of the definition (parts end at ')'), in the order of the passes of the script, and the first one with readings is used.",
  "for all lists of records and all definitions",
  "there are no tests of the scripts",
  ["scripts/parseUcdAllFlat.sh:findDefinitionLinks", "scripts/parseUcdAllFlat.sh:findDefinitionLinksForType", "scripts/parseUcdAllFlat.sh:processUtfLinks", "scripts/parseUcdAllFlat.sh:processUniLink"])
p("C198", "Summary of the UCD script",
  "The summary that the script prints has the counts of the rows of 'data/ucd.txt': different Japanese sources, Morohashi numbers and Nelson numbers, Joyo kanji, Jinmei kanji that aren't links, rows for each type of link, rows with meaning, Pinyin and readings, and how many of the readings are those of the record, of a linked kanji or given by the script. The number expected is shown behind '/' when it is reached and as a warning otherwise.",
  "for all lists of records and links for which the script doesn't end early",
  "there are no tests of the scripts",
  ["scripts/parseUcdAllFlat.sh:countLinkType", "scripts/parseUcdAllFlat.sh:processRecord", "scripts/parseUcdAllFlat.sh:printResults", "scripts/parseUcdAllFlat.sh:checkTotal"])
p("C199", "Counts of links found in definitions",
  "The script that generates 'data/ucd.txt' reports how many links it has found in definitions: the number of all links, one header line, one line for each word with the number of links found behind it, in total and for kanji and codes in each of the first three parts of the definitions, and the number of links that only the script itself gives. Each kanji is counted once, where its link is found, and the numbers add up to the number of links.",
  "for all lists of records and any order of the words",
  "there are no tests of the scripts",
  ["scripts/parseUcdAllFlat.sh:printDefinitionLinkCounts", "scripts/parseUcdAllFlat.sh:findDefinitionLinksForType", "scripts/parseUcdAllFlat.sh:findDefinitionLinks"])
p("C200", "Fields and differences of characters in UCD files",
  "The script for looking at UCD files shows all fields of a character given by its code, in small or capital letters, or as itself. With '-p' it shows five general fields and the CJK fields that have a value. For two characters, or with '-d' for a character in two files, it shows exactly the fields of each that the other doesn't have with the same value, or 'no diffs found' if there are none, and exits with status 0. Arguments are accepted exactly as described by the usage text, and there is a message for invalid codes and for characters that are missing or given twice.",
  "for all arguments and all files in which characters are written on one line with distinct fields",
  "there are no tests of the scripts",
  ["scripts/ucdDiff.sh:getCodePoint", "scripts/ucdDiff.sh:getXml", "scripts/ucdDiff.sh:printFields", "scripts/ucdDiff.sh:diffs", "scripts/ucdDiff.sh:checkFile"])
p("C201", "Text of Unicode blocks",
  "An official block is written as its name with version, month and year, any other block as its limits. The text shows which block it is: official blocks with the same text have the same name and version, other blocks with the same text are the same, and an official block never has the text of another block. All blocks of the tables are official with limits at multiples of 16, have different names and texts and a version of the list, whose dates are in the order of the versions.",
  "for all blocks that can be made",
  "the tests write two versions and two blocks, not all pairs of blocks that can be made",
  [U+"UnicodeBlock.cpp:operator<<", UI+"UnicodeBlock.h:makeBlock", UI+"UnicodeBlock.h:Version"])
p("C202", "Threads of kanjiStats",
  "The report for a file or directory doesn't depend on the order in which the nine counting threads and the main thread take their steps: every execution stays defined, never blocks, has a bounded number of steps, and ends with the report specified written after what was written before. If there is nothing at the path then nothing is written and the exception leaves the function. A thread changes nothing that belongs to another one, the totals are taken when no thread can change them, and no thread is left behind when the function returns or throws.",
  "for all data, paths, contents, options and all interleavings of the steps of ten threads",
  "a test sees the one interleaving the scheduler happens to choose",
  [S+"Stats.cpp:countKanji", S+"Stats.cpp:run", S+"Utf8Count.cpp:addFile"])
p("C203", "Answers typed at the terminal",
  "When keys are read from the terminal, the answer is given by the first key that is one of those offered, or by return if there is a default; the prompt and a newline are written for each key up to it and later keys are left. The answers are those of the same keys given as lines of a stream. While a key is read the terminal gives it at once and doesn't show it, and afterwards the settings of the terminal are as they were before.",
  "for all choices, defaults, settings and all sequences of keys",
  "the function that reads keys is excluded from the coverage of the tests since it requires user input; the tests use streams",
  [K+"Choice.cpp:getOneChar", K+"Choice.cpp:get", KI+"Choice.h:getOneChar"])
p("C204", "Iteration marks in Romaji",
  "When kana are converted to Romaji, iteration marks after a kana (a letter, or letters read together) read like the letters they stand for, whatever goes before and follows: ゝ and ヽ stand for the kana without voicing marks, ゞ and ヾ for the voiced kana if the kana has no mark and can be voiced. Marks at the beginning of a text and marks after a prolonged kana are left out.",
  "for all texts of letters and other characters, both scripts, all flags and both orders of evaluation",
  "the tests have about twenty short texts; no test has a mark before a prolong mark or a small letter, or after a small tsu",
  [K+"Kana.cpp:findIterationMark", K+"Kana.cpp:matches", K+"Converter.cpp:fromKana", K+"Converter.cpp:processKana", K+"Converter.cpp:processKanaMacron"])
p("C205", "Rōmaji of standard text",
  "Text in the standard syllables of Hiragana or Katakana (the rows of the kana table and their combinations with small ya, yu and yo), with doubled consonants, long vowels, the syllabic n and other characters is written in Rōmaji by the rules of Hepburn or Kunrei if the flag is set, and by default like Hepburn with a different spelling for each syllable: consonants are doubled (t before ch), long vowels get macrons, an apostrophe separates n from a following vowel or y, and Japanese punctuation becomes Ascii.",
  "for all sequences of such syllables and characters, both scripts and all flags",
  "the tests convert each kana alone and a few words; none has the particle wo after n with Hepburn or Kunrei",
  [K+"Kana.cpp:populate", K+"Converter.cpp:fromKana", K+"Converter.cpp:processKana", K+"Converter.cpp:processKanaMacron"])
p("C206", "Rōmaji typed in any spelling",
  "Rōmaji in which every syllable is spelled by Hepburn, by Kunrei or in the program's own way, also mixed in one text, is read as the syllables that are meant: doubled consonants as small tsu, vowels with macron as long vowels, n as the syllabic n (before a vowel or y with an apostrophe), Ascii punctuation as Japanese punctuation, and other characters as they are. Spellings that Hepburn or Kunrei use for two syllables are read as the common one of the two. So standard text written in Rōmaji and read again is unchanged by default, and the same up to these syllables with the flags.",
  "for all sequences of standard syllables and other characters, all choices of spellings, both scripts and all flags",
  "the tests read about thirty words, spelled by Hepburn or in the program's own way; spellings of Kunrei are only tested as output",
  [K+"Kana.cpp:populate", K+"Converter.cpp:toKana", K+"Converter.cpp:processRomaji", K+"Converter.cpp:processRomajiMacron"])
p("C207", "Kana typed with any spelling of the table",
  "Every kana has its own spelling and possibly variants (also the small kana and the combinations for foreign words). Text made of these spellings in any order is read as their kana, one after the other: no spelling is read differently because of what precedes or follows it. A repeated first consonant (any but l, n and x, also t before ch) gives a small tsu, a macron a long vowel, n a syllabic n, which requires an apostrophe or a dash only before a vowel or y, and other characters keep their place. ASCII text is read in the same way in upper and lower case, as long as no capital letter starts a doubled consonant (see C30).",
  "for all sequences of spellings in the table, doubled and long or not, n with and without separator, and other characters, for both scripts and all flags",
  "the tests read about thirty words; there are 258 spellings, and what is read depends on up to three letters",
  [K+"Kana.cpp:populate", K+"Converter.cpp:toKana", K+"Converter.cpp:processRomaji", K+"Converter.cpp:processRomajiMacron"])
with open(os.path.join(os.path.dirname(__file__), "..", "properties.jsonl"), "w") as f:
    for x in P: f.write(json.dumps(x, ensure_ascii=False) + "\n")
print(len(P))
