{"id": "C01", "title": "UTF-8 decoding is safe and total", "statement": "For every byte sequence (well-formed or not) fromUtf8 and getCode finish, read no byte after the terminating NUL, consume at least one byte per produced code, and produce only Unicode scalar values (<= U+10FFFF and not a surrogate).", "quantifier": "all byte strings of any length, including truncated and malformed ones", "why_tests_cant": "There are infinitely many malformed inputs; a sanitizer run only covers the sampled ones and an over-read past the NUL is usually silent.", "anchors": ["libs/utils/src/Utf8.cpp:convertOneUtf8", "libs/utils/src/Utf8.cpp:convertFromUtf8", "libs/utils/include/kt_utils/Utf8.h:fromUtf8", "libs/utils/include/kt_utils/Utf8.h:getCode"]}
{"id": "C02", "title": "UTF-32 to UTF-8 and back is lossless", "statement": "For every sequence of non-NUL Unicode scalar values cs, fromUtf8(toUtf8(cs)) == cs.", "quantifier": "all finite sequences of the 1,112,063 non-zero scalar values", "why_tests_cant": "The claim is about all sequences; tests sample code points and never all juxtapositions.", "anchors": ["libs/utils/src/Utf8.cpp:convertToUtf8", "libs/utils/src/Utf8.cpp:convertFromUtf8", "libs/utils/include/kt_utils/Utf8.h:toUtf8", "libs/utils/include/kt_utils/Utf8.h:fromUtf8"]}
{"id": "C03", "title": "toUtf8 is the standard UTF-8 encoding", "statement": "toUtf8(c) is exactly the RFC 3629 encoding of c for every Unicode scalar value c, and is the encoding of U+FFFD for every other 32-bit value; the byte conversions inside never throw.", "quantifier": "all 2^32 code values", "why_tests_cant": "2^32 inputs; unit tests only check a handful of boundaries.", "anchors": ["libs/utils/src/Utf8.cpp:convertToUtf8", "libs/utils/src/String.cpp:toChar", "libs/utils/include/kt_utils/Utf8.h:toUtf8"]}
{"id": "C04", "title": "Decoding followed by encoding reproduces exactly the well-formed strings", "statement": "For every NUL-free byte string s: toUtf8(fromUtf8(s)) == s if and only if s is well-formed UTF-8.", "quantifier": "all NUL-free byte strings", "why_tests_cant": "Needs all overlong, surrogate, truncated and stray-continuation combinations to be covered.", "anchors": ["libs/utils/src/Utf8.cpp:convertOneUtf8", "libs/utils/src/Utf8.cpp:convertToUtf8"]}
{"id": "C05", "title": "First-character validation is exact", "statement": "validateMBUtf8(s) is NotMultiByte iff s is empty or starts with an Ascii byte; it is Valid iff s starts with a well-formed 2-4 byte UTF-8 character and, when sizeOne is true, nothing (or a NUL) follows it; otherwise NotValid. It never reads past the terminator.", "quantifier": "all byte strings, both values of sizeOne", "why_tests_cant": "Every byte combination of the first four bytes and every tail must be decided correctly.", "anchors": ["libs/utils/src/Utf8.cpp:validateMB", "libs/utils/src/Utf8.cpp:validateMBUtf8", "libs/utils/include/kt_utils/Utf8.h:isValidMBUtf8"]}
{"id": "C06", "title": "isValidUtf8 accepts only valid UTF-8 strings", "statement": "isValidUtf8(s) returns true only if the whole of s is well-formed UTF-8 (and, with sizeOne, is a single character).", "quantifier": "all byte strings", "why_tests_cant": "A validator is relied on for all inputs; the failing inputs are those with an Ascii or valid first character followed by garbage.", "anchors": ["libs/utils/src/Utf8.cpp:isValidUtf8", "libs/utils/include/kt_utils/Utf8.h:validateUtf8"]}
{"id": "C07", "title": "Limited conversion returns a prefix", "statement": "fromUtf8(s, n) with n > 0 returns exactly the first n codes of fromUtf8(s) (all of them if there are fewer), and getCode(s) is the first code or 0 if s is empty.", "quantifier": "all byte strings and all n", "why_tests_cant": "Unbounded s and n.", "anchors": ["libs/utils/src/Utf8.cpp:convertFromUtf8", "libs/utils/src/Utf8.cpp:getCode"]}
{"id": "C08", "title": "Decoding is compositional at character boundaries", "statement": "If b does not begin with a continuation byte (10xxxxxx) then fromUtf8(a + b) == fromUtf8(a) + fromUtf8(b) for all NUL-free a, including malformed a: an error never swallows a following character.", "quantifier": "all pairs of NUL-free byte strings", "why_tests_cant": "Error recovery must be right for all malformed prefixes and all continuations.", "anchors": ["libs/utils/src/Utf8.cpp:convertOneUtf8", "libs/utils/src/Utf8.cpp:convertFromUtf8"]}
{"id": "C09", "title": "Hex and binary text represent the number exactly", "statement": "Reading the digits of toHex(x)/toBinary(x) back in base 16/2 gives x; the text is as long as the requested minimum size, contains only digits of the requested case, and is longer than the minimum only when the number needs it.", "quantifier": "all unsigned values, all minimum sizes, both cases", "why_tests_cant": "All numeric values and sizes.", "anchors": ["libs/utils/include/kt_utils/String.h:toHex", "libs/utils/include/kt_utils/String.h:toBinary", "libs/utils/src/String.cpp:addLeadingZeroes"]}
{"id": "C10", "title": "Unicode text and code agree both ways", "statement": "For every code c <= 0xFFFFF, reading toUnicode(c) with ColumnFile::getChar32 gives c back; and getChar32 accepts exactly the strings of 4 or 5 digits 0-9A-F, giving their base-16 value.", "quantifier": "all codes and all strings", "why_tests_cant": "All strings must be classified; the code ranges over 2^20 values.", "anchors": ["libs/utils/src/String.cpp:toUnicode", "libs/utils/src/ColumnFile.cpp:getChar32"]}
{"id": "C11", "title": "Block search with early exit equals set membership", "statement": "For every code point and each of the block tables (kana, kanji, punctuation, symbols, letters), the early-exit search answers true exactly when some block of the table contains the code point.", "quantifier": "all code points and all ordered block tables", "why_tests_cant": "Needs every code point of the Unicode range and depends on table ordering.", "anchors": ["libs/utils/include/kt_utils/UnicodeBlock.h:inRange"]}
{"id": "C12", "title": "Character classes do not overlap", "statement": "A string is recognized by at most one of isHiragana, isKatakana, isCommonKanji, isRareKanji, isMBSymbol, isMBLetter and isMBPunctuation; isKana is exactly isHiragana or isKatakana, isKanji exactly isCommonKanji or isRareKanji, and isRecognizedUtf8 exactly the union of all classes (with wide space counted).", "quantifier": "all byte strings, both values of sizeOne", "why_tests_cant": "All strings; overlap of any two tables would double count characters in statistics.", "anchors": ["libs/utils/src/UnicodeBlock.cpp:isKana", "libs/utils/src/UnicodeBlock.cpp:isRecognizedUtf8", "libs/utils/include/kt_utils/UnicodeBlock.h:inWCharRange"]}
{"id": "C13", "title": "isAll functions decide every character", "statement": "isAllX(s) is true exactly when s decodes to a sequence of class X characters, each optionally followed by one non-spacing mark; it is true for the empty string, and is preserved when two such strings are concatenated.", "quantifier": "all byte strings", "why_tests_cant": "Unbounded strings with arbitrary placement of variation selectors.", "anchors": ["libs/utils/include/kt_utils/UnicodeBlock.h:inWCharRange", "libs/utils/src/UnicodeBlock.cpp:isAllKanji"]}
{"id": "C14", "title": "Malformed UTF-8 is never classified as Japanese text", "statement": "If the first character of s is malformed UTF-8 then none of the is/isAll classification functions returns true for s.", "quantifier": "all malformed byte strings", "why_tests_cant": "All malformed strings; the decoder's replacement character U+FFFD can itself fall in a block.", "anchors": ["libs/utils/include/kt_utils/UnicodeBlock.h:PunctuationBlocks", "libs/utils/src/UnicodeBlock.cpp:isMBPunctuation", "libs/utils/src/UnicodeBlock.cpp:isRecognizedUtf8"]}
{"id": "C15", "title": "Enum lists reject every out-of-range index", "statement": "For an EnumList of N values, list[i] returns the i-th value for 0 <= i < N and throws RangeError for every other integer i.", "quantifier": "all list sizes 1..255 and all 64-bit integers", "why_tests_cant": "2^64 indices; narrowing to 8 bits happens before the check.", "anchors": ["libs/utils/include/kt_utils/EnumContainer.h:checkIndex", "libs/utils/include/kt_utils/EnumList.h:operator[]"]}
{"id": "C16", "title": "Enum iterators never leave [begin, end]", "statement": "Starting from begin, after any sequence of ++, --, += and -= (with any argument, failing operations leaving the iterator unchanged) the position is between begin and end; an operation whose exact result lies outside that interval throws RangeError; dereferencing throws exactly at end, and it[i] is the element i places from the iterator or throws RangeError.", "quantifier": "all operation sequences of any length with any 64-bit arguments", "why_tests_cant": "Infinite set of histories; argument narrowing to 8 bits.", "anchors": ["libs/utils/include/kt_utils/EnumContainer.h:Iterator", "libs/utils/include/kt_utils/EnumList.h:ConstIterator"]}
{"id": "C17", "title": "Enum names and values correspond one-to-one", "statement": "If create(names) succeeds then toString and fromString are mutually inverse between the values and names, every other name is rejected, and with a None value: fromStringAllowEmpty/AllowNone accept exactly the extra spellings. create fails exactly when a name is duplicated (or is \"None\" for lists with None).", "quantifier": "all lists of names (at most 255, the largest Enum::Size) and all lookups", "why_tests_cant": "All name lists and all lookup strings.", "anchors": ["libs/utils/include/kt_utils/EnumList.h:create", "libs/utils/include/kt_utils/EnumList.h:toString", "libs/utils/include/kt_utils/EnumList.h:fromString"]}
{"id": "C18", "title": "EnumMap behaves as a total map", "statement": "After any sequence of writes m[k]=v, reading m[k] gives the last value written for k (default if none); None reads as the default and can't be written; iteration visits each key once in order.", "quantifier": "all write histories", "why_tests_cant": "All histories.", "anchors": ["libs/utils/include/kt_utils/EnumMap.h:operator[]"]}
{"id": "C19", "title": "Symbols intern names", "statement": "After any history of Symbol constructions, two symbols compare equal iff their names are equal; name() returns the constructing name forever; ids are stable, 0 is used only for the empty name; at most 65534 distinct names are stored, at capacity known names still resolve and new ones fail leaving the table unchanged.", "quantifier": "all histories of constructions, including at capacity", "why_tests_cant": "Unbounded histories and the capacity boundary with 65534 names.", "anchors": ["libs/utils/include/kt_utils/Symbol.h:Symbol", "libs/utils/src/Symbol.cpp:getId"]}
{"id": "C20", "title": "Column lookups return the field under the matching header", "statement": "If opening a file succeeds, then for every accepted row and requested column, get(column) returns the field at the position where that column's name occurs in the header row, whatever the order of the header or of the requested columns; the header must be a permutation of the requested columns.", "quantifier": "all files, column sets and orders, and all previously registered column names", "why_tests_cant": "All header permutations and all rows; column numbers are global state shared between files.", "anchors": ["libs/utils/src/ColumnFile.cpp:processHeaderRow", "libs/utils/src/ColumnFile.cpp:nextRow", "libs/utils/src/ColumnFile.cpp:get"]}
{"id": "C21", "title": "Rows with the wrong number of fields are rejected", "statement": "nextRow accepts a row of an n-column file exactly when the row has n delimiter-separated fields and then stores precisely those fields, otherwise it throws.", "quantifier": "all rows and all n >= 1", "why_tests_cant": "All rows; getline drops an empty last field so the empty-field corner cases multiply.", "anchors": ["libs/utils/src/ColumnFile.cpp:nextRow"]}
{"id": "C22", "title": "Numeric columns accept only unsigned numbers in range", "statement": "getU64(c, max) returns v exactly when the cell is a decimal representation of v with v <= max (max = 0 meaning the type's limit), otherwise throws DomainError.", "quantifier": "all cell strings and limits", "why_tests_cant": "All strings, including signs, blanks and trailing text.", "anchors": ["libs/utils/src/ColumnFile.cpp:processU64", "libs/utils/src/ColumnFile.cpp:getU64"]}
{"id": "C23", "title": "Column numbers identify column names globally", "statement": "After any history of Column constructions two columns have equal numbers iff their names are equal, and numbers are always smaller than the number of registered names (so lookups in a file opened later never index out of bounds).", "quantifier": "all histories of Column and ColumnFile constructions", "why_tests_cant": "All histories.", "anchors": ["libs/utils/src/ColumnFile.cpp:getColumnNumber", "libs/utils/src/ColumnFile.cpp:get"]}
{"id": "C24", "title": "Argument list access is bounds checked", "statement": "Args accepts exactly 0 <= argc <= 65535 with argv present iff argc > 0, and args[i] never reads outside argv: it returns argv[i] for i < argc and throws otherwise, for every index of its parameter type (uint16_t; a wider number is reduced to it by the caller).", "quantifier": "all argc, argv and i", "why_tests_cant": "All integer values.", "anchors": ["libs/utils/src/Args.cpp"]}
{"id": "C25", "title": "Kana tables are unambiguous", "statement": "No Romaji, Hiragana or Katakana key occurs twice in the Kana tables, each table key finds the Kana it came from, and the Hiragana and Katakana of an entry are corresponding letters (code points differ by 0x60 letter by letter).", "quantifier": "all entries of the Kana tables", "why_tests_cant": "The uniqueness is only checked by asserts that disappear in release builds.", "anchors": ["libs/kana/src/Kana.cpp:KanaList", "libs/kana/src/Kana.cpp:populate"]}
{"id": "C26", "title": "Hiragana to Katakana and back is lossless", "statement": "Converting any string of Hiragana letters (and prolong marks, iteration marks and delimiters) to Katakana maps it letter by letter, and converting the result back to Hiragana returns the original string.", "quantifier": "all strings over the table's Hiragana letters, of any length", "why_tests_cant": "All strings; digraph grouping, small tsu and n make the converter stateful.", "anchors": ["libs/kana/src/Converter.cpp:fromKana", "libs/kana/src/Converter.cpp:processKana"]}
{"id": "C27", "title": "Hiragana to Romaji and back is lossless", "statement": "For every string of Hiragana letters and prolong marks, converting to Romaji (default flags) and back to Hiragana gives the original string; same for Katakana.", "quantifier": "all strings over the kana letters, of any length", "why_tests_cant": "All strings: sokuon, n-apostrophe, digraph and macron rules interact across unbounded context.", "anchors": ["libs/kana/src/Converter.cpp:fromKana", "libs/kana/src/Converter.cpp:toKana", "libs/kana/src/Converter.cpp:convert"]}
{"id": "C28", "title": "Text without convertible letters passes through unchanged", "statement": "Converting from a kana source leaves every character that is not kana of that type (nor a wide delimiter for a Romaji target, nor the prolong mark or an iteration mark) unchanged and in place: the result is that of the text before, the character, and the rest; a string with no such kana is returned unchanged.", "quantifier": "all strings", "why_tests_cant": "All strings and all mixtures.", "anchors": ["libs/kana/src/Converter.cpp:fromKana"]}
{"id": "C29", "title": "Converting kana to Romaji leaves no kana behind", "statement": "Converting any string of Hiragana letters to Romaji yields a string that contains no Hiragana letters.", "quantifier": "all strings of Hiragana letters", "why_tests_cant": "All letter sequences; the source has a branch labelled impossible by design.", "anchors": ["libs/kana/src/Converter.cpp:processKana", "libs/kana/src/Converter.cpp:processOneKana"]}
{"id": "C30", "title": "Romaji input is case-insensitive", "statement": "For every Ascii-letter string r, converting r to kana gives the same result as converting its lower-case form.", "quantifier": "all Romaji strings whose lower-case form converts completely", "why_tests_cant": "All casings of all words.", "anchors": ["libs/kana/src/Converter.cpp:processRomaji", "libs/kana/include/kt_kana/Converter.h:Converter"]}
{"id": "C31", "title": "Incomplete Romaji keeps its place", "statement": "When Romaji input containing unconvertible letters is converted, the unconverted letters appear in the output in their original position relative to the surrounding text.", "quantifier": "all mixed strings of letters and multi-byte characters", "why_tests_cant": "All mixtures of partial groups with other text.", "anchors": ["libs/kana/src/Converter.cpp:toKana"]}
{"id": "C32", "title": "Display width is additive and bounded", "statement": "displaySize(s) is the sum of the widths of the characters, is at most the byte size of s for well-formed text, and padding a field with wideSetw gives a column of exactly the requested display width whenever the text fits (text without NUL and shorter than 2^31 bytes; aligned to the right also: not starting with a continuation byte).", "quantifier": "all strings and widths", "why_tests_cant": "All strings; the computation subtracts display size from byte size.", "anchors": ["libs/kana/src/DisplaySize.cpp:displaySize", "libs/kana/include/kt_kana/DisplaySize.h:wideSetw"]}
{"id": "C33", "title": "Character iteration partitions the string", "statement": "Repeatedly calling Utf8Char::next on well-formed text yields consecutive pieces whose concatenation is the text (without Ascii when onlyMB is set; a kana followed by a combining mark is one composed character, marks that cannot be composed are dropped and counted), each piece one character plus any variation selector, and ends; peek shows what next will return.", "quantifier": "all strings", "why_tests_cant": "All strings, any placement of combining marks.", "anchors": ["libs/kana/src/Utf8Char.cpp:next", "libs/kana/src/Utf8Char.cpp:peek"]}
{"id": "C34", "title": "Prompts return only offered answers", "statement": "Whatever the user types, a prompt that returns gives back one of the offered characters (or the default, or quit when quit is enabled). A prompt with a range of characters behaves as a prompt for the given choices and the characters of the range, and is rejected exactly if the ends are not printable or not in order or a character of the range is a choice already.", "quantifier": "all input streams and choice sets", "why_tests_cant": "All input streams.", "anchors": ["libs/kana/src/Choice.cpp:get"]}
{"id": "C35", "title": "Prompts always end", "statement": "For every finite input stream, a prompt eventually returns.", "quantifier": "all finite input streams", "why_tests_cant": "Non-termination on end of input can't be exhibited by a finite passing test.", "anchors": ["libs/kana/src/Choice.cpp:get"]}
{"id": "C36", "title": "Tables are rectangular", "statement": "Every body, header and border line printed for a table has the same display width, for every number of columns and every cell content; the Markdown form has the same number of columns in every row.", "quantifier": "all tables with any number of rows and columns, any cell text", "why_tests_cant": "All tables.", "anchors": ["libs/kana/src/Table.cpp:print", "libs/kana/src/Table.cpp:printMarkdown"]}
{"id": "C37", "title": "Morohashi Ids accept exactly valid dictionary numbers", "statement": "Constructing a Morohashi id from text succeeds exactly for a decimal number up to 65535 with at most one of the documented prefix/suffix marks (non-plain ids being non-zero, no text giving the empty id) and yields that number and kind; no overflow can produce a wrong number.", "quantifier": "all strings", "why_tests_cant": "All strings; overflow check on 16-bit arithmetic.", "anchors": ["libs/kanji/src/MorohashiId.cpp:getId", "libs/kanji/src/MorohashiId.cpp:validate"]}
{"id": "C38", "title": "Morohashi Ids print and parse back", "statement": "For every valid non-empty Morohashi id, parsing its printed form gives the same id; distinct ids print differently; ordering is a total order consistent with equality.", "quantifier": "all ids", "why_tests_cant": "All 4 x 65536 ids and all pairs.", "anchors": ["libs/kanji/src/MorohashiId.cpp:toString", "libs/kanji/include/kt_kanji/MorohashiId.h:MorohashiId"]}
{"id": "C39", "title": "Stroke counts are validated", "statement": "A Strokes value can be built exactly from a count 1..64, or a count and a different variant within the documented ranges; every constructed value satisfies these bounds.", "quantifier": "all integers", "why_tests_cant": "All values.", "anchors": ["libs/kanji/src/Strokes.cpp"]}
{"id": "C40", "title": "Kanji list files give each entry one position", "statement": "If loading a list file succeeds, entries are pairwise distinct, exists(x) is true exactly for the entries, getIndex is the 1-based position of the entry and 0 for other strings; the entries are the tokens of the file in order.", "quantifier": "all file contents, both file types", "why_tests_cant": "All files.", "anchors": ["libs/kanji/src/ListFile.cpp:load", "libs/kanji/src/ListFile.cpp:getIndex"]}
{"id": "C41", "title": "Typed lists never share an entry", "statement": "After loading any sequence of kanji list files successfully, no kanji belongs to two lists loaded with the same kind of uniqueness set.", "quantifier": "all sequences of files", "why_tests_cant": "All sequences.", "anchors": ["libs/kanji/src/ListFile.cpp:validate"]}
{"id": "C42", "title": "Kanji orderings are strict weak orders", "statement": "Sorting kanji by qualified name and by strokes uses comparisons that are irreflexive, asymmetric, transitive and have transitive incomparability.", "quantifier": "all triples of kanji", "why_tests_cant": "All triples; std::sort has undefined behaviour otherwise.", "anchors": ["libs/kanji/src/Kanji.cpp:orderByQualifiedName", "libs/kanji/src/Kanji.cpp:orderByStrokes"]}
{"id": "C43", "title": "Ties are broken by Unicode order", "statement": "Kanji that tie on all other criteria are sorted by their Unicode code point.", "quantifier": "all pairs of kanji names", "why_tests_cant": "All pairs; the comparison is between hexadecimal strings of differing length.", "anchors": ["libs/kanji/src/Kanji.cpp:orderByQualifiedName", "libs/kanji/src/Kanji.cpp:orderByStrokes"]}
{"id": "C44", "title": "Lookup by frequency finds the ranked kanji", "statement": "For a frequency list of any length with ranks 1..n inserted in order, findByFrequency(r) returns the kanji with rank r for 1 <= r <= n and nothing for any other r, without out-of-bounds access.", "quantifier": "all list lengths and ranks", "why_tests_cant": "All lengths, in particular beyond the bucket capacity.", "anchors": ["libs/kanji/src/KanjiData.cpp:findByFrequency", "libs/kanji/src/KanjiData.cpp:addToFrequencies"]}
{"id": "C45", "title": "Program arguments skip data arguments exactly", "statement": "Iterating with nextArg visits, in order, exactly the arguments that are not data options (-data and its value, -debug, -info) and terminates.", "quantifier": "all argument lists", "why_tests_cant": "All lists.", "anchors": ["libs/kanji/src/KanjiData.cpp:nextArg"]}
{"id": "C46", "title": "UCD source letters are preserved", "statement": "The letters stored for a UCD entry's sources are exactly the valid letters given, and printing gives each once; invalid letters are reported.", "quantifier": "all source strings", "why_tests_cant": "All strings.", "anchors": ["libs/kanji/src/Ucd.cpp:getSources", "libs/kanji/src/Ucd.cpp:sources"]}
{"id": "C47", "title": "Radical lookups agree", "statement": "After loading a radical file successfully, looking up number n returns the radical with number n, looking up a radical's name returns the radical with that name, and other numbers and names are rejected.", "quantifier": "all radical files", "why_tests_cant": "All files.", "anchors": ["libs/kanji/src/RadicalData.cpp"]}
{"id": "C48", "title": "Old and new kanji names are exclusive", "statement": "No kanji reports both a new name and old names derived from its link data, and a linked kanji's new name is its link.", "quantifier": "all link types and link lists", "why_tests_cant": "All combinations.", "anchors": ["libs/kanji/src/Kanji.cpp:OtherKanji", "libs/kanji/src/OfficialKanji.cpp:ExtraKanji"]}
{"id": "C49", "title": "Statistics are listed by decreasing count", "statement": "The comparison used to list character statistics is a strict weak order that puts higher counts first.", "quantifier": "all pairs and triples of counted characters", "why_tests_cant": "All pairs; a comparison that is inconsistent for rare combinations gives undefined behaviour in an ordered set.", "anchors": ["libs/stats/src/Stats.cpp:Count::operator<"]}
{"id": "C50", "title": "Character counts add up", "statement": "After any sequence of add calls, the total equals the number of counted characters, the count of each character equals its number of occurrences, and the per-tag counts of a character sum to its count if every text was added with a tag.", "quantifier": "all sequences of added texts", "why_tests_cant": "All histories.", "anchors": ["libs/stats/src/Utf8Count.cpp:add"]}
{"id": "C51", "title": "No text is lost or duplicated when joining bracketed lines", "statement": "When processing a file with a replacement pattern, the concatenation of the strings passed on for counting equals the concatenation of the lines of the file, whatever brackets are left open at line ends.", "quantifier": "all files", "why_tests_cant": "All sequences of lines with any placement of brackets.", "anchors": ["libs/stats/src/Utf8Count.cpp:processFileWithRegex", "libs/stats/src/Utf8Count.cpp:processJoinedLine"]}
{"id": "C52", "title": "Every character is reported in one statistics category", "statement": "Every multi-byte character is counted in exactly one of the statistics categories (Hiragana, Katakana, common kanji, rare kanji, non-UCD kanji, symbols, punctuation, letters, unrecognized).", "quantifier": "all characters", "why_tests_cant": "All code points.", "anchors": ["libs/stats/src/Stats.cpp:countKanji", "libs/stats/src/Stats.cpp:processKanjiCount"]}
{"id": "C53", "title": "Group quiz answers refer to the displayed member", "statement": "For each displayed group member, typing the letter shown next to it selects that member when answers are checked, for every allowed group size (2 to 58).", "quantifier": "all group sizes and members", "why_tests_cant": "Only large groups exercise the letters after z.", "anchors": ["libs/quiz/src/GroupQuiz.cpp:showGroup", "libs/quiz/src/GroupQuiz.cpp:checkAnswers", "libs/quiz/include/kt_quiz/Group.h"]}
{"id": "C54", "title": "Group quiz answers never repeat", "statement": "While answering and editing, the answers entered so far are pairwise distinct, the remaining letters are exactly the ones not yet used, and editing an answer replaces only that answer.", "quantifier": "all interaction histories", "why_tests_cant": "All histories.", "anchors": ["libs/quiz/src/GroupQuiz.cpp:getAnswers", "libs/quiz/src/GroupQuiz.cpp:editAnswer"]}
{"id": "C55", "title": "Groups have 2 to 58 distinct members", "statement": "A group can be created exactly when it has between 2 and 58 pairwise distinct member names.", "quantifier": "all member lists", "why_tests_cant": "All lists.", "anchors": ["libs/quiz/src/Group.cpp:Group"]}
{"id": "C56", "title": "List quiz choices are fair", "statement": "The choices shown for a list quiz question contain the correct reading exactly once, are pairwise distinct readings, come from the list, and there are exactly as many as configured, whatever the random numbers drawn.", "quantifier": "all lists, questions and random sequences", "why_tests_cant": "All random sequences.", "anchors": ["libs/quiz/src/ListQuiz.cpp:populateAnswers"]}
{"id": "C57", "title": "List quiz choices can always be produced", "statement": "Choosing the answers for a list quiz question ends for every list that can be loaded.", "quantifier": "all lists", "why_tests_cant": "Non-termination can't be shown by a passing test.", "anchors": ["libs/quiz/src/ListQuiz.cpp:populateAnswers"]}
{"id": "C58", "title": "Quiz score is consistent", "statement": "At all times correct + mistakes <= number of questions seen, the question index stays within the list, and previous/skip navigation moves exactly one question, for any sequence of user actions.", "quantifier": "all interaction histories", "why_tests_cant": "All histories; 16-bit arithmetic with -= 2.", "anchors": ["libs/quiz/src/Quiz.cpp", "libs/quiz/src/ListQuiz.cpp:start", "libs/quiz/src/GroupQuiz.cpp:start"]}
{"id": "C59", "title": "Malformed quiz options are reported as domain errors", "statement": "Processing a program-mode option either yields the mode, order and start position it denotes or fails with DomainError.", "quantifier": "all option strings", "why_tests_cant": "All strings.", "anchors": ["libs/quiz/src/QuizLauncher.cpp:processProgramModeArg"]}
{"id": "C60", "title": "Menu letters select the documented list", "statement": "Every offered letter of the grade, level, kyu and frequency prompts selects the list it is documented to select, no two letters select the same list, and no index is out of range.", "quantifier": "all offered letters", "why_tests_cant": "The mapping arithmetic must be right for every letter.", "anchors": ["libs/quiz/src/QuizLauncher.cpp:start", "libs/quiz/src/QuizLauncher.cpp:getKyuList"]}
{"id": "C61", "title": "Jukugo lookup is complete and exact", "statement": "After loading any jukugo files, looking up a kanji returns exactly the words that contain it, once each.", "quantifier": "all load histories", "why_tests_cant": "All histories, including words that repeat a kanji.", "anchors": ["libs/quiz/src/JukugoData.cpp:find", "libs/quiz/src/JukugoData.cpp:createJukugo"]}
{"id": "C62", "title": "Jukugo lines are parsed strictly", "statement": "A jukugo entry is accepted only when it has the form name(reading) with a name of at least two kanji and a kana reading; then name and reading are those of the text.", "quantifier": "all lines", "why_tests_cant": "All lines, including misplaced brackets.", "anchors": ["libs/quiz/src/JukugoData.cpp:findOpenBracket", "libs/quiz/src/JukugoData.cpp:findCloseBracket", "libs/quiz/src/JukugoData.cpp:createJukugo"]}
{"id": "C63", "title": "Formatting keeps every line", "statement": "The format program writes every input line (possibly with a following kana-only line folded into brackets), in order, and drops none.", "quantifier": "all input files", "why_tests_cant": "All files, in particular their last lines.", "anchors": ["apps/formatMain.cpp:main"]}
{"id": "C64", "title": "Variation selector detection is exact", "statement": "A string is reported as a character with a variation selector exactly when it is one multi-byte character followed by one variation selector.", "quantifier": "all strings", "why_tests_cant": "All strings of 5 to 7 bytes and more.", "anchors": ["libs/kana/src/Utf8Char.cpp:isCharWithVariationSelector"]}
{"id": "C65", "title": "Dakuten relations are mutually inverse", "statement": "For each kana with a voiced (or semi-voiced) form, the voiced form's unaccented version is the kana itself, and the string lookups agree with it.", "quantifier": "all kana entries", "why_tests_cant": "All table entries.", "anchors": ["libs/kana/src/Kana.cpp:findDakuten", "libs/kana/src/Kana.cpp:findHanDakuten", "libs/kana/include/kt_kana/Kana.h:DakutenKana"]}
{"id": "C66", "title": "Command-line conversion keeps arguments apart", "statement": "Converting several strings on the command line prints the conversions separated from each other.", "quantifier": "all argument lists and targets", "why_tests_cant": "All argument lists.", "anchors": ["libs/kana/src/KanaConvert.cpp:start"]}
{"id": "C67", "title": "Restarting a quiz asks for its settings again", "statement": "After a quiz session returns (by completing or by quitting at any prompt) a new session prompts again for every setting that was not given on the command line.", "quantifier": "all prompt interaction histories", "why_tests_cant": "All quit points and histories.", "anchors": ["libs/quiz/src/QuizLauncher.cpp:start"]}
{"id": "C68", "title": "Name lookup agrees with loaded data", "statement": "Kanji inserted under a name (and its compatibility name) are found again under that name after any further successful insertions, and a duplicate insertion is reported without replacing the existing entry.", "quantifier": "all insertion histories", "why_tests_cant": "All histories.", "anchors": ["libs/kanji/src/KanjiData.cpp:checkInsert", "libs/kanji/src/KanjiData.cpp:findByName"]}
{"id": "C69", "title": "First character of a string", "statement": "getFirst returns the multi-byte character (with its variation selector) at the start of the string, or an empty string if the string doesn't start with a multi-byte character.", "quantifier": "all strings", "why_tests_cant": "All strings.", "anchors": ["libs/kana/src/Utf8Char.cpp:getFirst"]}
{"id": "C70", "title": "Character counts agree with iteration", "statement": "For well-formed text Utf8Char::size is the number of characters not counting variation selectors and combining marks, which is the number of pieces that iterating delivers; size terminates and stays in bounds for every string.", "quantifier": "all strings", "why_tests_cant": "All strings, any placement of marks.", "anchors": ["libs/kana/src/Utf8Char.cpp:size"]}
{"id": "C71", "title": "Kana conversion never fails", "statement": "Converting any byte string from any source to any target, with any flags, returns a string: no exception, no access outside of a string or table, no endless loop.", "quantifier": "all byte strings, targets, sources and flags", "why_tests_cant": "All byte strings, including malformed Utf8.", "anchors": ["libs/kana/src/Converter.cpp:convert", "libs/kana/src/Converter.cpp:fromKana", "libs/kana/src/Converter.cpp:toKana"]}
{"id": "C72", "title": "Prompts list the choices", "statement": "The text of a prompt lists exactly the offered characters in order, each described choice with its description and the others grouped in maximal runs such as a-d, and nothing is asked when the choices can't be offered (clash with quit, none, unprintable, default not offered).", "quantifier": "all choice sets, messages, quit options and defaults", "why_tests_cant": "All choice sets.", "anchors": ["libs/kana/src/Choice.cpp:add", "libs/kana/src/Choice.cpp:get"]}
{"id": "C73", "title": "Kanji descriptions list the chosen fields", "statement": "The description of a kanji lists exactly the chosen fields that have a value, in a fixed order, separated by a comma and a space, with no leading or trailing separator, for every kanji whose pinyin and old names are not empty texts.", "quantifier": "all kanji and field selections", "why_tests_cant": "All 2^n selections and all kanji.", "anchors": ["libs/kanji/src/Kanji.cpp:info"]}
{"id": "C74", "title": "The suffix of the qualified name tells the group of the kanji", "statement": "The suffix character of a qualified name determines the group (jouyou, JLPT, frequency, jinmei, linked, extra, kentei, ucd) that the kanji belongs to, and different groups have different suffixes.", "quantifier": "all kanji", "why_tests_cant": "All combinations of type, level, kyu and frequency.", "anchors": ["libs/kanji/src/Kanji.cpp:qualifiedNameRank", "libs/kanji/src/Kanji.cpp:qualifiedName"]}
{"id": "C75", "title": "Debug mode argument", "statement": "The debug mode is the one asked for by the only -debug or -info argument, None without such an argument, and more than one such argument is a usage error.", "quantifier": "all argument lists", "why_tests_cant": "All lists.", "anchors": ["libs/kanji/src/KanjiData.cpp:getDebugMode"]}
{"id": "C76", "title": "Lookups by id and grade give exactly the inserted kanji", "statement": "After any history of insertions, findByMorohashiId, findByNelsonId and the grade lists give exactly the accepted kanji with that id or grade, in the order of insertion.", "quantifier": "all insertion histories and ids", "why_tests_cant": "All histories.", "anchors": ["libs/kanji/src/KanjiData.cpp:checkInsert", "libs/kanji/src/KanjiData.cpp:findByMorohashiId", "libs/kanji/src/KanjiData.cpp:findByNelsonId"]}
{"id": "C77", "title": "Processing lists finds or makes one kanji per entry", "statement": "After processing a frequency, level or kyu list (or the Unicode entries) successfully every entry is found by name, kanji were made only for entries not found before and none of them was rejected, new kanji are in the list of their type, and one kanji per entry was added in order to the list of its level, kyu or frequency.", "quantifier": "all lists, prior states and lookup contexts", "why_tests_cant": "All lists and states.", "anchors": ["libs/kanji/src/TextKanjiData.cpp:processList", "libs/kanji/src/KanjiData.cpp:processUcd", "libs/kanji/src/KanjiData.cpp:addToKyus", "libs/kanji/src/KanjiData.cpp:addToLevels"]}
{"id": "C78", "title": "Every file of a directory tree is counted once", "statement": "Adding a directory with recursion processes every regular file of the tree exactly once, however deep, and nothing reached through a symbolic link inside of the tree; without recursion exactly the regular files directly in the directory are processed.", "quantifier": "all directory trees", "why_tests_cant": "Trees of any depth with any mix of entries.", "anchors": ["libs/stats/src/Utf8Count.cpp:addFile", "libs/stats/src/Utf8Count.cpp:doAddFile"]}
{"id": "C79", "title": "Arguments of the statistics program are read consistently", "statement": "For every argument list: options are only looked at before '--', the first option that isn't -b or -v decides between help and a usage error, otherwise all other arguments and all arguments after '--' are processed as files in order, and having no file is a usage error unless in debug mode.", "quantifier": "all argument lists", "why_tests_cant": "All combinations and orders of options and files.", "anchors": ["libs/stats/src/Stats.cpp:Stats::Stats"]}
{"id": "C80", "title": "Groups are selected for a quiz consistently", "statement": "For every member selection type the members shown are exactly the documented ones, a wider selection shows all members of a narrower one, and the six buckets of pattern groups together contain every group with enough members exactly once.", "quantifier": "all selection types, kanji and ordered group lists", "why_tests_cant": "All combinations of kanji attributes and all group lists.", "anchors": ["libs/quiz/src/GroupQuiz.cpp:includeMember", "libs/quiz/src/GroupQuiz.cpp:prepareList"]}
{"id": "C81", "title": "Arguments of the quiz program are read consistently", "statement": "For every accepted argument list the quiz type is one of the offered ones, a list letter is only set together with a quiz type that offers it and a start question fits 16 bits; the first argument that isn't an option is shown as a kanji; giving two quiz types is an error.", "quantifier": "all argument lists", "why_tests_cant": "All combinations and orders of options.", "anchors": ["libs/quiz/src/QuizLauncher.cpp:processArgs", "libs/quiz/src/QuizLauncher.cpp:processArg", "libs/quiz/src/QuizLauncher.cpp:setQuizType"]}
{"id": "C82", "title": "Kanji arguments of the quiz program denote what they say", "statement": "A kanji argument is read as a frequency, Morohashi id, Nelson id, Unicode value or kanji exactly when it has the documented form, with the number that is written; everything else is an error.", "quantifier": "all argument strings", "why_tests_cant": "All strings.", "anchors": ["libs/quiz/src/QuizLauncher.cpp:processKanjiArg", "libs/quiz/src/QuizLauncher.cpp:getId"]}
{"id": "C83", "title": "Loading jukugo files", "statement": "Loading the jukugo files succeeds exactly when every entry is well-formed and no word is in files of different grades; then there is one word per name and reading, in order of first appearance. Otherwise the load fails with a DomainError.", "quantifier": "for all contents of the jukugo files", "why_tests_cant": "tests load the project's own files; duplicates across files and entries on one line come in unbounded combinations", "anchors": ["libs/quiz/src/JukugoData.cpp:loadFile", "libs/quiz/src/JukugoData.cpp:createJukugo", "libs/quiz/src/JukugoData.cpp:create"]}
{"id": "C84", "title": "Regex ranges match exactly their character class", "statement": "The bracket expression built from Unicode blocks matches a code point exactly when the block lookup puts it in the class (for kanji: or it is a variation selector), and indexing a block is defined exactly for the indexes inside the list.", "quantifier": "for all code points and all indexes", "why_tests_cant": "tests match a handful of characters per range; one code point missing at a block boundary would go unnoticed", "anchors": ["libs/utils/include/kt_utils/BlockRange.h", "libs/utils/src/BlockRange.cpp:checkIndex"]}
{"id": "C85", "title": "Arguments of kanaConvert are read as documented", "statement": "For every list of arguments the program reads options, flags and strings as its usage text says: '--' ends the options, '-f' takes one documented flag letter, at most one of -i, -m, -n, -p is accepted, and what is neither option nor string is an error.", "quantifier": "for all lists of arguments", "why_tests_cant": "options, flag values and strings combine without bound; tests try single combinations", "anchors": ["libs/kana/src/KanaConvert.cpp:KanaConvert", "libs/kana/src/KanaConvert.cpp:processArg", "libs/kana/src/KanaConvert.cpp:charTypeArgs"]}
{"id": "C86", "title": "Option -n suppresses the newline", "statement": "With '-n' no newline is written after conversions, neither for strings given as arguments nor for lines of the input.", "quantifier": "for all strings and inputs", "why_tests_cant": "no test combines -n with strings", "anchors": ["libs/kana/src/KanaConvert.cpp:start", "libs/kana/src/KanaConvert.cpp:getInput"]}
{"id": "C87", "title": "The dialogue of kanaConvert", "statement": "In interactive mode every input line is answered as documented: 'q' ends, 'c' clears the flags, 'f' asks for a flag until one is given, '-x' changes source or target type, and everything else is converted with the options in force. Piped input is converted line by line.", "quantifier": "for all input texts and all initial options", "why_tests_cant": "a session is a state machine over unbounded input; tests feed a few short scripts", "anchors": ["libs/kana/src/KanaConvert.cpp:getInput", "libs/kana/src/KanaConvert.cpp:processLine", "libs/kana/src/KanaConvert.cpp:flagArgs"]}
{"id": "C88", "title": "Boolean, optional and limited cells of column files", "statement": "A Boolean cell is true for 'Y' and 'T', false for 'N', 'F' and an empty cell and an error otherwise; an optional number is absent exactly when the cell is empty; a number is never larger than the limit asked for.", "quantifier": "for all cell texts and all limits", "why_tests_cant": "cells hold arbitrary text; tests try a few values", "anchors": ["libs/utils/src/ColumnFile.cpp:processBool", "libs/utils/src/ColumnFile.cpp:getOptU64", "libs/utils/src/ColumnFile.cpp:processU64"]}
{"id": "C89", "title": "Rows of group files", "statement": "A row of a group file gives a group exactly when its name consists of multi-byte characters, its number fits 16 bits, its members do not end with a comma, and its 2 to 58 members are known and different; the kind of a pattern group follows from the wide colon in its name, and the first character of a family name is its first member. A file with any other row is rejected.", "quantifier": "for all rows and all sets of known kanji", "why_tests_cant": "row texts are unbounded; tests use a handful of malformed rows", "anchors": ["libs/quiz/src/GroupData.cpp:loadGroup", "libs/quiz/src/GroupData.cpp:getKanjiNames", "libs/quiz/src/GroupData.cpp:createGroup"]}
{"id": "C90", "title": "The groups of a kanji", "statement": "After loading, the meaning groups found for a kanji are exactly the groups of the file that have it as a member, in file order; the pattern group found for a kanji is the first one with it as a member, and one error was printed for every further one.", "quantifier": "for all group files", "why_tests_cant": "needs all combinations of members over any number of groups", "anchors": ["libs/quiz/src/GroupData.cpp:loadGroup", "libs/quiz/src/GroupData.cpp:GroupData"]}
{"id": "C91", "title": "Summary of meaning groups", "statement": "The printed numbers of unique kanji, of kanji in one group and of kanji in several groups are right, and each kanji in n > 1 groups is listed exactly in the line for n.", "quantifier": "for all meaning group files", "why_tests_cant": "the loop depends on the order of a multimap; the tests check one data set", "anchors": ["libs/quiz/src/GroupData.cpp:printUniqueNames", "libs/quiz/src/GroupData.cpp:printMeaningGroup"]}
{"id": "C92", "title": "Missing kanji of a type", "statement": "The type breakdown of groups shows the first 12 kanji of each type that are in no group, and shows none exactly when all kanji of the type are in a group.", "quantifier": "for all group files and all lists of kanji", "why_tests_cant": "the number of missing kanji is computed as a difference of sizes, which is only right if no kanji was counted twice; the data tested has no duplicates", "anchors": ["libs/quiz/src/GroupData.cpp:printTypeBreakdown", "libs/quiz/src/GroupData.cpp:printMissingFromType", "libs/quiz/src/GroupData.cpp:printPatternGroup"]}
{"id": "C93", "title": "Rows of the UCD file", "statement": "A row of the UCD file is accepted exactly if it is well-formed (a reading, Morohashi id or J source is given; the name has at most 4 bytes and is a kanji with the given code; radical 1 to 214; not both joyo and jinmei; joyo has a meaning and no links; link names, codes and type are given together; strokes, sources, Morohashi id and link type are valid), its name is new and (for jinmei) no link was used before. The entry has exactly the values of the row. Otherwise there is a DomainError, never undefined behaviour.", "quantifier": "for all rows and all data loaded before", "why_tests_cant": "tests have one example for each message; the conditions interact and are checked in a fixed order while the maps are already changed", "anchors": ["libs/kanji/src/UcdData.cpp:load", "libs/kanji/src/UcdData.cpp:loadLinks", "libs/kanji/src/UcdData.cpp:processLinks", "libs/kanji/src/Ucd.cpp:Entry", "libs/kanji/src/Ucd.cpp:getSources"]}
{"id": "C94", "title": "Link names and link codes correspond", "statement": "In an accepted row of the UCD file the link names and link codes correspond one to one and every link name has the code given.", "quantifier": "for all accepted rows", "why_tests_cant": "tests only have a row with fewer codes than names", "anchors": ["libs/kanji/src/UcdData.cpp:loadLinks"]}
{"id": "C95", "title": "Contents of the UCD data", "statement": "A UCD file is loaded exactly if all rows are well-formed, no name occurs twice and no kanji is linked to by two jinmei entries. Then the map has one entry for each row, and the two link maps lead from a kanji exactly to the loaded jinmei (or other) entries with a link to it.", "quantifier": "for all files", "why_tests_cant": "this is an invariant of three maps over any number of rows; tests look at a few entries", "anchors": ["libs/kanji/src/UcdData.cpp:load", "libs/kanji/src/UcdData.cpp:processLinks"]}
{"id": "C96", "title": "Finding UCD entries", "statement": "find returns the entry with the given name. For a kanji with a variation selector it returns the (only) jinmei entry with a link to the kanji or, as documented, another entry with a link to it.", "quantifier": "for all loaded files and all names", "why_tests_cant": "tests look up a few names; that at most one jinmei entry fits depends on all rows", "anchors": ["libs/kanji/src/UcdData.cpp:find", "libs/kanji/include/kt_kanji/UcdData.h:find"]}
{"id": "C97", "title": "Readings as kana", "statement": "getReadingsAsKana gives the words of the on readings converted to Katakana and then the words of the kun readings converted to Hiragana with a wide comma between any two of them; words are separated by spaces or commas.", "quantifier": "for all entries", "why_tests_cant": "tests have a single entry; the words are converted together in one text, so they could influence each other", "anchors": ["libs/kanji/src/UcdData.cpp:getReadingsAsKana", "libs/kana/src/Converter.cpp:convert"]}
{"id": "C98", "title": "Printed UCD counts", "statement": "In the printed summary each number for Jouyou, Jinmei and Other is the number of entries of this kind with the feature, every entry is in exactly one of the kinds and the totals are the numbers among all entries.", "quantifier": "for all loaded files", "why_tests_cant": "tests compare one printed summary", "anchors": ["libs/kanji/src/UcdData.cpp:print", "libs/kanji/src/UcdData.cpp:PrintCount"]}
{"id": "C99", "title": "The Kana chart keeps the promises of its notes", "statement": "The chart lists every kana once, sorted by Hiragana, with a border before each group; values in parentheses are exactly the Hepburn and Kunrei readings that lead to a different kana when typed, every variant leads to the same kana, Unicode values are shown for single letters only, and the totals count the rows. With -m it is the text of docs/KanaConversionChart.md.", "quantifier": "for all kana and both output formats", "why_tests_cant": "tests compare a few rows; nothing ties the notes to the table", "anchors": ["libs/kana/src/KanaConvert.cpp:printKanaChart", "libs/kana/src/KanaConvert.cpp:printChartFooter", "libs/kana/src/KanaConvert.cpp:getKunrei", "libs/kana/src/KanaConvert.cpp:getHepburn"]}
{"id": "C100", "title": "Level, kyu and frequency come from the list files", "statement": "The level (kyu) found for a name is the one in whose file it is an entry, and none if it is in no such file; the files of a kind have no entry in common, and its frequency is the number of its line in the frequency file, or 0 if it isn't there.", "quantifier": "for all list files that load", "why_tests_cant": "tests use files with a few entries; the checks for uniqueness work over all files of a kind", "anchors": ["libs/kanji/src/TextKanjiData.cpp:level", "libs/kanji/src/TextKanjiData.cpp:kyu", "libs/kanji/src/TextKanjiData.cpp:frequency", "libs/kanji/src/ListFile.cpp:load"]}
{"id": "C101", "title": "The lists of types are the kanji found by name", "statement": "After loading all data files the list of each type has exactly the kanji of that type that are found by name, in the order in which they were loaded. For Jouyou, Jinmei and Extra kanji this is one kanji per row of the file.", "quantifier": "for all data files that load", "why_tests_cant": "tests load one set of files; files with repeated rows are only reported", "anchors": ["libs/kanji/src/TextKanjiData.cpp:loadJouyouKanji", "libs/kanji/src/TextKanjiData.cpp:loadJinmeiKanji", "libs/kanji/src/TextKanjiData.cpp:loadExtraKanji", "libs/kanji/src/KanjiData.cpp:checkInsert"]}
{"id": "C102", "title": "Linked kanji lead to loaded kanji", "statement": "The new name of each linked kanji is the name of a loaded kanji (if no error was printed: Jouyou, or Jinmei for linked Jinmei kanji), both kanji of each line of 'linked-jinmei' and all old names of Jouyou and Jinmei kanji are found, and an old form that several Jouyou kanji share is linked to the first of them in the order of names.", "quantifier": "for all data files that load", "why_tests_cant": "depends on the order in which files are loaded and on the iteration over a map that is changed in the loop", "anchors": ["libs/kanji/src/TextKanjiData.cpp:loadOfficialLinkedKanji", "libs/kanji/src/TextKanjiData.cpp:loadJinmeiKanji", "libs/kanji/src/OfficialKanji.cpp:check"]}
{"id": "C103", "title": "Every kanji comes from the file of its type", "statement": "Each loaded kanji comes from a row, line, old name, list entry or Unicode entry that belongs to its type and has the values given there: grades only for Jouyou kanji, levels only for Jouyou and Jinmei kanji, kyus as in the kyu files for all kanji and frequencies as in the frequency file for all but Extra, Kentei and Ucd kanji.", "quantifier": "for all data files that load and all kanji", "why_tests_cant": "tests look at a few kanji", "anchors": ["libs/kanji/src/TextKanjiData.cpp:TextKanjiData", "libs/kanji/src/OfficialKanji.cpp:OfficialKanji", "libs/kanji/src/TextKanjiData.cpp:processList", "libs/kanji/src/KanjiData.cpp:processUcd"]}
{"id": "C104", "title": "All entries of the list files are found", "statement": "After loading, every entry of the level, kyu and frequency files and of the Unicode file is found by name; the kanji of a level or kyu are the entries of its file in order and the kanji of frequency n is the one of line n.", "quantifier": "for all data files that load (frequency files of at most 2750 lines, entries that aren't compatibility names of other kanji)", "why_tests_cant": "tests look at a few entries; relies on invariants over all files loaded before", "anchors": ["libs/kanji/src/TextKanjiData.cpp:processList", "libs/kanji/src/KanjiData.cpp:findByFrequency", "libs/kanji/src/KanjiData.cpp:addToLevels", "libs/kanji/src/KanjiData.cpp:processUcd"]}
{"id": "C105", "title": "Long vowels in Rōmaji", "statement": "Rōmaji syllables with macrons become their kana, each followed by the kana of its vowel (あいうえお) when the target is Hiragana and NoProlongMark is set and by ー otherwise; Katakana always has ー.", "quantifier": "for all sequences of syllables of the table and all converters with a kana target", "why_tests_cant": "tests have a few words; the flag must have an effect for one target only", "anchors": ["libs/kana/src/Converter.cpp:processRomajiMacron", "libs/kana/src/Converter.cpp:toKana"]}
{"id": "C106", "title": "Letters that are no syllables", "statement": "No letter is lost: consonants without vowels are kept at their places, except that n becomes ん (unless exactly one other letter stands between it and the next n or the end of the word) and the first of a doubled consonant becomes っ (if a third letter other than n follows).", "quantifier": "for all words of consonants after any syllables", "why_tests_cant": "tests have few malformed words; the result depends on up to two letters that wait to be read", "anchors": ["libs/kana/src/Converter.cpp:toKana", "libs/kana/src/Converter.cpp:processRomaji"]}
{"id": "C107", "title": "Cells of the kanji files", "statement": "A row of the Jouyou, Jinmei or Extra file with numbers in its number columns is accepted exactly if the numbers are in range (number and year below 65536, strokes 1 to 64), the grade is one of 1-6 and S, the reason is one of the six names, the radical exists and the name is one character; then the kanji has exactly these values and its extra text is made of the cells. Readings of frequency kanji are the rows of their file, whose names must differ.", "quantifier": "for all rows", "why_tests_cant": "tests use a few values; limits of types and enum names matter only at the borders", "anchors": ["libs/kanji/src/OfficialKanji.cpp:getGrade", "libs/kanji/src/OfficialKanji.cpp:extraTypeInfo", "libs/kanji/src/OfficialKanji.cpp:OfficialKanji", "libs/kanji/src/TextKanjiData.cpp:loadFrequencyReadings"]}
{"id": "C108", "title": "Lists of Jukugo", "statement": "All Jukugo with a kanji are shown once and in order: up to three on one line, more in a table of three columns in which entries of a column start at the same place and are separated by blanks. For kanji with a grade and more than three Jukugo those of the same and of other grades are shown separately unless all have the same grade.", "quantifier": "for all kanji and all lists of Jukugo", "why_tests_cant": "tests show a few lists; only entries of 30 or more columns (there are some in the data) run into the next entry", "anchors": ["libs/quiz/src/QuizLauncher.cpp:printJukugo", "libs/quiz/src/QuizLauncher.cpp:printJukugoList", "libs/quiz/src/Jukugo.cpp:nameAndReading"]}
{"id": "C109", "title": "Details of a kanji", "statement": "The details of a kanji show every other member of its first pattern group once (unless the group is named by a reading), all its meaning groups in the order of the file, its Morohashi and Nelson IDs and its Jukugo; looking up an ID shows the legend once and every match once.", "quantifier": "for all group files that load, all kanji and all matches", "why_tests_cant": "tests show a few kanji", "anchors": ["libs/quiz/src/QuizLauncher.cpp:printReviewDetails", "libs/quiz/src/QuizLauncher.cpp:printDetails", "libs/quiz/src/QuizLauncher.cpp:printLegend", "libs/quiz/src/QuizLauncher.cpp:printMeaning", "libs/kanji/src/KanjiData.cpp:getNelsonIds"]}
{"id": "C110", "title": "Which groups are asked", "statement": "A group quiz asks exactly the groups with at least two members to show; using the original list when all members are shown from the beginning makes no difference.", "quantifier": "for all lists of groups, member types and orders", "why_tests_cant": "tests use groups whose members all have readings", "anchors": ["libs/quiz/src/GroupQuiz.cpp:start", "libs/quiz/src/GroupQuiz.cpp:enoughMembers"]}
{"id": "C111", "title": "The screen of a group question", "statement": "Each member of a group is shown on its own line with its number, name, pinyin and letter, with the letters aligned in the same column; the answers given so far are listed in order.", "quantifier": "for all groups of at most 58 members, all names and pinyin and all answers given so far", "why_tests_cant": "tests show a few groups with short pinyin", "anchors": ["libs/quiz/src/GroupQuiz.cpp:showGroup", "libs/quiz/src/GroupQuiz.cpp:printAssignedAnswers", "libs/quiz/src/GroupQuiz.cpp:addPinyin", "libs/quiz/src/GroupQuiz.cpp:addOtherGroupName"]}
{"id": "C112", "title": "The final score", "statement": "The final score shows the number of right answers, of questions answered or skipped and of skipped questions; it is perfect exactly if all were answered right, and the mistakes are listed in order.", "quantifier": "for all sequences of answers to a quiz of at most 65535 questions, from any first question", "why_tests_cant": "tests answer a few questions from the first one", "anchors": ["libs/quiz/src/Quiz.cpp:~Quiz", "libs/quiz/src/ListQuiz.cpp:start", "libs/quiz/src/GroupQuiz.cpp:start"]}
{"id": "C113", "title": "Furigana is removed and nothing else", "statement": "A reading (kana in wide brackets) after a kanji, a variation selector or a wide letter is removed, from left to right; all other characters are kept in order, a text changes exactly if it has such a reading, and none is left afterwards.", "quantifier": "for all texts", "why_tests_cant": "tests have a few lines; overlapping candidates depend on the leftmost match of a regular expression", "anchors": ["libs/stats/src/Utf8Count.cpp:add"]}
{"id": "C114", "title": "Number of lines with Furigana", "statement": "The number shown as 'Furigana Removed' is the number of lines with Furigana.", "quantifier": "for all sequences of lines", "why_tests_cant": "tests use well-formed files", "anchors": ["libs/stats/src/Utf8Count.cpp:add", "libs/stats/src/Stats.cpp:printHeaderInfo"]}
{"id": "C115", "title": "Number of errors", "statement": "The number of errors shown in the header is the number of errors of the text.", "quantifier": "for all sequences of lines, well-formed or not", "why_tests_cant": "tests use well-formed files", "anchors": ["libs/stats/src/Utf8Count.cpp:add", "libs/stats/src/Stats.cpp:printHeaderInfo"]}
{"id": "C116", "title": "Verbose output", "statement": "With the verbose option every line changed by the removal of Furigana is shown below the name of its file, numbered, before and after the change.", "quantifier": "for all files and lines", "why_tests_cant": "tests have one file; files of the same name can be in several directories", "anchors": ["libs/stats/src/Utf8Count.cpp:add"]}
{"id": "C117", "title": "Numbers of the report", "statement": "The set of counts has every character exactly once although its comparison isn't an order; 'unique' and the total are those of the text, each kanji type with characters has one line with its total, number of characters and first five characters, and these add up to the numbers of all common kanji.", "quantifier": "for all texts and all shapes of the tree of the set", "why_tests_cant": "the comparison isn't transitive, so what a std::set does depends on the order of insertion and the balance of the tree", "anchors": ["libs/stats/src/Stats.cpp:run", "libs/stats/src/Stats.cpp:printKanjiTypeCounts", "libs/stats/src/Stats.cpp:operator<"]}
{"id": "C118", "title": "Order of the report", "statement": "Characters with higher counts are shown first.", "quantifier": "for all texts and all shapes of the tree of the set", "why_tests_cant": "the order is wrong only for kanji of the same frequency and different types", "anchors": ["libs/stats/src/Stats.cpp:operator<", "libs/stats/src/Stats.cpp:printBreakdown", "libs/stats/src/Stats.cpp:printRareExamples"]}
{"id": "C119", "title": "Header of the report", "statement": "The header shows the number of files and directories if there is more than one and the counters on a second line whenever one of them isn't 0.", "quantifier": "for all numbers", "why_tests_cant": "tests never have errors", "anchors": ["libs/stats/src/Stats.cpp:printHeaderInfo"]}
{"id": "C120", "title": "Total of the report", "statement": "The last line shows the number of characters that are Hiragana, Katakana or Kanji and the shares of each; every such character is counted in exactly one of the first five categories.", "quantifier": "for all texts and all sets of known kanji", "why_tests_cant": "tests have a few texts; categories are defined by many Unicode blocks", "anchors": ["libs/stats/src/Stats.cpp:countKanji"]}
{"id": "C121", "title": "Breakdown of the report", "statement": "Nothing is shown for a category without characters; the breakdown has one line for each character with ranks from 1, and the file shown for a character is the first one in which it occurs most often.", "quantifier": "for all texts and files", "why_tests_cant": "tests have one file", "anchors": ["libs/stats/src/Stats.cpp:run", "libs/stats/src/Stats.cpp:printBreakdown"]}
{"id": "C122", "title": "Number of loaded kanji", "statement": "The line printed after loading shows the number of kanji found by name and the number of kanji of each type, and these add up.", "quantifier": "for all data files", "why_tests_cant": "tests only see the one set of files, in which no kanji is twice", "anchors": ["libs/kanji/src/KanjiData.cpp:printCountsAndStats"]}
{"id": "C123", "title": "Counts of kanji with a feature", "statement": "Each count shows how many kanji have the feature, in total and for each type with such kanji, with the names of the first of them if examples are asked for, separated by commas; nothing is shown if no kanji has it. What is printed depends on the debug mode only.", "quantifier": "for all loaded kanji, features and numbers of examples", "why_tests_cant": "where commas are needed follows from subtracting counts from a total, so any miscount would show up as a wrong separator", "anchors": ["libs/kanji/src/KanjiData.cpp:printCount", "libs/kanji/src/KanjiData.cpp:printCountsAndStats", "libs/kanji/src/KanjiData.cpp:finishedLoadingData"]}
{"id": "C124", "title": "Breakdown of grades", "statement": "Each grade with kanji has one line with its number, the number of those without a frequency and the numbers for each level, which add up; all grades together are the Jouyou kanji, and after loading no kanji is without a grade.", "quantifier": "for all loaded kanji", "why_tests_cant": "tests only see the one set of files", "anchors": ["libs/kanji/src/KanjiData.cpp:printGrades", "libs/kanji/src/KanjiData.cpp:noFreq"]}
{"id": "C125", "title": "Breakdown of levels and kyus", "statement": "Each level or kyu with kanji has one line with its number and the numbers for each type, which add up; every loaded kanji is counted once ('None' if it has no level or kyu), and if no error was printed the number of a kyu is that of the kanji in its file and the number of a level that of the Jouyou and Jinmei kanji in its file.", "quantifier": "for all data files", "why_tests_cant": "tests check a few lines for the one set of files", "anchors": ["libs/kanji/src/KanjiData.cpp:printListStats", "libs/kanji/src/KanjiData.cpp:noFreq"]}
{"id": "C126", "title": "The argument -data", "statement": "The argument after the first -data is the data directory if it is a directory with ten '.txt' files, otherwise there is an error that tells why; a directory that is used always has ten '.txt' files.", "quantifier": "for all argument lists and file systems", "why_tests_cant": "tests have a handful of argument lists on the one file system", "anchors": ["libs/kanji/src/KanjiData.cpp:getDataDir", "libs/kanji/src/KanjiData.cpp:isValidDataDir"]}
{"id": "C127", "title": "Searching for the data directory", "statement": "Without -data the nearest 'data' directory with ten '.txt' files at or above the current directory is used, otherwise the nearest one in a parent directory of the program, otherwise there is an error that names the places searched.", "quantifier": "for all argument lists, current directories and file systems", "why_tests_cant": "tests run inside of the source tree", "anchors": ["libs/kanji/src/KanjiData.cpp:getDataDir", "libs/kanji/src/KanjiData.cpp:searchUpForDataDir"]}
{"id": "C128", "title": "The value of -data is no option", "statement": "The argument after -data is never taken for a debug option.", "quantifier": "for all argument lists", "why_tests_cant": "no test has a directory with such a name", "anchors": ["libs/kanji/src/KanjiData.cpp:getDebugMode", "libs/kanji/src/KanjiData.cpp:getDataDir", "libs/kanji/src/KanjiData.cpp:nextArg"]}
{"id": "C129", "title": "Lists of kanji by radical", "statement": "The report on radicals has one list for each radical of a common kanji, in the order of the numbers of the radicals; each list has exactly the common kanji of this radical.", "quantifier": "for all loaded kanji", "why_tests_cant": "tests have a handful of kanji with one or two radicals", "anchors": ["libs/kanji/src/RadicalData.cpp:print", "libs/kanji/src/RadicalData.cpp:printRadicalLists"]}
{"id": "C130", "title": "Lines of the report on radicals", "statement": "Each line has the number and the name of the radical, the number of its kanji, the numbers by type (which add up) and the first twelve kanji by strokes; every common kanji is in exactly one line.", "quantifier": "for all loaded kanji and all sorts that respect the order", "why_tests_cant": "tests have a handful of kanji; the order among equal kanji is not fixed by std::sort", "anchors": ["libs/kanji/src/RadicalData.cpp:print", "libs/kanji/src/RadicalData.cpp:printCounts", "libs/kanji/src/RadicalData.cpp:printRadicalLists"]}
{"id": "C131", "title": "Radicals without kanji", "statement": "The radicals listed at the end are the radicals of no common kanji, in the order of the file; the radicals with and without kanji add up to the number of radicals.", "quantifier": "for all loaded kanji and radicals", "why_tests_cant": "tests have one file of radicals", "anchors": ["libs/kanji/src/RadicalData.cpp:printMissingRadicals"]}
{"id": "C132", "title": "Counts of the report on Unicode data", "statement": "For each feature the line has the number of entries with it, split into Jouyou, Jinmei and other entries; the total is the number of entries in the file.", "quantifier": "for all Unicode data files", "why_tests_cant": "tests have files of a few lines", "anchors": ["libs/kanji/src/UcdData.cpp:print", "libs/kanji/src/UcdData.cpp:printCount"]}
{"id": "C133", "title": "Listing of links", "statement": "The listing has a line with codes and names for each kanji whose entry has links; it says 'not found in UCD' exactly for the kanji without entry.", "quantifier": "for all Unicode data and kanji lists", "why_tests_cant": "tests list one or two kanji", "anchors": ["libs/kanji/src/UcdData.cpp:printVariationSelectorKanji", "libs/kanji/src/UcdData.cpp:print"]}
{"id": "C134", "title": "Table of kanji with variation selectors", "statement": "The table has a numbered row for each kanji with a variation selector, in the order of the names; there is a DomainError if one of them has no entry.", "quantifier": "for all Unicode data and loaded kanji", "why_tests_cant": "tests have one such kanji", "anchors": ["libs/kanji/src/UcdData.cpp:printVariationSelectorKanji"]}
{"id": "C135", "title": "Printed lists of groups", "statement": "The list of groups has a line with number, name, size and members for each group, in the order of the file, and its layout does not depend on what was printed before.", "quantifier": "for all groups and states of the stream", "why_tests_cant": "tests print to a new stream", "anchors": ["libs/quiz/src/GroupData.cpp:printGroups", "libs/quiz/src/GroupData.cpp:printMeaningGroup", "libs/quiz/src/GroupData.cpp:printPatternGroup"]}
{"id": "C136", "title": "Breakdown of groups by type", "statement": "The breakdown has one line for each type of which a kanji is in a group, with the number of these kanji, the number of all kanji of the type and up to twelve kanji that are in no group.", "quantifier": "for all groups and kanji", "why_tests_cant": "tests have a few groups", "anchors": ["libs/quiz/src/GroupData.cpp:printTypeBreakdown", "libs/quiz/src/GroupData.cpp:printMissingFromType"]}
{"id": "C137", "title": "Messages about wrong groups", "statement": "The message for a group that can't be created tells the first thing that is wrong; names that are there more than once are each listed once, in the order of the members, and there is a message exactly if the group isn't created.", "quantifier": "for all lists of members", "why_tests_cant": "tests have one or two lists for each message", "anchors": ["libs/quiz/src/Group.cpp:Group", "libs/quiz/src/Group.cpp:toString", "libs/quiz/src/Group.cpp:error"]}
{"id": "C138", "title": "Finding list files", "statement": "The file found for a name is the file itself or, for a name without extension that names no file, the file with the extension '.txt'; otherwise the error tells which of the conditions fails; the constructor finds the same file as getFile.", "quantifier": "for all names and file systems", "why_tests_cant": "tests have one directory with a few files", "anchors": ["libs/kanji/src/ListFile.cpp:getFile", "libs/kanji/src/ListFile.cpp:ListFile"]}
{"id": "C139", "title": "Errors of list files", "statement": "The error for a list file is about the first token with a problem and has the number of its line; without such a token it lists all tokens that were in an earlier file. 'got multiple tokens' is reported only for lines with several tokens.", "quantifier": "for all texts and sets of names", "why_tests_cant": "tests have one file per error", "anchors": ["libs/kanji/src/ListFile.cpp:load", "libs/kanji/src/ListFile.cpp:validate"]}
{"id": "C140", "title": "Lists printed while list files are processed", "statement": "In full debug mode the entries of a list for which a kanji was created and those found by type are printed with their numbers, Jinmei kanji of the frequency list by whether they have a level; this does not change what is loaded.", "quantifier": "for all lists and loaded kanji", "why_tests_cant": "tests use the real files and look at the output only in part", "anchors": ["libs/kanji/src/TextKanjiData.cpp:processList", "libs/kanji/src/TextKanjiData.cpp:printListData", "libs/kanji/src/ListFile.cpp:print"]}
{"id": "C141", "title": "Differences of strokes", "statement": "The names listed for a type are those of kanji with other strokes than their Unicode entry; after loading only Jouyou and Extra kanji can be listed.", "quantifier": "for all data files", "why_tests_cant": "tests use the real files", "anchors": ["libs/kanji/src/KanjiData.cpp:checkStrokes"]}
{"id": "C142", "title": "Messages for errors while loading", "statement": "Every insertion prints a message for each error, with the reason and the name; the messages are numbered one after the other, with four digits.", "quantifier": "for all sequences of insertions", "why_tests_cant": "tests have one or two errors", "anchors": ["libs/kanji/src/KanjiData.cpp:printError", "libs/kanji/src/KanjiData.cpp:checkInsert", "libs/kanji/src/KanjiData.cpp:insertSanityChecks"]}
{"id": "C143", "title": "Conversion of upper and lower case", "statement": "toLower and toUpper change exactly the ASCII letters of a text: decoding and converting commute, other bytes are unchanged, converting twice is converting once; firstLower and firstUpper convert only the first byte and change nothing in a text that starts with another character.", "quantifier": "for all byte strings", "why_tests_cant": "tests have a few English words and one Japanese word", "anchors": ["libs/utils/src/String.cpp:toLower", "libs/utils/src/String.cpp:toUpper", "libs/utils/src/String.cpp:firstLower", "libs/utils/src/String.cpp:firstUpper"]}
{"id": "C144", "title": "Conversion of numbers to char", "statement": "Each overload of toChar gives the character with this number exactly if it is in the allowed range and otherwise throws a RangeError whose message has the number and the type; the overloads agree where they all apply.", "quantifier": "for all integers", "why_tests_cant": "tests have the boundary values of some overloads", "anchors": ["libs/utils/src/String.cpp:toChar", "libs/utils/include/kt_utils/String.h:toUChar"]}
{"id": "C145", "title": "Tests for single byte characters", "statement": "The overloads of isSingleByte, isAllSingleByte and isAnySingleByte agree on a text and on its decoded characters if it has no NUL, and tell whether one, all or some characters are ASCII.", "quantifier": "for all byte strings without NUL", "why_tests_cant": "tests have a few texts", "anchors": ["libs/utils/src/String.cpp:isSingleByte", "libs/utils/include/kt_utils/String.h:isSingleByte", "libs/utils/include/kt_utils/String.h:isAnySingleByte", "libs/utils/include/kt_utils/String.h:isAllSingleByte"]}
{"id": "C146", "title": "Choices of a list quiz question", "statement": "The prompt of every question lists exactly the keys that are accepted: the numbers of the lines in quiz mode, the way back in a review (from the second question), the meanings switch, skip and quit; the meanings switch only changes its own text.", "quantifier": "for all numbers of lines from 1 to 9, questions and switches", "why_tests_cant": "tests look at a few questions", "anchors": ["libs/quiz/src/ListQuiz.cpp:start", "libs/quiz/src/Quiz.cpp:getDefaultChoices", "libs/quiz/src/ListQuiz.cpp:getAnswer"]}
{"id": "C147", "title": "Judging answers of list quizzes", "statement": "A number is judged correct exactly if the kanji of that line has the reading of the one asked for; otherwise the message names the only line that has.", "quantifier": "for all questions with at most 9 lines", "why_tests_cant": "the lines are random, tests fix the seed of a few questions", "anchors": ["libs/quiz/src/ListQuiz.cpp:getAnswer", "libs/quiz/src/Quiz.cpp:correctMessage", "libs/quiz/src/Quiz.cpp:incorrectMessage"]}
{"id": "C148", "title": "List quiz sessions", "statement": "A session with any input goes through the questions like the score keeping loop: every question is answered, skipped or left for the previous one with an action that was offered, and the mistakes listed at the end are the names of the questions answered wrongly, in order.", "quantifier": "for all lists, inputs and random choices", "why_tests_cant": "tests play a few sessions of a few questions", "anchors": ["libs/quiz/src/ListQuiz.cpp:start", "libs/quiz/src/ListQuiz.cpp:getAnswer", "libs/quiz/src/Quiz.cpp:~Quiz"]}
{"id": "C149", "title": "Text of a list quiz", "statement": "For each question the output has the screen, one prompt for each line read and the verdict; lines that aren't a choice only repeat the prompt, and switching meanings repeats the same question.", "quantifier": "for all inputs", "why_tests_cant": "tests look at parts of the output", "anchors": ["libs/kana/src/Choice.cpp:get", "libs/quiz/src/ListQuiz.cpp:start", "libs/quiz/src/ListQuiz.cpp:getAnswer"]}
{"id": "C150", "title": "Final score only after a quiz", "statement": "A final score is printed only if the quiz was started.", "quantifier": "for all lists and start questions", "why_tests_cant": "tests start quizzes only with valid lists", "anchors": ["libs/quiz/src/Quiz.cpp:~Quiz", "libs/quiz/src/ListQuiz.cpp:ListQuiz"]}
{"id": "C151", "title": "Bitmask operators", "statement": "For an enum with any number of bits the operators are the operations on sets of bits: and, or, xor and not; hasValue tells whether there is a bit; adding and removing a flag changes only this flag.", "quantifier": "for all widths and values", "why_tests_cant": "tests have one enum with three values", "anchors": ["libs/utils/include/kt_utils/Bitmask.h:operator~", "libs/utils/include/kt_utils/Bitmask.h:hasValue", "libs/kana/include/kt_kana/KanaEnums.h:ConvertFlags"]}
{"id": "C152", "title": "Conversion flags as text", "statement": "The text shown for a set of flags has the names of exactly these flags, and the options shown by kanaConvert determine source, target and flags.", "quantifier": "for all sets of flags and types", "why_tests_cant": "tests have a few sets", "anchors": ["libs/kana/src/Converter.cpp:flagString", "libs/kana/src/KanaConvert.cpp:printOptions"]}
{"id": "C153", "title": "Fields left out of list quizzes", "statement": "The field that is the criterion of a list quiz, and only this, is missing in the legend and in the kanji shown.", "quantifier": "for all quiz types and sets of fields", "why_tests_cant": "tests look at the legend of one quiz", "anchors": ["libs/kanji/src/Kanji.cpp:info", "libs/quiz/src/QuizLauncher.cpp:start"]}
{"id": "C154", "title": "Options and help texts", "statement": "Each program accepts exactly the one letter options that its help text explains.", "quantifier": "for all characters", "why_tests_cant": "tests have valid options and a few invalid ones", "anchors": ["libs/quiz/src/QuizLauncher.cpp:HelpMessage", "libs/stats/src/Stats.cpp:HelpMessage", "libs/kana/src/KanaConvert.cpp:usage"]}
{"id": "C155", "title": "Values of quiz options and the synopsis", "statement": "kanjiQuiz accepts exactly the values of -f, -g, -k, -l, -m and -p that the synopsis of its help text gives.", "quantifier": "for all options and characters", "why_tests_cant": "tests have a few values", "anchors": ["libs/quiz/src/QuizLauncher.cpp:HelpMessage", "libs/quiz/src/QuizLauncher.cpp:setQuizType"]}
{"id": "C156", "title": "Questions before a quiz", "statement": "kanjiQuiz asks for mode, order, type and list unless they are given by options, and in a test with a list for the number of choices and the style, until one is answered by quitting. Each prompt is repeated until its answer is valid, and the quiz started has the mode, order, list, number of choices and style that the answers denote. No input leads to an error.", "quantifier": "for all options and inputs", "why_tests_cant": "tests answer the prompts with a few valid inputs", "anchors": ["libs/quiz/src/QuizLauncher.cpp:start", "libs/quiz/src/QuizLauncher.cpp:startListQuiz", "libs/quiz/src/QuizLauncher.cpp:startGroupQuiz", "libs/quiz/src/QuizLauncher.cpp:getQuestionOrder", "libs/kana/src/Choice.cpp:get"]}
{"id": "C157", "title": "Messages for errors in column files", "statement": "The message for an error in a column file tells the reason, the file, and the row, column and value if there are such; it is about the first error found, missing columns are listed in order, and there is a message exactly if there is an error.", "quantifier": "for all files, columns and values", "why_tests_cant": "tests have one file for each message", "anchors": ["libs/utils/src/ColumnFile.cpp:nextRow", "libs/utils/src/ColumnFile.cpp:error", "libs/utils/src/ColumnFile.cpp:verifyHeaderColumns"]}
{"id": "C158", "title": "Answering a group question", "statement": "Whatever is entered while a group question is asked, there is no error for groups with up to 58 members shown; answers are distinct letters of members, one for each member if the question is complete, and one can only go back in a review after the first question.", "quantifier": "for all groups, states and inputs", "why_tests_cant": "tests answer two groups", "anchors": ["libs/quiz/src/GroupQuiz.cpp:getAnswers", "libs/quiz/src/GroupQuiz.cpp:getAnswer", "libs/quiz/src/GroupQuiz.cpp:editAnswer", "libs/quiz/src/GroupQuiz.cpp:getAnswerToEdit"]}
{"id": "C159", "title": "Group quiz sessions", "statement": "No input leads to an error in a group quiz if each member has a letter. The verdict counts the members for which the reading chosen, and the meaning if meanings are shown, is the right one; the score counts the groups with only right answers and the mistakes are the names of the others in order.", "quantifier": "for all lists of groups, orders and inputs", "why_tests_cant": "tests have groups of two to five members", "anchors": ["libs/quiz/src/GroupQuiz.cpp:start", "libs/quiz/src/GroupQuiz.cpp:checkAnswers"]}
{"id": "C160", "title": "Dialog of a group question", "statement": "While a group question is asked, the group is shown at first and again after refresh and when meanings are switched; each prompt offers exactly the letters not chosen and the commands that make sense, has a default only where documented, and is repeated until the answer is valid.", "quantifier": "for all groups with up to 58 members and all inputs", "why_tests_cant": "tests look for single lines in the output", "anchors": ["libs/quiz/src/GroupQuiz.cpp:getAnswers", "libs/quiz/src/GroupQuiz.cpp:getAnswer", "libs/quiz/src/GroupQuiz.cpp:editAnswer", "libs/kana/src/Choice.cpp:get"]}
{"id": "C161", "title": "Start of a group quiz", "statement": "A group quiz asks for the part of the pattern groups, then has a heading, the questions and a final score. It is an error if there are no groups or the question to start with doesn't exist. Quitting at the prompt counts as skipped only the questions before the one to start with.", "quantifier": "for all lists of groups, start questions and inputs", "why_tests_cant": "tests quit at the prompt without a start question", "anchors": ["libs/quiz/src/GroupQuiz.cpp:GroupQuiz", "libs/quiz/src/GroupQuiz.cpp:getGroupType", "libs/quiz/src/GroupQuiz.cpp:start", "libs/quiz/src/Quiz.cpp:beginQuizMessage"]}
{"id": "C162", "title": "Transcript of a group quiz", "statement": "A group quiz writes exactly a heading, for each question the group with its members and readings aligned in columns, the prompts with the choices possible at that time and the verdict, and at the end the final score, whatever is entered.", "quantifier": "for all lists of groups with up to 26 members shown, start questions, orders and inputs", "why_tests_cant": "tests look for single lines in the output", "anchors": ["libs/quiz/src/GroupQuiz.cpp:start", "libs/quiz/src/GroupQuiz.cpp:showGroup", "libs/quiz/src/GroupQuiz.cpp:getAnswers", "libs/quiz/src/Quiz.cpp:~Quiz", "libs/kana/src/Choice.cpp:get"]}
{"id": "C163", "title": "Transcript of a list quiz", "statement": "A list quiz writes exactly a heading, for each question its text, the numbered answers (the right one at the position drawn, around it the kanji drawn that have new readings, in the order drawn), the prompts with the choices possible at that time and the verdict, and at the end the final score, whatever is drawn and entered.", "quantifier": "for all lists of kanji with readings, start questions, draws and inputs", "why_tests_cant": "tests look for single lines in the output and don't shuffle the answers", "anchors": ["libs/quiz/src/ListQuiz.cpp:start", "libs/quiz/src/ListQuiz.cpp:populateAnswers", "libs/quiz/src/ListQuiz.cpp:printQuestion", "libs/quiz/src/ListQuiz.cpp:getAnswer", "libs/quiz/src/Quiz.cpp:~Quiz", "libs/kana/src/Choice.cpp:get"]}
{"id": "C164", "title": "The program that shows kanji", "statement": "For any argument the quiz program either shows the kanji asked for (by name, frequency, Morohashi ID, Nelson ID or code: a legend, then one text per kanji with that ID) or ends with the documented message. Whichever way a kanji is named, the same text is shown, and there is a text for every name.", "quantifier": "for all arguments and all loaded data in which every frequency is found and no kanji has both new and old names", "why_tests_cant": "tests have two kanji and one list of three", "anchors": ["libs/quiz/src/QuizLauncher.cpp:processKanjiArg", "libs/quiz/src/QuizLauncher.cpp:printDetails", "libs/quiz/src/QuizLauncher.cpp:printExtraTypeInfo", "libs/quiz/src/QuizLauncher.cpp:getId", "libs/kanji/src/MorohashiId.cpp:validate"]}
{"id": "C165", "title": "Options of kanjiQuiz and messages for wrong ones", "statement": "kanjiQuiz reads options until the first argument that is none, -h or --; the first option with a problem ends the program with the documented message, otherwise it shows the help, the kanji given, or starts a quiz with exactly the settings that the options stand for.", "quantifier": "for all lists of arguments", "why_tests_cant": "tests have one wrong option per message and few combinations", "anchors": ["libs/quiz/src/QuizLauncher.cpp:QuizLauncher", "libs/quiz/src/QuizLauncher.cpp:processArg", "libs/quiz/src/QuizLauncher.cpp:processProgramModeArg", "libs/quiz/src/QuizLauncher.cpp:setQuizType"]}
{"id": "C166", "title": "Dialog before a quiz for any input", "statement": "For any input, including wrong answers and input that ends early, the questions before a quiz are exactly those that the options leave open, in the order mode, order, type, list, number of choices and style; each is repeated until the line is one of the keys offered (or empty if there is a default), and the quiz chosen is the one the answers stand for.", "quantifier": "for all options and inputs", "why_tests_cant": "tests answer the prompts with a few valid inputs", "anchors": ["libs/quiz/src/QuizLauncher.cpp:start", "libs/quiz/src/QuizLauncher.cpp:startListQuiz", "libs/quiz/src/QuizLauncher.cpp:startGroupQuiz", "libs/quiz/src/QuizLauncher.cpp:getQuestionOrder", "libs/kana/src/Choice.cpp:get"]}
{"id": "C167", "title": "kanjiQuiz from its command line to its output", "statement": "For any arguments, any input and any random numbers, kanjiQuiz writes exactly the specified text to standard output and standard error and exits with the specified code: the help, a kanji, the message for the first wrong argument, or the dialog followed by the list or group quiz chosen, with the kanji of the list or the groups of the part chosen in the order chosen; for data that fits it never has undefined behaviour.", "quantifier": "for all arguments, inputs, random draws and loaded data", "why_tests_cant": "tests construct quizzes directly with a few inputs; main isn't tested", "anchors": ["apps/quizMain.cpp:main", "libs/quiz/src/Quiz.cpp:run", "libs/quiz/src/QuizLauncher.cpp:start", "libs/quiz/src/ListQuiz.cpp:ListQuiz", "libs/quiz/src/GroupQuiz.cpp:prepareList", "libs/quiz/src/GroupQuiz.cpp:start"]}
{"id": "C168", "title": "kanaConvert from its command line to its output", "statement": "For any arguments and any input kanaConvert writes exactly the specified text to standard output and standard error and exits with the specified code: the usage, the message for the first wrong argument, the conversions of the strings, the chart, the conversions of the lines of the input up to a line with q, or the dialog of the interactive mode with every prompt, option line, help and message; it never throws anything else and has no undefined behaviour.", "quantifier": "for all argument lists (fewer than 65534) and all inputs", "why_tests_cant": "tests cover one option or one dialog at a time; main isn't tested", "anchors": ["apps/convertMain.cpp:main", "libs/kana/src/KanaConvert.cpp:KanaConvert", "libs/kana/src/KanaConvert.cpp:processArg", "libs/kana/src/KanaConvert.cpp:getInput", "libs/kana/src/KanaConvert.cpp:processLine", "libs/kana/src/KanaConvert.cpp:printOptions", "libs/kana/src/KanaConvert.cpp:start"]}
{"id": "C169", "title": "The documented Kana chart is what the program prints", "statement": "The text that kanaConvert prints with -m is the file docs/KanaConversionChart.md, byte for byte: notes, every row with its variants, Unicode values and styles, and the totals. With -p it prints the same notes, then the chart for a terminal.", "quantifier": "for the whole chart (about 12 KB)", "why_tests_cant": "the test compares only the start and the totals of the chart; the file in docs isn't tested", "anchors": ["libs/kana/src/KanaConvert.cpp:printKanaChart", "docs/KanaConversionChart.md"]}
{"id": "C170", "title": "A kanji's name is one character", "statement": "Every kanji that is loaded has a name of exactly one character (a variation selector and combining marks not counted). A row of the Jouyou, Jinmei or Extra file whose name isn't one character is reported as an error like its other cells.", "quantifier": "for all rows and files", "why_tests_cant": "the names in the files are right; a row with an empty name or two characters doesn't occur in tests", "anchors": ["libs/kanji/src/Kanji.cpp:KanjiName", "libs/kanji/src/OfficialKanji.cpp:OfficialKanji"]}
{"id": "C171", "title": "Loaded data is good enough for the quiz program", "statement": "Every kanji that can be loaded from the data files has what the quiz program shows of it (a name that can be displayed, a stroke number and other values in the ranges of their types, entries of the Unicode file). The lists of the quizzes (grades, levels, Kyus, frequencies) have only loaded kanji. If the data files can be loaded and stay within the limits (fewer than 65536 Jouyou rows, at most 2750 frequency entries, no list entry that is only the base character of a kanji with variation selector, groups with as many members as can be shown), then the quiz program with this data ends with an exit code for every list of arguments, every input and every sequence of random numbers: no failing assertion and no access outside of a list.", "quantifier": "for all data files, arguments and inputs", "why_tests_cant": "tests load a few hand-written files or the project's own data and run few dialogs", "anchors": ["libs/quiz/src/Quiz.cpp:run", "libs/kanji/src/TextKanjiData.cpp:TextKanjiData", "libs/kanji/src/TextKanjiData.cpp:processList", "libs/quiz/src/QuizLauncher.cpp:start"]}
{"id": "C172", "title": "Readings and meanings of loaded kanji", "statement": "The reading and the meaning of a loaded kanji are: those of its row for Jouyou and Extra kanji; the reading of its row and the meaning of the Unicode file for Jinmei kanji; both those of the Jouyou (or Jinmei) kanji it belongs to for linked kanji; for all others the meaning of the Unicode file and the reading converted from the On and Kun readings of the Unicode file, except for Frequency kanji with a row in the file of frequency readings, which have the reading of that row. Only Jouyou, Jinmei and Extra kanji have additional information.", "quantifier": "for all data files and all loaded kanji", "why_tests_cant": "tests look at a few kanji of each type", "anchors": ["libs/kanji/src/Kanji.cpp:LoadedKanji", "libs/kanji/src/OfficialKanji.cpp:JouyouKanji", "libs/kanji/src/TextKanjiData.cpp:TextKanjiData"]}
{"id": "C173", "title": "Radical, strokes, Pinyin and dictionary numbers of loaded kanji", "statement": "A loaded Jouyou or Extra kanji has the radical named in its row and the number of strokes in its row; a Jinmei kanji has the radical named in its row and the strokes of its entry in the Unicode file; all other kanji have the strokes of their entry and the radical with the number in the entry. The Pinyin, the Morohashi Id and the Nelson Ids of every kanji are those of its entry (none without entry or when the entry has none). The entry is the one found for the name of the kanji, and the compatibility name of the kanji is the name of this entry. Readings are marked as linked exactly for linked kanji and for kanji made only from an entry whose link type says so.", "quantifier": "for all data files and all loaded kanji", "why_tests_cant": "tests look at a few kanji of each type", "anchors": ["libs/kanji/src/Kanji.cpp:OtherKanji", "libs/kanji/src/OfficialKanji.cpp:OfficialKanji", "libs/kanji/src/KanjiData.cpp:ucdRadical", "libs/kanji/src/KanjiData.cpp:getNelsonIds"]}
{"id": "C174", "title": "Percentages are rounded correctly", "statement": "A percentage in the report of kanjiStats (one or two digits after the point, computed with doubles as amount * 100 / total) is a decimal number nearest to the exact value: it differs by at most half a unit of the last digit. A larger amount never has a smaller percentage; nothing is 0 and everything is 100.", "quantifier": "for all amounts and totals up to 2^38", "why_tests_cant": "tests compare a few percentages of small texts; rounding twice in binary and once in decimal could be off by one digit for some of the totals", "anchors": ["libs/stats/src/Stats.cpp:asPercent", "libs/stats/src/Stats.cpp:printKanjiTypeCounts"]}
{"id": "C175", "title": "kanjiStats from its command line to its output", "statement": "Everything kanjiStats writes is determined by its arguments, the data and the files, as described without the counting maps of the program: for each path (a link is followed, a directory is searched with everything below it) the heading has the numbers of files and directories and of replaced Furigana, combining marks, variation selectors and errors; then each of the nine categories that has characters is shown with the number of its characters and of the different ones in the lines and names, with a line per kanji type and share for the common kanji, examples for other kanji, and a list with ranks and the file with most occurrences where it is asked for; then the totals with percentages. An unknown option, missing arguments or a missing file give the documented message on the error output and exit code 1; the reports for the files before stay. The program doesn't crash.", "quantifier": "for all arguments, directory trees, file contents and kanji data, given the set of counts the library builds", "why_tests_cant": "tests count a handful of small files with a few characters; what is written for a whole tree with all categories depends on nine counting runs with different settings that have to agree", "anchors": ["apps/statsMain.cpp:main", "libs/stats/src/Stats.cpp:countKanji", "libs/stats/src/Stats.cpp:run", "libs/stats/src/Stats.cpp:printHeaderInfo", "libs/stats/src/Stats.cpp:printTotalAndUnique", "libs/stats/src/Stats.cpp:printBreakdown", "libs/stats/src/Utf8Count.cpp:addFile", "libs/stats/src/Utf8Count.cpp:doAddFile"]}
{"id": "C176", "title": "The numbers of a statistics report are the numbers of characters in the text", "statement": "For a directory tree whose files and names are UTF-8 text without combining marks and variation selectors, the number shown for a category that counts Furigana is the number of characters of the whole text (however it is divided into lines, files and directories) whose code points are in the set of that category; without wide opening brackets this is so for all categories, and then every multi-byte character except the wide space is counted in exactly one category. Every kanji is in exactly one of the three kanji categories.", "quantifier": "for all directory trees of such text and all contents of the Unicode file", "why_tests_cant": "tests count texts of a few characters; that cutting a text into lines, joining lines and removing readings loses or repeats no character is about all texts", "anchors": ["libs/stats/src/Utf8Count.cpp:processFile", "libs/stats/src/Utf8Count.cpp:add", "libs/stats/src/Stats.cpp:countKanji"]}
{"id": "C177", "title": "kanjiFormat from its command line to its output", "statement": "kanjiFormat writes the text of the file named by its first argument in which every line of Hiragana and Katakana that directly follows a line ending with a kanji (or a variation selector) is written in wide brackets at the end of that line, with the following text on the same line; all other lines are written as they are, each with a line end. This is said about lines of characters, for texts whose last line doesn't end with a kanji (C63 has the others). A missing argument, a path that isn't a regular file and an argument count above 65535 give their message on the error output and exit code 1; otherwise the exit code is 0 and nothing is written to the error output.", "quantifier": "for all arguments, file systems and file contents", "why_tests_cant": "the program has no tests", "anchors": ["apps/formatMain.cpp:main", "apps/formatMain.cpp:format", "libs/utils/src/Args.cpp:checkInt"]}
{"id": "C178", "title": "kanjiStats counts the output of kanjiFormat as the text without its reading lines", "statement": "For a text without wide brackets whose last line doesn't end with a kanji: after kanjiStats joins the lines that belong together and removes the readings in brackets from what kanjiFormat wrote for the text, the remaining texts put together are exactly the lines of the original text that aren't readings. So for each category that doesn't count Furigana the characters counted in the output of kanjiFormat are those counted in a file that has only these lines.", "quantifier": "for all texts and all categories without Furigana", "why_tests_cant": "the programs are in different directories and are never tested together; that the brackets written by one are exactly those understood by the other depends on two regular expressions, line joining and a limit on kanji before a bracket", "anchors": ["apps/formatMain.cpp:format", "libs/stats/src/Utf8Count.cpp:processJoinedLine", "libs/stats/src/Utf8Count.cpp:processFile"]}
{"id": "C179", "title": "The lists of the quiz program are the lists in the files", "statement": "After the data is loaded the kanji that a quiz asks for each of the five JLPT levels and the twelve Kentei Kyus are exactly the words of the file of that level or Kyu, in their order; the kanji with frequency n is the one in line n of the frequency file; if loading printed no error, the kanji of a grade are those of the rows of the Jouyou file with this grade, in their order. Kanji that are only in the Unicode file are in the order of their names. The meaning and pattern groups are those of the rows of their own file, the jukugo are the different words of the jukugo files, and the reading, meaning and additional text shown for a kanji are its own. For the lists it is assumed that no list has the compatibility name of another kanji, and for frequencies that there are at most 2750 (C44).", "quantifier": "for all data files", "why_tests_cant": "tests load small lists for a few levels, Kyus and grades; the project's own files are compared by their totals", "anchors": ["libs/kanji/src/TextKanjiData.cpp:TextKanjiData", "libs/kanji/src/TextKanjiData.cpp:processList", "libs/kanji/src/KanjiData.cpp:processUcd", "libs/quiz/src/Quiz.cpp:run"]}
{"id": "C180", "title": "Loading a data directory is loading the texts of its files", "statement": "The data is loaded from a directory exactly when the directory is there, every needed file is there (with or without the extension .txt), each file read as a table has a header row with exactly the columns the program asks for, in any order, and all its rows have the number of cells of the header (perhaps with another tab at the end), and what the rows and lists say can be loaded (C173, C179). The cells a row gives for the Unicode entries, radicals, readings, Jouyou, Jinmei and Extra kanji and groups are those below the named columns. The result doesn't depend on which columns were registered before. The quiz program then runs with any arguments and input (within the limits of C171).", "quantifier": "for all contents of the disk and all directories", "why_tests_cant": "tests load small files one at a time, with their columns in the usual order", "anchors": ["libs/utils/src/ColumnFile.cpp:nextRow", "libs/kanji/include/kt_kanji/OfficialKanji.h:fromFile", "libs/kanji/src/TextKanjiData.cpp:TextKanjiData", "libs/kanji/src/UcdData.cpp:load", "libs/kanji/src/RadicalData.cpp:load", "libs/quiz/src/GroupData.cpp:loadGroup", "libs/quiz/src/JukugoData.cpp:JukugoData", "libs/kanji/src/ListFile.cpp:getFile"]}
{"id": "C181", "title": "Loading data ends with the data or an error", "statement": "Loading a data directory ends with the data or an exception. (Violated: an entry of a JLPT level list that is not a Jouyou or Jinmei kanji, an entry of the frequency list that is in extra.txt, or a name that isn't one character fails an assertion.) Each of the files other than those of the kanji (lists, Unicode data, radicals, readings, groups, jukugo) is loaded or gives an exception whatever its text is. If the names in the files fit together - every name is one character, level entries are in jouyou.txt or are official Jinmei kanji, frequency entries are not in extra.txt, and a Unicode entry that links to the plain form of a name with a variation selector is in no list - then loading ends with the data or an exception, and with an exception exactly if a file is missing, a table doesn't have the right columns or the rows and texts can't be loaded.", "quantifier": "for all contents of the disk and all directories", "why_tests_cant": "tests can't try all files; the assertions hold for the data of the project", "anchors": ["libs/kanji/src/KanjiData.cpp:addToLevels", "libs/kanji/src/KanjiData.cpp:addToFrequencies", "libs/kanji/src/KanjiData.cpp:addToKyus", "libs/kanji/src/KanjiData.cpp:processUcd", "libs/kanji/src/TextKanjiData.cpp:processList", "libs/kanji/src/TextKanjiData.cpp:TextKanjiData", "libs/kanji/src/UcdData.cpp:load", "libs/kanji/src/RadicalData.cpp:load", "libs/quiz/src/GroupData.cpp:loadGroup", "libs/quiz/src/JukugoData.cpp:JukugoData"]}
{"id": "C182", "title": "kanjiQuiz from its command line and the files to its output", "statement": "What kanjiQuiz does depends on nothing but the contents of the data directory it finds, its arguments without '-data' and its value, the input and the numbers drawn: where the directory is, whether it was given with '-data' (with or without a slash at the end) or found by searching up, and what else is on the disk make no difference; neither do '.' and '..' in its path. Run without '-data' at or below a directory that has the data in 'data' it does the same as with '-data' and that directory. It ends with a message about its arguments exactly if no data directory is found or there is more than one debug option, and, if the names in the files fit together (C181), with an error of loading exactly if a file is missing, a table has wrong columns or its contents aren't accepted. If the names fit together and the data is within the limits of the program (C171) it ends with an exit code or waits for input, whatever is typed.", "quantifier": "for all trees of files, current directories, arguments (fewer than 65535), inputs and random numbers", "why_tests_cant": "two tests run the program in a debug mode with the data of the project and look for a few lines, others construct its parts; runs with other data, or with copies of the data in different places, are not compared", "anchors": ["apps/quizMain.cpp:main", "libs/quiz/src/Quiz.cpp:run", "libs/kanji/src/TextKanjiData.cpp:TextKanjiData", "libs/kanji/src/KanjiData.cpp:getDataDir", "libs/kanji/src/KanjiData.cpp:getDebugMode", "libs/kanji/src/ListFile.cpp:getFile"]}
{"id": "C183", "title": "kanjiStats and kanjiFormat from their command lines and the files to their output", "statement": "When kanjiStats finds its data directory, there is at most one debug option and the data can be loaded, it writes, after what loading prints, the report specified in C175 for its arguments without '-data' and its value, the loaded data and what is found at the paths, and its exit code tells whether there was a message. Nothing else counts: two runs whose data directories have the same contents, with the same other arguments and the same files at their paths do the same, wherever the directories are; without '-data' at or below a directory that has the data in 'data' it does the same as with '-data' and that directory. It ends with a message about its arguments exactly if no data directory is found or there is more than one debug option, and, if the names in the files fit together (C181), with an error of loading exactly if a file is missing, a table has wrong columns or its contents aren't accepted, and otherwise with the report, without a crash. A kanji that isn't a compatibility name is counted as Jouyou, Jinmei or Extra exactly if it is in the file of that name, if there were no errors when loading, and as 'Non-UCD' exactly if it isn't a name in 'ucd.txt'. In the order of the lists a kanji without frequency counts as one more than the number of entries of 'frequency.txt' (up to 65534), which is after all its kanji, if no entry stands for a compatibility name. kanjiFormat writes the formatted text (C177) of the file at its argument; when its output is put into a file, kanjiStats counts the characters of the lines that aren't readings, for categories without Furigana, in texts without brackets, variation selectors and combining marks that don't end with a kanji.", "quantifier": "for all trees of files, current directories and arguments (fewer than 65535), and for every order in which the set of counts may be built", "why_tests_cant": "the tests construct Stats with the data of the project and run it for some sample files; neither main function is run, and no test uses other data, another place of the data directory or the output of kanjiFormat", "anchors": ["apps/statsMain.cpp:main", "apps/formatMain.cpp:main", "libs/stats/src/Stats.cpp:Stats", "libs/kanji/src/TextKanjiData.cpp:TextKanjiData", "libs/kanji/src/KanjiData.cpp:getDataDir", "libs/kanji/src/KanjiData.cpp:getDebugMode"]}
{"id": "C184", "title": "Everything printed while the kanji are loaded", "statement": "Without debug option nothing is written to the output stream while the kanji are loaded; with '-info' nothing but the counts of all kanji and the breakdown by grade, once everything is loaded. With '-debug' the text is: the start, for every list in the order of the levels, the frequency list and the Kyus the lines about its entries (for a JLPT level the Jinmei kanji; for the frequency list the Linked Old kanji, the entries for which there was no kanji, and the Jinmei and Linked Jinmei kanji with and without JLPT level; nothing for a Kyu), where 'there' means the kanji of the other files or an earlier entry, then the kanji with different strokes, the counts, the breakdowns by grade, level and Kyu, and the summaries of the radicals and of the Unicode data. The messages to the error stream are the same with every option: they are those for the kanji of the files, offered one after the other, namely for a name that is there already, for a contradiction to the Unicode entry, and for a second kanji with variation selector for the same compatibility kanji; the number of errors is the number of messages, and the kanji loaded are the first of each name. What is printed doesn't change the data or the exceptions, except that with '-debug' loading ends with an exception if a kanji with variation selector has no Unicode entry, which can't be if there are no messages.", "quantifier": "for all contents of the data files and all debug options, and for every order of kanji with equal keys in the radical summary", "why_tests_cant": "the tests load only the data of the project: for '-info' the text is compared, for '-debug' 12 of its 362 lines, and messages only for single calls with test files", "anchors": ["libs/kanji/src/TextKanjiData.cpp:TextKanjiData", "libs/kanji/src/TextKanjiData.cpp:processList", "libs/kanji/src/TextKanjiData.cpp:printListData", "libs/kanji/src/KanjiData.cpp:finishedLoadingData", "libs/kanji/src/KanjiData.cpp:checkInsert", "libs/kanji/src/KanjiData.cpp:printError", "libs/kanji/src/KanjiData.cpp:checkStrokes", "libs/kanji/src/KanjiData.cpp:processUcd"]}
{"id": "C185", "title": "What is printed while the Jukugo are loaded", "statement": "Without debug option nothing is printed while the Jukugo are loaded and never an error message. With one the text is: a heading, a line for each file with the number of its words that aren't in an earlier file or line, up to the first file that is rejected; when all are loaded the number of different kanji in the words and the number of different words, and for every type of which there are kanji a line with the type in a column of 14, how many there are and the first 12 in the order of their bytes. The numbers of the files add up to the number of words, those of the types to the number of kanji. What is loaded is the same with every option.", "quantifier": "for all contents of the seven files, types of kanji and formats of the stream", "why_tests_cant": "one test looks for the line with the totals for the data of the project, the other lines aren't compared", "anchors": ["libs/quiz/src/JukugoData.cpp:JukugoData", "libs/quiz/src/JukugoData.cpp:loadFile"]}
{"id": "C186", "title": "Everything printed while the data of the quiz program is loaded", "statement": "Loading the data of the quiz program prints nothing to the output stream without debug option; otherwise it prints what is printed for the kanji (C184), the two lists of groups and the text for the Jukugo (C185), in this order; alignment and fill character are those that the part before has left: to the left if there is a kanji with variation selector, to the right and filled with zeros if there is none and a radical has no common kanji, otherwise to the right and filled with blanks. The messages to the error stream don't depend on the option: those for the kanji and then, in the order of the file, one for each member of a pattern group that is in an earlier group, which names the first such group; members that aren't found have a message each, and loading then ends with an exception. When everything is loaded the number of messages is the sum of the counted errors. Data and exceptions are those without printing.", "quantifier": "for all contents of the data files and all debug options", "why_tests_cant": "the tests look for 3 lines with '-info' and 5 with '-debug' for the data of the project and have one test file for each message", "anchors": ["libs/quiz/src/Quiz.cpp:run", "libs/quiz/src/GroupData.cpp:GroupData", "libs/quiz/src/GroupData.cpp:loadGroup", "libs/quiz/src/GroupData.cpp:add", "libs/quiz/src/GroupData.cpp:printGroups", "libs/quiz/src/JukugoData.cpp:JukugoData", "libs/kanji/src/Radical.cpp:operator<<", "libs/kanji/src/UcdData.cpp:printVariationSelectorKanji"]}
{"id": "C187", "title": "Columns of the texts for Jukugo are filled with blanks", "statement": "In every debug mode the names of the types in the lines about kanji with Jukugo are aligned with blanks, whatever was printed before.", "quantifier": "for all contents of the data files and debug modes", "why_tests_cant": "in the data of the project there are kanji with variation selector and meaning groups, both of which set the fill character to a blank", "anchors": ["libs/quiz/src/JukugoData.cpp:JukugoData", "libs/kanji/src/Radical.cpp:operator<<", "libs/quiz/src/GroupData.cpp:printMeaningGroup"]}
{"id": "C188", "title": "All output of kanjiQuiz with debug options", "statement": "For every file system, current directory and command line, kanjiQuiz writes the report of loading the data (nothing without debug option) followed by what it writes without the report; messages about the arguments are written before loading begins; an exception while loading ends the program after what was printed until then. With a debug option no quiz is started, otherwise the report is put before the same output. If the names in the files fit together and the data is within the limits of the program, it never crashes.", "quantifier": "for all file systems, command lines, debug modes, drawn numbers and typed input", "why_tests_cant": "the tests run the program with a debug option and no further argument, with the data of the project; state left on the stream by the report shows only in the output that follows with other data", "anchors": ["apps/quizMain.cpp:main", "libs/quiz/src/QuizLauncher.cpp:printJukugoList", "libs/quiz/src/Quiz.cpp:run", "libs/kanji/src/Radical.cpp:operator<<", "libs/kanji/src/KanjiData.cpp:getDebugMode"]}
{"id": "C189", "title": "All output of kanjiStats with debug options", "statement": "For every file system, current directory and command line, kanjiStats writes the report of loading the data (nothing without debug option) followed by what it writes for the arguments without the report; messages about the arguments before loading are all that is written; an exception while loading ends the program after what was printed until then. With a debug option and no other argument the report is everything and the program ends with 0. If the names in the files fit together it never crashes.", "quantifier": "for all file systems, command lines and debug modes", "why_tests_cant": "the tests run Stats with the data of the project and without the report on the same stream", "anchors": ["apps/statsMain.cpp:main", "libs/stats/src/Stats.cpp:Stats", "libs/kanji/src/KanjiData.cpp:getDebugMode", "libs/kanji/src/TextKanjiData.cpp:TextKanjiData"]}
{"id": "C190", "title": "Text in both scripts is converted completely", "statement": "Without given source, text is converted from Hiragana, Katakana and Romaji in this order, without the target. With a kana target all letters of the other script are written in it. With Romaji as target no kana letters of either script remain, each conversion keeps the letters and iteration marks of the other script in their order, and characters that are not kana stay in place between the conversions of the text before and after them.", "quantifier": "for all texts, targets and flags", "why_tests_cant": "the tests convert two texts with more than one script; what the first conversion leaves together for the second depends on the whole text", "anchors": ["libs/kana/src/Converter.cpp:convert", "libs/kana/src/Converter.cpp:fromKana", "libs/kana/src/Kana.cpp:get", "libs/kana/src/KanaConvert.cpp:convert"]}
{"id": "C191", "title": "The checks at the start succeed and build the tables of the conversion", "statement": "The checks of the static kana objects, the three maps, the iteration marks and the tokens of the converter all succeed. Each map is in the order of its keys, has exactly the pairs of a reading or spelling and its kana, and finds what the lists say; the sets of letters after 'n', small kana and repeated consonants and the two maps of delimiters are those used by the conversions. For any table of kana objects in place of the project's, filling a map fails exactly when two keys are equal, and the objects are accepted exactly when every spelling is in its own script.", "quantifier": "for all lists of kana objects (checks and maps), and for the whole table of the project", "why_tests_cant": "the tests compare sizes and entries of the finished maps; the tables are constants, so no test can show which other tables would be rejected, and the tokens are private to the converter", "anchors": ["libs/kana/src/Kana.cpp:populate", "libs/kana/src/Kana.cpp:validate", "libs/kana/src/Converter.cpp:verifyData", "libs/kana/src/Converter.cpp:populateDelimLists"]}
{"id": "C192", "title": "The table of wide characters is what the script prints", "statement": "The script that generates the table 'WideBlocks' prints blocks with exactly the codes that the entries of 'EastAsianWidth.txt' give as full or wide, whatever the order of the entries, the comments and the other lines; if the entries are in ascending order the blocks are too, and adjacent entries are always joined, so that the result is the only one possible for these codes. For every file in ascending order that has the codes of the table in DisplaySize.h the script prints the blocks of that table. The output is the C++ text with one line for each block, separated by commas, with the numbers spelled as in the entries.", "quantifier": "for all files in the format of 'EastAsianWidth.txt' (Unicode 14)", "why_tests_cant": "there are no tests of the scripts", "anchors": ["scripts/parseEastAsianWidth.sh:process", "scripts/parseEastAsianWidth.sh:one_bigger", "scripts/parseEastAsianWidth.sh:out", "libs/kana/include/kt_kana/DisplaySize.h:WideBlocks"]}
{"id": "C193", "title": "Rows of the UCD file", "statement": "The script that generates 'data/ucd.txt' writes, in the order of the records, one row for each record that has a reading, a link to a kanji with readings, readings given by the script, or a number in a Japanese dictionary or source, except for records with a simplified radical other than 199 and 211. The row has the values of the record: the first Pinyin, the first Morohashi number without leading zeros and selector and with 'P' for each apostrophe, the Nelson numbers without leading zeros separated by commas, the letters of the sources, 'Y' for Joyo (unless another kanji is listed instead) and Jinmei. Joyo kanji have no links; Jinmei kanji have the link in the record or the one of the record that links to them (the 18 links that lead from the standard form to the variant are turned round); other kanji have the best possible links: all different traditional forms, a simplified form, a compatibility variant, the kanji in the definition or a semantic variant that have readings, otherwise traditional forms or a simplified form in Japanese sources, never the kanji itself as its traditional or simplified form. Meaning and readings are those of the record, or of the first link when it has none, which '*' behind the type of the links shows. The script ends early exactly at a record that has readings of another kanji but no link.", "quantifier": "for all lists of records in the format of 'ucd.all.flat.xml', whether empty attributes are left out or not, and all links found in definitions", "why_tests_cant": "there are no tests of the scripts", "anchors": ["scripts/parseUcdAllFlat.sh:populateArrays", "scripts/parseUcdAllFlat.sh:getLinks", "scripts/parseUcdAllFlat.sh:getTraditionalLinks", "scripts/parseUcdAllFlat.sh:processRecord", "scripts/parseUcdAllFlat.sh:printResults", "scripts/parseUcdAllFlat.sh:setVars"]}
{"id": "C194", "title": "Strokes from glyph references", "statement": "The strokes in 'data/ucd.txt' are those of the first glyph reference of a record (radical strokes plus remaining strokes), or the total strokes if there are no references; the other number of strokes is the first different number among the other references, and it is empty if there is none. The two numbers change places exactly when the second reference has the different number and is the one for the radical, the remaining strokes and the total strokes of the record. The other number is never equal to the strokes.", "quantifier": "for all records with any number of references", "why_tests_cant": "there are no tests of the scripts", "anchors": ["scripts/parseUcdAllFlat.sh:getStrokesFromAdobeRef", "scripts/parseUcdAllFlat.sh:processRecord"]}
{"id": "C195", "title": "Kana readings of the own record", "statement": "The last column of 'data/ucd.txt' has the kana readings of the record of the row and is empty if there are none.", "quantifier": "for all lists of records", "why_tests_cant": "there are no tests of the scripts, and the loader doesn't use the column", "anchors": ["scripts/parseUcdAllFlat.sh:printResults", "scripts/parseUcdAllFlat.sh:setVars"]}
{"id": "C196", "title": "Loading the generated UCD file", "statement": "The file that the script writes is a table with the columns the loader expects, and its cells are those of the rows. If the records have proper data (codes and links are codes of kanji, radicals 1 to 214, strokes within the limits of the loader, Morohashi numbers of at most 16 bits with at most two apostrophes or the letter 'H', a meaning for Joyo kanji that aren't Jinmei, readings for the kanji that Jinmei kanji and the script itself link to, different codes, different links of Jinmei kanji) and no text with a tab, newline or backslash, the loader accepts the file, and the data has exactly one entry for each row: name, names of the links, radical, strokes, Joyo, Jinmei, sources, link type, and the Morohashi number are those of the record.", "quantifier": "for all lists of records with these conditions", "why_tests_cant": "there are no tests of the scripts, and tests of the loader use a few rows", "anchors": ["scripts/parseUcdAllFlat.sh:printResults", "scripts/parseUcdAllFlat.sh:processRecord", "libs/kanji/src/UcdData.cpp:load", "libs/kanji/src/UcdData.cpp:loadLinks"]}
{"id": "C197", "title": "Links found in definitions", "statement": "The script that generates 'data/ucd.txt' looks in the definitions of kanji that have no simplified radical for words like 'same' and 'variant'. A definition in which such a word is followed by kanji (with only letters, blanks, commas and the like between) gives a link when one of the kanji has readings. The links found are those of the kanji and codes behind the last such word in each of the first three parts of the definition (parts end at ')'), in the order of the passes of the script, and the first one with readings is used.", "quantifier": "for all lists of records and all definitions", "why_tests_cant": "there are no tests of the scripts", "anchors": ["scripts/parseUcdAllFlat.sh:findDefinitionLinks", "scripts/parseUcdAllFlat.sh:findDefinitionLinksForType", "scripts/parseUcdAllFlat.sh:processUtfLinks", "scripts/parseUcdAllFlat.sh:processUniLink"]}
{"id": "C198", "title": "Summary of the UCD script", "statement": "The summary that the script prints has the counts of the rows of 'data/ucd.txt': different Japanese sources, Morohashi numbers and Nelson numbers, Joyo kanji, Jinmei kanji that aren't links, rows for each type of link, rows with meaning, Pinyin and readings, and how many of the readings are those of the record, of a linked kanji or given by the script. The number expected is shown behind '/' when it is reached and as a warning otherwise.", "quantifier": "for all lists of records and links for which the script doesn't end early", "why_tests_cant": "there are no tests of the scripts", "anchors": ["scripts/parseUcdAllFlat.sh:countLinkType", "scripts/parseUcdAllFlat.sh:processRecord", "scripts/parseUcdAllFlat.sh:printResults", "scripts/parseUcdAllFlat.sh:checkTotal"]}
{"id": "C199", "title": "Counts of links found in definitions", "statement": "The script that generates 'data/ucd.txt' reports how many links it has found in definitions: the number of all links, one header line, one line for each word with the number of links found behind it, in total and for kanji and codes in each of the first three parts of the definitions, and the number of links that only the script itself gives. Each kanji is counted once, where its link is found, and the numbers add up to the number of links.", "quantifier": "for all lists of records and any order of the words", "why_tests_cant": "there are no tests of the scripts", "anchors": ["scripts/parseUcdAllFlat.sh:printDefinitionLinkCounts", "scripts/parseUcdAllFlat.sh:findDefinitionLinksForType", "scripts/parseUcdAllFlat.sh:findDefinitionLinks"]}
{"id": "C200", "title": "Fields and differences of characters in UCD files", "statement": "The script for looking at UCD files shows all fields of a character given by its code, in small or capital letters, or as itself. With '-p' it shows five general fields and the CJK fields that have a value. For two characters, or with '-d' for a character in two files, it shows exactly the fields of each that the other doesn't have with the same value, or 'no diffs found' if there are none, and exits with status 0. Arguments are accepted exactly as described by the usage text, and there is a message for invalid codes and for characters that are missing or given twice.", "quantifier": "for all arguments and all files in which characters are written on one line with distinct fields", "why_tests_cant": "there are no tests of the scripts", "anchors": ["scripts/ucdDiff.sh:getCodePoint", "scripts/ucdDiff.sh:getXml", "scripts/ucdDiff.sh:printFields", "scripts/ucdDiff.sh:diffs", "scripts/ucdDiff.sh:checkFile"]}
{"id": "C201", "title": "Text of Unicode blocks", "statement": "An official block is written as its name with version, month and year, any other block as its limits. The text shows which block it is: official blocks with the same text have the same name and version, other blocks with the same text are the same, and an official block never has the text of another block. All blocks of the tables are official with limits at multiples of 16, have different names and texts and a version of the list, whose dates are in the order of the versions.", "quantifier": "for all blocks that can be made", "why_tests_cant": "the tests write two versions and two blocks, not all pairs of blocks that can be made", "anchors": ["libs/utils/src/UnicodeBlock.cpp:operator<<", "libs/utils/include/kt_utils/UnicodeBlock.h:makeBlock", "libs/utils/include/kt_utils/UnicodeBlock.h:Version"]}
{"id": "C202", "title": "Threads of kanjiStats", "statement": "The report for a file or directory doesn't depend on the order in which the nine counting threads and the main thread take their steps: every execution stays defined, never blocks, has a bounded number of steps, and ends with the report specified written after what was written before. If there is nothing at the path then nothing is written and the exception leaves the function. A thread changes nothing that belongs to another one, the totals are taken when no thread can change them, and no thread is left behind when the function returns or throws.", "quantifier": "for all data, paths, contents, options and all interleavings of the steps of ten threads", "why_tests_cant": "a test sees the one interleaving the scheduler happens to choose", "anchors": ["libs/stats/src/Stats.cpp:countKanji", "libs/stats/src/Stats.cpp:run", "libs/stats/src/Utf8Count.cpp:addFile"]}
{"id": "C203", "title": "Answers typed at the terminal", "statement": "When keys are read from the terminal, the answer is given by the first key that is one of those offered, or by return if there is a default; the prompt and a newline are written for each key up to it and later keys are left. The answers are those of the same keys given as lines of a stream. While a key is read the terminal gives it at once and doesn't show it, and afterwards the settings of the terminal are as they were before.", "quantifier": "for all choices, defaults, settings and all sequences of keys", "why_tests_cant": "the function that reads keys is excluded from the coverage of the tests since it requires user input; the tests use streams", "anchors": ["libs/kana/src/Choice.cpp:getOneChar", "libs/kana/src/Choice.cpp:get", "libs/kana/include/kt_kana/Choice.h:getOneChar"]}
{"id": "C204", "title": "Iteration marks in Romaji", "statement": "When kana are converted to Romaji, iteration marks after a kana (a letter, or letters read together) read like the letters they stand for, whatever goes before and follows: ゝ and ヽ stand for the kana without voicing marks, ゞ and ヾ for the voiced kana if the kana has no mark and can be voiced. Marks at the beginning of a text and marks after a prolonged kana are left out.", "quantifier": "for all texts of letters and other characters, both scripts, all flags and both orders of evaluation", "why_tests_cant": "the tests have about twenty short texts; no test has a mark before a prolong mark or a small letter, or after a small tsu", "anchors": ["libs/kana/src/Kana.cpp:findIterationMark", "libs/kana/src/Kana.cpp:matches", "libs/kana/src/Converter.cpp:fromKana", "libs/kana/src/Converter.cpp:processKana", "libs/kana/src/Converter.cpp:processKanaMacron"]}
{"id": "C205", "title": "Rōmaji of standard text", "statement": "Text in the standard syllables of Hiragana or Katakana (the rows of the kana table and their combinations with small ya, yu and yo), with doubled consonants, long vowels, the syllabic n and other characters is written in Rōmaji by the rules of Hepburn or Kunrei if the flag is set, and by default like Hepburn with a different spelling for each syllable: consonants are doubled (t before ch), long vowels get macrons, an apostrophe separates n from a following vowel or y, and Japanese punctuation becomes Ascii.", "quantifier": "for all sequences of such syllables and characters, both scripts and all flags", "why_tests_cant": "the tests convert each kana alone and a few words; none has the particle wo after n with Hepburn or Kunrei", "anchors": ["libs/kana/src/Kana.cpp:populate", "libs/kana/src/Converter.cpp:fromKana", "libs/kana/src/Converter.cpp:processKana", "libs/kana/src/Converter.cpp:processKanaMacron"]}
{"id": "C206", "title": "Rōmaji typed in any spelling", "statement": "Rōmaji in which every syllable is spelled by Hepburn, by Kunrei or in the program's own way, also mixed in one text, is read as the syllables that are meant: doubled consonants as small tsu, vowels with macron as long vowels, n as the syllabic n (before a vowel or y with an apostrophe), Ascii punctuation as Japanese punctuation, and other characters as they are. Spellings that Hepburn or Kunrei use for two syllables are read as the common one of the two. So standard text written in Rōmaji and read again is unchanged by default, and the same up to these syllables with the flags.", "quantifier": "for all sequences of standard syllables and other characters, all choices of spellings, both scripts and all flags", "why_tests_cant": "the tests read about thirty words, spelled by Hepburn or in the program's own way; spellings of Kunrei are only tested as output", "anchors": ["libs/kana/src/Kana.cpp:populate", "libs/kana/src/Converter.cpp:toKana", "libs/kana/src/Converter.cpp:processRomaji", "libs/kana/src/Converter.cpp:processRomajiMacron"]}
{"id": "C207", "title": "Kana typed with any spelling of the table", "statement": "Every kana has its own spelling and possibly variants (also the small kana and the combinations for foreign words). Text made of these spellings in any order is read as their kana, one after the other: no spelling is read differently because of what precedes or follows it. A repeated first consonant (any but l, n and x, also t before ch) gives a small tsu, a macron a long vowel, n a syllabic n, which requires an apostrophe or a dash only before a vowel or y, and other characters keep their place. ASCII text is read in the same way in upper and lower case, as long as no capital letter starts a doubled consonant (see C30).", "quantifier": "for all sequences of spellings in the table, doubled and long or not, n with and without separator, and other characters, for both scripts and all flags", "why_tests_cant": "the tests read about thirty words; there are 258 spellings, and what is read depends on up to three letters", "anchors": ["libs/kana/src/Kana.cpp:populate", "libs/kana/src/Converter.cpp:toKana", "libs/kana/src/Converter.cpp:processRomaji", "libs/kana/src/Converter.cpp:processRomajiMacron"]}
