# Formal model of kanji-tools: design

Source under study: `/repo` (anzumura/kanji-tools, C++20).  The model is a
Lean 4.33.0 Lake project in `lean/`; properties are in `properties.jsonl`, the
status of each in `MANIFEST.json`, experiments with wrong programs in
`seeded/LOG.jsonl`.

## Layout

* `lean/Verif/Model/*.lean`  - the code, function by function.  Every definition
  cites the file and lines it models and states its simplifications.
* `lean/Verif/Spec/*.lean`   - small specifications written without reference to
  the model (e.g. UTF-8 well-formedness through Lean's own
  `String.utf8EncodeChar`, decimal values of digit strings, ...).
* `lean/Verif/Lemmas/*.lean` - helper lemmas.
* `lean/Verif/Props/*.lean`  - the property theorems, each followed by `example`s
  showing that its hypotheses are met by concrete non-trivial cases.

## Modelling conventions

* `std::string` is `List UInt8`.  A `const char*` into a NUL-terminated buffer is
  the remaining suffix of `bytes ++ [0]`; reading from the empty suffix is an
  out-of-bounds read and is the outcome `none` ("undefined behaviour").
* `char32_t` codes are `Nat` (with an explicit `< 2^32` where it matters), other
  machine integers are `Nat`/`Int` with explicit wrap-around (`% 256`,
  `% 65536`, ...) wherever the code narrows or can overflow.
* Exceptions are the error side of an explicit outcome type; messages are not
  modelled unless a property is about them.  Undefined behaviour (out-of-bounds
  access, violated precondition of a library function) is a distinct outcome.
* `std::map`/`std::set` with an ordinary key order are finite maps given by
  association lists with unique keys; iteration order is modelled only where it
  is observable.  Files are lists of lines; `std::getline` is modelled on lists.
* Loops are structural recursion; potentially non-terminating loops take a fuel
  argument or are described by an inductive relation, and termination is a
  theorem.
* Random numbers and user input are parameters (arbitrary streams).

## Trusted base

* Lean's kernel; the axioms `propext`, `Classical.choice`, `Quot.sound` only
  (see the axiom table at the end, produced by `#print axioms`).
* The reading of the C++ source recorded in the model's comments, and of the C++
  standard library functions it calls (`getline`, `stoul`, `std::map`, ...), which
  are modelled, not verified.
* Not modelled: the file system and stream state except as lists of lines,
  regular expressions (`std::wregex`; a parameter where
  needed), locale dependent `ctype` behaviour (Ascii behaviour is modelled),
  memory allocation, the contents of the data files.
* Particular assumptions: the expression of the format program is read as
  ECMAScript with `$` only at the end of a line; `UcdData` symbols are texts;
  rows of column files are given as cell texts where another property covers the
  file itself; the loop over old names in `TextKanjiData` runs over a snapshot of
  the map; `std::sort` is any function that returns a sorted permutation;
  `double` is IEEE binary64 with rounding to nearest even, and a number written
  with `std::fixed` is the exact binary value rounded to nearest even;
  `stream >> number` is modelled for unsigned decimal digits; the threads of
  kanjiStats (`std::async`) share nothing but data they only read, a step of a
  thread is at most one call of `add`, and starting one doesn't fail; the
  files don't change while a program runs; `grep` and `sed` in the scripts take
  the longest match from the left (POSIX) with the ranges of ASCII; `diff` marks the
  lines that are not in a longest list of common lines (any such list); `tcgetattr`,
  `tcsetattr` and `read` succeed on a terminal, the first two fail without one; the width of a
  table cell stays below the limit of `int`; the Kana tables and the block tables
  were generated from the text of the source and are checked against
  `docs/KanaConversionChart.md` (C99) and independent characterisations (C25,
  C65, C12).

## Plan per property

| Id | Modelled | Proof idea |
|----|----------|-----------|
| C01 | `convertOneUtf8`, `convertFromUtf8` on the suffix memory model | case analysis on leading ones; induction on length; result is never `none` |
| C02 | decoder and encoder | per-character inverse by arithmetic, induction on the list |
| C03 | `convertToUtf8`, `toChar` | masks turned into div/mod, compare with `String.utf8EncodeChar` |
| C04 | decoder and encoder | decoder on well-formed input; encoder output always well-formed |
| C05 | `validateMB`, `validateMBUtf8` | case analysis against "exists scalar c, s starts with encoding of c" |
| C06 | `isValidUtf8` | expected false: witness; partial: first character |
| C07 | `convertFromUtf8` with limit | induction |
| C08 | decoder | one-character lemma: result depends only on the consumed bytes and on whether the next is a continuation byte; induction |
| C09 | `toHex`, `toBinary`, `addLeadingZeroes` | digits by strong induction |
| C10 | `toUnicode`, `getChar32` | digit lemmas |
| C11-C14 | block tables, `inRange`, `inWCharRange`, all `is...` functions | general lemma for ordered tables; arithmetic; C14 expected false for punctuation |
| C15, C16 | `checkIndex`, iterator operations with 8-bit narrowing | expected false for huge arguments: witness; invariant by induction over operations; `it[i]` after any history (C16_at_partial) |
| C17, C18 | `create`, `toString`, `fromString`, `EnumMap` | list lemmas |
| C19 | `getId` | invariant over histories |
| C20-C23 | `ColumnFile` with `getline` | invariant over header processing; C21, C22 expected false in corners |
| C24 | `Args` | decision logic |
| C25, C65 | the Kana tables | kernel evaluation over the finite tables |
| C26-C31 | `Converter` | simulation between streaming converter states; finite facts about the tables by kernel evaluation; C29-C31 expected false |
| C32 | `displaySize`, `wideSetw` | additivity, bounds; the width as `int` (C32_int) |
| C33, C64 | `Utf8Char` | induction on the decoded text |
| C34, C35 | `Choice::get` on input streams | induction on input; C35 expected false at end of input; a range as a list of choices (C34_range_choices) |
| C36 | `Table` | width lemmas |
| C37, C38 | `MorohashiId` | digit induction with overflow check |
| C39 | `Strokes` | decision logic |
| C40, C41 | `ListFile` | loop invariant |
| C42, C43 | Kanji orderings | lexicographic orders; C43 expected false |
| C44 | frequency buckets | invariant; expected false past the capacity |
| C45 | `nextArg` | recursion on the argument list |
| C46 | `Ucd` sources | bit-set lemmas |
| C47 | `RadicalData` | loop invariant |
| C48 | link handling | decision logic |
| C49 | `Count::operator<` | expected false: witness; partial: agreement with the lexicographic order on a domain |
| C50, C51 | `Utf8Count` | invariants over histories |
| C52 | statistics predicates | from C12 |
| C53-C55 | `GroupQuiz`, `Group` | arithmetic on letters; expected false for index >= 26; invariant over histories |
| C56, C57 | `populateAnswers` | relation over random streams; C57 expected false |
| C58 | quiz loop | invariant over user actions |
| C59, C60, C67 | `QuizLauncher` | decision logic; C59, C67 expected false |
| C61, C62 | `JukugoData` | invariant over loads; expected false for repeated kanji / misplaced bracket |
| C63 | `formatMain` | expected false for the last line; partial theorem with exact output |
| C66 | `KanaConvert::start` | loop model |
| C68 | `checkInsert`, `findByName` | invariant over insertions |
| C69, C70 | `Utf8Char`, `Utf8Iterator`, `utf8Size` | exact result in terms of the pieces of C33; C69 expected false for leading Ascii |
| C71 | `Converter` | the result is never an exception, by induction over the text |
| C72 | `Choice` | runs of consecutive characters, induction over the sorted choices |
| C73, C74 | `Kanji::info`, `qualifiedName` | fold of optional fields; case analysis |
| C75 | `getDebugMode` | recursion on the arguments |
| C76, C77 | `KanjiData` maps, `processList` | invariant over insertions and list entries |
| C78, C79 | `Stats` directory walk and arguments | induction over the tree; decision logic |
| C80, C110, C111 | `GroupQuiz` selection and screen | loop invariant, width lemmas; C110, C111 violated in corners |
| C81, C82 | `QuizLauncher` arguments | decision logic, digit lemmas |
| C83 | `JukugoData` load | fold over files |
| C84 | `UnicodeBlock` regex texts | the text is decoded into ranges and compared with the tables |
| C85-C87 | `KanaConvert` | argument loop and dialogue as functions of the input |
| C88 | `ColumnFile` typed cells | decision logic |
| C89-C92 | `GroupData`, `Group` | fold over rows; counting lemmas |
| C93-C98 | `UcdData` | fold over rows; exact conditions of success; C94, C96 violated |
| C99 | `KanaChart` | kernel evaluation over the tables; equality with the document |
| C100-C104, C107 | `TextKanjiData` | invariants through all phases of loading; C101 violated |
| C105, C106 | `Converter` (Rōmaji) | extension of the simulation of C27 |
| C108, C109 | `QuizLauncher` details | exact text; C108 violated for wide entries |
| C112 | `Quiz`, `ListQuiz` score | counts along the loop; violated when starting later |
| C113-C116 | `Utf8Count` (Furigana) | relation for leftmost removal; texts shown; all violated in corners |
| C117, C118 | `Stats` report | sets as trees of any shape, induction over insertions; C118 violated |
| C119-C121 | `Stats` report | exact texts, counting; C119 violated |
| C122-C125 | `KanjiData` counts | exact texts, sums over types, grades, levels and kyus; C122 violated |
| C126-C128 | `KanjiData` directory | paths as lists of names, any file system; C127, C128 violated |
| C129-C131 | `RadicalData` report | any sort by the order, counting over the kanji of a store; exact texts |
| C132-C134 | `UcdData` report | exact texts, rows by induction over the kanji; C133 violated |
| C135-C137 | `GroupData`, `Group` texts | alignment and fill of the stream as state; C135 violated |
| C138-C139 | `ListFile` files and errors | file system as a function; message of the first token with a problem; C139 violated |
| C140-C142 | texts printed while loading | log of the found and created kanji; strokes by where a kanji comes from; messages counted with the errors |
| C143-C145 | `String.cpp` case conversion, `toChar`, single byte tests | map on ASCII bytes commutes with decoding; messages read back |
| C146-C150 | list quiz from input to output | input stream and output text; refines the loop of C41; destructor when the constructor throws; C150 violated |
| C151-C153 | bitmask operators, flags and fields | sets of bits for any width; tables of all flags |
| C154, C155 | help texts against option parsing | options read from the help text by a separate parser; both violated |
| C156 | the dialog before a quiz from input to output (Model/LaunchSession) | stage by stage from the last question to the first; prompts and keys by computation |
| C157 | the messages of ColumnFile (Model/ColumnText) | without its text each function is that of Model/ColumnFile; the first error decides |
| C158, C160 | a question of a group quiz from input to output (Model/GroupSession) | simulation by the loop of C54; a separate description of the dialog (Spec/GroupTalk) for any input |
| C159, C161 | whole group quizzes | invariant over the session, score through the loop of C58; expected false above 26 members (C53) |
| C162 | the transcript of a group quiz (Spec/GroupTranscript) | C158, C160 and C159_verdict for each question, induction over the orders drawn |
| C163 | the transcript of a list quiz (Spec/ListTranscript) | closed form of the answers drawn (`answers_eq`), prompts by C146, verdict by cases of the key, induction over the draws |
| C164 | what is shown for a kanji argument (Spec/KanjiDetails) | closed form of the reading of IDs with its first problem, case split over the forms of the argument, lines of the card by C73 and C109 |
| C165 | what kanjiQuiz makes of its arguments (Spec/LaunchText) | the model with messages agrees with the one without (C165_messages); induction over the arguments with the options read so far as the state |
| C166 | the dialog before a quiz (Spec/LaunchDialog) | each prompt in closed form for any input, then one lemma per question from the last to the first |
| C167 | kanjiQuiz from arguments and input to output and exit code (Spec/QuizProgram) | C165, C166, C164, C163 and C162 put together; selection of groups in closed form by induction (takeWhile and dropWhile); what is shown of kanji can't fail for data that fits (`DataFits`) |
| C168 | kanaConvert from arguments and input to output and exit code (Spec/ConvertProgram) | loop over arguments by strong induction (the 16-bit index can't wrap for fewer than 65534 arguments); state abstracted to `Settings` with at most one mode; dialog by induction over the lines of the input, with the prompt for a flag as a nested induction; conversion is total (C71). All examples of the README are checked by evaluation; the model with messages agrees with the one without (C168_models) |
| C169 | `kanaConvert -m` = docs/KanaConversionChart.md, `-p` = the same notes and the chart for a terminal (Spec/ChartDocument) | notes by evaluation, table from C99 |
| C170 | the names of loaded kanji, `KanjiName` | by cases on where a kanji comes from (`Origin`); when a row ends in the failing assertion is characterised exactly. Violated: the name is only looked at by an assertion |
| C171 | `KanjiRec.Sound`, `WithinLimits`, `loadData`, `runProgram` | each kanji by where it comes from (`Origin`), the lists by C104, their lengths by the types of their numbers; then C167. `LoadedExample.lean` has files that meet the hypotheses |
| C172 | `TextSources`: per type the row or entry a text is taken from | by cases on `Origin`, with an induction for a linked kanji that belongs to a Jinmei kanji |
| C173 | `ValueSources`, `IdValues`: per type the row or entry a value is taken from | by cases on `Origin`; radicals by C47 |
| C174 | `shownUnits`: the shown decimal against the exact quotient, no floating point in the statement | error bounds of the two roundings to 53 bits, then half-unit rounding; a tie can't be crossed since 2^38 totals leave a gap |
| C175 | kanjiStats from arguments to output and exit code (Spec/StatsProgram): characters in categories as lists, counts by `List.count`, no maps | counting runs in closed form (C78, C175 lemmas in Lemmas/Tally: a map by key is the tally of the characters added), categories by position, then the report piece by piece; `StatsExample.lean` has a whole report by evaluation and a set that meets the hypothesis |
| C176 | numbers of a report against the text of a tree (`TreeText`, a relation on characters) | lines of encoded text are encoded texts; a bracket's bytes occur only where a bracket is (self-synchronisation), so nothing is joined or removed; then C12 and C52 per character |
| C177 | `mainFormat` against `formatProgram`; `formatFile` against `withReadings` on lines of characters | the matching of both patterns on encoded lines as predicates on the last character and on all characters; then C63; which files can be formatted (C177_file) |
| C178 | `stringsOf`/`furiganaFind` of what `formatFile` writes against `baseLines` | an inductive description of an output line (`Printed`) together with the line without its readings; induction over the lines |
| C179 | contents of `loadData` against the files (`fileTokens`, rows, `GroupsOf`, `allWords`) | C104, C40, C101, C103, C89 and C83 put together; all levels and Kyus are in the lists of files; insertion keeps the order of names |
| C180 | `Model/DataTexts`: all files of the data directory as texts, the columns of each, `Disk` | the loop over the rows of a `ColumnFile` is a fold over the rows described by `tableRows`; each file gives the rows used in C171-C179; registration of columns doesn't matter |
| C181 | `loadDataFrom` and everything below it; `NamesFit` (`Spec/LoadSafe`) | `Safe r P`: not undefined, and a result satisfies `P`; `Safe.bind` through all stages. The invariant (`SafeStore`) says that every kanji found for an entry of a list has the member that the assertion wants; it is established by the constructors and kept by every insertion. The other files need no condition. Violated: see below |
| C182 | `kanjiQuiz` (Model/QuizFiles): tree of files, current directory, `getDataDir`, `getDebugMode`, `loadDataFrom`, `mainQuiz` | `stat_join`: what `dir / name` names is the entry of what `dir` names (`walk` over appended names); `load_same`: every file used by loading is reached that way, so loading is a function of the directory; `path_text`: the path found is the path of its text. The rest puts together C126, C127, C45, C75, C180, C181 and C171. The example runs the program from the texts of its files to the screen |
| C183 | `kanjiStats`, `kanjiFormat` (Model/StatsFiles): `getDataDir`, `getDebugMode`, `loadTextDataFrom`, `mainStats`/`mainFormat` with the tree of files | `textLoad_same` (as `load_same` of C182 for the files that kanjiStats needs). Composition of C126, C127, C45, C75, C95, C175, C177, C178, C180 and C181; `C183_types` goes from the report back to the lines of the files; `C183_frequency` (Props/StatsFrequency) was added after an edit of `loadedStats` survived |
| C184 | the constructor of `TextKanjiData` with its two streams (Model/LoadPrint: `Printing` = text, messages and result; Spec/LoadPrint: `listText`, `offersMessages`) | every function gives the result of its counterpart without printing (`*_result`); `PrintOffers`: the messages are those of a history of inserted kanji with `Origin`; `ListTexts` from C140 and `Loading`; then C122–C125, C129–C134 and C140–C142 for the parts. How the two streams are interleaved isn't modelled |
| C185 | `loadJukugoPrinting` (Model/QuizPrint); `newWords`, `loadedLines`, `jukugoLines` (Spec/QuizPrint) | induction over the files with the words of C83 (`addWords_spec`: words so far = first appearances); the keys of the map are the kanji of the words (`KeyInv`), `nameOrder` sorts them; `eraseDups_append` for the numbers |
| C186 | `loadDataPrinting`, `formatAfterKanji` (Model/QuizPrint); `alreadyInGroup` (Spec/QuizPrint) | results of the parts equal those without printing; messages of rows by induction with C90 (`pattern_map`: the map has the first group); then C184, C185 and C131 for the missing radicals. The radicals are loaded a second time in the model to have them for the format |
| C187 | `C187_statement` about the end of the output | violated (see below); partial: fill character followed through both lists of groups (`printAllGroups_fill`) |
| C188 | `kanjiQuizOutput` (Model/ProgramOutput): as `kanjiQuiz` of C182 with both streams from the first file to the end and with the fill character left by the report. C182 leaves out what is printed while loading, and the exception of full debug when a kanji with variation selector has no Unicode entry | the loading functions with texts from the files and the ones of C186 print the same (`textFrom_printed`, `dataFrom_printed`, with the column registry as in C180); if loading fails both fail the same way (`FailsAs`); `…In_blank`: with a blank as fill character the detail output is that of C182; `SameKind`: the fill character changes no outcome, only the text |
| C189 | `kanjiStatsOutput` (Model/ProgramOutput) | `textFrom_printed` and C184 for the report, C183 and C175 for the rest; the reports of kanjiStats are written to streams of their own, so the fill character has no influence |
| C190 | `Converter.convert`, `ConvState.convert` | `toRomaji_blocks` (Lemmas/ConverterMixed) from the items of C27–C29: the text after the first conversion comes from the text before by writing something else for parts without kana of the other script (`Blocks`), so letters next to each other were so before and `Readable` carries over to the second conversion; `C28_in_place` twice for characters between |
| C191 | `Kana.validate`, `IterationMark.validate`, `populateKana`, `Tokens`, `buildTokens`, `kanaStart` (Model/KanaStart) | `sortedEmplace` keeps order and reports new keys (`sortedEmplace_new`, `_perm`, `_sorted`), induction over the pairs inserted; the table of the project by evaluation in the kernel; asserts are `.ub`, the message for a duplicate key (it shows an address) is left out |
| C192 | `WidthState.process`, `widthBlocks`, `widthScript` (Model/WidthScript, for scripts/parseEastAsianWidth.sh) | lines of the file (Spec/WidthFile) are read as written (`line_entry`, `lines_text`); invariant of `process`: the codes stored are those of the entries so far, and for ascending entries the blocks are apart and below the next entry; lists of blocks that are apart are determined by their codes (`apart_unique`), which gives the table of DisplaySize.h |
| C193 | `ucdScript`, `processRecord`, `recordLinks`, `recordReadings`, `scriptLinks`, `populateArrays` (Model/UcdScript, for scripts/parseUcdAllFlat.sh) | Spec/UcdEntry has the records in parts and the rows for them; texts are taken apart again (Lemmas/UcdTexts, UcdMarks); an element of an array is that of the last record that sets it (`populate_last`); the links are the first non-empty of seven choices (`recordLinks_entry`); `printUcdRows_entries` by induction over the records |
| C194 | `scriptStrokes`, `adobeLoop` | `adobeLoop_entry` by induction over the references; the comparison of texts is that of the parts (`rsUnicode_equal`) |
| C195 | `printUcdRows`, `evalRecord` | violated: evaluated for two records; partial by the same induction as C193 |
| C196 | `ucdFile`, `ScriptRow.line` (Model/UcdFile), `loadUcdText` (Model/DataTexts) | `split_fields` takes the lines apart again; every condition of `DescribesUcd` (C93) follows from the data of the entry (`C196_row`); put together with C180 and C95 in Props/UcdFileLoad; Props/UcdFileSample has records that satisfy the conditions |
| C197 | `rxMatch`, `rxDef`, `utfCodes`, `uniMatch`, `linksForType`, `definitionFound` (Model/UcdDefinition) | a matcher for the regular expressions used; greedy choice from the left is what POSIX asks for since only `.*` and the classes repeat; `C197_codes` says what is found in terms of parts and words (Spec/DefinitionLink), `C197_links` which code becomes the link; violated for a repeated word, `C197_named_partial` and `C197_unicode_partial` for the last word of a part |
| C198 | `ScriptTotals.countRecord`, `ScriptTotals.count`, `checkTotal`, `ScriptTotals.summary` (Model/UcdTotals) | induction over the records as in C193; each counter equals a count of rows (`C198_totals`) except those that are increased before the row is dropped; violated by a Joyo kanji without row |
| C199 | `storeLinks`, `countTypes`, `countLines`, `definitionLog` (Model/UcdLinkCounts) | invariant over the places searched (`Reached`): the keys are the kanji with a link at an earlier place, so each count is the number of kanji with this first place (`C199_counts`); the table by induction over its lines; violated when the first word has no links |
| C200 | `diffArgs`, `diffCode`, `getXml`, `printXml`, `showDiffs`, `ucdDiff` (Model/UcdDiff) | `<` occurs once in a record and quotes only around values, so the lines are the fields; the result of `diff` is any that keeps a longest list of common lines (`IsDiff`), which is unique because lines are distinct and common fields have the same order; violated: exit status |
| C201 | `versionText`, `blockText`, the tables with names (Model/BlockText) | split at the last parenthesis, the first colon and the comma; `toUnicode` and `toDec` are injective; the tables by evaluation |
| C202 | `threadStep`, `mainStep`, `Execution` (Model/StatsThreads): small steps on the memory of the program, taken in any order | invariant by induction over executions: what each thread has written, what it still has to do and its result agree with `predRun`; what the main thread has taken agrees with `countKanji`; a measure that every step decreases; then C175 |
| C203 | `TermSettings`, `Terminal`, `getOneChar`, `Choice.keyLoop`, `Choice.getKey` (Model/Terminal) | induction over the keys before the first one that gives an answer; keys as lines by induction over the rounds; violated: the settings are set to the usual ones instead of those before |
| C204 | `repeatedLetter` (Spec/IterationMark), `repeatedKana` | the kana of every entry after a mark checked against the letters of the specification; the state after a text that ends with a kana (`After`), then both sides piece by piece up to the text that follows, which doesn't depend on the kana before (`finish_upTo`); violated: a prolong mark after the mark |
| C205 | `Syllable`, `KanaUnit`, `romanize` (Spec/Romanization) | the entries of the 108 syllables checked against the rules for all flags; a part at the beginning of a text, then the rest as if it were alone (`finish_syllable`, `finish_n`, `finish_other`), by induction over the parts; violated: no apostrophe before を written as o |
| C206 | `typedText`, `KanaUnit.read`, `Syllable.readAs` (Spec/TypedRomaji) | the spellings of the 108 syllables in all styles are found in the table and none of the strings read on the way is (`WordOf`, `typed_table`); a spelling is read to its end, also after a pending n and with the first consonant doubled (`feed_word`, `feed_sokuon_word`), then induction over the parts |
| C207 | `KeyUnit`, `Separated` (Spec/TypedKeys) | all 258 spellings are words in the sense of C206, also after a doubled consonant (`key_table`); a spelling is read to its end (`feed_key`), induction over the parts; `C207_case` adds upper case (`C30_text_partial`: a text and its lower-case form are read in step, also at marks) |

## Where the code violates a stated property

For each of these `Cxx_statement` is the property and `Cxx_violated` its negation,
proved with a concrete witness; the `_partial` theorems give what holds (in most
cases the exact behaviour).

| Id | Cause |
|----|-------|
| C06 | only the first character is validated |
| C12, C13, C14 | wide space with a mark is not recognised; U+3099 is both mark and Hiragana; U+FFFD is in the Specials block, so malformed text counts as punctuation |
| C15, C16 | indexes are narrowed to 8 bits before they are checked |
| C21 | one surplus delimiter at the end of a row is accepted |
| C22 | `std::stoul` accepts blanks, signs and trailing text |
| C26, C27, C29 | っ + letter + small letter is left unconverted and a following ー is lost |
| C30 | doubled consonants are recognised before conversion to lower case (`KKa` gives Kか; UCD readings are in upper case) |
| C31 | `kあ` gives あk |
| C35 | at the end of input prompts repeat for ever |
| C36 | cells with a newline |
| C43 | code points are compared as texts (U+2000B before U+4E09) |
| C44 | more than 2750 frequency kanji: index outside the array; static `_maxFrequency` is shared |
| C45, C85 | 65535 arguments: the 16 bit index wraps and the loop is endless |
| C49 | `Count::operator<` lacks parentheses and is no strict weak order |
| C52 | U+3000 is in no category |
| C53 | letters after z give a negative index (groups of 27 or more): undefined behaviour |
| C57 | fewer distinct readings than choices: endless loop |
| C58 | 65536 or more questions wrap around |
| C59 | `-t-`, `-t+` and numbers of 2^64 or more give an exception of `std::stoul` |
| C61 | 日曜日 is found twice for 日 |
| C62 | text after the reading, reversed brackets, Ascii or empty readings are accepted |
| C63 | a last line that ends with a kanji is never written |
| C64 | only length and last bytes are checked |
| C66, C86 | no separators for Rōmaji (dead branch); `-n` is ignored for strings |
| C67 | quitting at the prompt for the order leaves the mode set |
| C68 | a compatibility name can hide an earlier kanji |
| C69 | leading Ascii is skipped |
| C92 | a kanji in two pattern groups hides a missing one |
| C94 | surplus link codes are accepted |
| C96 | the documented fallback to `_linkedOther` is missing |
| C101 | a duplicate row stays in the list of its type, the result of `checkInsert` is ignored |
| C108 | Jukugo entries of 30 or more columns touch the next one (19 entries of the data files) |
| C110 | groups with fewer than two members that have a reading are asked when the original list is used |
| C111 | pinyin of nine or more columns: `size_t` underflow, `std::length_error` |
| C112 | questions before the first one asked count as skipped |
| C113 | of two readings in a row only the first is removed |
| C114, C115 | malformed bytes are replaced by U+FFFD before counting: the line counts as "Furigana Removed" and no error is shown |
| C116 | files of the same name in several directories have one heading |
| C118 | among kanji of the same frequency (all that have none) a smaller type wins over a higher count |
| C119 | if there are only errors they are added to the first line |
| C122 | a kanji in two rows is twice in the list of its type, so that the numbers of types are too large |
| C127 | a `data` directory next to the program isn't found, the search starts one directory higher |
| C128 | in `-data -debug` the name of the directory is taken for an option |
| C133 | "not found in UCD" is printed for a kanji with a variation selector although it has an entry |
| C135 | after the table of kanji with variation selectors (`std::left`) the numbers of meaning groups are aligned to the left |
| C139 | 'got multiple tokens' is reported for a line with one token and a space after it |
| C150 | if a list has a kanji without reading or the start question is too large, `~Quiz` prints a final score although no question was asked |
| C154 | `--` is accepted by kanjiQuiz and kanjiStats but not explained in the help text |
| C155 | the synopsis of kanjiQuiz has `-f[1-5]`, the values 0 to 9 are accepted |
| C159 | when all questions of a group with more than 26 members are answered (the files have such groups) a reading far outside of the list is read |
| C161 | quitting at the prompt for the pattern counts the question to start with as skipped |
| C170 | a row of jouyou.txt or extra.txt with an empty name or a name of several characters fails an assertion (Kanji.cpp:183) instead of being reported with file and row |
| C181 | a JLPT level list with a kanji that is neither Jouyou nor Jinmei fails `assert(kanji->hasLevel())` (KanjiData.cpp:258), a frequency list with a kanji of extra.txt fails `assert(kanji->frequency())` (KanjiData.cpp:263), instead of an error that names the file |
| C187 | with '-debug', radicals without kanji, no kanji with variation selector and no meaning group, names and numbers of the lists of groups and of the lines about Jukugo are filled with zeros (`00000Frequency: 1`), since `operator<<` of `Radical` leaves '0' as fill character |
| C188 | the same with `kanjiQuiz -debug <kanji>`: the columns of the list of Jukugo are filled with zeros (`一三（いちさん）00000000一七…`); holds for '-info' and if there is a meaning group, a kanji with variation selector, or a common kanji for each radical |
| C190 | without given source 'ッゝカァ' becomes 'ltuカァ': the Hiragana mark without kana before it disappears in the first conversion and the second one finds three Katakana that it can't convert (C29); holds for text that can be read in both scripts without Hiragana iteration marks |
| C195 | `kJapanese` isn't among the variables that `printResults` unsets, so a record without the attribute gets the kana readings of an earlier record; holds when every record has the attribute |
| C197 | `sed` takes the last occurrence of the word in a part and the kanji behind it may be none, so "(same as 犬, of the same kind)" gives no link although `grep` has selected it; holds when the word isn't repeated behind the kanji |
| C198 | Joyo and Jinmei kanji are counted before `processRecord` returns without row, so a Joyo kanji without readings and numbers is counted; holds when all of them have rows, none is both Joyo and Jinmei, and links lead to readings |
| C199 | the header is written (and the format made longer) as long as the total is 0 instead of for the first line only, so there are several headers and empty lines when the first word has no links; holds when it has |
| C200 | the exit status is 1 although differences are shown when the second character or file has no field of its own (the last command is the test `[[ -n $s ]]` in `diffs`); the text shown is right, and the status is 0 otherwise |
| C203 | a terminal with `ECHO` or `ICANON` off, `VMIN` other than 1 or `VTIME` other than 0 doesn't get its settings back after a key was read: both flags are turned on, and `VMIN` and `VTIME` stay 1 and 0 (`C203_settings_partial`: exactly then) |
| C204 | `かゝー` becomes `kakaー` although `かかー` is `kakā`: after a mark there is no kana for the prolong mark; small letters after a mark aren't read together with it either, and after `っ` that doesn't double a consonant the kana repeated depends on the order of evaluation (`C204_expanded_partial`: all other texts) |
| C205 | with the flag for Hepburn or Kunrei `ほんを` becomes `hono`, as `ほの` does, instead of `hon'o`: the apostrophe is written by the letter that follows and not by its Rōmaji (`C205_standard_partial`: all texts without `ん` before `ゐ`, `ゑ` or `を`; `C205_text`: what is written for all) |

Further observations made while modelling (no property of their own): a common
kanji with a variation selector that belongs to no kanji is shown in the report
with the type `None`; Rōmaji
`ank` gives あnk but `ankt` あんkt, `Nnk` gives んNk; `getNelsonIds` stops silently
at a part that is no number; the heading "Same Grade Jukugo:" is printed for an
empty list; `addOtherGroupName` shows one of several categories; ゝ and ワ with
U+3099 are not composed; the operands in `Converter` are evaluated in unspecified
order (both are modelled); a token `漢\0xyz` of a list file is accepted; failed
loads leave names in the static sets; `processList` has assertions that fail for
data with a kanji found by its compatibility name; `-data -debug` is taken for a
debug option; `isdigit`/`tolower` are called with negative values; input files are
opened for writing too; the help text says `-f[1-5]` but 0-9 are accepted; row
numbers of the kanji files are not checked although a comment says so; with
`-debug` a kanji with variation selector that has no Unicode entry ends loading
with an exception (C184), without the option it doesn't; parseEastAsianWidth.sh
finds no entry in the form that the Unicode file has since version 15.1 (blanks
around the semicolon) and skips a last line without newline (examples beside C192);
ucdDiff.sh shows the file given with `-f` as the default in later usage messages and
accepts no code of the planes 15 and 16 although the characters themselves are accepted; in
parseUcdAllFlat.sh one of the 18 Jinmei kanji with a reversed link gets `*` as type
of the link if it has no readings of its own, which ends the script (C193, example
in Props/UcdScriptSample); at the end of the input (or without a terminal and keys) a
program that reads keys writes its prompt forever (C203_endless); an iteration mark after
other characters repeats the kana before them (`か。ゝ` becomes `ka.ka`), and there is
no apostrophe after a repeated `ん` (`んゝあ` becomes `nna`, examples in
Props/ConverterMarks); `っを` becomes `oo` with Hepburn (example in
Props/ConverterRoman).

## Tests against wrong programs

`tools/mutate.py` takes the edits in `seeded/edits/*.py`, applies each to a copy of
the project outside this directory, builds the properties and writes the theorems
that fail to `seeded/LOG.jsonl`.  Edits that no theorem noticed led to new theorems
(named in `tightened`), or are recorded as not changing the behaviour
(`equivalent`).

## Axioms

`#print axioms` for all theorems of the manifest (778 when this was written):

| Axioms | Theorems |
|--------|----------|
| none | 29 |
| `propext` | 72 |
| `Quot.sound` | 0 |
| `propext`, `Quot.sound` | 145 |
| `propext`, `Classical.choice`, `Quot.sound` | 532 |
