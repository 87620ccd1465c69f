notes.update({
 "C01": "All byte strings; buffers are lists so an out-of-bounds read is the outcome none, proved impossible.",
 "C06": "The code violates the property (only the first character is checked): C06_violated and C06_sizeOne_violated prove the negation with witnesses; C06_partial is the exact characterisation of what the function decides.",
 "C21": "The code violates the property: a row with one extra trailing delimiter is accepted (C21_violated). C21_partial characterises the accepted rows exactly.",
 "C22": "The code violates the property: std::stoul accepts leading blanks, signs and trailing text (C22_violated, C22_negative_accepted). C22_partial and C22_no_digits_partial are what does hold.",
 "C12": "Disjointness and the two unions hold for all strings. The union claim for isRecognizedUtf8 is violated by wide space followed by a non-spacing mark (C12_violated); C12_partial covers every other string.",
 "C13": "Violated for Hiragana/Kana/Recognized (U+3099 is both a mark and in the block) and, for concatenation, for punctuation of malformed text: C13_violated. C13_sound holds for all; C13_exact_partial, C13_no_marks_exact and C13_append_partial give exactness where it holds.",
 "C14": "Violated for punctuation/recognized because U+FFFD is in the Specials block (C14_violated). C14_is_partial and C14_isAll_partial cover all other classes.",
 "C15": "Violated because the index is narrowed to 8 bits before the check (C15_violated); C15_partial characterises every index.",
 "C16": "The interval invariant (C16_invariant) and dereferencing (C16_deref) hold for all histories; exactness is violated for results of 256 and above (C16_violated) and proved below (C16_exact_partial).",
 "C25": "Tables generated from the source text; uniqueness, exact lookup and the letter correspondence hold for all 204 entries and every string.",
 "C33": "Exact for every byte string, well-formed or not (C33_iteration with the reading of C33_reading); C33_partition is the concatenation identity for well-formed text.",
 "C64": "Violated: only the length and the last three bytes are checked (C64_violated). C64_decides is the exact behaviour; C64_pieces_partial: the statement holds for the strings that iteration delivers.",
 "C69": "Violated: leading Ascii is skipped (C69_violated). C69_first_piece is the exact behaviour on every string; C69_first_partial the documented result for text that starts with a multi-byte character.",
 "C26": "Violated by っ + letter + small letter that aren't a table entry (っかぁ becomes ッかぁ, C26_violated). C26_partial: letter by letter for all other text, any flags and surrounding characters; C26_round_trip_partial: and back.",
 "C27": "Violated by っかぁー, whose prolong mark is lost (C27_violated). C27_partial: the round trip for every other text without Ascii, iteration marks and macrons, including wide delimiters and other characters.",
 "C28": "C28_unchanged and C28_in_place for all text; C28_delimiters lists the delimiters.",
 "C29": "Violated by っかぁ (C29_violated). C29_partial: no letters of the source script are left, for every other text, any target and flags.",
 "C30": "Violated: the test for doubled consonants uses the letter before conversion to lower case (KKa becomes Kか, C30_violated). C30_partial, C30_up_to_case_partial: holds unless an upper-case letter starts a doubled consonant; C30_text_partial for all ASCII text with spaces and marks.",
 "C31": "Violated: kあ becomes あk (C31_violated). C31_partial: holds if the text before the character is converted completely; C31_delimiters: delimiters always keep their place.",
 "C71": "All byte strings (well-formed or not), sources, targets, flags and both evaluation orders.",
 "C34": "All choice sets (as std::map), inputs, quit options and defaults; the answer is that of the first acceptable line.",
 "C35": "Violated: after the end of input the prompt is repeated forever, without a default (C35_violated) and with one when the last line is unfinished (C35_default_violated). C35_partial says exactly when a prompt ends; C35_default_partial: with a default it ends on input that is empty or ends with a newline.",
 "C72": "All choice sets. C72_prompt gives the whole text, C72_segments and C72_maximal say what the listed segments mean.",
 "C36": "Violated for cells that contain a newline (C36_violated). C36_partial, C36_markdown_partial: any number of rows and columns and any cells (also malformed text) without newline and NUL and shorter than a gigabyte (beyond that the int width overflows).",
 "C37": "All byte strings.",
 "C38": "All constructible ids, the empty one included.",
 "C39": "All pairs of uint8_t.",
 "C40": "File contents as bytes (the stream is assumed to open and not fail); tokens are the space separated parts of lines. C40_complete gives the converse: a file of new distinct valid tokens loads.",
 "C41": "Proved over the whole sequence of constructor calls sharing one set, including loads that fail in between (these still put names in the set, so a retry after a failure would be rejected).",
 "C42": "Both orders are strict weak orders on all kanji; kanji are incomparable exactly when rank, strokes, frequency and code text agree.",
 "C43": "Violated: code points are compared as hexadecimal texts of different lengths, so U+2000B is put before U+4E09 (C43_violated). C43_partial: holds when all code points have the same number of hexadecimal digits (all below U+10000 or all from U+10000 to U+FFFFF).",
 "C46": "The sources are accepted exactly if all letters are valid and given once, otherwise a DomainError is thrown; the printed text has the given letters in the fixed order.",
 "C47": "For every file that loads: one radical per line, numbers are positions, lookups by number and name return the matching radical or a DomainError and never std::out_of_range. C47_unique assumes different names (duplicates overwrite the map entry).",
 "C48": "For all kanji that can be made by the constructors; info() never reads a missing new name.",
 "C73": "Hypotheses: pinyin and old names are not empty texts (an empty first old name would lose the separator).",
 "C74": "All combinations of type, level, kyu and frequency.",
 "C44": "Violated for more than 2750 kanji: findByFrequency indexes the array of 10 buckets with 11 (C44_violated). C44_partial: holds for every list of up to 2750 kanji. C44_shared: the static _maxFrequency makes a second, smaller object read out of bounds.",
 "C45": "Violated only for 65535 arguments (the limit of Args) with '-data' last: the uint16_t index wraps around to 0 and the loop is endless (C45_violated). C45_args_partial: holds for all other lists.",
 "C68": "Violated: inserting a kanji with a variation selector whose compatibility name is the name of an earlier kanji hides the earlier one (C68_violated). C68_name_partial: holds when there is no such kanji. Compatibility names, duplicates and the converse (nothing else is found) are proved.",
 "C75": "For all lists; the value of -data is also taken for a debug option ('-data -debug').",
 "C76": "A kanji with the same Nelson id twice is listed twice; C76_nelson is the form for distinct ids.",
 "C77": "For all lists, states and contexts, by induction over the list; failing assertions of addToKyus, addToLevels and addToFrequencies are outcomes of the model and not covered by the hypothesis of success.",
 "C49": "Violated: because of missing parentheses a value with equal type and smaller name is before another one even if its count is lower, so both a<b and b<a can hold (undefined behaviour for std::set). Proved: higher count is always before, irreflexive, no two different characters are equivalent, it is the order meant for equal count and frequency; the order meant (correct parentheses) is a strict weak order.",
 "C50": "For any replacement function, filter and sequence of calls.",
 "C51": "Also: nothing is thrown by substr, and put together the strings are the content of the file without newlines.",
 "C52": "Violated by the wide space (U+3000), which is in no category. Proved: every string that doesn't start with a wide space is in exactly one category.",
 "C78": "Places in the tree are paths of positions; the list of processed files is shown to enumerate exactly the places with a regular file, without repetition.",
 "C79": "For the arguments that nextArg leads to (C45).",
 "C53": "Violated: letters after z have a negative index (C53_violated, groups of 27 or more: undefined behaviour). C53_select_partial gives the outcome for every position; C53_check_partial: answers are judged correctly for groups of up to 26.",
 "C54": "Interaction model: inputs are the bytes typed, for any number of them; invariant over all prompts.",
 "C55": "Duplicate check on names, sizes 2 to 58.",
 "C56": "Random numbers are an arbitrary input list. C56_bounds: no out-of-bounds access.",
 "C57": "Violated: a list with fewer distinct readings than choices never ends (C57_violated). C57_exact_partial: for lists of up to 65536 questions and numbers that keep coming up, the choice ends exactly when there are enough distinct readings.",
 "C58": "Violated for lists of 65536 or more questions, where the 16-bit question number wraps (C58_violated). C58_score_partial: holds for lists of up to 65535 questions. C58_navigation and C58_start are the steps and the start.",
 "C59": "Violated: -t- and numbers of 2^64 or more fail with an exception of std::stoul (C59_violated). C59_outcome_partial gives the outcome for every option string.",
 "C60": "Against documented tables in Spec/Quiz.",
 "C67": "Violated: quitting at the prompt for the order leaves the mode set (C67_violated). C67_reset_partial: everything is reset in all other cases. C67_prompts: prompts of a session with nothing set.",
 "C80": "C80_buckets assumes the group file is in the order of the markers, as the code does.",
 "C81": "Argument loop of processArgs with processArg, setQuizType and processProgramModeArg.",
 "C82": "C82_forms: each form is read as documented; C82_only: nothing else is accepted.",
 "C61": "Violated: a kanji that occurs twice in a word has the word listed twice (C61_violated, 日曜日). C61_exact_partial: the words found are exactly those containing the kanji, with the multiplicity of the kanji; C61_once_partial: once each when the kanji occurs once.",
 "C62": "Violated: text after the closing bracket, a closing bracket before the opening one, Ascii readings and empty readings are accepted (C62_violated). C62_lines_partial, C62_other_partial: exactly what is accepted for the two kinds of files; C62_text_partial: for entries whose text has brackets only around the reading, name and reading are those of the text.",
 "C63": "Violated: a last line that ends with a kanji is never written (C63_violated). C63_exact_partial: the output for every input; C63_lines_partial: every line is written when the last one doesn't end with a kanji.",
 "C83": "loadFiles over the grade files and the file of other entries.",
 "C84": "Against the character classes of the block lookup (C12/C13 model).",
 "C66": "Violated: with target Rōmaji nothing is written between the conversions (C66_violated, `-r あ い` prints ai); the branch that would write a space is dead. C66_exact_partial: the output for every list of strings; C66_kana_partial: as documented for Hiragana and Katakana.",
 "C85": "Violated: with 65535 arguments of which one is \"--\" the 16-bit index wraps and the loop never ends (C85_violated). C85_args_partial: as documented with fewer arguments or without \"--\". C85_select, C85_one_mode: what is done after the arguments are read.",
 "C86": "Violated: -n is ignored for strings (C86_violated). C86_strings_partial: what is written for strings; C86_input_partial: no newlines for piped input.",
 "C87": "C87_dialogue: interactive mode, including the prompt for flags that waits for ever when the input ends; C87_piped: piped input.",
 "C88": "Cells are the texts read by the model of ColumnFile.",
 "C89": "The cells of the rows are given; find is an arbitrary function. A family name with several characters before the colon uses only the first one.",
 "C90": "std::multimap is a list in key order with new entries after equal keys.",
 "C91": "For kanji names that are not empty (all names of the kanji store are not).",
 "C92": "Violated for pattern groups: a kanji in two pattern groups is only reported at load and is counted twice, so the same number of missing kanji is hidden. Holds for meaning groups, and for pattern groups without such duplicates.",
 "C93": "Row cells are given as texts (the column file itself is C21/C22/C88). Number cells use processU64, whose laxness is C22. All ways to fail give DomainError because load turns exceptions into f.error.",
 "C94": "Violated: surplus LinkCodes values (even malformed ones) are ignored, only missing ones are reported. Partial: every name has a matching code.",
 "C95": "Full characterization of success and of the three maps.",
 "C96": "Violated: the documented fallback to _linkedOther is not implemented (the code comment says so). Partial: exact result for names without selector and for kanji with selector (jinmei).",
 "C97": "For all entries; conversion of single words is C28-C31. Note that readings in the UCD file are in upper case, so by C30 MATTAKU gives まTたく (example).",
 "C98": "Counting loop of print; layout of the output is not modelled.",
 "C99": "Fixed text of the notes not modelled; the markdown output is proved equal to docs/KanaConversionChart.md from the table on.",
 "C100": "ListFile loading is C40/C41; the sets of names are empty at the start (a second TextKanjiData in the same program starts after clearUniqueCheckData).",
 "C101": "Violated: a second row with the same name is reported as an error, but stays in the list of the type (the result of checkInsert is ignored), so the list has a kanji that isn't found by name. Proved when no error was printed; in any case the kanji found are a sublist of the list and each name in the list is found.",
 "C102": "The second loop of loadOfficialLinkedKanji runs over a map that it inserts into; it is modelled over the values before the loop, linked kanji have no old names. With errors printed the new name is still the name of a loaded kanji, but maybe of another type.",
 "C104": "PlainEntries excludes lists with the compatibility name of another kanji; C44 shows what happens for longer frequency files.",
 "C105": "ん is left out of the sequences (its conversion depends on what follows; see C27 for full text).",
 "C106": "Exact result for every word of small consonants after syllables. An n followed by exactly one other consonant stays n ('ank' gives あnk although 'ankt' gives あんkt); found while stating the property.",
 "C108": "Layout proved exactly for all lists; the claim that entries never touch is violated by entries of 30 or more columns (for example 汗牛充棟 in the list of 充) and proved for all others.",
 "C109": "std::sort is represented by any function that returns a sorted permutation. Reading a number from a stream is modelled for unsigned decimal digits.",
 "C110": "violated: from the beginning with all members shown the original list is used, also for groups with fewer than two members that have a reading; otherwise exact",
 "C111": "violated: pinyin of nine or more columns makes the number of blanks wrap around (std::length_error); proved for pinyin of at most eight columns",
 "C112": "violated: when the quiz starts at a later question the ones before it count as skipped; exact score for all starts",
 "C113": "exactly the readings found from left to right are removed; violated: a second reading in a row is left",
 "C114": "violated for malformed lines (replaced by U+FFFD); holds for well-formed lines without NUL",
 "C115": "violated: malformed bytes are never shown as errors; holds for well-formed lines without Furigana",
 "C116": "violated for files of the same name one after the other; exact text otherwise",
 "C117": "all characters, numbers and lines for any shape of the tree; violated: the types don't add up if a common kanji isn't found by name",
 "C118": "violated for kanji of the same frequency and different types, for every shape of the tree; holds if kanji of the same frequency have the same type and for all other characters",
 "C119": "exact text; violated: errors alone are added to the first line",
 "C120": "exact text with percentages as a parameter; each kana or kanji is counted once",
 "C121": "exact",
 "C117": "all characters, numbers and lines for any shape of the tree; the types, with 'None' for characters that aren't found by name, add up to all characters",
 "C122": "exact text; violated: a kanji in two rows is counted twice; holds if no error was printed",
 "C123": "exact text for every feature and number of examples; what each debug mode prints",
 "C124": "exact text; levels add up to the grade and grades to the Jouyou list; no line for None after loading",
 "C125": "exact text; all listed kanji counted once; numbers are those of the files if no error was printed",
 "C126": "for every file system given as a function from paths to names",
 "C127": "nearest directory, exact errors; violated: a data directory next to the program isn't found",
 "C128": "violated: the value of -data is also read as a debug option; holds if no directory has such a name",
 "C129": "The lists are stated through the kanji of a store, with the order of iteration of the name map.",
 "C130": "Exact text of the report; the sort is any function that gives a sorted permutation.",
 "C131": "Exact text; the sum needs that each kanji has a radical of the file, which C100-C107 give after loading.",
 "C132": "Exact text of the counts, total related to the rows of the file.",
 "C133": "The claim about the error fails for kanji with variation selectors (C133_violated); it holds for all other names (C133_error_partial). The text of all other lines is exact.",
 "C134": "Exact rows with the place where an error ends the table.",
 "C135": "Violated: std::left set by an earlier table stays in force (C135_violated). C135_lines_partial gives the exact text on a stream with either alignment that fills with spaces; C135_both tells which alignment each list has.",
 "C136": "Exact lines; the numbers are related to the members for meaning groups (C136_meaning); for pattern groups see C92.",
 "C137": "Exact texts of all messages; C137_created relates them to C55.",
 "C138": "paths as texts; absolute names given to getFile (which replace the directory) and symbolic links are not modelled",
 "C139": "violated: a space after the only token of a line gives 'got multiple tokens'; the message is characterised in all cases, a message exists exactly when load throws",
 "C140": "the kanji found for an entry are those found when it is its turn; for the files loaded, a level list prints at most the line for Jinmei kanji",
 "C141": "assumes that the entry found for the name of an entry is this entry (see C96)",
 "C142": "the standard alignment of the error stream is assumed; the counter is global to the program",
 "C145": "C145_nul shows what a NUL in the text changes: the overload for char pointers stops there",
 "C148": "the questions and the lines shown are given by a function in place of the random generator",
 "C150": "violated: the destructor of Quiz prints a final score when the constructor of ListQuiz throws; C150_partial says what is printed",
 "C152": "flags as printed by kanaConvert in interactive mode",
 "C154": "violated: -- is accepted by kanjiQuiz and kanjiStats but not explained; C154_partial shows it is the only exception",
 "C155": "violated: the synopsis has -f[1-5] but the values 0 to 9 are accepted; C155_partial shows the other options agree",
 "C158": "Any input, at most 58 members shown (C158_question). Lines that are not accepted are asked for again; fuel bounds the number of rounds.",
 "C159": "Violated for groups with more than 26 members (C159_violated); for at most 26 the verdict (C159_verdict) and the score of whole sessions (C159_session_partial). Orders of members are given.",
 "C160": "Text and state of the whole dialog equal a separate description, for any input and at most 58 members.",
 "C161": "Violated: the start question is counted as skipped when quitting at the prompt (C161_violated); C161_start_partial has all outcomes for groups with at most 26 members shown.",
 "C162": "Everything a group quiz writes, for any input, equals an independent specification: pages, prompts, verdicts, final line. Groups need between 1 and 26 members shown and rows of moderate length (the case of more than 26 is C159).",
 "C163": "Everything a list quiz writes, for any draws and input, equals an independent specification in closed form. Each number drawn is in range, as the distribution guarantees (C56_bounds); kanji without a reading and a start question that is too large are C150.",
 "C164": "The text about a kanji is given by C164_card up to the parts of C108 and C109; the reading and meaning of a kanji and extraTypeInfo are parameters (see C105 and C106). C44 shows when every frequency is found.",
 "C164": "The text about a kanji is given by C164_card up to the parts of C108 and C109; the reading and meaning of a kanji and extraTypeInfo (C107_text) are parameters. C44 shows when every frequency is found.",
 "C165": "The texts of std::invalid_argument and std::out_of_range of std::stoul are parameters. C165_arguments gives the whole result (message, help, kanji or settings) for every list of arguments.",
 "C166": "C166_dialog: output, quiz chosen and remaining input for every input; n bounds the number of lines read per prompt (the code loops forever at the end of input).",
 "C167": "C167_program and C167_main: output, message and exit code for every argument list, input and draw, for data satisfying DataFits (lists and groups shorter than 65536, each kanji with a new name or old names but not both); C167_total: no undefined behaviour. Loading the data is outside (C57, C67 etc.); sort of similar kanji is a parameter; n bounds the lines read per prompt.",
 "C168": "C168_main: output, message and exit code for every argument list shorter than 65534 and every input; C168_total: always a result; C168_readme: every example of the README. The conversion itself is a parameter (it is total by C71 and specified by C68-C75 etc.); strings are always followed by a newline and conversions to Rōmaji aren't separated, which are the violations C86 and C66. n bounds the lines read per prompt (at the end of the input the prompt for a flag repeats forever).",
 "C169": "C169_documented compares the complete text; the document was copied into Spec/ChartDocument by a script. C169_terminal: the chart for a terminal is printed without failure (its layout is specified by the properties of the table).",
 "C169": "C169_documented: the complete file, with the table from C99_document; C169_terminal: the text with -p is the same notes under another heading, followed by the chart specified by C99_terminal.",
 "C170": "C170_loaded_partial: every loaded kanji has a name of one character. C170_violated: a row with an empty name fails an assertion. C170_rows_partial: exactly which rows do. C170_character_partial: what one character means.",
 "C171": "The limits are hypotheses (`WithinLimits`); the groups of the project's own data have more than 26 members, which is C159. Loading itself may end with an exception, the theorem is about data that was loaded.",
 "C172": "Rows are given by the texts of their cells.",
 "C174": "Doubles are modelled as IEEE binary64 (exact rationals rounded to 53 bits, ties to even); totals up to 2^38 (the number of characters of a file of 256 GB).",
 "C175": "The set ordered by StatCount::operator< is a parameter that has to be built from the counts as a std::set is (SetBuilt): its comparison isn't an order (C49), so the result depends on the library. StatsExample.lean shows such a set and a whole report. Threads are modelled one after the other; files don't change during the run.",
 "C180": "Composition with C171-C179: the rows given there are now read from the texts of the files. Exceptions are given by their kind; opening a file that can be read but not written is left out (fstream).",
 "C181": "Violated: C181_violated (a kanji of the Unicode file in a level list). C181_files is unconditional; C181_load_partial and C181_directory_partial need NamesFit.",
 "C182": "kanjiQuiz as one function of the tree of files, the current directory, the arguments, the input and the numbers drawn. Links and errors of the system are left out; the texts of errors of loading are those of C139 and others and not repeated here; the output of loading in a debug mode is not included.",
 "C167": "C167_program and C167_main: output, message and exit code for every argument list, input and draw, for data satisfying DataFits (lists and groups shorter than 65536, each kanji with a new name or old names but not both); C167_total: no undefined behaviour. Loading the data is C180, C182; sort of similar kanji is a parameter; n bounds the lines read per prompt.",
 "C168": "C168_main: output, message and exit code for every argument list shorter than 65534 and every input; C168_total: always a result; C168_readme: every example of the README. The conversion itself is a parameter (it is total by C71 and specified by C26-C31, C105 and C106); strings are always followed by a newline and conversions to Rōmaji aren't separated, which are the violations C86 and C66. n bounds the lines read per prompt (at the end of the input the prompt for a flag repeats forever).",
 "C28": "C28_in_place: the result is split at the character; for a Romaji target and iteration marks after it the text before keeps its result and the character its place (C28_place), since the mark may repeat kana from before the character.",
 "C183": "What loading prints in a debug mode or about errors in the data isn't part of the output in the model. The file system is a tree without links; the order of the entries of a directory is that of the tree. The types of Linked, Frequency, Kentei and Ucd kanji are not described by the files here (see C77).",
 "C184": "Proved for the two streams separately; how they are interleaved isn't modelled. The texts of the parts are the subject of C122 to C125, C129 to C134 and C140 to C142.",
 "C185": "Proved for the contents of the files; finding and opening them is part of C180.",
 "C186": "Proved for the two streams separately; the texts of the parts are the subject of C135, C136, C184 and C185.",
 "C187": "Violated: after printing radicals without kanji the fill character is '0'. Partial: with '-info', with a meaning group, with a kanji with variation selector, or if every radical has a common kanji.",
 "C188": "Violated: after the report of '-debug' the columns of the list of Jukugo may be filled with zeros (C188_violated). Otherwise proved with any debug option: C188_partial (blank fill character), C188_usage, C188_fails, C188_quiet, C188_debug_partial, C188_ends.",
 "C189": "kanjiStats with both output streams from the command line and the files to the exit code, with any debug option.",
 "C190": "Violated for Romaji as target: a Hiragana iteration mark without kana before it disappears and brings Katakana together that is not converted (C190_violated). Proved for readable text without such marks, for kana targets, and the order of the conversions in general.",
 "C191": "All clauses. Sets are compared by their members; the message printed for a duplicate key is not modelled.",
 "C193": "rows of data/ucd.txt for records in parts; links found in definitions by the grep over the whole file are an input",
 "C195": "violated for a record without the attribute; holds when every record has it",
 "C197": "C197_violated: the word repeated behind the kanji; C197_codes and C197_links say exactly what is found for every list of records with different codes and definitions without double quotes. The partial theorems need that the word isn't repeated in front of the next closing bracket.",
 "C198": "C198_violated: a Joyo kanji without a row is counted. C198_totals gives every counter for all records (Nelson numbers without commas); C198_summary_partial is the whole text.",
 "C199": "C199_violated: no links at all. C199_counts gives all counts and totals without restriction on the words; C199_report_partial is the whole text when the word in the first line has a link. Codes of the records are different and definitions have no double quotes.",
 "C200": "Text, messages and arguments are proved in full for any result of diff that keeps a longest list of common lines; the exit status is violated when the second character has no field of its own (C200_violated), C200_status_partial shows when it is 0.",
 "C202": "Small-step model of the main thread and the nine threads of countKanji on shared memory (stream, total and future of each thread); all interleavings. Every execution is defined, bounded, never blocked, and ends with the report of C175; threads only change what is theirs, totals are read when nobody can change them, none is left behind. C202_files: the loop over all files of the command line.",
 "C203": "Violated for terminals that weren't in the usual state before (C203_violated); C203_settings_partial says exactly when the settings are restored. The rest of the statement is proved: C203_answer, C203_offered, C203_endless (nothing is returned if no key gives an answer), C203_lines, C203_raw, C203_messages.",
 "C204": "Texts are those of letters of the script, marks and other characters without variation selectors and combining voicing marks (Simple). Violated before a prolong mark; C204_expanded_partial holds for all texts where what follows the marks isn't a prolong mark, a mark or a small letter and, if it doesn't begin with a letter, has no further marks (a mark after other characters repeats the kana before them). After っ without a doubled consonant evaluation from left to right is required. C204_beginning and C204_prolonged are the two cases where marks are left out.",
 "C205": "A text is given as a list of parts (syllable with optional っ and ー, ん, or a character that is neither a letter of the script nor a mark). Violated: no apostrophe for ん before ゐ, ゑ or を with Hepburn or Kunrei; C205_standard_partial excludes exactly these texts, C205_text says what is written for all. With both flags the spelling is that of Kunrei except for the syllables of the d row, as described in the tests. Loan word syllables such as ふぁ are outside of this property (see C99 and C27).",
 "C206": "C206_typed: any mixture of spellings; C206_style: one style; C206_back: from kana to Rōmaji and back. Syllables are the 108 standard ones; the spellings are those of Spec/Romanization.",
 "C207": "C207_keys: any sequence of parts; C207_table: the spellings and variants of all kana are among them.",
})
