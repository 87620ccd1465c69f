{
 "claims": [
  {
   "property": "C01",
   "status": "proved",
   "theorems": [
    "KT.C01_fromUtf8_safe",
    "KT.C01_step_progress",
    "KT.C01_getCode_safe"
   ],
   "note": "All byte strings; buffers are lists so an out-of-bounds read is the outcome none, proved impossible."
  },
  {
   "property": "C02",
   "status": "proved",
   "theorems": [
    "KT.C02_roundtrip"
   ],
   "note": ""
  },
  {
   "property": "C03",
   "status": "proved",
   "theorems": [
    "KT.C03_standard_encoding",
    "KT.C03_replacement",
    "KT.C03_total"
   ],
   "note": ""
  },
  {
   "property": "C04",
   "status": "proved",
   "theorems": [
    "KT.C04_reencode_iff_wellFormed"
   ],
   "note": ""
  },
  {
   "property": "C05",
   "status": "proved",
   "theorems": [
    "KT.C05_accepted",
    "KT.C05_total",
    "KT.C05_notMultiByte_iff",
    "KT.C05_valid_iff"
   ],
   "note": ""
  },
  {
   "property": "C06",
   "status": "partial",
   "theorems": [
    "KT.C06_violated",
    "KT.C06_sizeOne_violated",
    "KT.C06_partial"
   ],
   "note": "The code violates the property (only the first character is checked): C06_violated and C06_sizeOne_violated prove the negation with witnesses; C06_partial is the exact characterisation of what the function decides."
  },
  {
   "property": "C07",
   "status": "proved",
   "theorems": [
    "KT.C07_limit",
    "KT.C07_getCode"
   ],
   "note": ""
  },
  {
   "property": "C08",
   "status": "proved",
   "theorems": [
    "KT.C08_append",
    "KT.C08_cStr"
   ],
   "note": ""
  },
  {
   "property": "C09",
   "status": "proved",
   "theorems": [
    "KT.C09_toHex",
    "KT.C09_toBinary",
    "KT.C09_default_size",
    "KT.C09_brackets",
    "KT.C09_with_brackets"
   ],
   "note": ""
  },
  {
   "property": "C10",
   "status": "proved",
   "theorems": [
    "KT.C10_getChar32",
    "KT.C10_roundtrip",
    "KT.C10_list"
   ],
   "note": ""
  },
  {
   "property": "C11",
   "status": "proved",
   "theorems": [
    "KT.C11_search",
    "KT.C11_tables_ordered",
    "KT.C11_tables"
   ],
   "note": ""
  },
  {
   "property": "C12",
   "status": "partial",
   "theorems": [
    "KT.C12_disjoint",
    "KT.C12_unions",
    "KT.C12_violated",
    "KT.C12_partial",
    "KT.C12_single"
   ],
   "note": "Disjointness and the two unions hold for all strings. The union claim for isRecognizedUtf8 is violated by wide space followed by a non-spacing mark (C12_violated); C12_partial covers every other string."
  },
  {
   "property": "C13",
   "status": "partial",
   "theorems": [
    "KT.C13_violated",
    "KT.C13_sound",
    "KT.C13_exact_partial",
    "KT.C13_classes_without_marks",
    "KT.C13_no_marks_exact",
    "KT.C13_append_partial",
    "KT.C13_classes_without_replacement"
   ],
   "note": "Violated for Hiragana/Kana/Recognized (U+3099 is both a mark and in the block) and, for concatenation, for punctuation of malformed text: C13_violated. C13_sound holds for all; C13_exact_partial, C13_no_marks_exact and C13_append_partial give exactness where it holds."
  },
  {
   "property": "C14",
   "status": "partial",
   "theorems": [
    "KT.C14_violated",
    "KT.C14_is_partial",
    "KT.C14_isAll_partial",
    "KT.C14_classes_without_replacement"
   ],
   "note": "Violated for punctuation/recognized because U+FFFD is in the Specials block (C14_violated). C14_is_partial and C14_isAll_partial cover all other classes."
  },
  {
   "property": "C15",
   "status": "partial",
   "theorems": [
    "KT.C15_violated",
    "KT.C15_partial"
   ],
   "note": "Violated because the index is narrowed to 8 bits before the check (C15_violated); C15_partial characterises every index."
  },
  {
   "property": "C16",
   "status": "partial",
   "theorems": [
    "KT.C16_violated",
    "KT.C16_invariant",
    "KT.C16_deref",
    "KT.C16_exact_partial",
    "KT.C16_at_partial"
   ],
   "note": "The interval invariant (C16_invariant) and dereferencing (C16_deref) hold for all histories; exactness is violated for results of 256 and above (C16_violated) and proved below (C16_exact_partial)."
  },
  {
   "property": "C17",
   "status": "proved",
   "theorems": [
    "KT.C17_create",
    "KT.C17_names",
    "KT.C17_none",
    "KT.C17_other_values"
   ],
   "note": ""
  },
  {
   "property": "C18",
   "status": "proved",
   "theorems": [
    "KT.C18_total_map",
    "KT.C18_none_not_written",
    "KT.C18_deref",
    "KT.C18_iteration",
    "KT.C18_compare"
   ],
   "note": ""
  },
  {
   "property": "C19",
   "status": "proved",
   "theorems": [
    "KT.C19_name_stable",
    "KT.C19_equal_iff",
    "KT.C19_zero",
    "KT.C19_capacity",
    "KT.C19_outcomes"
   ],
   "note": ""
  },
  {
   "property": "C20",
   "status": "proved",
   "theorems": [
    "KT.C20_open_iff",
    "KT.C20_get",
    "KT.C20_other_columns"
   ],
   "note": ""
  },
  {
   "property": "C21",
   "status": "partial",
   "theorems": [
    "KT.C21_violated",
    "KT.C21_partial"
   ],
   "note": "The code violates the property: a row with one extra trailing delimiter is accepted (C21_violated). C21_partial characterises the accepted rows exactly."
  },
  {
   "property": "C22",
   "status": "partial",
   "theorems": [
    "KT.C22_violated",
    "KT.C22_negative_accepted",
    "KT.C22_partial",
    "KT.C22_no_digits_partial"
   ],
   "note": "The code violates the property: std::stoul accepts leading blanks, signs and trailing text (C22_violated, C22_negative_accepted). C22_partial and C22_no_digits_partial are what does hold."
  },
  {
   "property": "C23",
   "status": "proved",
   "theorems": [
    "KT.C23_numbers",
    "KT.C23_stable"
   ],
   "note": ""
  },
  {
   "property": "C24",
   "status": "proved",
   "theorems": [
    "KT.C24_ctor",
    "KT.C24_get"
   ],
   "note": ""
  },
  {
   "property": "C25",
   "status": "proved",
   "theorems": [
    "KT.C25_keys_unique",
    "KT.C25_lookup",
    "KT.C25_keys",
    "KT.C25_entries_unique",
    "KT.C25_hiragana_katakana",
    "KT.C25_romaji_letters",
    "KT.C25_letters_covered"
   ],
   "note": "Tables generated from the source text; uniqueness, exact lookup and the letter correspondence hold for all 204 entries and every string."
  },
  {
   "property": "C26",
   "status": "partial",
   "theorems": [
    "KT.C26_violated",
    "KT.C26_partial",
    "KT.C26_round_trip_partial",
    "KT.C26_readable"
   ],
   "note": "Violated by っ + letter + small letter that aren't a table entry (っかぁ becomes ッかぁ, C26_violated). C26_partial: letter by letter for all other text, any flags and surrounding characters; C26_round_trip_partial: and back."
  },
  {
   "property": "C27",
   "status": "partial",
   "theorems": [
    "KT.C27_violated",
    "KT.C27_partial"
   ],
   "note": "Violated by っかぁー, whose prolong mark is lost (C27_violated). C27_partial: the round trip for every other text without Ascii, iteration marks and macrons, including wide delimiters and other characters."
  },
  {
   "property": "C28",
   "status": "proved",
   "theorems": [
    "KT.C28_unchanged",
    "KT.C28_delimiters",
    "KT.C28_in_place",
    "KT.C28_place"
   ],
   "note": "C28_in_place: the result is split at the character; for a Romaji target and iteration marks after it the text before keeps its result and the character its place (C28_place), since the mark may repeat kana from before the character."
  },
  {
   "property": "C29",
   "status": "partial",
   "theorems": [
    "KT.C29_violated",
    "KT.C29_partial"
   ],
   "note": "Violated by っかぁ (C29_violated). C29_partial: no letters of the source script are left, for every other text, any target and flags."
  },
  {
   "property": "C30",
   "status": "partial",
   "theorems": [
    "KT.C30_violated",
    "KT.C30_up_to_case_partial",
    "KT.C30_partial",
    "KT.C30_text_partial"
   ],
   "note": "Violated: the test for doubled consonants uses the letter before conversion to lower case (KKa becomes Kか, C30_violated). C30_partial, C30_up_to_case_partial: holds unless an upper-case letter starts a doubled consonant; C30_text_partial for all ASCII text with spaces and marks."
  },
  {
   "property": "C31",
   "status": "partial",
   "theorems": [
    "KT.C31_violated",
    "KT.C31_partial",
    "KT.C31_delimiters"
   ],
   "note": "Violated: kあ becomes あk (C31_violated). C31_partial: holds if the text before the character is converted completely; C31_delimiters: delimiters always keep their place."
  },
  {
   "property": "C32",
   "status": "proved",
   "theorems": [
    "KT.C32_wide",
    "KT.C32_sum",
    "KT.C32_bounded",
    "KT.C32_additive",
    "KT.C32_setw",
    "KT.C32_kanji_kana_ascii",
    "KT.C32_int"
   ],
   "note": ""
  },
  {
   "property": "C33",
   "status": "proved",
   "theorems": [
    "KT.C33_reading",
    "KT.C33_iteration",
    "KT.C33_peek",
    "KT.C33_partition",
    "KT.C33_partition_plain",
    "KT.C33_pieces"
   ],
   "note": "Exact for every byte string, well-formed or not (C33_iteration with the reading of C33_reading); C33_partition is the concatenation identity for well-formed text."
  },
  {
   "property": "C34",
   "status": "proved",
   "theorems": [
    "KT.C34_rejected",
    "KT.C34_first",
    "KT.C34_offered",
    "KT.C34_range",
    "KT.C34_range_choices",
    "KT.C34_printable",
    "KT.C34_allPrintable",
    "KT.C34_quit"
   ],
   "note": "All choice sets (as std::map), inputs, quit options and defaults; the answer is that of the first acceptable line."
  },
  {
   "property": "C35",
   "status": "partial",
   "theorems": [
    "KT.C35_partial",
    "KT.C35_violated",
    "KT.C35_default_violated",
    "KT.C35_default_partial"
   ],
   "note": "Violated: after the end of input the prompt is repeated forever, without a default (C35_violated) and with one when the last line is unfinished (C35_default_violated). C35_partial says exactly when a prompt ends; C35_default_partial: with a default it ends on input that is empty or ends with a newline."
  },
  {
   "property": "C36",
   "status": "partial",
   "theorems": [
    "KT.C36_fits",
    "KT.C36_tight",
    "KT.C36_text",
    "KT.C36_partial",
    "KT.C36_violated",
    "KT.C36_markdown_unescape",
    "KT.C36_markdown_partial",
    "KT.C36_markdown_columns",
    "KT.C36_rows"
   ],
   "note": "Violated for cells that contain a newline (C36_violated). C36_partial, C36_markdown_partial: any number of rows and columns and any cells (also malformed text) without newline and NUL and shorter than a gigabyte (beyond that the int width overflows)."
  },
  {
   "property": "C37",
   "status": "proved",
   "theorems": [
    "KT.C37_total",
    "KT.C37_exact",
    "KT.C37_unique"
   ],
   "note": "All byte strings."
  },
  {
   "property": "C38",
   "status": "proved",
   "theorems": [
    "KT.C38_valid",
    "KT.C38_round_trip",
    "KT.C38_injective",
    "KT.C38_order",
    "KT.C38_order_kinds"
   ],
   "note": "All constructible ids, the empty one included."
  },
  {
   "property": "C39",
   "status": "proved",
   "theorems": [
    "KT.C39_one",
    "KT.C39_two",
    "KT.C39_invariant",
    "KT.C39_printed"
   ],
   "note": "All pairs of uint8_t."
  },
  {
   "property": "C40",
   "status": "proved",
   "theorems": [
    "KT.C40_entries",
    "KT.C40_index",
    "KT.C40_text",
    "KT.C40_complete"
   ],
   "note": "File contents as bytes (the stream is assumed to open and not fail); tokens are the space separated parts of lines. C40_complete gives the converse: a file of new distinct valid tokens loads."
  },
  {
   "property": "C41",
   "status": "proved",
   "theorems": [
    "KT.C41_disjoint",
    "KT.C41_fresh"
   ],
   "note": "Proved over the whole sequence of constructor calls sharing one set, including loads that fail in between (these still put names in the set, so a retry after a failure would be rejected)."
  },
  {
   "property": "C42",
   "status": "proved",
   "theorems": [
    "KT.C42_strokes",
    "KT.C42_qualifiedName",
    "KT.C42_ties",
    "KT.C42_priority"
   ],
   "note": "Both orders are strict weak orders on all kanji; kanji are incomparable exactly when rank, strokes, frequency and code text agree."
  },
  {
   "property": "C43",
   "status": "partial",
   "theorems": [
    "KT.C43_frequency",
    "KT.C43_compatibility",
    "KT.C43_violated",
    "KT.C43_partial"
   ],
   "note": "Violated: code points are compared as hexadecimal texts of different lengths, so U+2000B is put before U+4E09 (C43_violated). C43_partial: holds when all code points have the same number of hexadecimal digits (all below U+10000 or all from U+10000 to U+FFFFF)."
  },
  {
   "property": "C44",
   "status": "partial",
   "theorems": [
    "KT.C44_violated",
    "KT.C44_partial",
    "KT.C44_shared"
   ],
   "note": "Violated for more than 2750 kanji: findByFrequency indexes the array of 10 buckets with 11 (C44_violated). C44_partial: holds for every list of up to 2750 kanji. C44_shared: the static _maxFrequency makes a second, smaller object read out of bounds."
  },
  {
   "property": "C45",
   "status": "partial",
   "theorems": [
    "KT.C45_violated",
    "KT.C45_args_partial",
    "KT.C45_next_partial"
   ],
   "note": "Violated only for 65535 arguments (the limit of Args) with '-data' last: the uint16_t index wraps around to 0 and the loop is endless (C45_violated). C45_args_partial: holds for all other lists."
  },
  {
   "property": "C46",
   "status": "proved",
   "theorems": [
    "KT.C46_accepted",
    "KT.C46_printed"
   ],
   "note": "The sources are accepted exactly if all letters are valid and given once, otherwise a DomainError is thrown; the printed text has the given letters in the fixed order."
  },
  {
   "property": "C47",
   "status": "proved",
   "theorems": [
    "KT.C47_load",
    "KT.C47_number",
    "KT.C47_name",
    "KT.C47_unique"
   ],
   "note": "For every file that loads: one radical per line, numbers are positions, lookups by number and name return the matching radical or a DomainError and never std::out_of_range. C47_unique assumes different names (duplicates overwrite the map entry)."
  },
  {
   "property": "C48",
   "status": "proved",
   "theorems": [
    "KT.C48_sharedReadings",
    "KT.C48_unknown",
    "KT.C48_compatibility",
    "KT.C48_other",
    "KT.C48_exclusive",
    "KT.C48_linked",
    "KT.C48_info"
   ],
   "note": "For all kanji that can be made by the constructors; info() never reads a missing new name."
  },
  {
   "property": "C49",
   "status": "partial",
   "theorems": [
    "KT.C49_known",
    "KT.C49_ranked",
    "KT.C49_types",
    "KT.C49_violated",
    "KT.C49_meant",
    "KT.C49_partial"
   ],
   "note": "Violated: because of missing parentheses a value with equal type and smaller name is before another one even if its count is lower, so both a<b and b<a can hold (undefined behaviour for std::set). Proved: higher count is always before, irreflexive, no two different characters are equivalent, it is the order meant for equal count and frequency; the order meant (correct parentheses) is a strict weak order."
  },
  {
   "property": "C50",
   "status": "proved",
   "theorems": [
    "KT.C50_counts",
    "KT.C50_tags",
    "KT.C50_counters"
   ],
   "note": "For any replacement function, filter and sequence of calls."
  },
  {
   "property": "C51",
   "status": "proved",
   "theorems": [
    "KT.C51_unclosed",
    "KT.C51_content",
    "KT.C51_lines"
   ],
   "note": "Also: nothing is thrown by substr, and put together the strings are the content of the file without newlines."
  },
  {
   "property": "C52",
   "status": "partial",
   "theorems": [
    "KT.C52_violated",
    "KT.C52_strings_partial",
    "KT.C52_chars_partial"
   ],
   "note": "Violated by the wide space (U+3000), which is in no category. Proved: every string that doesn't start with a wide space is in exactly one category."
  },
  {
   "property": "C53",
   "status": "partial",
   "theorems": [
    "KT.C53_violated",
    "KT.C53_select_partial",
    "KT.C53_check_partial"
   ],
   "note": "Violated: letters after z have a negative index (C53_violated, groups of 27 or more: undefined behaviour). C53_select_partial gives the outcome for every position; C53_check_partial: answers are judged correctly for groups of up to 26."
  },
  {
   "property": "C54",
   "status": "proved",
   "theorems": [
    "KT.C54_answers",
    "KT.C54_edit",
    "KT.C54_options",
    "KT.C54_commands"
   ],
   "note": "Interaction model: inputs are the bytes typed, for any number of them; invariant over all prompts."
  },
  {
   "property": "C55",
   "status": "proved",
   "theorems": [
    "KT.C55_groups"
   ],
   "note": "Duplicate check on names, sizes 2 to 58."
  },
  {
   "property": "C56",
   "status": "proved",
   "theorems": [
    "KT.C56_choices",
    "KT.C56_bounds"
   ],
   "note": "Random numbers are an arbitrary input list. C56_bounds: no out-of-bounds access."
  },
  {
   "property": "C57",
   "status": "partial",
   "theorems": [
    "KT.C57_needs_partial",
    "KT.C57_violated",
    "KT.C57_ends_partial",
    "KT.C57_exact_partial"
   ],
   "note": "Violated: a list with fewer distinct readings than choices never ends (C57_violated). C57_exact_partial: for lists of up to 65536 questions and numbers that keep coming up, the choice ends exactly when there are enough distinct readings."
  },
  {
   "property": "C58",
   "status": "partial",
   "theorems": [
    "KT.C58_violated",
    "KT.C58_score_partial",
    "KT.C58_navigation",
    "KT.C58_start"
   ],
   "note": "Violated for lists of 65536 or more questions, where the 16-bit question number wraps (C58_violated). C58_score_partial: holds for lists of up to 65535 questions. C58_navigation and C58_start are the steps and the start."
  },
  {
   "property": "C59",
   "status": "partial",
   "theorems": [
    "KT.C59_violated",
    "KT.C59_outcome_partial",
    "KT.C59_twice"
   ],
   "note": "Violated: -t- and numbers of 2^64 or more fail with an exception of std::stoul (C59_violated). C59_outcome_partial gives the outcome for every option string."
  },
  {
   "property": "C60",
   "status": "proved",
   "theorems": [
    "KT.C60_lists",
    "KT.C60_distinct",
    "KT.C60_options"
   ],
   "note": "Against documented tables in Spec/Quiz."
  },
  {
   "property": "C61",
   "status": "partial",
   "theorems": [
    "KT.C61_violated",
    "KT.C61_exact_partial",
    "KT.C61_once_partial"
   ],
   "note": "Violated: a kanji that occurs twice in a word has the word listed twice (C61_violated, 日曜日). C61_exact_partial: the words found are exactly those containing the kanji, with the multiplicity of the kanji; C61_once_partial: once each when the kanji occurs once."
  },
  {
   "property": "C62",
   "status": "partial",
   "theorems": [
    "KT.C62_violated",
    "KT.C62_lines_partial",
    "KT.C62_other_partial",
    "KT.C62_text_partial",
    "KT.C62_dots"
   ],
   "note": "Violated: text after the closing bracket, a closing bracket before the opening one, Ascii readings and empty readings are accepted (C62_violated). C62_lines_partial, C62_other_partial: exactly what is accepted for the two kinds of files; C62_text_partial: for entries whose text has brackets only around the reading, name and reading are those of the text."
  },
  {
   "property": "C63",
   "status": "partial",
   "theorems": [
    "KT.C63_violated",
    "KT.C63_exact_partial",
    "KT.C63_lines_partial"
   ],
   "note": "Violated: a last line that ends with a kanji is never written (C63_violated). C63_exact_partial: the output for every input; C63_lines_partial: every line is written when the last one doesn't end with a kanji."
  },
  {
   "property": "C64",
   "status": "partial",
   "theorems": [
    "KT.C64_violated",
    "KT.C64_decides",
    "KT.C64_pieces_partial",
    "KT.C64_remove"
   ],
   "note": "Violated: only the length and the last three bytes are checked (C64_violated). C64_decides is the exact behaviour; C64_pieces_partial: the statement holds for the strings that iteration delivers."
  },
  {
   "property": "C65",
   "status": "proved",
   "theorems": [
    "KT.C65_dakuten",
    "KT.C65_hanDakuten",
    "KT.C65_plain",
    "KT.C65_strings",
    "KT.C65_letters",
    "KT.C65_classified",
    "KT.C65_small"
   ],
   "note": ""
  },
  {
   "property": "C66",
   "status": "partial",
   "theorems": [
    "KT.C66_exact_partial",
    "KT.C66_kana_partial",
    "KT.C66_violated"
   ],
   "note": "Violated: with target Rōmaji nothing is written between the conversions (C66_violated, `-r あ い` prints ai); the branch that would write a space is dead. C66_exact_partial: the output for every list of strings; C66_kana_partial: as documented for Hiragana and Katakana."
  },
  {
   "property": "C67",
   "status": "partial",
   "theorems": [
    "KT.C67_choices",
    "KT.C67_violated",
    "KT.C67_reset_partial",
    "KT.C67_prompts"
   ],
   "note": "Violated: quitting at the prompt for the order leaves the mode set (C67_violated). C67_reset_partial: everything is reset in all other cases. C67_prompts: prompts of a session with nothing set."
  },
  {
   "property": "C68",
   "status": "partial",
   "theorems": [
    "KT.C68_violated",
    "KT.C68_name_partial",
    "KT.C68_compatibility",
    "KT.C68_only",
    "KT.C68_duplicate",
    "KT.C68_errors",
    "KT.C68_all_errors",
    "KT.C68_no_errors"
   ],
   "note": "Violated: inserting a kanji with a variation selector whose compatibility name is the name of an earlier kanji hides the earlier one (C68_violated). C68_name_partial: holds when there is no such kanji. Compatibility names, duplicates and the converse (nothing else is found) are proved."
  },
  {
   "property": "C69",
   "status": "partial",
   "theorems": [
    "KT.C69_violated",
    "KT.C69_first_piece",
    "KT.C69_first_partial"
   ],
   "note": "Violated: leading Ascii is skipped (C69_violated). C69_first_piece is the exact behaviour on every string; C69_first_partial the documented result for text that starts with a multi-byte character."
  },
  {
   "property": "C70",
   "status": "proved",
   "theorems": [
    "KT.C70_size",
    "KT.C70_size_safe"
   ],
   "note": ""
  },
  {
   "property": "C71",
   "status": "proved",
   "theorems": [
    "KT.C71_total",
    "KT.C71_same"
   ],
   "note": "All byte strings (well-formed or not), sources, targets, flags and both evaluation orders."
  },
  {
   "property": "C72",
   "status": "proved",
   "theorems": [
    "KT.C72_segments",
    "KT.C72_maximal",
    "KT.C72_prompt"
   ],
   "note": "All choice sets. C72_prompt gives the whole text, C72_segments and C72_maximal say what the listed segments mean."
  },
  {
   "property": "C73",
   "status": "proved",
   "theorems": [
    "KT.C73_names",
    "KT.C73_info",
    "KT.C73_constructed"
   ],
   "note": "Hypotheses: pinyin and old names are not empty texts (an empty first old name would lose the separator)."
  },
  {
   "property": "C74",
   "status": "proved",
   "theorems": [
    "KT.C74_suffix",
    "KT.C74_kentei"
   ],
   "note": "All combinations of type, level, kyu and frequency."
  },
  {
   "property": "C75",
   "status": "proved",
   "theorems": [
    "KT.C75_debugMode"
   ],
   "note": "For all lists; the value of -data is also taken for a debug option ('-data -debug')."
  },
  {
   "property": "C76",
   "status": "proved",
   "theorems": [
    "KT.C76_lookup",
    "KT.C76_nelson"
   ],
   "note": "A kanji with the same Nelson id twice is listed twice; C76_nelson is the form for distinct ids."
  },
  {
   "property": "C77",
   "status": "proved",
   "theorems": [
    "KT.C77_ucd",
    "KT.C77_list"
   ],
   "note": "For all lists, states and contexts, by induction over the list; failing assertions of addToKyus, addToLevels and addToFrequencies are outcomes of the model and not covered by the hypothesis of success."
  },
  {
   "property": "C78",
   "status": "proved",
   "theorems": [
    "KT.C78_tree",
    "KT.C78_top",
    "KT.C78_flat"
   ],
   "note": "Places in the tree are paths of positions; the list of processed files is shown to enumerate exactly the places with a regular file, without repetition."
  },
  {
   "property": "C79",
   "status": "proved",
   "theorems": [
    "KT.C79_arguments"
   ],
   "note": "For the arguments that nextArg leads to (C45)."
  },
  {
   "property": "C80",
   "status": "proved",
   "theorems": [
    "KT.C80_members",
    "KT.C80_wider",
    "KT.C80_all",
    "KT.C80_buckets",
    "KT.C80_enough",
    "KT.C80_markers"
   ],
   "note": "C80_buckets assumes the group file is in the order of the markers, as the code does."
  },
  {
   "property": "C81",
   "status": "proved",
   "theorems": [
    "KT.C81_valid",
    "KT.C81_kanji",
    "KT.C81_once"
   ],
   "note": "Argument loop of processArgs with processArg, setQuizType and processProgramModeArg."
  },
  {
   "property": "C82",
   "status": "proved",
   "theorems": [
    "KT.C82_forms",
    "KT.C82_only"
   ],
   "note": "C82_forms: each form is read as documented; C82_only: nothing else is accepted."
  },
  {
   "property": "C83",
   "status": "proved",
   "theorems": [
    "KT.C83_load"
   ],
   "note": "loadFiles over the grade files and the file of other entries."
  },
  {
   "property": "C84",
   "status": "proved",
   "theorems": [
    "KT.C84_ranges",
    "KT.C84_any",
    "KT.C84_index"
   ],
   "note": "Against the character classes of the block lookup (C12/C13 model)."
  },
  {
   "property": "C85",
   "status": "partial",
   "theorems": [
    "KT.C85_args_partial",
    "KT.C85_violated",
    "KT.C85_select",
    "KT.C85_one_mode",
    "KT.C85_source"
   ],
   "note": "Violated: with 65535 arguments of which one is \"--\" the 16-bit index wraps and the loop never ends (C85_violated). C85_args_partial: as documented with fewer arguments or without \"--\". C85_select, C85_one_mode: what is done after the arguments are read."
  },
  {
   "property": "C86",
   "status": "partial",
   "theorems": [
    "KT.C86_violated",
    "KT.C86_strings_partial",
    "KT.C86_input_partial"
   ],
   "note": "Violated: -n is ignored for strings (C86_violated). C86_strings_partial: what is written for strings; C86_input_partial: no newlines for piped input."
  },
  {
   "property": "C87",
   "status": "proved",
   "theorems": [
    "KT.C87_dialogue",
    "KT.C87_piped"
   ],
   "note": "C87_dialogue: interactive mode, including the prompt for flags that waits for ever when the input ends; C87_piped: piped input."
  },
  {
   "property": "C88",
   "status": "proved",
   "theorems": [
    "KT.C88_bool",
    "KT.C88_optional",
    "KT.C88_limit"
   ],
   "note": "Cells are the texts read by the model of ColumnFile."
  },
  {
   "property": "C89",
   "status": "proved",
   "theorems": [
    "KT.C89_row",
    "KT.C89_load"
   ],
   "note": "The cells of the rows are given; find is an arbitrary function. A family name with several characters before the colon uses only the first one."
  },
  {
   "property": "C90",
   "status": "proved",
   "theorems": [
    "KT.C90_meaning",
    "KT.C90_pattern"
   ],
   "note": "std::multimap is a list in key order with new entries after equal keys."
  },
  {
   "property": "C91",
   "status": "proved",
   "theorems": [
    "KT.C91_summary"
   ],
   "note": "For kanji names that are not empty (all names of the kanji store are not)."
  },
  {
   "property": "C92",
   "status": "partial",
   "theorems": [
    "KT.C92_meaning",
    "KT.C92_meaning_found",
    "KT.C92_violated",
    "KT.C92_pattern_partial"
   ],
   "note": "Violated for pattern groups: a kanji in two pattern groups is only reported at load and is counted twice, so the same number of missing kanji is hidden. Holds for meaning groups, and for pattern groups without such duplicates."
  },
  {
   "property": "C93",
   "status": "proved",
   "theorems": [
    "KT.C93_row",
    "KT.C93_unique"
   ],
   "note": "Row cells are given as texts (the column file itself is C21/C22/C88). Number cells use processU64, whose laxness is C22. All ways to fail give DomainError because load turns exceptions into f.error."
  },
  {
   "property": "C94",
   "status": "partial",
   "theorems": [
    "KT.C94_violated",
    "KT.C94_links_partial"
   ],
   "note": "Violated: surplus LinkCodes values (even malformed ones) are ignored, only missing ones are reported. Partial: every name has a matching code."
  },
  {
   "property": "C95",
   "status": "proved",
   "theorems": [
    "KT.C95_load",
    "KT.C95_links"
   ],
   "note": "Full characterization of success and of the three maps."
  },
  {
   "property": "C96",
   "status": "partial",
   "theorems": [
    "KT.C96_violated",
    "KT.C96_find_partial"
   ],
   "note": "Violated: the documented fallback to _linkedOther is not implemented (the code comment says so). Partial: exact result for names without selector and for kanji with selector (jinmei)."
  },
  {
   "property": "C97",
   "status": "proved",
   "theorems": [
    "KT.C97_readings",
    "KT.C97_total"
   ],
   "note": "For all entries; conversion of single words is C28-C31. Note that readings in the UCD file are in upper case, so by C30 MATTAKU gives まTたく (example)."
  },
  {
   "property": "C98",
   "status": "proved",
   "theorems": [
    "KT.C98_counts",
    "KT.C98_groups"
   ],
   "note": "Counting loop of print; layout of the output is not modelled."
  },
  {
   "property": "C99",
   "status": "proved",
   "theorems": [
    "KT.C99_order",
    "KT.C99_row",
    "KT.C99_chart",
    "KT.C99_document",
    "KT.C99_terminal",
    "KT.C99_unique",
    "KT.C99_titles"
   ],
   "note": "Fixed text of the notes not modelled; the markdown output is proved equal to docs/KanaConversionChart.md from the table on."
  },
  {
   "property": "C100",
   "status": "proved",
   "theorems": [
    "KT.C100_level",
    "KT.C100_kyu",
    "KT.C100_frequency"
   ],
   "note": "ListFile loading is C40/C41; the sets of names are empty at the start (a second TextKanjiData in the same program starts after clearUniqueCheckData)."
  },
  {
   "property": "C101",
   "status": "partial",
   "theorems": [
    "KT.C101_rows",
    "KT.C101_types",
    "KT.C101_violated",
    "KT.C101_partial"
   ],
   "note": "Violated: a second row with the same name is reported as an error, but stays in the list of the type (the result of checkInsert is ignored), so the list has a kanji that isn't found by name. Proved when no error was printed; in any case the kanji found are a sublist of the list and each name in the list is found."
  },
  {
   "property": "C102",
   "status": "proved",
   "theorems": [
    "KT.C102_links",
    "KT.C102_lines",
    "KT.C102_old_found",
    "KT.C102_old_first"
   ],
   "note": "The second loop of loadOfficialLinkedKanji runs over a map that it inserts into; it is modelled over the values before the loop, linked kanji have no old names. With errors printed the new name is still the name of a loaded kanji, but maybe of another type."
  },
  {
   "property": "C103",
   "status": "proved",
   "theorems": [
    "KT.C103_sources",
    "KT.C103_level",
    "KT.C103_grade",
    "KT.C103_kyu",
    "KT.C103_frequency"
   ],
   "note": ""
  },
  {
   "property": "C104",
   "status": "proved",
   "theorems": [
    "KT.C104_found",
    "KT.C104_lists",
    "KT.C104_frequency"
   ],
   "note": "PlainEntries excludes lists with the compatibility name of another kanji; C44 shows what happens for longer frequency files."
  },
  {
   "property": "C105",
   "status": "proved",
   "theorems": [
    "KT.C105_long_vowels",
    "KT.C105_short_vowels"
   ],
   "note": "ん is left out of the sequences (its conversion depends on what follows; see C27 for full text)."
  },
  {
   "property": "C106",
   "status": "proved",
   "theorems": [
    "KT.C106_consonants",
    "KT.C106_kept"
   ],
   "note": "Exact result for every word of small consonants after syllables. An n followed by exactly one other consonant stays n ('ank' gives あnk although 'ankt' gives あんkt); found while stating the property."
  },
  {
   "property": "C107",
   "status": "proved",
   "theorems": [
    "KT.C107_jouyou",
    "KT.C107_jinmei",
    "KT.C107_extra",
    "KT.C107_text",
    "KT.C107_readings"
   ],
   "note": ""
  },
  {
   "property": "C108",
   "status": "partial",
   "theorems": [
    "KT.C108_layout",
    "KT.C108_violated",
    "KT.C108_separate_partial",
    "KT.C108_lines",
    "KT.C108_lists"
   ],
   "note": "Layout proved exactly for all lists; the claim that entries never touch is violated by entries of 30 or more columns (for example 汗牛充棟 in the list of 充) and proved for all others."
  },
  {
   "property": "C109",
   "status": "proved",
   "theorems": [
    "KT.C109_similar",
    "KT.C109_categories",
    "KT.C109_nelson",
    "KT.C109_ids",
    "KT.C109_matches",
    "KT.C109_legend",
    "KT.C109_review",
    "KT.C109_meaning"
   ],
   "note": "std::sort is represented by any function that returns a sorted permutation. Reading a number from a stream is modelled for unsigned decimal digits."
  },
  {
   "property": "C110",
   "status": "partial",
   "theorems": [
    "KT.C110_violated",
    "KT.C110_asked_partial",
    "KT.C110_pattern"
   ],
   "note": "violated: from the beginning with all members shown the original list is used, also for groups with fewer than two members that have a reading; otherwise exact"
  },
  {
   "property": "C111",
   "status": "partial",
   "theorems": [
    "KT.C111_violated",
    "KT.C111_line_partial",
    "KT.C111_screen",
    "KT.C111_answers",
    "KT.C111_title",
    "KT.C111_letters"
   ],
   "note": "violated: pinyin of nine or more columns makes the number of blanks wrap around (std::length_error); proved for pinyin of at most eight columns"
  },
  {
   "property": "C112",
   "status": "partial",
   "theorems": [
    "KT.C112_violated",
    "KT.C112_score_partial",
    "KT.C112_message"
   ],
   "note": "violated: when the quiz starts at a later question the ones before it count as skipped; exact score for all starts"
  },
  {
   "property": "C113",
   "status": "partial",
   "theorems": [
    "KT.C113_removed",
    "KT.C113_kept",
    "KT.C113_unchanged",
    "KT.C113_violated",
    "KT.C113_complete_partial",
    "KT.C113_text"
   ],
   "note": "exactly the readings found from left to right are removed; violated: a second reading in a row is left"
  },
  {
   "property": "C114",
   "status": "partial",
   "theorems": [
    "KT.C114_violated",
    "KT.C114_partial"
   ],
   "note": "violated for malformed lines (replaced by U+FFFD); holds for well-formed lines without NUL"
  },
  {
   "property": "C115",
   "status": "partial",
   "theorems": [
    "KT.C115_violated",
    "KT.C115_wellFormed",
    "KT.C115_partial"
   ],
   "note": "violated: malformed bytes are never shown as errors; holds for well-formed lines without Furigana"
  },
  {
   "property": "C116",
   "status": "partial",
   "theorems": [
    "KT.C116_violated",
    "KT.C116_partial"
   ],
   "note": "violated for files of the same name one after the other; exact text otherwise"
  },
  {
   "property": "C117",
   "status": "proved",
   "theorems": [
    "KT.C117_typeNames",
    "KT.C117_line",
    "KT.C117_all",
    "KT.C117_numbers",
    "KT.C117_types",
    "KT.C117_sum"
   ],
   "note": "all characters, numbers and lines for any shape of the tree; the types, with 'None' for characters that aren't found by name, add up to all characters"
  },
  {
   "property": "C118",
   "status": "partial",
   "theorems": [
    "KT.C118_always",
    "KT.C118_violated",
    "KT.C118_partial",
    "KT.C118_other"
   ],
   "note": "violated for kanji of the same frequency and different types, for every shape of the tree; holds if kanji of the same frequency have the same type and for all other characters"
  },
  {
   "property": "C119",
   "status": "partial",
   "theorems": [
    "KT.C119_violated",
    "KT.C119_partial"
   ],
   "note": "exact text; violated: errors alone are added to the first line"
  },
  {
   "property": "C120",
   "status": "proved",
   "theorems": [
    "KT.C120_text",
    "KT.C120_once",
    "KT.C120_total"
   ],
   "note": "exact text with percentages as a parameter; each kana or kanji is counted once"
  },
  {
   "property": "C121",
   "status": "proved",
   "theorems": [
    "KT.C121_text",
    "KT.C121_line",
    "KT.C121_highest",
    "KT.C121_shown",
    "KT.C121_ranks"
   ],
   "note": "exact"
  },
  {
   "property": "C122",
   "status": "partial",
   "theorems": [
    "KT.C122_text",
    "KT.C122_violated",
    "KT.C122_partial"
   ],
   "note": "exact text; violated: a kanji in two rows is counted twice; holds if no error was printed"
  },
  {
   "property": "C123",
   "status": "proved",
   "theorems": [
    "KT.C123_text",
    "KT.C123_printed"
   ],
   "note": "exact text for every feature and number of examples; what each debug mode prints"
  },
  {
   "property": "C124",
   "status": "proved",
   "theorems": [
    "KT.C124_line",
    "KT.C124_text",
    "KT.C124_none"
   ],
   "note": "exact text; levels add up to the grade and grades to the Jouyou list; no line for None after loading"
  },
  {
   "property": "C125",
   "status": "proved",
   "theorems": [
    "KT.C125_line",
    "KT.C125_text",
    "KT.C125_loaded",
    "KT.C125_kyus",
    "KT.C125_levels"
   ],
   "note": "exact text; all listed kanji counted once; numbers are those of the files if no error was printed"
  },
  {
   "property": "C126",
   "status": "proved",
   "theorems": [
    "KT.C126_option",
    "KT.C126_valid"
   ],
   "note": "for every file system given as a function from paths to names"
  },
  {
   "property": "C127",
   "status": "partial",
   "theorems": [
    "KT.C127_current",
    "KT.C127_violated",
    "KT.C127_partial",
    "KT.C127_nearest",
    "KT.C127_none",
    "KT.C127_paths"
   ],
   "note": "nearest directory, exact errors; violated: a data directory next to the program isn't found"
  },
  {
   "property": "C128",
   "status": "partial",
   "theorems": [
    "KT.C128_violated",
    "KT.C128_partial"
   ],
   "note": "violated: the value of -data is also read as a debug option; holds if no directory has such a name"
  },
  {
   "property": "C129",
   "status": "proved",
   "theorems": [
    "KT.C129_lists"
   ],
   "note": "The lists are stated through the kanji of a store, with the order of iteration of the name map."
  },
  {
   "property": "C130",
   "status": "proved",
   "theorems": [
    "KT.C130_text",
    "KT.C130_examples",
    "KT.C130_sum",
    "KT.C130_once"
   ],
   "note": "Exact text of the report; the sort is any function that gives a sorted permutation."
  },
  {
   "property": "C131",
   "status": "proved",
   "theorems": [
    "KT.C131_missing",
    "KT.C131_text",
    "KT.C131_sum"
   ],
   "note": "Exact text; the sum needs that each kanji has a radical of the file, which C100-C107 give after loading."
  },
  {
   "property": "C132",
   "status": "proved",
   "theorems": [
    "KT.C132_text",
    "KT.C132_total"
   ],
   "note": "Exact text of the counts, total related to the rows of the file."
  },
  {
   "property": "C133",
   "status": "partial",
   "theorems": [
    "KT.C133_text",
    "KT.C133_loaded",
    "KT.C133_violated",
    "KT.C133_error_partial"
   ],
   "note": "The claim about the error fails for kanji with variation selectors (C133_violated); it holds for all other names (C133_error_partial). The text of all other lines is exact."
  },
  {
   "property": "C134",
   "status": "proved",
   "theorems": [
    "KT.C134_rows",
    "KT.C134_order",
    "KT.C134_print"
   ],
   "note": "Exact rows with the place where an error ends the table."
  },
  {
   "property": "C135",
   "status": "partial",
   "theorems": [
    "KT.C135_violated",
    "KT.C135_right",
    "KT.C135_columns",
    "KT.C135_width",
    "KT.C135_fill",
    "KT.C135_lines_partial",
    "KT.C135_both"
   ],
   "note": "Violated: std::left set by an earlier table stays in force (C135_violated). C135_lines_partial gives the exact text on a stream with either alignment that fills with spaces; C135_both tells which alignment each list has."
  },
  {
   "property": "C136",
   "status": "proved",
   "theorems": [
    "KT.C136_lines",
    "KT.C136_types",
    "KT.C136_order",
    "KT.C136_meaning"
   ],
   "note": "Exact lines; the numbers are related to the members for meaning groups (C136_meaning); for pattern groups see C92."
  },
  {
   "property": "C137",
   "status": "proved",
   "theorems": [
    "KT.C137_message",
    "KT.C137_created"
   ],
   "note": "Exact texts of all messages; C137_created relates them to C55."
  },
  {
   "property": "C138",
   "status": "proved",
   "theorems": [
    "KT.C138_file",
    "KT.C138_message",
    "KT.C138_open",
    "KT.C138_same",
    "KT.C138_stem"
   ],
   "note": "paths as texts; absolute names given to getFile (which replace the directory) and symbolic links are not modelled"
  },
  {
   "property": "C139",
   "status": "partial",
   "theorems": [
    "KT.C139_message_partial",
    "KT.C139_agrees",
    "KT.C139_loads",
    "KT.C139_violated"
   ],
   "note": "violated: a space after the only token of a line gives 'got multiple tokens'; the message is characterised in all cases, a message exists exactly when load throws"
  },
  {
   "property": "C140",
   "status": "proved",
   "theorems": [
    "KT.C140_store",
    "KT.C140_silent",
    "KT.C140_log",
    "KT.C140_frequency",
    "KT.C140_level",
    "KT.C140_line",
    "KT.C140_level_created",
    "KT.C140_frequency_found",
    "KT.C140_level_text",
    "KT.C140_frequency_all"
   ],
   "note": "the kanji found for an entry are those found when it is its turn; for the files loaded, a level list prints at most the line for Jinmei kanji"
  },
  {
   "property": "C141",
   "status": "proved",
   "theorems": [
    "KT.C141_listed",
    "KT.C141_types",
    "KT.C141_text"
   ],
   "note": "assumes that the entry found for the name of an entry is this entry (see C96)"
  },
  {
   "property": "C142",
   "status": "proved",
   "theorems": [
    "KT.C142_contradicts",
    "KT.C142_text",
    "KT.C142_messages",
    "KT.C142_count",
    "KT.C142_all",
    "KT.C142_numbers",
    "KT.C142_width"
   ],
   "note": "the standard alignment of the error stream is assumed; the counter is global to the program"
  },
  {
   "property": "C143",
   "status": "proved",
   "theorems": [
    "KT.C143_decode",
    "KT.C143_bytes",
    "KT.C143_twice",
    "KT.C143_first",
    "KT.C143_first_decode"
   ],
   "note": ""
  },
  {
   "property": "C144",
   "status": "proved",
   "theorems": [
    "KT.C144_int",
    "KT.C144_positive",
    "KT.C144_unsigned",
    "KT.C144_byte",
    "KT.C144_agrees"
   ],
   "note": ""
  },
  {
   "property": "C145",
   "status": "proved",
   "theorems": [
    "KT.C145_overloads",
    "KT.C145_characters",
    "KT.C145_one",
    "KT.C145_nul"
   ],
   "note": "C145_nul shows what a NUL in the text changes: the overload for char pointers stops there"
  },
  {
   "property": "C146",
   "status": "proved",
   "theorems": [
    "KT.C146_prompt",
    "KT.C146_toggle"
   ],
   "note": ""
  },
  {
   "property": "C147",
   "status": "proved",
   "theorems": [
    "KT.C147_verdict",
    "KT.C147_judge"
   ],
   "note": ""
  },
  {
   "property": "C148",
   "status": "proved",
   "theorems": [
    "KT.C148_session"
   ],
   "note": "the questions and the lines shown are given by a function in place of the random generator"
  },
  {
   "property": "C149",
   "status": "proved",
   "theorems": [
    "KT.C149_loop",
    "KT.C149_prompts",
    "KT.C149_answer",
    "KT.C149_meanings"
   ],
   "note": ""
  },
  {
   "property": "C150",
   "status": "partial",
   "theorems": [
    "KT.C150_violated",
    "KT.C150_partial"
   ],
   "note": "violated: the destructor of Quiz prints a final score when the constructor of ListQuiz throws; C150_partial says what is printed"
  },
  {
   "property": "C151",
   "status": "proved",
   "theorems": [
    "KT.C151_bits",
    "KT.C151_sets",
    "KT.C151_flag"
   ],
   "note": ""
  },
  {
   "property": "C152",
   "status": "proved",
   "theorems": [
    "KT.C152_flags",
    "KT.C152_names",
    "KT.C152_options",
    "KT.C152_shown",
    "KT.C152_number"
   ],
   "note": "flags as printed by kanaConvert in interactive mode"
  },
  {
   "property": "C153",
   "status": "proved",
   "theorems": [
    "KT.C153_fields",
    "KT.C153_inverts",
    "KT.C153_legend"
   ],
   "note": ""
  },
  {
   "property": "C154",
   "status": "partial",
   "theorems": [
    "KT.C154_violated",
    "KT.C154_partial",
    "KT.C154_flags"
   ],
   "note": "violated: -- is accepted by kanjiQuiz and kanjiStats but not explained; C154_partial shows it is the only exception"
  },
  {
   "property": "C155",
   "status": "partial",
   "theorems": [
    "KT.C155_violated",
    "KT.C155_partial"
   ],
   "note": "violated: the synopsis has -f[1-5] but the values 0 to 9 are accepted; C155_partial shows the other options agree"
  },
  {
   "property": "C156",
   "status": "proved",
   "theorems": [
    "KT.C156_prompts",
    "KT.C156_lists",
    "KT.C156_question",
    "KT.C156_dialog",
    "KT.C156_valid",
    "KT.C156_options",
    "KT.C156_some"
   ],
   "note": ""
  },
  {
   "property": "C157",
   "status": "proved",
   "theorems": [
    "KT.C157_open",
    "KT.C157_header",
    "KT.C157_row",
    "KT.C157_row_number",
    "KT.C157_get",
    "KT.C157_value"
   ],
   "note": ""
  },
  {
   "property": "C158",
   "status": "proved",
   "theorems": [
    "KT.C158_question"
   ],
   "note": "Any input, at most 58 members shown (C158_question). Lines that are not accepted are asked for again; fuel bounds the number of rounds."
  },
  {
   "property": "C159",
   "status": "partial",
   "theorems": [
    "KT.C159_verdict",
    "KT.C159_session_partial",
    "KT.C159_violated"
   ],
   "note": "Violated for groups with more than 26 members (C159_violated); for at most 26 the verdict (C159_verdict) and the score of whole sessions (C159_session_partial). Orders of members are given."
  },
  {
   "property": "C160",
   "status": "proved",
   "theorems": [
    "KT.C160_question"
   ],
   "note": "Text and state of the whole dialog equal a separate description, for any input and at most 58 members."
  },
  {
   "property": "C161",
   "status": "partial",
   "theorems": [
    "KT.C161_prompt",
    "KT.C161_violated",
    "KT.C161_start_partial"
   ],
   "note": "Violated: the start question is counted as skipped when quitting at the prompt (C161_violated); C161_start_partial has all outcomes for groups with at most 26 members shown."
  },
  {
   "property": "C162",
   "status": "proved",
   "theorems": [
    "KT.C162_session",
    "KT.C162_quiz"
   ],
   "note": "Everything a group quiz writes, for any input, equals an independent specification: pages, prompts, verdicts, final line. Groups need between 1 and 26 members shown and rows of moderate length (the case of more than 26 is C159)."
  },
  {
   "property": "C163",
   "status": "proved",
   "theorems": [
    "KT.C163_session",
    "KT.C163_quiz"
   ],
   "note": "Everything a list quiz writes, for any draws and input, equals an independent specification in closed form. Each number drawn is in range, as the distribution guarantees (C56_bounds); kanji without a reading and a start question that is too large are C150."
  },
  {
   "property": "C164",
   "status": "proved",
   "theorems": [
    "KT.C164_morohashi",
    "KT.C164_argument",
    "KT.C164_shown",
    "KT.C164_card",
    "KT.C164_cards",
    "KT.C164_total",
    "KT.C164_same"
   ],
   "note": "The text about a kanji is given by C164_card up to the parts of C108 and C109; the reading and meaning of a kanji and extraTypeInfo (C107_text) are parameters. C44 shows when every frequency is found."
  },
  {
   "property": "C165",
   "status": "proved",
   "theorems": [
    "KT.C165_messages",
    "KT.C165_arguments",
    "KT.C165_settings"
   ],
   "note": "The texts of std::invalid_argument and std::out_of_range of std::stoul are parameters. C165_arguments gives the whole result (message, help, kanji or settings) for every list of arguments."
  },
  {
   "property": "C166",
   "status": "proved",
   "theorems": [
    "KT.C166_dialog"
   ],
   "note": "C166_dialog: output, quiz chosen and remaining input for every input; n bounds the number of lines read per prompt (the code loops forever at the end of input)."
  },
  {
   "property": "C167",
   "status": "proved",
   "theorems": [
    "KT.C167_program",
    "KT.C167_main",
    "KT.C167_total"
   ],
   "note": "C167_program and C167_main: output, message and exit code for every argument list, input and draw, for data satisfying DataFits (lists and groups shorter than 65536, each kanji with a new name or old names but not both); C167_total: no undefined behaviour. Loading the data is C180, C182; sort of similar kanji is a parameter; n bounds the lines read per prompt."
  },
  {
   "property": "C168",
   "status": "proved",
   "theorems": [
    "KT.C168_readme",
    "KT.C168_models",
    "KT.C168_main",
    "KT.C168_total"
   ],
   "note": "C168_main: output, message and exit code for every argument list shorter than 65534 and every input; C168_total: always a result; C168_readme: every example of the README. The conversion itself is a parameter (it is total by C71 and specified by C26-C31, C105 and C106); strings are always followed by a newline and conversions to Rōmaji aren't separated, which are the violations C86 and C66. n bounds the lines read per prompt (at the end of the input the prompt for a flag repeats forever)."
  },
  {
   "property": "C169",
   "status": "proved",
   "theorems": [
    "KT.C169_documented",
    "KT.C169_terminal"
   ],
   "note": "C169_documented: the complete file, with the table from C99_document; C169_terminal: the text with -p is the same notes under another heading, followed by the chart specified by C99_terminal."
  },
  {
   "property": "C170",
   "status": "partial",
   "theorems": [
    "KT.C170_loaded_partial",
    "KT.C170_violated",
    "KT.C170_rows_partial",
    "KT.C170_character_partial"
   ],
   "note": "C170_loaded_partial: every loaded kanji has a name of one character. C170_violated: a row with an empty name fails an assertion. C170_rows_partial: exactly which rows do. C170_character_partial: what one character means."
  },
  {
   "property": "C171",
   "status": "proved",
   "theorems": [
    "KT.C171_kanji",
    "KT.C171_listed",
    "KT.C171_fits",
    "KT.C171_quiz"
   ],
   "note": "The limits are hypotheses (`WithinLimits`); the groups of the project's own data have more than 26 members, which is C159. Loading itself may end with an exception, the theorem is about data that was loaded."
  },
  {
   "property": "C172",
   "status": "proved",
   "theorems": [
    "KT.C172_texts"
   ],
   "note": "Rows are given by the texts of their cells."
  },
  {
   "property": "C173",
   "status": "proved",
   "theorems": [
    "KT.C173_values",
    "KT.C173_compatibility"
   ],
   "note": ""
  },
  {
   "property": "C174",
   "status": "proved",
   "theorems": [
    "KT.C174_nearest",
    "KT.C174_text",
    "KT.C174_order"
   ],
   "note": "Doubles are modelled as IEEE binary64 (exact rationals rounded to 53 bits, ties to even); totals up to 2^38 (the number of characters of a file of 256 GB)."
  },
  {
   "property": "C175",
   "status": "proved",
   "theorems": [
    "KT.C175_report",
    "KT.C175_files",
    "KT.C175_program",
    "KT.C175_main"
   ],
   "note": "The set ordered by StatCount::operator< is a parameter that has to be built from the counts as a std::set is (SetBuilt): its comparison isn't an order (C49), so the result depends on the library. StatsExample.lean shows such a set and a whole report. Threads are modelled one after the other; files don't change during the run."
  },
  {
   "property": "C176",
   "status": "proved",
   "theorems": [
    "KT.C176_chars",
    "KT.C176_numbers",
    "KT.C176_once",
    "KT.C176_kanji"
   ],
   "note": ""
  },
  {
   "property": "C177",
   "status": "proved",
   "theorems": [
    "KT.C177_text",
    "KT.C177_main",
    "KT.C177_file",
    "KT.C177_arguments"
   ],
   "note": ""
  },
  {
   "property": "C178",
   "status": "proved",
   "theorems": [
    "KT.C178_base",
    "KT.C178_counts"
   ],
   "note": ""
  },
  {
   "property": "C179",
   "status": "proved",
   "theorems": [
    "KT.C179_lists",
    "KT.C179_frequency",
    "KT.C179_grades",
    "KT.C179_ucd",
    "KT.C179_shown"
   ],
   "note": ""
  },
  {
   "property": "C180",
   "status": "proved",
   "theorems": [
    "KT.C180_lists",
    "KT.C180_jukugo",
    "KT.C180_text_data",
    "KT.C180_load",
    "KT.C180_registry",
    "KT.C180_quiz",
    "KT.C180_table",
    "KT.C180_read",
    "KT.C180_ucd",
    "KT.C180_radicals",
    "KT.C180_readings",
    "KT.C180_kanji",
    "KT.C180_groups"
   ],
   "note": "Composition with C171-C179: the rows given there are now read from the texts of the files. Exceptions are given by their kind; opening a file that can be read but not written is left out (fstream)."
  },
  {
   "property": "C181",
   "status": "partial",
   "theorems": [
    "KT.C181_files",
    "KT.C181_violated",
    "KT.C181_load_partial",
    "KT.C181_directory_partial"
   ],
   "note": "Violated: C181_violated (a kanji of the Unicode file in a level list). C181_files is unconditional; C181_load_partial and C181_directory_partial need NamesFit."
  },
  {
   "property": "C182",
   "status": "proved",
   "theorems": [
    "KT.C182_directory",
    "KT.C182_below",
    "KT.C182_ends",
    "KT.C182_errors",
    "KT.C182_kinds",
    "KT.C182_dots"
   ],
   "note": "kanjiQuiz as one function of the tree of files, the current directory, the arguments, the input and the numbers drawn. Links and errors of the system are left out; the texts of errors of loading are those of C139 and others and not repeated here; the output of loading in a debug mode is not included."
  },
  {
   "property": "C183",
   "status": "proved",
   "theorems": [
    "KT.C183_output",
    "KT.C183_ends",
    "KT.C183_errors",
    "KT.C183_directory",
    "KT.C183_below",
    "KT.C183_types",
    "KT.C183_ucd",
    "KT.C183_trees",
    "KT.C183_format",
    "KT.C183_both",
    "KT.C183_frequency"
   ],
   "note": "What loading prints in a debug mode or about errors in the data isn't part of the output in the model. The file system is a tree without links; the order of the entries of a directory is that of the tree. The types of Linked, Frequency, Kentei and Ucd kanji are not described by the files here (see C77)."
  },
  {
   "property": "C184",
   "status": "proved",
   "theorems": [
    "KT.C184_result",
    "KT.C184_quiet",
    "KT.C184_info",
    "KT.C184_full",
    "KT.C184_full_start",
    "KT.C184_errors_mode",
    "KT.C184_errors",
    "KT.C184_no_errors"
   ],
   "note": "Proved for the two streams separately; how they are interleaved isn't modelled. The texts of the parts are the subject of C122 to C125, C129 to C134 and C140 to C142."
  },
  {
   "property": "C185",
   "status": "proved",
   "theorems": [
    "KT.C185_result",
    "KT.C185_loaded",
    "KT.C185_rejected",
    "KT.C185_sum"
   ],
   "note": "Proved for the contents of the files; finding and opening them is part of C180."
  },
  {
   "property": "C186",
   "status": "proved",
   "theorems": [
    "KT.C186_not_found",
    "KT.C186_rows",
    "KT.C186_result",
    "KT.C186_quiet",
    "KT.C186_text",
    "KT.C186_format",
    "KT.C186_errors"
   ],
   "note": "Proved for the two streams separately; the texts of the parts are the subject of C135, C136, C184 and C185."
  },
  {
   "property": "C187",
   "status": "partial",
   "theorems": [
    "KT.C187_violated",
    "KT.C187_partial"
   ],
   "note": "Violated: after printing radicals without kanji the fill character is '0'. Partial: with '-info', with a meaning group, with a kanji with variation selector, or if every radical has a common kanji."
  },
  {
   "property": "C188",
   "status": "partial",
   "theorems": [
    "KT.C188_partial",
    "KT.C188_usage",
    "KT.C188_fails",
    "KT.C188_quiet",
    "KT.C188_debug_partial",
    "KT.C188_ends",
    "KT.C188_violated"
   ],
   "note": "Violated: after the report of '-debug' the columns of the list of Jukugo may be filled with zeros (C188_violated). Otherwise proved with any debug option: C188_partial (blank fill character), C188_usage, C188_fails, C188_quiet, C188_debug_partial, C188_ends."
  },
  {
   "property": "C189",
   "status": "proved",
   "theorems": [
    "KT.C189_output",
    "KT.C189_usage",
    "KT.C189_fails",
    "KT.C189_quiet",
    "KT.C189_ends",
    "KT.C189_debug"
   ],
   "note": "kanjiStats with both output streams from the command line and the files to the exit code, with any debug option."
  },
  {
   "property": "C190",
   "status": "partial",
   "theorems": [
    "KT.C190_steps",
    "KT.C190_kana_partial",
    "KT.C190_violated",
    "KT.C190_romaji_partial",
    "KT.C190_in_place_partial",
    "KT.C190_program"
   ],
   "note": "Violated for Romaji as target: a Hiragana iteration mark without kana before it disappears and brings Katakana together that is not converted (C190_violated). Proved for readable text without such marks, for kana targets, and the order of the conversions in general."
  },
  {
   "property": "C191",
   "status": "proved",
   "theorems": [
    "KT.C191_duplicates",
    "KT.C191_map",
    "KT.C191_start",
    "KT.C191_validate",
    "KT.C191_delims"
   ],
   "note": "All clauses. Sets are compared by their members; the message printed for a duplicate key is not modelled."
  },
  {
   "property": "C192",
   "status": "proved",
   "theorems": [
    "KT.C192_codes",
    "KT.C192_apart",
    "KT.C192_table",
    "KT.C192_text"
   ],
   "note": ""
  },
  {
   "property": "C193",
   "status": "proved",
   "theorems": [
    "KT.C193_rows"
   ],
   "note": "rows of data/ucd.txt for records in parts; links found in definitions by the grep over the whole file are an input"
  },
  {
   "property": "C194",
   "status": "proved",
   "theorems": [
    "KT.C194_strokes",
    "KT.C194_different"
   ],
   "note": ""
  },
  {
   "property": "C195",
   "status": "partial",
   "theorems": [
    "KT.C195_violated",
    "KT.C195_japanese_partial"
   ],
   "note": "violated for a record without the attribute; holds when every record has it"
  },
  {
   "property": "C196",
   "status": "proved",
   "theorems": [
    "KT.C196_table",
    "KT.C196_row",
    "KT.C196_load"
   ],
   "note": ""
  },
  {
   "property": "C197",
   "status": "partial",
   "theorems": [
    "KT.C197_codes",
    "KT.C197_links",
    "KT.C197_named_partial",
    "KT.C197_unicode_partial",
    "KT.C197_violated"
   ],
   "note": "C197_violated: the word repeated behind the kanji; C197_codes and C197_links say exactly what is found for every list of records with different codes and definitions without double quotes. The partial theorems need that the word isn't repeated in front of the next closing bracket."
  },
  {
   "property": "C198",
   "status": "partial",
   "theorems": [
    "KT.C198_totals",
    "KT.C198_violated",
    "KT.C198_summary_partial"
   ],
   "note": "C198_violated: a Joyo kanji without a row is counted. C198_totals gives every counter for all records (Nelson numbers without commas); C198_summary_partial is the whole text."
  },
  {
   "property": "C199",
   "status": "partial",
   "theorems": [
    "KT.C199_counts",
    "KT.C199_violated",
    "KT.C199_report_partial"
   ],
   "note": "C199_violated: no links at all. C199_counts gives all counts and totals without restriction on the words; C199_report_partial is the whole text when the word in the first line has a link. Codes of the records are different and definitions have no double quotes."
  },
  {
   "property": "C200",
   "status": "partial",
   "theorems": [
    "KT.C200_code",
    "KT.C200_char",
    "KT.C200_every",
    "KT.C200_arguments",
    "KT.C200_fields",
    "KT.C200_cjk",
    "KT.C200_messages",
    "KT.C200_usage",
    "KT.C200_two_partial",
    "KT.C200_versions_partial",
    "KT.C200_violated",
    "KT.C200_status_partial"
   ],
   "note": "Text, messages and arguments are proved in full for any result of diff that keeps a longest list of common lines; the exit status is violated when the second character has no field of its own (C200_violated), C200_status_partial shows when it is 0."
  },
  {
   "property": "C201",
   "status": "proved",
   "theorems": [
    "KT.C201_official",
    "KT.C201_other",
    "KT.C201_same_official",
    "KT.C201_same_other",
    "KT.C201_different",
    "KT.C201_tables",
    "KT.C201_versions"
   ],
   "note": ""
  },
  {
   "property": "C202",
   "status": "proved",
   "theorems": [
    "KT.C202_defined",
    "KT.C202_no_deadlock",
    "KT.C202_ends",
    "KT.C202_report",
    "KT.C202_private",
    "KT.C202_totals",
    "KT.C202_joined",
    "KT.C202_files"
   ],
   "note": "Small-step model of the main thread and the nine threads of countKanji on shared memory (stream, total and future of each thread); all interleavings. Every execution is defined, bounded, never blocked, and ends with the report of C175; threads only change what is theirs, totals are read when nobody can change them, none is left behind. C202_files: the loop over all files of the command line."
  },
  {
   "property": "C203",
   "status": "partial",
   "theorems": [
    "KT.C203_answer",
    "KT.C203_offered",
    "KT.C203_endless",
    "KT.C203_lines",
    "KT.C203_violated",
    "KT.C203_settings_partial",
    "KT.C203_raw",
    "KT.C203_messages"
   ],
   "note": "Violated for terminals that weren't in the usual state before (C203_violated); C203_settings_partial says exactly when the settings are restored. The rest of the statement is proved: C203_answer, C203_offered, C203_endless (nothing is returned if no key gives an answer), C203_lines, C203_raw, C203_messages."
  },
  {
   "property": "C204",
   "status": "partial",
   "theorems": [
    "KT.C204_violated",
    "KT.C204_expanded_partial",
    "KT.C204_beginning",
    "KT.C204_prolonged"
   ],
   "note": "Texts are those of letters of the script, marks and other characters without variation selectors and combining voicing marks (Simple). Violated before a prolong mark; C204_expanded_partial holds for all texts where what follows the marks isn't a prolong mark, a mark or a small letter and, if it doesn't begin with a letter, has no further marks (a mark after other characters repeats the kana before them). After っ without a doubled consonant evaluation from left to right is required. C204_beginning and C204_prolonged are the two cases where marks are left out."
  },
  {
   "property": "C205",
   "status": "partial",
   "theorems": [
    "KT.C205_violated",
    "KT.C205_text",
    "KT.C205_standard_partial"
   ],
   "note": "A text is given as a list of parts (syllable with optional っ and ー, ん, or a character that is neither a letter of the script nor a mark). Violated: no apostrophe for ん before ゐ, ゑ or を with Hepburn or Kunrei; C205_standard_partial excludes exactly these texts, C205_text says what is written for all. With both flags the spelling is that of Kunrei except for the syllables of the d row, as described in the tests. Loan word syllables such as ふぁ are outside of this property (see C99 and C27)."
  },
  {
   "property": "C206",
   "status": "proved",
   "theorems": [
    "KT.C206_typed",
    "KT.C206_style",
    "KT.C206_back"
   ],
   "note": "C206_typed: any mixture of spellings; C206_style: one style; C206_back: from kana to Rōmaji and back. Syllables are the 108 standard ones; the spellings are those of Spec/Romanization."
  },
  {
   "property": "C207",
   "status": "proved",
   "theorems": [
    "KT.C207_case",
    "KT.C207_keys",
    "KT.C207_table"
   ],
   "note": "C207_keys: any sequence of parts; C207_table: the spellings and variants of all kana are among them."
  }
 ]
}