{
 "claims": [
  {
   "property": "C01",
   "status": "proved",
   "theorems": [
    "Xls.C01_increment_moves_forward",
    "Xls.C01_increment_fails_only_beyond_calendar"
   ],
   "note": ""
  },
  {
   "property": "C02",
   "status": "proved",
   "theorems": [
    "Xls.C02_increment_exact",
    "Xls.C02_increment_complete"
   ],
   "note": ""
  },
  {
   "property": "C03",
   "status": "partial",
   "theorems": [
    "Xls.C03_steps_compose_partial",
    "Xls.C03_steps_compose_violated",
    "Xls.C03_drift_is_permanent"
   ],
   "note": "The full statement is false of the code. Witnesses: For each of the three calendar frequencies some date at the end of a month drifts. Proved instead: `k` single steps are one step of `k`, for every frequency when the day of the month is at most 28, and for every day when the frequency is not counted in months; errors included. After a step of months that had to shorten the day, the day stays shortened: whatever is added afterwards, the day is at most the length of the month passed."
  },
  {
   "property": "C04",
   "status": "proved",
   "theorems": [
    "Xls.C04_unsupported_refused",
    "Xls.C04_multifrequency_refused"
   ],
   "note": ""
  },
  {
   "property": "C05",
   "status": "partial",
   "theorems": [
    "Xls.C05_semester_step_violated",
    "Xls.C05_semester_index_violated",
    "Xls.C05_semester_table_partial",
    "Xls.C05_semester_table_violated"
   ],
   "note": "The full statement is false of the code. Witnesses: The step the package takes for the semester frequency `S` is one second for every date: it never is six months. In a semester index without missings, 1 January is followed by 1 July: the cleaning replaces the July date by one second after the January one. The same semesters, all with values, are refused or changed if the parameters do not allow for missing values: July is put one second after January. Proved instead: If the parameters allow for missing values, a table of semesters is read as such: dates six months apart, each on the first of a month, are accepted as they are and become the index, with the values under them. Missing: tables whose parameters do not allow for missing values (`C05_semester_index_violated`), and `Implicit` among the missing values."
  },
  {
   "property": "C06",
   "status": "proved",
   "theorems": [
    "Xls.C06_cleaned_index_increasing",
    "Xls.C06_increasing_up_to_end"
   ],
   "note": ""
  },
  {
   "property": "C07",
   "status": "proved",
   "theorems": [
    "Xls.C07_no_holes",
    "Xls.C07_no_holes_up_to_end"
   ],
   "note": ""
  },
  {
   "property": "C08",
   "status": "proved",
   "theorems": [
    "Xls.C08_typo_repaired",
    "Xls.C08_typo_repaired_on_sheet"
   ],
   "note": ""
  },
  {
   "property": "C09",
   "status": "proved",
   "theorems": [
    "Xls.C09_jump_reported",
    "Xls.C09_jump_reported_on_sheet"
   ],
   "note": ""
  },
  {
   "property": "C10",
   "status": "partial",
   "theorems": [
    "Xls.C10_far_jump_partial",
    "Xls.C10_far_jump_violated"
   ],
   "note": "The full statement is false of the code. Witnesses: Whenever `missing_value` is a list, as in every parameters object, any later date is accepted unchanged when missings are allowed, however far it is. Proved instead: With the bare string `Implicit` as `missing_value`, a date that is more than the tolerated number of periods after the previous one is never accepted as it is: the result, if any, is a date before the limit that differs from it in exactly one component. This value never reaches the check through a parameters object (see the violation)."
  },
  {
   "property": "C11",
   "status": "proved",
   "theorems": [
    "Xls.C11_only_time_column_touched",
    "Xls.C11_nothing_above_start"
   ],
   "note": ""
  },
  {
   "property": "C12",
   "status": "proved",
   "theorems": [
    "Xls.C12_writes_dates_or_blanks"
   ],
   "note": ""
  },
  {
   "property": "C13",
   "status": "proved",
   "theorems": [
    "Xls.C13_end_is_last_time"
   ],
   "note": ""
  },
  {
   "property": "C14",
   "status": "partial",
   "theorems": [
    "Xls.C14_horizontal_end_violated",
    "Xls.C14_rows_violated",
    "Xls.C14_turned_partial"
   ],
   "note": "The full statement is false of the code. Witnesses: Take any run of consecutive dates ended by a blank, in a continuous series without blank rows. If it is vertical the end is detected; if it is horizontal, cleaning always raises `TypeError`. Any index in a row, dates in whatever way: with its end given it is found; without, and blank cells between it and the last used column, cleaning always raises `TypeError`. In a column the same index is found without the end as well. Proved instead: Exchanging rows and columns of any worksheet and describing a time index accordingly gives the same cleaned cells, exchanged, and the same end or error; only a `TypeError` may stand in place of it. It does not if the vertical index reaches the last position that is looked at."
  },
  {
   "property": "C15",
   "status": "partial",
   "theorems": [
    "Xls.C15_clean_index_unchanged",
    "Xls.C15_cleaning_twice",
    "Xls.C15_composed_second_run_fails",
    "Xls.C15_cleaning_twice_violated"
   ],
   "note": "The full statement is false of the code. Witnesses: Without the hypotheses of `C15_cleaning_twice` a second run can go further than the first one: once the first cell is a date-time, a composed month text at the end of the index is read as a date although the times are declared as not composed. Proved instead: Cleaning an index that already holds a complete run of dates one period apart, ended by a blank or by the end of the scanned rows, changes no cell and reports the row of the last date (shifted by the time alignment). Cleaning twice is cleaning once: if a continuous vertical series without blank rows and without missings was cleaned up to the detected end, with a date in every row up to it, no repeated date, and a blank or the last scanned row after it, then a second cleaning of the resulting sheet changes nothing and reports the same end. With composed times the second run fails: an index whose first cell already is a date-time is refused, and nothing is changed."
  },
  {
   "property": "C16",
   "status": "proved",
   "theorems": [
    "Xls.C16_blank_ends_index",
    "Xls.C16_nothing_read_after_blank",
    "Xls.C16_gaps_up_to_40_skipped",
    "Xls.C16_gap_of_41_ends_index"
   ],
   "note": ""
  },
  {
   "property": "C17",
   "status": "proved",
   "theorems": [
    "Xls.C17_frequency_cycle"
   ],
   "note": ""
  },
  {
   "property": "C18",
   "status": "partial",
   "theorems": [
    "Xls.C18_each_frequency_progresses_partial",
    "Xls.C18_each_frequency_without_repeats",
    "Xls.C18_each_frequency_never_goes_back",
    "Xls.C18_repeated_date_violated"
   ],
   "note": "The full statement is false of the code. Witnesses: A repeated date of the same frequency is accepted without any error. Proved instead: Without missings, for each frequency letter of the pattern, the date-times of that letter before the position where cleaning stopped advance one period of that frequency at a time, or repeat. Where no date of a letter is repeated, the dates of that letter are one period apart. With missings allowed, the dates of each letter never go back."
  },
  {
   "property": "C19",
   "status": "proved",
   "theorems": [
    "Xls.C19_extractor_determined",
    "Xls.C19_no_extractor",
    "Xls.C19_cleaner_determined",
    "Xls.C19_empty_frequency"
   ],
   "note": ""
  },
  {
   "property": "C20",
   "status": "proved",
   "theorems": [
    "Xls.C20_year_then_quarter",
    "Xls.C20_quarter_alone",
    "Xls.C20_quarter_then_year"
   ],
   "note": ""
  },
  {
   "property": "C21",
   "status": "proved",
   "theorems": [
    "Xls.C21_number_then_short_year",
    "Xls.C21_roman_then_short_year"
   ],
   "note": ""
  },
  {
   "property": "C22",
   "status": "partial",
   "theorems": [
    "Xls.C22_other_quarters_refused_violated",
    "Xls.C22_first_months",
    "Xls.C22_numerals_partial"
   ],
   "note": "The full statement is false of the code. Witnesses: A quarter number that is not one of 1-4 is not refused: whatever the digit 5-9, the text `<digit>deg Trim <yy>` is read as the fourth quarter. Proved instead: Whatever the text of the numeral, the month of a quarter is one of the first months of quarters and that of a semester one of the first months of semesters. Roman and arabic numerals mean the same months; positive numbers beyond the last numeral are read as the last quarter or semester."
  },
  {
   "property": "C23",
   "status": "proved",
   "theorems": [
    "Xls.C23_year",
    "Xls.C23_campaign"
   ],
   "note": ""
  },
  {
   "property": "C24",
   "status": "proved",
   "theorems": [
    "Xls.C24_year_and_month",
    "Xls.C24_month_alone",
    "Xls.C24_month_above_twelve"
   ],
   "note": ""
  },
  {
   "property": "C25",
   "status": "proved",
   "theorems": [
    "Xls.C25_year_and_name",
    "Xls.C25_name_alone",
    "Xls.C25_unknown_name_takes_last_month",
    "Xls.C25_three_digits"
   ],
   "note": ""
  },
  {
   "property": "C26",
   "status": "proved",
   "theorems": [
    "Xls.C26_semester_and_year",
    "Xls.C26_semester_alone"
   ],
   "note": ""
  },
  {
   "property": "C27",
   "status": "proved",
   "theorems": [
    "Xls.C27_real_first_of_month",
    "Xls.C27_month_out_of_range"
   ],
   "note": ""
  },
  {
   "property": "C28",
   "status": "proved",
   "theorems": [
    "Xls.C28_missing_parts",
    "Xls.C28_quarters_then_year"
   ],
   "note": ""
  },
  {
   "property": "C29",
   "status": "proved",
   "theorems": [
    "Xls.C29_simple_date_fits",
    "Xls.C29_first_fitting_reading"
   ],
   "note": ""
  },
  {
   "property": "C30",
   "status": "partial",
   "theorems": [
    "Xls.C30_footnote_below_violated",
    "Xls.C30_row_before_footnote_violated",
    "Xls.C30_composed_ignores_note",
    "Xls.C30_nothing_below"
   ],
   "note": "The full statement is false of the code. Witnesses: Below a simple date any text that does not have three parts separated by hyphens, slashes or points (a footnote) makes the date unreadable, whatever the date text, the date library and the previous date. The whole effect: the last row before the note is cut off, its date text stays in the sheet. Proved instead: Composed texts are read without looking at the next cell, so a note below does no harm. An empty cell below a simple date is no obstacle: the reading depends on the previous date only."
  },
  {
   "property": "C31",
   "status": "proved",
   "theorems": [
    "Xls.C31_critical_missing",
    "Xls.C31_empty_dictionary"
   ],
   "note": ""
  },
  {
   "property": "C32",
   "status": "proved",
   "theorems": [
    "Xls.C32_text",
    "Xls.C32_texts",
    "Xls.C32_other_letter"
   ],
   "note": ""
  },
  {
   "property": "C33",
   "status": "proved",
   "theorems": [
    "Xls.C33_only_valid",
    "Xls.C33_unknown_name",
    "Xls.C33_invalid_value"
   ],
   "note": ""
  },
  {
   "property": "C34",
   "status": "proved",
   "theorems": [
    "Xls.C34_one_value",
    "Xls.C34_one_entry",
    "Xls.C34_entry_per_series",
    "Xls.C34_series",
    "Xls.C34_missing_value",
    "Xls.C34_defaults"
   ],
   "note": ""
  },
  {
   "property": "C35",
   "status": "partial",
   "theorems": [
    "Xls.C35_number_of_series_violated",
    "Xls.C35_longest_list_partial",
    "Xls.C35_number_of_series_partial"
   ],
   "note": "The full statement is false of the code. Witnesses: One header and a time header of two cells make two series. Proved instead: How many series there are, exactly: as many as the longest of the lists has entries. (Of the full claim this leaves what is false of the code, that these are the headers: see `C35_number_of_series_violated`.) The lists of a `composed_headers_coord` that is given are replaced or not, so it is left aside here. There are at least as many series as headers, and exactly as many when no other list given is longer. (Missing for the full claim: it fails when another list is longer, see above.)"
  },
  {
   "property": "C36",
   "status": "proved",
   "theorems": [
    "Xls.C36_text",
    "Xls.C36_texts",
    "Xls.C36_object",
    "Xls.C36_time_header"
   ],
   "note": ""
  },
  {
   "property": "C37",
   "status": "proved",
   "theorems": [
    "Xls.C37_split",
    "Xls.C37_object",
    "Xls.C37_composed_range"
   ],
   "note": ""
  },
  {
   "property": "C38",
   "status": "proved",
   "theorems": [
    "Xls.C38_other_series",
    "Xls.C38_nothing_else",
    "Xls.C38_index"
   ],
   "note": ""
  },
  {
   "property": "C39",
   "status": "proved",
   "theorems": [
    "Xls.C39_remaining"
   ],
   "note": ""
  },
  {
   "property": "C40",
   "status": "proved",
   "theorems": [
    "Xls.C40_given",
    "Xls.C40_evident",
    "Xls.C40_skipped"
   ],
   "note": ""
  },
  {
   "property": "C41",
   "status": "proved",
   "theorems": [
    "Xls.C41_vertical",
    "Xls.C41_horizontal",
    "Xls.C41_otherwise_none",
    "Xls.C41_object"
   ],
   "note": ""
  },
  {
   "property": "C42",
   "status": "partial",
   "theorems": [
    "Xls.C42_context_partial",
    "Xls.C42_beyond_z_violated"
   ],
   "note": "The full statement is false of the code. Witnesses: Without its last hypothesis the claim of `C42_context_partial` is false. The headers AA1 and AA2 are to the right of B1 and B2 but get no context. Proved instead: Each header is given the labels of the groups in whose scope it lies, widest group first, and no others. Missing: groups in one column whose column has more or fewer letters than the header's (`C42_beyond_z_violated`)."
  },
  {
   "property": "C43",
   "status": "partial",
   "theorems": [
    "Xls.C43_complete_partial",
    "Xls.C43_converse_partial",
    "Xls.C43_time_header_violated",
    "Xls.C43_converse_violated",
    "Xls.C43_missing_names"
   ],
   "note": "The full statement is false of the code. Witnesses: An object is reported complete although its last series has no time header. Converse violated: an object is built in which nothing is missing but which is not complete, because a list of the wrong length is accepted. Proved instead: An object (of lists and missing values) reported complete has no missing parameter, and each non-optional parameter has one entry per series, except the time header. Missing: the entries of the time header (`C43_time_header_violated`). The converse, where it holds: an object whose parameters have one entry per series, with nothing missing, is reported complete. `get_missings` names, each once, the parameters without a value among those that need one: all but the names, the ends, the composed headers and the contexts of the series. `num_missings` is how many there are."
  },
  {
   "property": "C44",
   "status": "partial",
   "theorems": [
    "Xls.C44_rebuild_violated",
    "Xls.C44_invalid_parameter"
   ],
   "note": "The full statement is false of the code. Witnesses: No object built from a dictionary is accepted by the constructor. Proved instead: With its time header in place, such an object is reported as invalid parameters."
  },
  {
   "property": "C45",
   "status": "proved",
   "theorems": [
    "Xls.C45_product",
    "Xls.C45_only_complete",
    "Xls.C45_critical"
   ],
   "note": ""
  },
  {
   "property": "C46",
   "status": "proved",
   "theorems": [
    "Xls.C46_first_success",
    "Xls.C46_all_fail"
   ],
   "note": ""
  },
  {
   "property": "C47",
   "status": "proved",
   "theorems": [
    "Xls.C47_isolated",
    "Xls.C47_in_order",
    "Xls.C47_sheet_untouched"
   ],
   "note": ""
  },
  {
   "property": "C48",
   "status": "partial",
   "theorems": [
    "Xls.C48_exact_partial",
    "Xls.C48_columns_violated",
    "Xls.C48_distinct_partial",
    "Xls.C48_single_frame_violated",
    "Xls.C48_prefix_violated"
   ],
   "note": "The full statement is false of the code. Witnesses: With three tables of which one has an empty row, and nothing said about empty rows, both completions work and give different results. Without safe mode the call returns the first of them; in safe mode it raises, because data frames with different columns are not just different for `compare_data_frames`. If each set of parameters that works gives a single data frame, all of them are in the answer, however many times the same one occurs. A result that starts with the data frames of an earlier one is taken for a repetition of it, although it has more of them. Proved instead: Exactly which results there are in an answer of safe mode: those of the attempts that work, in their order, except that a result is left out if it is taken for a repetition of one reported before. (What is false of the code is that these are the repetitions: see `TakenFor`, `C48_single_frame_violated` and `C48_prefix_violated`.) If in safe mode every set of parameters that works gives the same number, at least two, of proper data frames and an answer is returned, then its results are pairwise different, each comes from one of the sets of parameters, and each of these is represented. Missing: results of a single data frame (`C48_single_frame_violated`) and results with different numbers of data frames (`C48_prefix_violated`)."
  },
  {
   "property": "C49",
   "status": "proved",
   "theorems": [
    "Xls.C49_preserved",
    "Xls.C49_other_sheets"
   ],
   "note": ""
  },
  {
   "property": "C50",
   "status": "partial",
   "theorems": [
    "Xls.C50_dictionary_partial",
    "Xls.C50_incomplete_partial",
    "Xls.C50_object_partial",
    "Xls.C50_violated",
    "Xls.C50_reuse_violated"
   ],
   "note": "The full statement is false of the code. Witnesses: After a plain table was scraped with a complete object, the object has the row of the last date as the end of every series. When the object is used again on a sheet with one more month, that month is silently left out; an object that was not used before gives it. Proved instead: The part that holds for a dictionary or a JSON file: no existing object is modified, whatever the outcome. (The dictionary itself is a value here: it is deep-copied before anything is done with it, `parameters.py:166`.) The part that holds for an object in which something is missing: it is not modified. The part that holds for every object: nothing but its `data_ends` is modified, and no other object is."
  },
  {
   "property": "C51",
   "status": "proved",
   "theorems": [
    "Xls.C51_sheet",
    "Xls.C51_wellFormed",
    "Xls.C51_book"
   ],
   "note": ""
  },
  {
   "property": "C52",
   "status": "proved",
   "theorems": [
    "Xls.C52_every_row",
    "Xls.C52_not_a_number",
    "Xls.C52_blank_rows"
   ],
   "note": ""
  },
  {
   "property": "C53",
   "status": "proved",
   "theorems": [
    "Xls.C53_markers",
    "Xls.C53_neither",
    "Xls.C53_one_text",
    "Xls.C53_one_text_number",
    "Xls.C53_dictionary"
   ],
   "note": ""
  },
  {
   "property": "C54",
   "status": "proved",
   "theorems": [
    "Xls.C54_dated_rows"
   ],
   "note": ""
  },
  {
   "property": "C55",
   "status": "proved",
   "theorems": [
    "Xls.C55_values_on_their_dates",
    "Xls.C55_non_continuous"
   ],
   "note": ""
  },
  {
   "property": "C56",
   "status": "partial",
   "theorems": [
    "Xls.C56_nothing_invented_partial",
    "Xls.C56_month_ends_violated"
   ],
   "note": "The full statement is false of the code. Witnesses: For the consecutive month ends 31 January, 28 February and 31 March a NaN is put before the last value, because the expected date has drifted to 28 March. Proved instead: When the dates are consecutive periods, filling adds nothing. (That the dates are consecutive one by one is what is missing for month ends, see below.)"
  },
  {
   "property": "C57",
   "status": "proved",
   "theorems": [
    "Xls.C57_dealt_by_pattern",
    "Xls.C57_every_value_once"
   ],
   "note": ""
  },
  {
   "property": "C58",
   "status": "proved",
   "theorems": [
    "Xls.C58_given_name",
    "Xls.C58_composed_name",
    "Xls.C58_composed_not_text"
   ],
   "note": ""
  },
  {
   "property": "C59",
   "status": "proved",
   "theorems": [
    "Xls.C59_least_free_suffix",
    "Xls.C59_no_duplicates",
    "Xls.C59_frames_well_formed"
   ],
   "note": ""
  },
  {
   "property": "C60",
   "status": "proved",
   "theorems": [
    "Xls.C60_index_of_periods"
   ],
   "note": ""
  },
  {
   "property": "C61",
   "status": "partial",
   "theorems": [
    "Xls.C61_horizontal",
    "Xls.C61_vertical_partial",
    "Xls.C61_vertical_violated",
    "Xls.C61_incomplete_violated"
   ],
   "note": "The full statement is false of the code. Witnesses: The same series in a column. The last cycle has no annual value, so the annual frequency gets no last date and the extraction fails. If the last of the cycles through several frequencies down a column is incomplete and has not all of them, nothing is given back, whatever the dates and the values are. Proved instead: A horizontal series that cycles through the frequencies of a pattern, at least one cycle long: there is one index for each frequency, in order of appearance, made of the dates of that frequency, from the first to the last one. The same for a vertical series, if its last cycle is complete or at least has all the frequencies: `partialLen` is the number of values in the last cycle."
  },
  {
   "property": "C62",
   "status": "proved",
   "theorems": [
    "Xls.C62_call",
    "Xls.C62_plain_table"
   ],
   "note": ""
  },
  {
   "property": "C63",
   "status": "proved",
   "theorems": [
    "Xls.C63_one_frame_per_range"
   ],
   "note": ""
  },
  {
   "property": "C64",
   "status": "proved",
   "theorems": [
    "Xls.C64_number_letters_number",
    "Xls.C64_letters_number_letters",
    "Xls.C64_coordinate",
    "Xls.C64_spelled",
    "Xls.C64_not_a_cell"
   ],
   "note": ""
  },
  {
   "property": "C65",
   "status": "partial",
   "theorems": [
    "Xls.C65_diagonal_violated",
    "Xls.C65_consecutive_partial",
    "Xls.C65_exactly"
   ],
   "note": "The full statement is false of the code. Witnesses: A second cell diagonally below the first one is accepted although the cells are no run. Proved instead: Every run is accepted; and when the second cell shares the row or the column of the first one, only runs are. Missing: lists whose second cell shares neither (see `C65_exactly`). What exactly is accepted: the cells that share neither row nor column with the first one and precede the first cell that does are ignored; the others must be a run."
  },
  {
   "property": "C66",
   "status": "partial",
   "theorems": [
    "Xls.C66_below",
    "Xls.C66_right_partial",
    "Xls.C66_beyond_z_violated",
    "Xls.C66_no_group"
   ],
   "note": "The full statement is false of the code. Witnesses: The claim of `C66_right_partial` without its last hypothesis is false: AA1 is to the right of B1:B2 but is not found in its scope. Proved instead: Below a horizontal group of cells: the scope is everything in their columns that is not above them. The part that holds right of a vertical group: for columns with equally many letters (for instance both up to Z) the scope is everything in their rows that is not left of them. Missing: columns with different numbers of letters (`C66_beyond_z_violated`). A group that is neither in one row nor in one column is refused; so are groups of fewer than two cells."
  },
  {
   "property": "C67",
   "status": "partial",
   "theorems": [
    "Xls.C67_reflexive",
    "Xls.C67_tolerance_partial",
    "Xls.C67_negative_violated",
    "Xls.C67_zero_violated",
    "Xls.C67_symmetry_violated",
    "Xls.C67_nearly_symmetric"
   ],
   "note": "The full statement is false of the code. Witnesses: A negative number is approximately equal only to itself, whatever the tolerance. Comparing zero with another number raises. The test is not symmetric. Proved instead: A number is approximately equal to itself, a NaN too. For a positive first number and a second number that is not zero it is the test of the documentation. Missing: negative numbers and zero (`C67_negative_violated`, `C67_zero_violated`). For positive numbers it is symmetric up to a slightly larger tolerance."
  },
  {
   "property": "C68",
   "status": "proved",
   "theorems": [
    "Xls.C68_equal_iff_close",
    "Xls.C68_reflexive",
    "Xls.C68_different_columns"
   ],
   "note": ""
  },
  {
   "property": "C69",
   "status": "proved",
   "theorems": [
    "Xls.C69_resolution",
    "Xls.C69_existing_or_request",
    "Xls.C69_default"
   ],
   "note": ""
  },
  {
   "property": "C70",
   "status": "proved",
   "theorems": [
    "Xls.C70_xlsx",
    "Xls.C70_xls",
    "Xls.C70_other"
   ],
   "note": ""
  },
  {
   "property": "C71",
   "status": "partial",
   "theorems": [
    "Xls.C71_every_cell_partial",
    "Xls.C71_empty_sheet_violated"
   ],
   "note": "The full statement is false of the code. Witnesses: With an empty sheet the conversion never ends. Proved instead: Without empty sheets the conversion ends and gives every sheet with its title and each value at its place. Missing: empty sheets (`C71_empty_sheet_violated`)."
  },
  {
   "property": "C72",
   "status": "partial",
   "theorems": [
    "Xls.C72_innermost_partial",
    "Xls.C72_outside_violated",
    "Xls.C72_relative"
   ],
   "note": "The full statement is false of the code. Witnesses: For an absolute path in no directory of that name the search never ends. Proved instead: The innermost directory named as the package, among those that contain the path, is found. Missing: paths that are in no such directory (`C72_outside_violated`). For a path that is not absolute the answer is the first entry of the search path with that name, and an error if there is none."
  },
  {
   "property": "C73",
   "status": "proved",
   "theorems": [
    "Xls.C73_classified",
    "Xls.C73_unambiguous",
    "Xls.C73_refused"
   ],
   "note": ""
  },
  {
   "property": "C74",
   "status": "proved",
   "theorems": [
    "Xls.C74_accepted",
    "Xls.C74_described"
   ],
   "note": ""
  },
  {
   "property": "C75",
   "status": "proved",
   "theorems": [
    "Xls.C75_index_between",
    "Xls.C75_index_members"
   ],
   "note": ""
  },
  {
   "property": "C76",
   "status": "proved",
   "theorems": [
    "Xls.C76_described",
    "Xls.C76_table",
    "Xls.C76_call"
   ],
   "note": ""
  },
  {
   "property": "C77",
   "status": "partial",
   "theorems": [
    "Xls.C77_list_partial",
    "Xls.C77_one_partial",
    "Xls.C77_refused_partial",
    "Xls.C77_new_headers_partial",
    "Xls.C77_frequency_violated",
    "Xls.C77_length_violated",
    "Xls.C77_headers_violated",
    "Xls.C77_composed_violated"
   ],
   "note": "The full statement is false of the code. Witnesses: Codes that the constructor takes are refused in an assignment. A list that is too long is assigned, and then there are series without parameters. After assigning fewer headers the other parameters still have their old entries, so that the object is not complete any more. After assigning plain headers the composed headers are still those of the old headers. Proved instead: A list with an allowed entry for each series is assigned as it is. One allowed value goes to each series. Any other value is refused, for parameters that are no lists themselves. As many header texts as there are series (without ranges) are assigned part by part: the last coordinate of each is the header; those before it, if there are any, are the composed headers; no other parameter changes."
  },
  {
   "property": "C78",
   "status": "partial",
   "theorems": [
    "Xls.C78_forget",
    "Xls.C78_composed_violated"
   ],
   "note": "The full statement is false of the code. Witnesses: With composed headers in the second series only, forgetting raises `TypeError`. Proved instead: Forgetting what is not critical: the critical parameters, those with a default and the guessed one stay; the optional ones are `None` for each series; the others are missing, or stay if they are not to be forgotten because series differ. The number of series stays."
  },
  {
   "property": "C79",
   "status": "partial",
   "theorems": [
    "Xls.C79_round_trip_partial",
    "Xls.C79_shown",
    "Xls.C79_composed_violated",
    "Xls.C79_context_violated"
   ],
   "note": "The full statement is false of the code. Witnesses: The same composed header in all series is shown once, and taken for one text per series. The compact representation of series with a context is refused. Proved instead: The compact representation builds the same parameters, for series that can be told from it. What is shown: nothing for parameters that are left out; the value itself if it is that of every series; otherwise the list of values."
  },
  {
   "property": "C80",
   "status": "partial",
   "theorems": [
    "Xls.C80_worksheets_partial",
    "Xls.C80_workbooks_partial",
    "Xls.C80_size_violated",
    "Xls.C80_sheets_violated",
    "Xls.C80_numeral_violated",
    "Xls.C80_negative_violated"
   ],
   "note": "The full statement is false of the code. Witnesses: Rows and columns that only one worksheet has are not looked at. Worksheets that only one workbook has are not looked at. Texts that read as numbers must be the same to the last blank, and a number beside the text of it raises. Of negative numbers only equal ones are accepted. Proved instead: Two worksheets of the same size none of whose texts reads as a number compare as equal exactly if all their cells say the same. Missing: worksheets of different sizes (`C80_size_violated`), texts that read as numbers (`C80_numeral_violated`) and tolerance for negative numbers, which `SameContent` leaves out (`C80_negative_violated`). Workbooks with the same number of worksheets of the same sizes compare as equal exactly if their worksheets say the same, one after the other. Missing: as for `C80_worksheets_partial`, and different numbers of worksheets (`C80_sheets_violated`)."
  },
  {
   "property": "C81",
   "status": "proved",
   "theorems": [
    "Xls.C81_period_ranges",
    "Xls.C81_empty"
   ],
   "note": ""
  },
  {
   "property": "C82",
   "status": "partial",
   "theorems": [
    "Xls.C82_named",
    "Xls.C82_found_partial",
    "Xls.C82_not_found",
    "Xls.C82_directory_violated"
   ],
   "note": "The full statement is false of the code. Witnesses: A directory of that name is always taken for an `.xlsx` file, whatever is in it and whatever files are beside it. Proved instead: A path that names a supported extension is taken as it is. Otherwise the file is the first that exists of those with the path and a supported extension. Missing: paths that are also directories (`C82_directory_violated`). Without such a file it is reported."
  },
  {
   "property": "C83",
   "status": "partial",
   "theorems": [
    "Xls.C83_index_partial",
    "Xls.C83_year_month_violated",
    "Xls.C83_year_note_violated",
    "Xls.C83_every_year_violated"
   ],
   "note": "The full statement is false of the code. Witnesses: C83 fails as stated: in a series with missing values a year takes the month of the quarter before it, so that the year 2008 is read as October 2008. C83 does not extend to numbered footnotes on a year (quarters may have them): the index ends before the year, without any error. C83 does not extend to a year written with every quarter: where the totals come last, `2003 II` is read as January 2003 when there may be missing values. Proved instead: A time index that cycles through several frequencies, written as dates, as years followed by their quarters or as quarters followed by their total, is read as written: it ends where it ends, and exactly its cells change, to the dates they say. What is missing: years before their quarters need `missings` to be false."
  },
  {
   "property": "C84",
   "status": "proved",
   "theorems": [
    "Xls.C84_table",
    "Xls.C84_call"
   ],
   "note": ""
  },
  {
   "property": "C85",
   "status": "proved",
   "theorems": [
    "Xls.C85_sound_frames"
   ],
   "note": ""
  },
  {
   "property": "C86",
   "status": "proved",
   "theorems": [
    "Xls.C86_common"
   ],
   "note": ""
  },
  {
   "property": "C87",
   "status": "partial",
   "theorems": [
    "Xls.C87_working_days_partial",
    "Xls.C87_refused",
    "Xls.C87_moved_violated",
    "Xls.C87_other_days_violated"
   ],
   "note": "The full statement is false of the code. Witnesses: Without missing values declared, a Monday after a Friday is taken for a mistake and becomes the Saturday; its value comes under the Saturday. With missing values declared, days other than the working days come out as working days if they are equally many: the value of the Saturday comes under the Monday. Proved instead: A daily table that leaves days out: if the days in it are those `pandas` takes for the working days between the first and the last, and each series has one value for each day, the call returns one data frame with these days and, under them, these values. Missing: tables that leave out other days (`C87_other_days_violated`) and tables whose parameters do not allow for missing values (`C87_moved_violated`). If some series has neither as many values as there are periods between the first and the last date nor, for days, as many as there are working days, the call raises `ValueError`: values are never spread over an index of another size."
  },
  {
   "property": "C88",
   "status": "partial",
   "theorems": [
    "Xls.C88_several_columns_partial",
    "Xls.C88_whole_number",
    "Xls.C88_ends_violated"
   ],
   "note": "The full statement is false of the code. Witnesses: It does not hold: with an end for the first series only, the others stay without and an assertion fails. Proved instead: A table whose dates are spread over several columns (rows): if what the cells of each row (column) say together, from left to right with a blank between any two, are dates in one of the known ways, `get_data_frames` gives the data frame with these dates. Empty cells, zeros and the text `None` say nothing; a number says its whole part. The cleaned dates replace the cells of the first of the columns. Missing from the full claim: the end given for the first series and not for another one. Which texts count as whole numbers in such a column: digits, perhaps with single underscores between them, after a sign or not, with blanks around them or not. Their number is written plainly; any other text is taken as it is."
  },
  {
   "property": "C89",
   "status": "proved",
   "theorems": [
    "Xls.C89_numbers_from_cells",
    "Xls.C89_no_other_number"
   ],
   "note": ""
  },
  {
   "property": "C90",
   "status": "proved",
   "theorems": [
    "Xls.C90_usable",
    "Xls.C90_refused"
   ],
   "note": ""
  },
  {
   "property": "C91",
   "status": "partial",
   "theorems": [
    "Xls.C91_nothing",
    "Xls.C91_workbook",
    "Xls.C91_text",
    "Xls.C91_directory_violated",
    "Xls.C91_missing_violated",
    "Xls.C91_lowercase_violated"
   ],
   "note": "The full statement is false of the code. Witnesses: If there is a directory of that name (as for data frames of several frequencies) and no workbook, the directory itself is opened as a workbook, whatever it contains and whatever other files there are. For a `.csv` or `.json` file that does not exist, and no directory either, no exception is raised: there are just no data frames. The data frames of a directory cannot be loaded one by one (`string.lowercase` does not exist). Proved instead: If there is no file or directory to be found, both functions raise `NoSerializedDataFrameFound`. From a workbook the data frames of all its sheets are loaded, in their order. From a `.csv` or `.json` file one data frame is loaded; if there is no such file but a directory of the same name without the ending, those of all files in it with this ending."
  },
  {
   "property": "C92",
   "status": "partial",
   "theorems": [
    "Xls.C92_round_trip_partial",
    "Xls.C92_short_violated",
    "Xls.C92_february_violated",
    "Xls.C92_semesters_violated",
    "Xls.C92_business_violated"
   ],
   "note": "The full statement is false of the code. Witnesses: A data frame with few rows cannot be loaded again, because the time from the first to the last date is divided by the number of dates, not of the steps between them. Six months can be loaded again or not, depending on where they start. Semesters are refused, however many there are. Business days are refused (here those of two weeks). Proved instead: A data frame that `get_data_frames` gave back is loaded again from a file as it was, if it has enough rows (and its frequency is neither semesters nor business days)."
  },
  {
   "property": "C93",
   "status": "partial",
   "theorems": [
    "Xls.C93_converted_partial",
    "Xls.C93_several_violated"
   ],
   "note": "The full statement is false of the code. Witnesses: A workbook with several data frames ends the conversion with an `AttributeError` (`string.lowercase`); the workbooks after it are not converted and the working directory is not restored. Proved instead: If each workbook of the directory holds one data frame, each is written to a JSON and a CSV file of the same name, no directory is made and the working directory is afterwards what it was."
  },
  {
   "property": "C94",
   "status": "proved",
   "theorems": [
    "Xls.C94_columns",
    "Xls.C94_answer"
   ],
   "note": ""
  },
  {
   "property": "C95",
   "status": "proved",
   "theorems": [
    "Xls.C95_every_series",
    "Xls.C95_one_column"
   ],
   "note": ""
  },
  {
   "property": "C96",
   "status": "partial",
   "theorems": [
    "Xls.C96_same",
    "Xls.C96_again_partial",
    "Xls.C96_call_partial",
    "Xls.C96_violated"
   ],
   "note": "The full statement is false of the code. Witnesses: Three days, the last one twice. The first call takes the third row as the last one and gives a data frame; it notes this end in the object, so that the second call takes the repeated date for an error. Proved instead: If data frames were got from a worksheet then, with the parameters as they are afterwards, one gets the same data frames from the same worksheet or an error: never others. If besides the last date of each time index stands there only once, one does get them again. Through the entry point, the workbook being kept: the second call with the same object gives the same answer as the first."
  },
  {
   "property": "C97",
   "status": "partial",
   "theorems": [
    "Xls.C97_offset_partial",
    "Xls.C97_call_partial",
    "Xls.C97_in_turn_partial",
    "Xls.C97_row_violated",
    "Xls.C97_whole_number_violated",
    "Xls.C97_implicit_violated"
   ],
   "note": "The full statement is false of the code. Witnesses: The dates are in a row, one column before the values. The same table with rows and columns exchanged is read; this one is not. In the column of dates and values in turn above, the second value is the whole number 20 instead of 20.0. It is taken for a date that cannot be, the series ends there, and the third value is lost. Dates one row above the values, the month of March left out and the parameters say so. The values of January, February and April are 10, 20 and 40; in the data frame 20 is the value of March, February has none. Proved instead: For series that are not to be filled up where a date is left out. The series of a worksheet have one time index of date cells, in a column or a row, and `time_alignment` says where the date of a value stands: beside it (0), one position before it (-1) or after it (1). Cleaning and extraction give one data frame. Its index is the grid of periods of these dates, its columns are the series with their names and the values that have a date. No cell of the worksheet changes. The same through the entry point. Dates and values in turn in one column: every value that is a number with a decimal point appears in the data frame under the date that stands before (after) it."
  },
  {
   "property": "C98",
   "status": "partial",
   "theorems": [
    "Xls.C98_pairs_partial",
    "Xls.C98_agrees_partial",
    "Xls.C98_count_violated",
    "Xls.C98_not_loaded",
    "Xls.C98_file",
    "Xls.C98_case_file",
    "Xls.C98_path_partial",
    "Xls.C98_path_violated",
    "Xls.C98_own_file_partial",
    "Xls.C98_own_file_violated"
   ],
   "note": "The full statement is false of the code. Witnesses: The number of data frames is not checked. Any beginning of the expected data frames passes, the empty list too, and so does anything that follows all the expected ones. The path of case 0 is the directory. Special case `1` of case 1 has the file of case 11. Proved instead: A list of data frames passes exactly when each of them is close to the expected data frame with the same number. Nothing is said of a data frame without a partner (`C98_count_violated`). A list with as many data frames as expected passes exactly when the two lists agree one by one. Missing: lists of another length (`C98_count_violated`). If the expected result cannot be loaded, the check raises what loading raised. The expected result of a case is what `load_data_frames` gives for the file of the directory that is named after the case and its special part. The workbook and the parameters of a case are opened from the files of their directories that are named in the same way. The path of a case is the path of the file that is loaded for it, for the workbooks and the parameters as for the expected results. Missing: case 0 (`C98_path_violated`). Two test cases with the same file have the same number and the same special case, if the special cases do not begin with a digit."
  },
  {
   "property": "C99",
   "status": "proved",
   "theorems": [
    "Xls.C99_strategies",
    "Xls.C99_order",
    "Xls.C99_added",
    "Xls.C99_used"
   ],
   "note": ""
  },
  {
   "property": "C100",
   "status": "partial",
   "theorems": [
    "Xls.C100_usual_partial",
    "Xls.C100_some_partial",
    "Xls.C100_one_of_partial",
    "Xls.C100_changed_violated"
   ],
   "note": "The full statement is false of the code. Witnesses: The answer is not always that of the values that describe the sheet: with an empty row in the table and nothing said about empty rows, the rows after it are lost, although saying it gives them all. Proved instead: If the call with the usual values for what was left out gives an answer, the call without them gives the same answer. If the call with any of the possible values for what was left out gives an answer, so does the call without them. An answer is never made up: it is what the call with some of the possible values gives."
  },
  {
   "property": "C101",
   "status": "partial",
   "theorems": [
    "Xls.C101_turned_partial",
    "Xls.C101_dates_partial",
    "Xls.C101_call_partial",
    "Xls.C101_call_dates_partial",
    "Xls.C101_turned_violated",
    "Xls.C101_cycles_violated"
   ],
   "note": "The full statement is false of the code. Witnesses: Without the end the vertical table gives its data frame, the horizontal one gives none. The last of the cycles of quarters and years is not complete. The vertical series gives an error, the horizontal one its data frames. Proved instead: Exchanging rows and columns of a worksheet and describing its series accordingly gives the same data frames or the same error, and the same worksheet with rows and columns exchanged; only a `TypeError` may stand in place of it. For series that, with the ends found, make up whole cycles of their frequencies. With the ends given, dates in line with the values and a date at every position, exactly the same data frames are given. Take two workbooks, the worksheets of one being those of the other with rows and columns exchanged. Unless the call for horizontal series raises a `TypeError`, it gives an answer if and only if the one for vertical series does, and the same one. C101 for calls with the ends given, where every position has a date: if the vertical series give data frames, the call for the horizontal ones gives the same answer."
  },
  {
   "property": "C102",
   "status": "partial",
   "theorems": [
    "Xls.C102_own_lists",
    "Xls.C102_filled_partial",
    "Xls.C102_critical_partial",
    "Xls.C102_appended_marker",
    "Xls.C102_as_taken",
    "Xls.C102_templates_violated"
   ],
   "note": "The full statement is false of the code. Witnesses: C102 does not hold if users may append to the lists they find: a template is not independent of those taken before. Proved instead: Templates changed by assignments, and by appending to lists assigned before, leave all later templates and defaults as documented. A complete template whose critical parameters are filled in describes one usual series per header, and nothing is left to be discovered. Missing: users that append to the lists they find in a template; see `C102_templates_violated`. A critical template that is filled in is accepted: one series per header, at the place and with the frequency said. Its other parameters are left to the strategies. A marker appended to the list found in one complete template is a marker of every series described by a complete template taken later. The template as it is taken describes five monthly series below `B1`, `C1`, `E1`, `F1` and `G1`, with their dates below `A1` and their data from row 2 on."
  },
  {
   "property": "C103",
   "status": "partial",
   "theorems": [
    "Xls.C103_tables_partial",
    "Xls.C103_parameters",
    "Xls.C103_rows_violated"
   ],
   "note": "The full statement is false of the code. Witnesses: Two tables in rows that reach to the last used column, the second without its end given: cleaning the first looks up the column after it, which then is in use and blank, so that the end of the second is not found. There is never a data frame. Proved instead: A worksheet with any number of tables of the kind of C76, anywhere on it, each with its own dates and series: `get_data_frames` gives one data frame for each index, in the order in which the indexes first appear in the parameters; series of different tables with the same index are in the same data frame. The dates of all tables are cleaned and nothing else is changed. Missing from the full claim: tables in rows whose end is not given, and time indexes in several columns. The parameters after it are those of the series, each with the end of its table."
  },
  {
   "property": "C104",
   "status": "partial",
   "theorems": [
    "Xls.C104_left_out_partial",
    "Xls.C104_empty_partial",
    "Xls.C104_call_partial",
    "Xls.C104_empty_violated"
   ],
   "note": "The full statement is false of the code. Witnesses: A table in rows, without the end, gives its data frame. With one more empty column, its values unchanged, it gives an error. Proved instead: C104 for calls that may leave parameters out, in safe mode or not: two worksheets with the same title and values give the same answer or exception if the condition holds for all completions that are tried. Two worksheets with the same values give the same data frames or the same error, the same parameters and the same values afterwards, however many empty rows and columns exist in each. For series in columns that start in rows that exist in both, and for series whose end is given. Take two workbooks whose worksheets have the same titles and values. A call gives an answer for one if and only if it gives one for the other, and the same one."
  },
  {
   "property": "C105",
   "status": "partial",
   "theorems": [
    "Xls.C105_call_partial",
    "Xls.C105_grid_partial",
    "Xls.C105_harmless_partial",
    "Xls.C105_width_violated",
    "Xls.C105_harmless_violated"
   ],
   "note": "The full statement is false of the code. Witnesses: With a width of two the fields are wider than their borders. Printing the default range makes a table in rows, without the end given, unreadable. Proved instead: C105 for calls that may leave parameters out: the answer or exception is the same after a range of the worksheet was printed. For a width of at least three, `print_xl_range` prints a grid: two lines per row, all equally long, and in each row a field for each column of the range, with the coordinate and the value of the cell, cut off with three points exactly if they do not fit. Printing changes no value, and afterwards series in columns, and series whose end is given, give the same data frames or the same error as before."
  },
  {
   "property": "C106",
   "status": "partial",
   "theorems": [
    "Xls.C106_joined",
    "Xls.C106_figures_partial",
    "Xls.C106_decimals_violated",
    "Xls.C106_whole_violated"
   ],
   "note": "The full statement is false of the code. Witnesses: The number read from `0.043` is said to have 16 decimals; `0.042` and `0.044` have three. A whole number of 15 digits, which is a binary64 number, is said to have a decimal. Proved instead: The number for two series together is the greater of their numbers, a missing value does not count, and the number is never negative. For whole numbers, halves, quarters and so on with at most 13 digits (`Short`), `significant_figures` is the number of decimals needed to write all the values: no value has more, and some value has as many unless it is 0. Missing: other values (`C106_decimals_violated`) and more digits (`C106_whole_violated`)."
  },
  {
   "property": "C107",
   "status": "proved",
   "theorems": [
    "Xls.C107_determined"
   ],
   "note": ""
  },
  {
   "property": "C108",
   "status": "partial",
   "theorems": [
    "Xls.C108_extent_partial",
    "Xls.C108_moved_partial",
    "Xls.C108_call_partial",
    "Xls.C108_group_violated",
    "Xls.C108_row_violated",
    "Xls.C108_left_out_partial"
   ],
   "note": "The full statement is false of the code. Witnesses: For a group of series in rows: the table and the dictionary move 24 columns to the right, and the names of the series lose the name of the group. For a series in a row without its end: below a longer line it gives an error. Proved instead: Take a table and the same table elsewhere, on a worksheet that goes on as far after it, and the parameters that say where it stands. Both give the same data frames or the same error, and corresponding cells of the table hold the same values afterwards. Nothing else on the worksheets matters. Take a table and the same table elsewhere, among other things, and the parameters that say where it stands. Both give the same data frames or the same error, and corresponding cells of the table hold the same values afterwards. Nothing else on the worksheets matters, nor how far they reach. For series in columns, and for series in rows whose end is given. The table is on the worksheet named in one call, and elsewhere on the worksheet named in the other. C108 for calls that may leave parameters out, in safe mode or not: the table is on the worksheet named in one call, and elsewhere on the worksheet named in the other; the same parameters are left out, and the others say where it stands. The answer or exception is the same if the conditions of `C108_moved_partial` hold for all completions that are tried."
  },
  {
   "property": "C109",
   "status": "proved",
   "theorems": [
    "Xls.C109_joined",
    "Xls.C109_selection",
    "Xls.C109_call"
   ],
   "note": ""
  },
  {
   "property": "C110",
   "status": "partial",
   "theorems": [
    "Xls.C110_exact_partial",
    "Xls.C110_order_partial",
    "Xls.C110_surest_first_violated",
    "Xls.C110_answer_violated"
   ],
   "note": "The full statement is false of the code. Witnesses: If two or more parameters were left out and the last of the list was not (objects made from a dictionary always have it), the first departure from the usual values is in the surest of them, not in the least sure. The order makes the answer wrong: eight days with markers on two of them, and nothing said about continuity and missing values. By sureness the first completion that gives an answer is the one that describes the sheet (missing values), with the value 5 on Friday the 7th, where it stands in the sheet. The answer is the one of a later completion (not continuous), with the value 5 on Wednesday the 5th. Proved instead: The attempts and their order, whatever was left out: the choices as one counts, where the names change in the order in which they come up from both ends of the list. If only one parameter was left out, or the last ones of the list and at most one other, the attempts come in the order of how sure the usual values are."
  },
  {
   "property": "C111",
   "status": "partial",
   "theorems": [
    "Xls.C111_year_number",
    "Xls.C111_quarter_number",
    "Xls.C111_month_number",
    "Xls.C111_year_month_number_partial",
    "Xls.C111_october_violated"
   ],
   "note": "The full statement is false of the code. Witnesses: Year and month as a number with two decimals, 1991.01 to 1991.12: the number 1991.10 is the number 1991.1, so October is read as January. Proved instead: In a yearly index a number whose whole part has four digits is 1 January of that year. In a quarterly index, after a date, a number with whole part 1, 2, 3 or 4 is the first day of that quarter of the same year. In a monthly index, after a date, a number with whole part from 1 to 12 is the first day of that month of the same year (the text of a number has no letters). In a monthly index a number with decimals is the first day of the month that its decimals, as they are shown, name in the year that is its whole part."
  },
  {
   "property": "C112",
   "status": "partial",
   "theorems": [
    "Xls.C112_remembered",
    "Xls.C112_reuse_partial",
    "Xls.C112_several_violated"
   ],
   "note": "The full statement is false of the code. Witnesses: If safe mode gives several results, what is kept is the last attempt, whether it worked or not. Here it did not: asking again with it raises. Proved instead: If a call gives one result, in safe mode or not, the parameters that are kept for the worksheet are those that gave it: the given ones, with one of the possible values for each parameter that was left out, and with the ends that were found. Under the conditions of `C96_again_partial` for the completions that work, whoever asks again with what was kept, in any mode, gets the same result."
  },
  {
   "property": "C113",
   "status": "partial",
   "theorems": [
    "Xls.C113_apart_partial",
    "Xls.C113_call_partial",
    "Xls.C113_business_violated",
    "Xls.C113_header_violated"
   ],
   "note": "The full statement is false of the code. Witnesses: The condition on business days is needed. A table of all days and a table of working days between the same two days stand apart, and each is read alone. Together they are not read. Tables that stand apart but name the same header of their dates are not read together: only the dates of the first one are read. Proved instead: Take series with a single frequency each, of any number of tables that stand apart on a worksheet. If the worksheet can be read with all of them, then it can be read with each alone; the data frames hold the columns of those, one data frame for each index. Conversely, if each series alone can be read, so can all. Missing from the full claim: a table of business days beside another one or one of all days (`C113_business_violated`); different tables that name the same header of their dates (`C113_header_violated`); several frequencies or time columns; series in rows without a given end. The answer is the only data frame, or the list of them."
  },
  {
   "property": "C114",
   "status": "partial",
   "theorems": [
    "Xls.C114_numbers",
    "Xls.C114_call",
    "Xls.C114_left_out_partial",
    "Xls.C114_mapped",
    "Xls.C114_safe_violated"
   ],
   "note": "The full statement is false of the code. Witnesses: In safe mode it depends on the numbers how many results are given: all ways to fill in what was left out read cells with numbers from both worksheets, but on one of them two of these ways give the same numbers. Proved instead: C114 for parameters that are complete. Two worksheets have the same dates and headers, and where one has a number for a value the other has a number too; `R` holds between such numbers. Then reading fails with the same error on both, or gives data frames with the same dates and columns in which `R` holds between corresponding numbers. The parameters are completed in the same way. In safe mode or not, whose parameters are complete. C114 for calls without safe mode that may leave parameters out, if the worksheets correspond under all completions that may be tried. As seen by someone who changes all numbers in the same way, for instance from thousands to units."
  },
  {
   "property": "C115",
   "status": "partial",
   "theorems": [
    "Xls.C115_extends_partial",
    "Xls.C115_call_partial",
    "Xls.C115_days_violated",
    "Xls.C115_texts_violated"
   ],
   "note": "The full statement is false of the code. Witnesses: Negated: a Thursday is added to a table of days, and the values of the Saturday, the Sunday and the Monday are found at the Monday, the Tuesday and the Wednesday. Negated: of Sundays written in the American way, the last one, 9 May, is taken for 5 September until another one is added. Proved instead: Rows are added below a table and the data frames are asked for again with the same complete parameters. If both calls give a data frame, the second one goes on from the first: same frequency and columns, and the rows of the first one come first, unchanged. Here `e` is the row where the series were found to end, which the first call notes in the parameters. Conditions: the series have one frequency and their dates in common, go down and have no end given; the cells with their names are not below the end; the last date is read as it stands; neither data frame is one of working days. For calls: the same of two calls with the same complete parameters, in any mode, on a workbook and on another one in whose worksheet rows were added. The end `e` is the one in the parameters that the first call gives back."
  },
  {
   "property": "C116",
   "status": "proved",
   "theorems": [
    "Xls.C116_reflexive",
    "Xls.C116_equivalence",
    "Xls.C116_scrape",
    "Xls.C116_call"
   ],
   "note": ""
  },
  {
   "property": "C117",
   "status": "proved",
   "theorems": [
    "Xls.C117_headers",
    "Xls.C117_call",
    "Xls.C117_left_out"
   ],
   "note": ""
  },
  {
   "property": "C118",
   "status": "proved",
   "theorems": [
    "Xls.C118_one_date",
    "Xls.C118_dates",
    "Xls.C118_call",
    "Xls.C118_left_out",
    "Xls.C118_quarter_letters"
   ],
   "note": ""
  },
  {
   "property": "C119",
   "status": "proved",
   "theorems": [
    "Xls.C119_both_modes",
    "Xls.C119_safe_raises"
   ],
   "note": ""
  },
  {
   "property": "C120",
   "status": "proved",
   "theorems": [
    "Xls.C120_names",
    "Xls.C120_call",
    "Xls.C120_left_out",
    "Xls.C120_number_header"
   ],
   "note": ""
  },
  {
   "property": "C121",
   "status": "proved",
   "theorems": [
    "Xls.C121_beginning",
    "Xls.C121_ends",
    "Xls.C121_call"
   ],
   "note": ""
  },
  {
   "property": "C122",
   "status": "proved",
   "theorems": [
    "Xls.C122_rest",
    "Xls.C122_given",
    "Xls.C122_call"
   ],
   "note": ""
  },
  {
   "property": "C123",
   "status": "proved",
   "theorems": [
    "Xls.C123_window",
    "Xls.C123_rest",
    "Xls.C123_call"
   ],
   "note": ""
  },
  {
   "property": "C124",
   "status": "proved",
   "theorems": [
    "Xls.C124_parts",
    "Xls.C124_refused",
    "Xls.C124_named",
    "Xls.C124_named_call"
   ],
   "note": ""
  },
  {
   "property": "C125",
   "status": "proved",
   "theorems": [
    "Xls.C125_markers",
    "Xls.C125_call",
    "Xls.C125_same_members",
    "Xls.C125_further_marker"
   ],
   "note": ""
  }
 ]
}