# Formal model of xlseries: design

The target is `/repo` (xlseries 0.2.6, Python 3, openpyxl 2.5.0, arrow 0.5.4, pandas 0.22,
Parsley 1.3). The model is in Lean 4 (`lean/Verif`). Properties are in `properties.jsonl`,
theorem names per property in `MANIFEST.json`.

## 1. Shape of the model

* `lean/Verif/Model/*.lean` — shallow, total, computable functions that mirror the Python
  functions branch by branch. Every definition cites file and lines. Exceptions are values
  (`Except Err`). Mutable state is explicit: a worksheet is a function from (row, column) to a
  cell value together with its high-water marks (`max_row`, `max_column`); functions that
  mutate it return the new sheet *also when they raise*. Workbooks and parameter objects
  live in heaps addressed by references, so that "the caller's object is not changed" is a
  real statement about the heap.
* `lean/Verif/Spec/*.lean` — small independent specifications (calendar, rectangles, runs,
  cartesian products, ...) used in theorem statements.
* `lean/Verif/Lemmas/*.lean` — auxiliary lemmas.
* `lean/Verif/Props/*.lean` — the property theorems, named `Cnn_...`, each with an `example`
  showing that its hypotheses are met by a concrete non-trivial case.

When the code violates a property the theorem named `Cnn_..._violated` exhibits a concrete
witness on the model, and the part that does hold is proved as `Cnn_..._partial`.

## 2. Model dictionary

| Python | Lean |
|---|---|
| `arrow.Arrow` / `datetime` (UTC) | `Time` = year, month, day, microseconds of the day |
| `int` cell | `Int`; `float` cell = `Num` = NaN or an exact rational (no rounding, no infinities) |
| `str` | `List Char` |
| cell value | `Cell` = none, bool, int, float, str, datetime |
| parameter value | `PVal` (nested: lists, dicts) |
| worksheet | `Sheet` |
| exception | `Err` constructor |
| Parsley grammar | PEG combinators over `List Char`, greedy repetition, ordered choice, whole input consumed |
| `pd.date_range` | enumeration by offset (documented pandas semantics) |

External functions that are not modelled become parameters bundled in a structure `Ext`
(`Model/Sheet.lean`; theorems quantify over all of them, so nothing is assumed about them unless a
hypothesis says so): `unidecode`, `float(str)`, `str(float)`, `str(datetime)`, the arrow month-name
tables, `arrow.get(str, format)`, `arrow.get(value)` and `pandas.Timestamp(value)` for values that are
not times, the current time (`arrow.get(None)`), and the business days between two days.

### Modules

| Module | Code it models |
|---|---|
| `Model/Basic` | strings (`strip`, `split`, `upper`, ...), exceptions |
| `Model/Time` | `utils/time_manipulation.py` `increment_time`, `relativedelta` clamping |
| `Model/Sheet` | openpyxl worksheets, cell values, coordinates, column letters |
| `Model/Peg`, `Model/ParseTime` | `strategies/clean/parse_time.py`: all twelve parsers, their grammars and their order |
| `Model/TimeIndex` | `strategies/clean/time_index.py`: cleaning loop, progression, end detection, strategies |
| `Model/PyVal`, `Model/SParams` | Python values of parameters, truth value, equality, parameters of one series |
| `Model/Coords` | `utils/xl_methods.py`: ranges, scopes, consecutive cells |
| `Model/Params` | `strategies/discover/parameters.py`: build, validation, defaults, guesses, access, removal |
| `Model/ParamsView` | the same file: `remove_non_critical`, `get_non_critical_params`, `num_missings`, `compact_repr` |
| `Model/Templates` | the same file: `get_critical_params_template`, `get_complete_params_template`; `xlseries.py:156-172`; the lists of the class they share |
| `Model/GetData` | `strategies/get/data.py`: names, values, implicit missings |
| `Model/PeriodRange` | `strategies/get/period_range.py`, `pandas.date_range` for the frequencies used |
| `Model/Frames` | `strategies/strategies.py` `_clean_data`, `_get_data`, `_get_period_ranges`, `_add_name` |
| `Model/Attempts` | `strategies/strategies.py` `_generate_attempts`, `_param_combinations_generator` |
| `Model/Compare` | `utils/comparing.py`, `utils/data_frame.py` `compare_data_frames`, `infer_freq` |
| `Model/CompareCells` | `utils/xl_methods.py` `compare_cells`; `utils/data_frame.py` `compare_period_ranges`, `_parse_path_and_extension` |
| `Model/Display` | `utils/xl_methods.py` `print_xl_range`, the range given by numbers |
| `Model/Floats` | `utils/float_handlers.py`, with binary64 rounding (no infinities, no subnormal numbers) |
| `Model/Stored` | `utils/data_frame.py` `get_data_frames`, `get_data_frame`, `dfs_to_json_and_csv` |
| `Model/Cases` | `utils/case_loaders.py` `check_case_exp_result`, `_gen_filename`; `utils/strategies_helpers.py` |
| `Model/Books` | `xlseries.py` `_load_wb`, `_sanitize_ws_name`; `open_xls_as_xlsx`; `get_package_dir` |
| `Model/Scraper` | `strategies/strategies.py:47-175` and `xlseries.py:70-135` on a memory of worksheets and `Parameters` objects; `make_wb_copy`, `make_ws_copy` |
| `Tests/*` | nothing: the package's tests run on the model (section 4) |

### Simplifications

Each is repeated in the comment of the definition concerned.

* Floats are exact rationals or NaN: no rounding (except in `Model/Floats`), no infinities, no overflow of large
  integers.
* `upper`/`lower` act on ASCII letters only; `strip` removes ASCII white space.
* One time zone; the microsecond is the finest resolution; `increment_time` takes `num >= 0`.
* Coordinates name single cells, with any number of column letters (openpyxl: at most three); ranges are between two
  cells (no whole rows or columns), and a range where one cell is expected counts as `ValueError`. A cell looked up by
  numbers at row `0` is refused with `ValueError` (openpyxl 2.5: `AttributeError`); `_get_time_value` at position 0,
  which in the code reads the header cell (`f_row or ...`), is refused in the same way.
* Header ranges are evaluated eagerly (in the code they are generators consumed at once).
* Only lists are indexed and iterated over where the code would also accept strings or tuples; a missing
  or ill-typed entry of a series raises when the parameters of the series are read, not where the code
  first uses it (composed headers and context as in the code only if the series has no name). A name that is true but
  no text raises; the code takes it for the name of the column.
* `pandas.date_range` is known for the frequency names the package produces; times must fit in a
  `pandas.Timestamp`, tested by whole years.
* After an exception in the middle of a progression step the parser state is as before the step; after
  an exception in `_get_data` the high-water marks of the sheet are as before (cell values are never
  affected).
* `create_sheet` takes titles as they are (openpyxl makes repeated titles different); cell values
  assigned and read back are unchanged; formats, fonts and borders of copied cells are not modelled.
* Parameter files that do not hold a JSON object are not modelled.
* The lists that `Parameters` keeps on the class are a state only in `Model/Templates`; elsewhere they are the
  documented ones.
* Dictionaries are association lists with distinct keys in insertion order.

## 3. Plan per property

| Id | Modelled | How proved |
|---|---|---|
| C01-C05 | `Time`, `increment_time` with relativedelta clamping | arithmetic on month counts and day ordinals; induction on n; witness for C05 and the drift in C03 |
| C06-C10 | `_correct_progression`, typo tests, cleaning loop | decision-logic theorems for one step; loop invariant by induction over rows; witness for C10 |
| C11-C16 | cleaning loop over a `Sheet`, `_estimate_end` | frame/range invariants by induction on the row list, covering all outcomes; witness for C14 |
| C17-C19 | `_next_frequency`, per-frequency last times, strategy lists | induction on k; invariant over the interleaved sequence; case analysis |
| C20-C28 | PEG combinators, every grammar, hole filling, date construction | lemmas on greedy repetition, then symbolic evaluation of each grammar for arbitrary fillers |
| C29-C30 | `ParseSimpleTime` with `arrow.get(str, fmt)` as a parameter | unfolding; witness for C30 |
| C31-C44 | `Parameters._build` step by step, `__setitem__`, `is_complete`, `remove_*` | decision logic, list induction; witnesses for the violated halves |
| C80-C82 | `compare_cells`, `compare_period_ranges`, `_parse_path_and_extension` | pairs of cells by case analysis, sheets by positions; ranges by uniqueness of the chain of offsets |
| C83-C84 | the cleaning loop, extraction and period ranges for patterns of frequencies, together | loop invariant with one last date per frequency; composition of C57, C61 and the frames of C62-C64 |
| C85-C86 | everything a call goes through; `common_row_or_column` | what holds of every date is carried through parsing, cleaning, ranges, extraction and the loop over attempts, without any hypothesis on the parameters; case analysis |
| C88 | the branches of `_clean_data`, the iterator and the extraction for time indexes in several columns | the table of C76 with what is read in place of the cells: `readCell` of Spec/Reading.lean |
| C89 | everything between `get_data_frames` and `_get_values` | every value comes from a row that was read (`rowEntry`), dealing and filling keep the order, cleaning and copying put no number into a sheet; invariant of Lemmas/Answers.lean |
| C90 | `_clean_data`, `_get_period_ranges`, `_get_data` | inversion of a successful run: each call that succeeded is taken apart |
| C91-C93 | Model/Stored.lean: paths, loading, `dfs_to_json_and_csv`; the file system is a parameter | the days between two period starts from the calendar; with C85 every scraped frame with enough rows |
| C94, C95 | `_get_data` series by series: the series in each bucket with their origin | the buckets partition what the series give (permutation of classes); counts of owners |
| C96 | the parameters after a call | lockstep of two runs over cells, the second with the ends of the first; worksheets agree up to high-water marks |
| C97 | the cleaner for offset time indexes, `_value_to_be_added` with `time_alignment` | the loop over cells that hold a date or are passed over; positions of dates and values as sorted lists; witnesses |
| C98, C99 | Model/Cases.lean: `check_case_exp_result`, file names and paths of cases, `get_strategies` on the classes of a module | pairs of `zip` by position with C68; sorting and filtering of lists; witnesses |
| C100 | getDataFrames, scraperFrames, discoverParameters | C45 for the list of attempts, C46 for the first that works, the sheet does not depend on the parameters; witness |
| C101 | the cleaner, the extraction and the frames, for vertical and horizontal series | lockstep of two runs on a sheet and the sheet turned; the differences are the comparison in `_estimate_end` and incomplete cycles; invariant that no date appears in blank cells; witnesses |
| C102 | `ClassLists`, templates as dictionaries that may hold the lists of the class, changes by users | changes as a state machine over the shared lists; the rest from C74; witness |
| C103 | `cleanSeries`, `getData` for series with different indexes | the loop over the series with the set of tables cleaned so far as invariant; a table is not disturbed by dates written elsewhere; buckets by index in order of first appearance; general witness for rows |
| C104 | `cleanTimeIndex`, `scrape` on sheets that differ in `maxRow`, `maxCol` | the loop over blank rows changes no cell and the upward search passes them; relation "same cells, blank below row n, both reach n" kept by every step; slices of the time column do not depend on its length |
| C105 | `printRange`, then `scrape` | a line is a concatenation of fields of equal length, so field j starts at j times this length; printing only raises `maxRow`, `maxCol`, then C104 |
| C106 | Model/Floats.lean: binary64 rounding, `float_handlers.py` | the rounded number is within half of the last bit; numbers of at most 53 bits are exact, so are the products with powers of ten; two different decimal numbers with at most 13 digits are too far apart to be read as the same |
| C107 | get_data_frames as a whole, two runs side by side | every attempt starts from a copy of the same sheet and the same parameters; the loop over the completions keeps the two lists of results equal |
| C108 | `scrape` on two worksheets whose tables correspond, with arbitrary cells elsewhere | lockstep of two runs with the relation "cells of the table are equal, last positions correspond"; every read is shown to be within the table; C104 removes the condition on the last position; for parameters left out, the completions correspond one by one and in order (C110); witnesses |
| C109 | `scrape` and `getDataFrames` on a list of series and on each alone | inversion: if reading succeeds then cleaning gave an end, the one range has a key and every series gives a name and values; all of these depend on the common parameters only; a frame with several columns is made exactly if one with each column is |
| C110 | `discoverParameters` for any set of names left out; the spec counts with a digit per name | induction over the list with names taken from both ends; a counter with digits in another order is a permutation; witnesses for the order and for a wrong answer |
| C111 | `parseTimeValue` on cells with numbers; `CellSays` and `MixedSays` have cases for them, so C76 and the theorems built on it cover tables with such cells | the text of the whole part is the four digits of the year; the grammars as in C21-C26; witness for October |
| C112 | the loop over attempts keeps each result with its object (`attemptLoop_remembers`); `Completion`; then C96 for the second call | one result; for asking again the conditions of C96 for the completions that work; witness for several results in safe mode |
| C113 | `scrape` and `getDataFrames` on series of several tables and on each alone | cleaning one table changes only its dates (`clean_dates`), so the cleaned worksheet agrees with each table cleaned alone on that table's cells (`CleanedOf`); the buckets are keyed by frequency, first and last date, which determine the index (`frameOf_dates`); witnesses for business days and for a shared time header |
| C114 | `scrape` and `getDataFrames` on two worksheets that differ in numbers (`Spec.Renumbered`) | cleaning commutes with replacing all cells off the columns and rows of dates (`cleanData_over`), so both worksheets are cleaned alike; then a relation between the two runs of the extraction (`valuesLoop_rel` … `framesOf_rel`), which looks at numbers only to store them; `C114_mapped` for a function of the numbers; witness for safe mode |
| C115 | `scrape` and `getDataFrames` on a worksheet and on one with rows added (`Spec.RowsAdded`) | the cleaning loop goes through the same states up to the old end (`cleaned_agree`, by `steps_unique` on the small-step form of the loop; the last date needs `ReadAsItStands`, since texts are read with a look at the next cell); then the values read are a prefix (`getSeries_prefix`), the two indexes are comparable (`seriesRanges_comparable`), and the lengths decide which is the longer; witnesses for working days and for texts |
| C116 | `Parameters.__eq__` (`Params.pyEq`), then `scrape` and `getDataFrames` for two equal objects | for values without NaN and dictionaries, comparing equal is having the same canonical form (`pyEq_canon`: truth values written as 0 and 1, marks as decimal numbers); reading commutes with taking that form (`scrape_canon`), since every attribute is only read through its truth value, its whole number or a comparison with a cell; `pairedAttempts_choices` for calls that leave parameters out |
| C117 | `scrape` and `getDataFrames` on two worksheets that differ outside dates and values (`Spec.Retitled`) | the relation between two runs of C114, stated for any relation `K` between columns that adding names keeps (`scrape_pair`, `NamesFit`), here having the same number; composed headers raise on both or on neither (`composedParts_retitled`) |
| C118 | `parseTimeValue`, `scrape` and `getDataFrames` on two worksheets whose dates are written in other ways (`Spec.Rewritten`) | grammars for months and years do not see letters: two texts with the same letters take the same rules (`RuleLike`, `parseElements_letters`); the cleaning of the two worksheets keeps the relation and leaves the same dates (`cleanTimeIndex_rewritten`); the reading is C114's relation between two runs, with `DateCell` for cells read alike as dates |
| C119 | `getDataFrames` in both modes from the same state | without safe mode the loop makes the same attempts up to the first that works (`attemptLoop_modes`); leaving out repetitions keeps the first result (`removeDuplicates_prefix`) |
| C120 | `scrape` and `getDataFrames` with two descriptions that differ in names (`Spec.OtherName`) | both clean the same cells and fill in the same ends (`cleanSeries_names`); the cells looked up for a name are in the used area or looked up anyway (`touchAll_extra`), so both read the same worksheet; the reading relates frames by the number of columns as in C117 |
| C121 | `scrape` and `getDataFrames` without and with `data_ends` (`Spec.cutAt`) | an end that is given stops the cleaning loop earlier but changes none of its steps (`steps_given`, `cleaned_cut`); values and ranges up to the end are the first ones of the whole table (`getSeries_prefix`, `seriesRanges_comparable`, as in C115) |
| C122 | `scrape` and `getDataFrames` without and with a later `data_starts` (`Spec.startAt`) | while no date is corrected the cleaner remembers only the last date and one parser (`Standing`), so after row `m` both runs are in the same state and find the same end (`cleaned_later`); values from `m` on are the last ones (`getSeries_suffix`); the ranges are characterised by their members (C75) and sorted lists with such members are suffixes (`sorted_suffix`); values filled in from the dates (`Spec.FilledIn`) are the last ones of the filled-in list (`fillValues_drop`) |
| C123 | `scrape` and `getDataFrames` for the tables of C76 without and with both `data_starts` and `data_ends` (`Spec.window`) | part of a table is a table: each hypothesis of C76 holds of the rows from `m` to `n` (`timeTable_part`, `onPeriods_part`, `valuesAre_part`); the periods of the part are consecutive periods of the whole (`sublist_part`) |
| C124 | `SParams.ofDict` (`givenName`, `nameParts`), `scrape` and `getDataFrames` for any parameters | cleaning changes no parameter but `data_ends` (`cleanData_others`), and reading makes a typed record of every series (`seriesLoop_typed`); with names the records of two calls differ in parts that nothing reads (`typed_pair`, `seriesStep_pair`) |
| C125 | `handleValue`, `getValues`, `correctProgression`, `scrape` and `getDataFrames` for any parameters | cleaning looks at the markers only if they are one text (`correctProgression_markers`) and leaves only contents of the worksheet, date-times and nothing behind (`cleanTimeIndex_in`); reading asks only whether a content is a marker (`handleValue_markers`) |
| C87 | the fallback to business days in `_get_data`, the check for typing mistakes | the table of C76 without the sizes; both ways to lose the dates as end-to-end witnesses |
| C74, C77-C79 | the whole build for complete descriptions; `__setitem__`, `remove_non_critical`, `compact_repr` | one lemma per build step; the compact representation is shown to be a complete description |
| C45-C48 | combination generator, attempts loop, de-duplication | induction over missing parameters / attempts |
| C49-C51 | heap of worksheets and parameter objects, copies | frame invariant through the whole pipeline |
| C52-C59 | `get_data` strategies, names | list induction |
| C60-C63, C75, C76 | `date_range`, period ranges, `_get_data`, whole pipeline | induction on number of periods; composition of the previous results |
| C64-C66 | column letters, coordinates, scopes, runs | bijective base 26 by strong induction; list induction; witnesses |
| C67-C68, C73 | comparisons over exact rationals | field arithmetic |
| C69-C72 | name resolution, loading, loops with explicit fuel | decision logic; non-termination = no fuel suffices |

Nothing in the list is considered inexpressible. Not modelled at all: file formats (xlsx/xls
decoding), cell formatting, `open()`, profiling and test helpers.

## 4. Trusted base

* Lean 4.33 kernel, and the axioms `propext`, `Classical.choice`, `Quot.sound` at most
  (`#print axioms` of each theorem; no `sorry`, no `native_decide`, no added axiom).
* The faithfulness of the hand-written model to the Python source (cited line by line).
* The documented behaviour of the libraries as encoded in the model (section 2).
* The few functions on texts and numbers that the specifications share with the model are not taken on
  trust: Props/Basics.lean and Spec/WholeNumber.lean prove of each what Python's documentation says of it,
  up to uniqueness (`strip_spec`, `strip_unique`, `splitOn_iff`, `replaceStr_iff`, `natStr_spec`,
  `pyInt_iff`, `pyInt_intStr`, `truncRat_spec`, `lowerChar_spec`, `upperChar_spec`, `divTimedelta_spec`,
  `lookupKey_iff`; `containsStr_iff` in Props/TextMarker.lean). Coordinates are pinned down by C64. What stays on
  trust is which single characters are blanks and digits.

### Checks of the model against the package's own tests

These are tests, not proofs; they support the second item above.

* `Verif/Tests` holds the unit tests of the package (`test_parse_time.py`, `test_time_index.py`,
  `test_data.py`, `test_period_range.py`, `test_parameters.py`, `test_strategies.py`, `test_xl_methods.py`,
  `test_comparing.py`, `test_time_manipulation.py`) as `example`s on the model, each named after the test. All of
  them agree. One of them relies on a sheet growing when a cell past its end is looked at: the second
  pass of `test_time_index_iterator` gives one more value than the sheet had rows.
* `replay/` holds a reader of xlsx files that uses only the standard library and a Lean program (kept as
  `Replay.lean.txt`, it is not part of the build) that runs the model on the workbooks of
  `xlseries/tests/integration_cases`. `python3 replay/case.py` runs the sixteen tests of `test_xlseries.py` and
  compares the frames with the expected ones. All agree, including those that leave out every parameter that is
  not critical and go through the attempts (the first attempt that works is number 5, 1, 3, 7, 23, 4 and 12). The file
  expected for case 2 has a last date 2014-03-02 that the package's own loader replaces by 2014-03-01.

## 5. Disagreements found between the code and its documentation

Those in the first list contradict a property and have a theorem with a witness (`..._violated`).

* C03, C56: months are added to the *last* date, so a month-end index drifts (31 Jan, 28 Feb, 28 Mar) and
  filling implicit missings by month ends invents a NaN.
* C05: `increment_time` reads "S" as seconds although the parameters document it as semester.
  With `missings` allowed nothing is progressed and the semesters are read as they stand (`C05_semester_table_partial`);
  without, the data frame is not that of the semesters (`C05_semester_table_violated`).
* C10: `missing_value == "Implicit"` is never true for a built `Parameters` object (it is a list there).
* C14: `_estimate_end` compares a column letter with a number for horizontal series (`TypeError`).
* C15: cleaning twice fails with `time_composed=True`, and the memory of the parser can make a second
  cleaning go further than the first.
* C18: with several frequencies a repeated date is accepted.
* C22: any quarter number other than 1 to 3 means October; any semester number other than 1 means July.
* C30: a footnote under the last simple date string makes the row unreadable and drops its data.
* C35: the number of series is the length of the longest list parameter.
* C42, C66: column letters are compared alphabetically, "AA" < "B".
* C43: lists of a wrong length are accepted; the object is then incomplete although nothing is missing. A
  list of time headers shorter than the number of series passes for complete.
* C44: `Parameters(p)` always raises `InvalidParameter`.
* C48: results that are one data frame are never recognised as duplicates; a result that begins with
  another one is taken for it; data frames with different columns make safe mode raise
  (`C48_columns_violated`). `C48_exact_partial` says exactly what is reported.
* C50: the detected `data_ends` are written into the caller's `Parameters`; using it again truncates.
* C61: several frequencies in a vertical index whose last cycle is incomplete: no end for some, so that the
  call fails (`C61_incomplete_violated`).
* C65: `consecutive_cells(["A1", "B2"])` is `True`.
* C67: `approx_equal` for negative, zero and swapped arguments.
* C71: `open_xls_as_xlsx` never ends for an empty sheet.
* C72: `get_package_dir` never ends outside the package.
* C77: `params["frequency"]` takes one capital letter only; a list of composed headers of the wrong length is
  stored; new headers leave old composed headers and lists of the old length.
* C78: `remove_non_critical` raises `TypeError` when only a later series has composed headers.
* C79: the compact representation of composed headers common to all series builds texts in place of lists; with
  a context it is refused.
* C80: `compare_cells` zips sheets, rows and cells, so that what only one workbook has is not looked at; texts that
  read as numbers must be identical; negative numbers have no tolerance.
* C82: a directory is always taken for an `.xlsx` file, so that directories of `.csv` or `.json` files are never read.
* C83: with `missings` a year after its first takes the month of the quarter before it; a numbered footnote on a
  year silently ends the index; in `QQQQA` a year written with every quarter makes each read as the first month.
* C87: without `missings` a Monday that follows a Friday is "corrected" to Saturday without notice, and so on, so that
  a table of working days silently becomes a table of consecutive days; with `missings`, any days that are as many as
  the working days between the first and the last come out under the working days.
* C88: with a time index in several columns `data_ends` is filled in for all series or for none, depending on the
  first series. If only the first has one, the others stay without and `_get_period_ranges` fails its assertion.
* C91: a directory is always taken for a workbook; a missing `.csv` or `.json` file gives an empty list;
  `string.lowercase` does not exist in Python 3.
* C92: the average distance of dates divides by their number instead of the number of steps, so short data
  frames cannot be loaded; neither can semesters nor business days.
* C93: several data frames in a workbook end the conversion, in another working directory.
* C96: if the last date of a time index stands there twice, the first call takes the second of them as the end of
  the data and notes it; called again with the same object the repeated date is an error (`SameTimeValue`).
* C97: where dates and values stand in turn in one column, a value that is a whole number (openpyxl reads `20` as an
  `int`) is taken for a date that cannot be; the series ends there and the values below are lost without a
  message (`C97_whole_number_violated`). With `Implicit` missing values the dates are looked up beside the values
  whatever `time_alignment` says, so the NaN is put in the wrong place and values get the date of another period
  (`C97_implicit_violated`, `data.py:227-245`). In a row with the dates before the values the end is never found
  (`C97_row_violated`).
* C98: `check_case_exp_result` zips the two lists, so a result with fewer or more data frames than expected prints OK,
  even the empty list (`C98_count_violated`, `case_loaders.py:31-34`). File names are put together without a separator
  (`C98_own_file_violated`). `get_exp_cases_path(0)` is the directory (`C98_path_violated`, `path_finders.py:109`).
* C100: with an empty row inside a table and `blank_rows` left out, the attempt with `False` comes first and succeeds
  with the rows before it; the rest is lost without a message (`C100_changed_violated`).
* C101: a table that gives its data frames in columns raises `TypeError` in rows if `data_ends` is left out
  (`C101_turned_violated`, `time_index.py:191-219`). `C14_turned_partial` says that nothing else in the cleaning differs.
  With several frequencies and an incomplete last cycle it is the other way round: an error in columns, data frames in
  rows (`C101_cycles_violated`, `period_range.py:107-146`).
* C102: a template holds the lists of the class themselves: appending to `template["missing_value"]` or
  `template["headers_coord"]` changes later templates and the defaults of later `Parameters`
  (`C102_templates_violated`, `parameters.py:428-437`).
* C103: cleaning a table in a row that reaches the last used column reads `next_time` beside it, which makes openpyxl
  create that cell. The sheet then has one more used column, and the next table in a row without `data_ends` meets a
  blank cell and raises `TypeError` (`C103_rows_violated`, `time_index.py:224-248`). Each table alone is read. For time
  indexes in several columns only the first series' index is cleaned (`strategies.py:198-206`).
* C104: an empty column that exists after a table in rows without `data_ends` turns its data frame into a `TypeError`
  (`C104_empty_violated`, `time_index.py:205-219`). Tables in columns are not affected by empty rows.
* C105: `print_xl_range` with a width below three prints fields wider than the rule (`C105_width_violated`,
  `xl_methods.py:341-342`); printing a range creates its cells, so that a table in rows without `data_ends` can no
  longer be read (`C105_harmless_violated`).
* C106: `infer_decimals` multiplies by a power of ten and divides again, both rounded: `0.043` gets 16 decimals,
  whole numbers of 14 digits or more may get some (`C106_decimals_violated`, `C106_whole_violated`,
  `float_handlers.py:38-55`).
* C108: a table in rows without `data_ends` below a line longer than itself gives a `TypeError` (`C108_row_violated`,
  `time_index.py:205-219`); a group of series in rows that is moved past column Z loses its context
  (`C108_group_violated`, see C42).
* C110: the names to vary are taken from the end of `LIKELINESS_ORDER` once, then from its beginning
  (`strategies.py:412-415`), so the surest parameter is varied before less sure ones
  (`C110_surest_first_violated`, `C110_answer_violated`).
* C111: October as the number 1991.10 is read as January (`C111_october_violated`, `parse_time.py:195-227`).
* C112: with several results in safe mode the last attempt is kept, even if it failed (`C112_several_violated`, `strategies.py:171-175`).
* C113: a table of all days and one of working days between the same two dates get the same key and the data frame
  cannot be made (`C113_business_violated`, `strategies.py` `_get_data`); tables that share a time header have only the
  dates of the first cleaned (`C113_header_violated`, `_clean_data`).
* C114: in safe mode with parameters left out, guesses whose results have equal numbers count as one result, so the
  number of results depends on the numbers (`C114_safe_violated`, `strategies.py:140-157`).
* C115: a Thursday added to a table of Friday, Saturday, Sunday and Monday makes five values, as many as there are
  working days, and the data frame becomes one of working days (`C115_days_violated`, `strategies.py` `_get_data_frames`);
  the last date of a table of texts is read without a next one and may change when a row is added
  (`C115_texts_violated`, `parse_time.py:352` `_time_make_sense`).
* C118: a Roman number in small letters is passed over for quarters: "2000 iv" is read as the first quarter of 2000
  (`C118_quarter_letters`, `parse_time.py` `ParseComposedQuarter2`). For months and years letters do not matter.

Others met while modelling, visible in the model but not stated as a property of their own:
* The cleaning strategies for several tables are never selected; frequency "" passes validation and no
  strategy accepts it.
* A first time cell that already is a datetime selects the composed parser `ParseComposedMonth1` if
  `time_composed` is set; `time_format` is never set.
* Unknown month names, and month number 00, take the month of the previous date.
* `_estimate_end` asserts that the end is after the start, so an index of one date fails.
* `Parameters({})` has every parameter missing; unknown names raise `KeyError`.
* A user's `time_multicolumn=False` is overridden by the guess; per-series time headers that are lists
  raise `TypeError` in it.
* `params["context"] = ctx` changes `ctx`. Reversed header ranges expand to nothing.
* A header cell with 0, False or "" counts as blank in `remove_blank_headers`.
* The check that data start behind the headers is skipped if the alignment is `None` or a list.
* `time_alignment` is ignored for several frequencies and in filling implicit missings; these are
  misaligned with blank rows, and empty time cells count as the current time.
* `date_range` drops a first date that is not a period start; weeks start on Sundays.
* Markers of missing values are compared without stripping in non-continuous series.
* In safe mode the parameters kept are those of the last attempt; exceptions other than
  `AssertionError` escape the comparison of results.
* A `missing_value` list with exactly as many entries as there are series is taken per series; with twelve
  series this happens to the default list.
