{"id": "C01", "title": "Incrementing a time moves strictly forward to a real date", "statement": "For every valid date-time t, every n >= 1 and every supported frequency code, increment_time(t, n, freq) either overflows the supported calendar (years 1..9999) with an error or returns a valid calendar date-time strictly later than t.", "quantifier": "all valid date-times, all n >= 1, all frequency codes S T H D W M Q A", "why_tests_cant": "dates x counts x codes are unbounded; clamping and leap years create corner cases a sample misses", "anchors": ["xlseries/utils/time_manipulation.py:increment_time"]}
{"id": "C02", "title": "Incrementing by n units lands on exactly the right calendar position", "statement": "increment_time by n months / quarters / years moves the month count by n / 3n / 12n, keeps the time of day, and keeps the day of the month clamped to the length of the target month; by n days / weeks it moves the proleptic day number by n / 7n; by seconds / minutes / hours it moves the instant by n, 60n, 3600n seconds.", "quantifier": "all valid date-times, all n >= 0, all frequency codes", "why_tests_cant": "the full calendar is infinite; month-end clamping only shows up for particular date pairs", "anchors": ["xlseries/utils/time_manipulation.py:increment_time"]}
{"id": "C03", "title": "Steps compose: n single steps equal one step of n", "statement": "Incrementing k times by one period equals incrementing once by k periods, so an index built step by step never drifts. True for every frequency when the day of the month is at most 28; false for months/quarters/years on days 29-31 (31 January + 1M + 1M is 28 March, + 2M is 31 March).", "quantifier": "all valid date-times, all k, all frequency codes", "why_tests_cant": "drift depends on the whole path of intermediate dates; tests only visit few paths", "anchors": ["xlseries/utils/time_manipulation.py:increment_time", "xlseries/strategies/clean/time_index.py:BaseCleanTiStrategy._correct_progression"]}
{"id": "C04", "title": "Unsupported frequency codes are refused", "statement": "increment_time raises InvalidTimeFrequency for every frequency string other than the eight supported one-letter codes (in particular for every multi-letter code such as 'AQQQQ') and never returns a time for them.", "quantifier": "all strings", "why_tests_cant": "there are infinitely many strings outside the table", "anchors": ["xlseries/utils/time_manipulation.py:increment_time", "xlseries/utils/time_manipulation.py:InvalidTimeFrequency"]}
{"id": "C05", "title": "A semester step is six months", "statement": "For a series of frequency 'S' (semester, as documented for the parameters) the expected next period after t is six months after t. VIOLATED by the code: the progression step treats 'S' as seconds, so an exact semester index with no missings is 'repaired' to one second after the previous value or refused. With missings=True a semester table gives the data frame of its semesters.", "quantifier": "all semester time indexes", "why_tests_cant": "needs a statement about every semester index of any length, and the existing tests only cover the parser, not the progression", "anchors": ["xlseries/utils/time_manipulation.py:increment_time", "xlseries/strategies/clean/time_index.py:BaseCleanTiStrategy._correct_progression", "xlseries/strategies/get/period_range.py:BaseGetPeriodRangesStrategy._convert_freq"]}
{"id": "C06", "title": "A cleaned single-frequency time index is strictly increasing", "statement": "Whenever cleaning a single-frequency time index succeeds or stops, the date-times it wrote, read in sheet order, are strictly increasing.", "quantifier": "all worksheets, all per-series parameters with a one-letter frequency and list-valued missing_value, any number of rows", "why_tests_cant": "needs an invariant over every row of every possible sheet", "anchors": ["xlseries/strategies/clean/time_index.py:BaseCleanTiStrategy._clean_time_index", "xlseries/strategies/clean/time_index.py:BaseCleanTiStrategy._correct_progression"]}
{"id": "C07", "title": "Without missings the cleaned index has no holes", "statement": "If missings=False, then any two consecutive date-times written by cleaning a single-frequency index are exactly one period apart (each is increment_time of the previous one by 1).", "quantifier": "all worksheets and parameters with missings=False, any number of rows", "why_tests_cant": "the property quantifies over whole columns of arbitrary content", "anchors": ["xlseries/strategies/clean/time_index.py:BaseCleanTiStrategy._correct_progression", "xlseries/strategies/clean/time_index.py:BaseCleanTiStrategy._clean_time_index"]}
{"id": "C08", "title": "A one-component date typo is repaired to the expected period", "statement": "When a parsed date is not the expected one but agrees with it in exactly two of day, month and year, and it goes backwards (or goes forward while missings=False), cleaning replaces it by the expected date; a date equal to the expected one is kept.", "quantifier": "all previous dates, all current dates, all frequencies", "why_tests_cant": "the triple space of dates is infinite", "anchors": ["xlseries/strategies/clean/time_index.py:BaseCleanTiStrategy._correct_progression", "xlseries/strategies/clean/time_index.py:BaseCleanTiStrategy._time_value_typo"]}
{"id": "C09", "title": "An unexplainable jump is reported, never silently written", "statement": "A date that goes backwards and is not a one-component typo always raises TimeValueGoingBackwards; one that goes forward with missings=False and is not a typo always raises TimeValueGoingForth; these errors are raised exactly then.", "quantifier": "all previous/current dates, frequencies and flags", "why_tests_cant": "exactness (iff) needs all inputs", "anchors": ["xlseries/strategies/clean/time_index.py:BaseCleanTiStrategy._correct_progression", "xlseries/strategies/clean/time_index.py:TimeValueGoingBackwards", "xlseries/strategies/clean/time_index.py:TimeValueGoingForth"]}
{"id": "C10", "title": "Far jumps are typo-checked when missings are implicit", "statement": "With missing_value 'Implicit' a date more than the allowed number of periods ahead is corrected (or refused). VIOLATED through the public API: parameters always turn missing_value into a list, the check compares it with the string 'Implicit', so every far jump is accepted unchanged.", "quantifier": "all parameter inputs and all date pairs", "why_tests_cant": "tests call the helper with a bare string, which the API can never produce", "anchors": ["xlseries/strategies/clean/time_index.py:BaseCleanTiStrategy._correct_progression", "xlseries/strategies/clean/time_index.py:BaseCleanTiStrategy._forth_time_value_typo", "xlseries/strategies/discover/parameters.py:Parameters._apply_to_all_missing_value"]}
{"id": "C11", "title": "Cleaning a time index only touches the time column", "statement": "Cleaning a time index, whether it succeeds or fails, leaves every cell unchanged except cells of the first time-header column (row, if horizontal) between data_starts and the scanned end.", "quantifier": "all worksheets, all per-series parameters, all outcomes including exceptions", "why_tests_cant": "a frame condition over every cell of every sheet", "anchors": ["xlseries/strategies/clean/time_index.py:BaseCleanTiStrategy._clean_time_index", "xlseries/strategies/clean/time_index.py:BaseCleanTiStrategy._time_index_iterator"]}
{"id": "C12", "title": "Cleaning writes only date-times or blanks", "statement": "Every cell that cleaning changes ends up holding either a valid date-time or an empty value (the latter only for a day/month out of range).", "quantifier": "all worksheets and parameters", "why_tests_cant": "ranges over all cell contents", "anchors": ["xlseries/strategies/clean/time_index.py:BaseCleanTiStrategy._clean_time_index"]}
{"id": "C13", "title": "The detected end is the last cleaned time cell", "statement": "For vertical series the end returned by cleaning is greater than data_starts and, shifted by time_alignment, is the row of the last date-time at or above the row where scanning stopped (or data_starts when there is none).", "quantifier": "all worksheets and vertical parameters", "why_tests_cant": "depends on arbitrary trailing content", "anchors": ["xlseries/strategies/clean/time_index.py:BaseCleanTiStrategy._estimate_end"]}
{"id": "C14", "title": "End detection works for horizontal series as for vertical ones", "statement": "Transposing a sheet and switching the alignment gives the same detected end. VIOLATED: for horizontal series, whenever scanning stops on a cell that is not a date-time the code compares a column letter with an integer and raises TypeError, so no end is ever detected.", "quantifier": "all worksheets and parameters", "why_tests_cant": "relational property over all sheets", "anchors": ["xlseries/strategies/clean/time_index.py:BaseCleanTiStrategy._estimate_end"]}
{"id": "C15", "title": "Cleaning is idempotent", "statement": "Cleaning an index that already holds a complete run of date-times one period apart changes no cell and reports the same end; so cleaning twice equals cleaning once (for time_composed=False). With time_composed=True the second run always fails with TimeIsNotComposed.", "quantifier": "all clean columns of any length and any frequency", "why_tests_cant": "ranges over columns of any length", "anchors": ["xlseries/strategies/clean/time_index.py:BaseCleanTiStrategy._clean_time_index", "xlseries/strategies/clean/parse_time.py:BaseParseTimeStrategy.accepts"]}
{"id": "C16", "title": "A blank ends a continuous index; gaps are bounded otherwise", "statement": "With continuity and no blank_rows nothing at or after the first blank time cell is read as a time or modified. Otherwise runs of up to 40 consecutive blank cells are skipped without ending the index and the 41st ends it.", "quantifier": "all worksheets and parameters", "why_tests_cant": "loop behaviour for arbitrary gap placement", "anchors": ["xlseries/strategies/clean/time_index.py:BaseCleanTiStrategy._clean_time_index"]}
{"id": "C17", "title": "Multi-frequency series cycle through their frequency pattern", "statement": "For a pattern such as 'AQQQQ' the k-th accepted cell of a multi-frequency series is treated as having frequency pattern[k mod len(pattern)], for every k.", "quantifier": "all patterns of length >= 2, all k", "why_tests_cant": "unbounded k and patterns with repeated letters (prefix search could mis-locate)", "anchors": ["xlseries/strategies/clean/time_index.py:BaseMultiFrequency._next_frequency", "xlseries/strategies/get/data.py:BaseMultiFrequency._next_frequency"]}
{"id": "C18", "title": "Each frequency of a multi-frequency index progresses on its own", "statement": "In a multi-frequency index cleaned with missings=False, the sub-sequence of dates written for each frequency letter advances exactly one period of that frequency at a time.", "quantifier": "all worksheets, all patterns, any number of rows", "why_tests_cant": "needs an invariant over interleaved sub-sequences", "anchors": ["xlseries/strategies/clean/time_index.py:BaseMultiFrequency._correct_progression"]}
{"id": "C19", "title": "Exactly one cleaning and one extraction strategy applies", "statement": "For every non-empty frequency exactly one extraction strategy accepts a series, the cleaning strategy chosen is determined by (time_alignment = 0, one-letter frequency, time_multicolumn), and the strategies meant for sheets with several tables are never chosen; for the empty frequency none accepts.", "quantifier": "all per-series parameters", "why_tests_cant": "case analysis over all parameter combinations, including shadowing by order", "anchors": ["xlseries/strategies/clean/time_index.py:get_strategies", "xlseries/strategies/get/data.py:get_strategies", "xlseries/strategies/strategies.py:ParameterDiscovery._clean_time_index"]}
{"id": "C20", "title": "Composed quarter strings round-trip", "statement": "For every four-digit year and quarter, with any amount of filler text, strings of the documented shapes ('1986    1o trim.', 'III.1963') parse to the first day of that quarter; quarter-only strings take the year of the previous date.", "quantifier": "all years 0001-9999, all quarters, all fillers of any length", "why_tests_cant": "unbounded family of strings", "anchors": ["xlseries/strategies/clean/parse_time.py:ParseComposedQuarter1", "xlseries/strategies/clean/parse_time.py:ParseComposedQuarter2", "xlseries/strategies/clean/parse_time.py:BaseComposedQuarter._quarter_num_to_month"]}
{"id": "C21", "title": "Two-digit-year quarter strings round-trip with the 1969-2068 pivot", "statement": "Strings such as '2deg Trim 07' and 'III 01' parse to the first day of that quarter in the unique year of 1969..2068 with those last two digits.", "quantifier": "all two-digit years, all quarters, all fillers", "why_tests_cant": "unbounded family of strings", "anchors": ["xlseries/strategies/clean/parse_time.py:ParseComposedQuarter3", "xlseries/strategies/clean/parse_time.py:ParseComposedQuarter4", "xlseries/strategies/clean/parse_time.py:BaseParseTimeStrategy._dob_year_to_four"]}
{"id": "C22", "title": "Quarter and semester numbers map to first months", "statement": "Quarter numerals I-IV or 1-4 map to months 1, 4, 7, 10 and semester numerals I-II or 1-2 to months 1, 7. Any other number should be refused - VIOLATED: every other quarter number is read as the fourth quarter and every other semester number as the second.", "quantifier": "all integers and numeral strings", "why_tests_cant": "all integers", "anchors": ["xlseries/strategies/clean/parse_time.py:BaseComposedQuarter._quarter_num_to_month", "xlseries/strategies/clean/parse_time.py:BaseComposedSemester._semester_num_to_month"]}
{"id": "C23", "title": "Composed year strings round-trip", "statement": "For every year written with four digits, with optional '(n)' references and fillers around, the yearly parsers return 1 January of that year ('(3)  1998 (4)', '1995/96').", "quantifier": "all four-digit years, all fillers, all references of 1-3 digits", "why_tests_cant": "unbounded family of strings", "anchors": ["xlseries/strategies/clean/parse_time.py:ParseComposedYear1", "xlseries/strategies/clean/parse_time.py:ParseComposedYear2"]}
{"id": "C24", "title": "Composed month strings round-trip", "statement": "Strings 'YYYY,MM' (any non-digit separator) parse to the first day of that month for every year and month 1-12; 'MM' alone keeps the year of the previous date; a month number above 12 is reported as MonthOutOfRange.", "quantifier": "all years, all months, all separators", "why_tests_cant": "unbounded family of strings", "anchors": ["xlseries/strategies/clean/parse_time.py:ParseComposedMonth2", "xlseries/strategies/clean/parse_time.py:BaseParseTimeStrategy._parse_time"]}
{"id": "C25", "title": "Named months round-trip for every locale table", "statement": "For any table of month names, strings 'YYYY Name' and 'Name YYYY' parse to the first day of the month the table assigns to the name, and 'Name' alone keeps the year of the previous date. An unknown name is NOT refused: it silently takes the month of the previous date. A name with a three-digit number ('Enero 201') is no date.", "quantifier": "all month-name tables, years and names of 3-50 letters", "why_tests_cant": "the table comes from a third-party library and differs between versions", "anchors": ["xlseries/strategies/clean/parse_time.py:ParseComposedMonth1", "xlseries/strategies/clean/parse_time.py:BaseComposedMonth._month_str_to_num"]}
{"id": "C26", "title": "Semester strings round-trip", "statement": "Strings such as 'I.S.03' parse to the first day of the semester in the pivoted year for every two-digit year and semester.", "quantifier": "all two-digit years, both semesters, optional references", "why_tests_cant": "family of strings", "anchors": ["xlseries/strategies/clean/parse_time.py:ParseComposedSemester"]}
{"id": "C27", "title": "Parsed times are real dates", "statement": "Whatever the text, a composed time parser either raises an error or returns a valid calendar date at midnight; a day outside 1..31 gives DayOutOfRange and a month outside 1..12 gives MonthOutOfRange.", "quantifier": "all strings, all previous times, all parsers, all month tables", "why_tests_cant": "ranges over all strings", "anchors": ["xlseries/strategies/clean/parse_time.py:BaseParseTimeStrategy._parse_time", "xlseries/strategies/clean/parse_time.py:BaseParseTimeStrategy._fill_parse_date_holes"]}
{"id": "C28", "title": "Missing date parts come from the previous date", "statement": "Parts of a date not present in the text are taken from the previously parsed date, or 1 when there is none; in a QQQQA index a text with neither year nor quarter right after a fourth quarter denotes that whole year.", "quantifier": "all parse results and previous dates", "why_tests_cant": "all combinations of present/missing parts with all dates", "anchors": ["xlseries/strategies/clean/parse_time.py:BaseParseTimeStrategy._fill_parse_date_holes", "xlseries/strategies/clean/parse_time.py:ParseComposedQuarterYear1._fill_parse_date_holes"]}
{"id": "C29", "title": "A simple date string is accepted only if it fits its neighbours", "statement": "When a day/month/year string is parsed, the resulting date is strictly after the previous one, at most 20 periods after it, and strictly before the next cell's date with at most 20 periods between them; otherwise NoTimeValue (or another error) is raised.", "quantifier": "all strings, all previous/next values, all behaviours of the date library's format parser", "why_tests_cant": "ranges over all strings and over the date library", "anchors": ["xlseries/strategies/clean/parse_time.py:ParseSimpleTime._parse_time", "xlseries/strategies/clean/parse_time.py:ParseSimpleTime._time_make_sense"]}
{"id": "C30", "title": "The row before a footnote is kept", "statement": "A valid time string in the last data row is cleaned even if the cell below holds a footnote. VIOLATED for simple date strings: a non-empty text below that is not three dash/dot/slash separated parts makes parsing fail, the row is treated as the end and its data is silently dropped.", "quantifier": "all sheets with simple date strings followed by text", "why_tests_cant": "needs every footnote text", "anchors": ["xlseries/strategies/clean/parse_time.py:ParseSimpleTime._time_make_sense", "xlseries/strategies/clean/parse_time.py:ParseSimpleTime._get_possible_time_formats", "xlseries/strategies/clean/time_index.py:BaseCleanTiStrategy._clean_time_index"]}
{"id": "C31", "title": "Critical parameters are mandatory", "statement": "Building parameters from a non-empty dictionary raises CriticalParameterMissing exactly when time_header_coord, headers_coord, data_starts or frequency is absent or None. An empty dictionary is not refused (it yields an all-missing object).", "quantifier": "all parameter dictionaries", "why_tests_cant": "ranges over all dictionaries", "anchors": ["xlseries/strategies/discover/parameters.py:Parameters._check_has_critical", "xlseries/strategies/discover/parameters.py:Parameters.__init__"]}
{"id": "C32", "title": "Frequency codes are normalised", "statement": "After a successful build every frequency is upper case, consists only of A, S, Q, M, W, D, and 'y', 'yqqqq', 'qqqqy' in any case mean 'A', 'AQQQQ', 'QQQQA'; any other letter is refused with InvalidParameter.", "quantifier": "all frequency strings", "why_tests_cant": "all strings", "anchors": ["xlseries/strategies/discover/parameters.py:Parameters._build", "xlseries/strategies/discover/parameters.py:Parameters._valid_freq"]}
{"id": "C33", "title": "Invalid values and unknown names are refused", "statement": "A build succeeds only if every parameter name is known and every provided value is among the documented valid values or types for it; otherwise an error is raised and no object results.", "quantifier": "all parameter dictionaries", "why_tests_cant": "ranges over all names and values", "anchors": ["xlseries/strategies/discover/parameters.py:Parameters._validate_parameters", "xlseries/strategies/discover/parameters.py:Parameters._valid_param_value", "xlseries/strategies/discover/parameters.py:Parameters._build"]}
{"id": "C34", "title": "A single value applies to every series", "statement": "After a successful build a parameter given as one value (or as a one-element list) has that value for every series, and a list with one entry per series keeps its entries: entry i is what series i gets.", "quantifier": "all parameter dictionaries, any number of series", "why_tests_cant": "any number of series and any parameter", "anchors": ["xlseries/strategies/discover/parameters.py:Parameters._apply_to_all", "xlseries/strategies/discover/parameters.py:Parameters.get_series_params"]}
{"id": "C35", "title": "The number of series equals the number of headers", "statement": "The number of series after a build is the number of header coordinates. VIOLATED: it is the longest list parameter, so one header with a two-column consecutive time header yields two identical series; it holds when no other list is longer than headers_coord.", "quantifier": "all parameter dictionaries", "why_tests_cant": "ranges over all list lengths", "anchors": ["xlseries/strategies/discover/parameters.py:Parameters._get_num_series", "xlseries/strategies/discover/parameters.py:Parameters._apply_to_all"]}
{"id": "C36", "title": "Header ranges expand to exactly the cells of the rectangle", "statement": "A range 'X-Y' (or 'X:Y') of header coordinates expands, row by row and in order, to exactly the cells of the rectangle between X and Y, each once.", "quantifier": "all rectangles of any size", "why_tests_cant": "unbounded rectangles", "anchors": ["xlseries/utils/xl_methods.py:xl_coordinates_range", "xlseries/strategies/discover/parameters.py:Parameters._unpack_header_ranges_generator"]}
{"id": "C37", "title": "Composed headers are split losslessly", "statement": "Each 'A1_B1_..._Z9' header keeps its last coordinate as the header and the preceding ones, in order, as its composed headers; joining them back gives the original; plain headers get no composed part; order and number are preserved.", "quantifier": "all header lists", "why_tests_cant": "lists of any length with any number of parts", "anchors": ["xlseries/strategies/discover/parameters.py:Parameters._separate_composed_headers"]}
{"id": "C38", "title": "Removing a series keeps the others consistent", "statement": "remove_series(i) removes entry i from every per-series list and nothing else, so series j keeps all its parameters (as j or j-1).", "quantifier": "all parameter objects and indices", "why_tests_cant": "any number of series", "anchors": ["xlseries/strategies/discover/parameters.py:Parameters.remove_series"]}
{"id": "C39", "title": "remove_blank_headers keeps exactly the non-blank series", "statement": "After remove_blank_headers(ws) the remaining series are exactly those whose header cell or some composed header cell is non-blank, in the original order, with all their parameters.", "quantifier": "all parameter objects and worksheets", "why_tests_cant": "index bookkeeping over arbitrary removal patterns", "anchors": ["xlseries/strategies/discover/parameters.py:Parameters.remove_blank_headers"]}
{"id": "C40", "title": "Data cannot start on the header", "statement": "If the alignment is given (or evident from several headers) a successful build has data_starts strictly after the first header's row/column. The check is skipped when alignment is present but None, or given as a list.", "quantifier": "all parameter dictionaries", "why_tests_cant": "ranges over dictionaries", "anchors": ["xlseries/strategies/discover/parameters.py:Parameters._check_consistency"]}
{"id": "C41", "title": "Alignment guesses are sound", "statement": "A guessed alignment is 'vertical' only if all headers share one row in distinct columns and 'horizontal' only if they share one column in distinct rows; with four or more headers the guess is made exactly then.", "quantifier": "all header lists", "why_tests_cant": "lists of any length", "anchors": ["xlseries/strategies/discover/parameters.py:Parameters._guess_alignment"]}
{"id": "C42", "title": "Context applies exactly to headers in scope", "statement": "Each header is given the context labels whose cells it lies below (or to the right of), widest context first, and no others.", "quantifier": "all context dictionaries and headers", "why_tests_cant": "any number of contexts/headers", "anchors": ["xlseries/strategies/discover/parameters.py:Parameters._process_context", "xlseries/utils/xl_methods.py:coord_in_scope"]}
{"id": "C43", "title": "Completeness means nothing is missing", "statement": "A parameters object reported complete has no missing parameter and one entry per series for each non-optional parameter; get_missings lists, without repetition, the parameters that are None and not optional, and num_missings counts them; conversely, nothing missing should imply complete - VIOLATED for lists of the wrong length, which are accepted silently.", "quantifier": "all parameter objects", "why_tests_cant": "ranges over all objects", "anchors": ["xlseries/strategies/discover/parameters.py:Parameters.is_complete", "xlseries/strategies/discover/parameters.py:Parameters.get_missings"]}
{"id": "C44", "title": "A Parameters object can be rebuilt from another one", "statement": "Parameters(p) for a built Parameters object p yields an equal object. VIOLATED: it always raises InvalidParameter because the built context is a list.", "quantifier": "all built parameter objects", "why_tests_cant": "ranges over all objects", "anchors": ["xlseries/strategies/discover/parameters.py:Parameters.__init__", "xlseries/strategies/discover/parameters.py:Parameters._get_params_dict", "xlseries/strategies/discover/parameters.py:Parameters._validate_parameters"]}
{"id": "C45", "title": "All combinations of missing parameters are tried exactly once", "statement": "The attempts generated for missing parameters are exactly the Cartesian product of their valid values, without repetition, and the first one has every missing parameter at its default.", "quantifier": "all sets of missing discoverable parameters", "why_tests_cant": "all subsets and orders; a sample cannot show completeness and uniqueness together", "anchors": ["xlseries/strategies/strategies.py:ParameterDiscovery._param_combinations_generator", "xlseries/strategies/strategies.py:ParameterDiscovery._generate_attempts"]}
{"id": "C46", "title": "The first successful attempt wins", "statement": "With safe_mode=False and several attempts, the result is that of the earliest attempt (in generation order) that succeeds, with its parameters; if all fail an error is raised.", "quantifier": "all lists of attempts, all success/failure patterns", "why_tests_cant": "all patterns", "anchors": ["xlseries/strategies/strategies.py:ParameterDiscovery._get_data_frames"]}
{"id": "C47", "title": "Attempts are isolated", "statement": "Each attempt runs on a fresh copy of the original sheet: its result does not depend on which attempts ran before it or how they failed.", "quantifier": "all sheets and all attempt lists", "why_tests_cant": "schedule/history property", "anchors": ["xlseries/strategies/strategies.py:ParameterDiscovery._get_data_frames", "xlseries/utils/xl_methods.py:make_ws_copy"]}
{"id": "C48", "title": "Safe mode reports each distinct result once", "statement": "With safe_mode=True the returned results are pairwise different and every successful attempt's result is represented. VIOLATED: results consisting of one data frame are never recognised as duplicates. VIOLATED: a result that begins with the data frames of an earlier one is dropped. VIOLATED: if two results have, at the same place, data frames of the same size with different columns, safe mode raises although there are results. Proved exactly: a result is reported unless it is taken for a repetition of one reported before.", "quantifier": "all attempt outcomes", "why_tests_cant": "all outcome lists", "anchors": ["xlseries/strategies/strategies.py:ParameterDiscovery._get_data_frames", "xlseries/utils/data_frame.py:compare_data_frames"]}
{"id": "C49", "title": "The caller's workbook is preserved", "statement": "get_data_frames with preserve_wb_obj=True leaves every cell of every sheet of the caller's workbook unchanged, whether it returns or raises.", "quantifier": "all workbooks, parameters, outcomes", "why_tests_cant": "frame condition over all executions including failures", "anchors": ["xlseries/xlseries.py:XlSeries.get_data_frames", "xlseries/utils/xl_methods.py:make_wb_copy"]}
{"id": "C50", "title": "The caller's Parameters object is preserved", "statement": "Scraping does not modify the parameters passed in. VIOLATED for a complete Parameters object: the detected data_ends are written into the caller's object, so re-using it on a longer sheet silently truncates the data.", "quantifier": "all workbooks and parameters", "why_tests_cant": "effect on caller state across calls", "anchors": ["xlseries/strategies/strategies.py:ParameterDiscovery._clean_data", "xlseries/strategies/strategies.py:BaseXlSeriesScraper.__init__"]}
{"id": "C51", "title": "A workbook copy is faithful", "statement": "make_wb_copy / make_ws_copy give a workbook with the same sheet titles in order and the same value in every cell.", "quantifier": "all workbooks", "why_tests_cant": "all cells of all sheets", "anchors": ["xlseries/utils/xl_methods.py:make_wb_copy", "xlseries/utils/xl_methods.py:make_ws_copy"]}
{"id": "C52", "title": "Continuous extraction reads every row, in order", "statement": "For a continuous series without missings the extracted values are exactly the numbers in the cells data_starts..data_ends under the header, one per row in order, or an error is raised if any cell is not a number; no row is silently dropped or invented.", "quantifier": "all worksheets and ranges", "why_tests_cant": "columns of any length and content", "anchors": ["xlseries/strategies/get/data.py:BaseGetDataStrategy._get_values", "xlseries/strategies/get/data.py:BaseContinuous._handle_new_value"]}
{"id": "C53", "title": "Missing markers become NaN, everything else a number or an error", "statement": "With missings=True every cell whose (stripped) content is one of the missing markers yields NaN, every other cell yields its number or an error; row count is preserved when blank_rows is False. If the markers of a series are one text instead of a list, every text contained in it is a marker and a number is an error. If they are a dictionary, its keys are the markers.", "quantifier": "all worksheets, all marker lists", "why_tests_cant": "columns of any length and content", "anchors": ["xlseries/strategies/get/data.py:BaseContinuous._handle_new_value", "xlseries/strategies/get/data.py:BaseNonContinuous._handle_new_value"]}
{"id": "C54", "title": "Non-continuous extraction keeps exactly the dated numeric rows", "statement": "For a non-continuous series the extracted values are those of exactly the rows that have a date-time in the time index and a number (or missing marker) in the data cell, in order.", "quantifier": "all worksheets and ranges", "why_tests_cant": "arbitrary interleavings", "anchors": ["xlseries/strategies/get/data.py:BaseNonContinuous._value_to_be_added", "xlseries/strategies/get/data.py:BaseNonContinuous._handle_new_value"]}
{"id": "C55", "title": "Implicit missings are filled so that values stay on their dates", "statement": "For implicit missings with a strictly increasing on-grid time index the filled list has one entry per period from the first to the last date; the entry at each observed date is that row's value and every other entry is NaN.", "quantifier": "all on-grid indexes of any length and gap pattern", "why_tests_cant": "all gap patterns", "anchors": ["xlseries/strategies/get/data.py:BaseSingleFrequency._fill_implicit_missings"]}
{"id": "C56", "title": "Implicit filling never invents periods", "statement": "Filling produces no NaN between two consecutive periods. VIOLATED for month-end dates (31 Jan, 28 Feb, 31 Mar gives a spurious NaN) because the expected date drifts.", "quantifier": "all month-end indexes", "why_tests_cant": "depends on the path of dates", "anchors": ["xlseries/strategies/get/data.py:BaseSingleFrequency._fill_implicit_missings", "xlseries/utils/time_manipulation.py:increment_time"]}
{"id": "C57", "title": "Multi-frequency values are dealt to their frequencies", "statement": "In a multi-frequency series with pattern p, the list for frequency f consists of exactly the accepted values whose position k has p[k mod len(p)] = f, in order; together the lists contain every accepted value once.", "quantifier": "all patterns and value sequences", "why_tests_cant": "any length", "anchors": ["xlseries/strategies/get/data.py:BaseGetDataStrategy._get_values", "xlseries/strategies/get/data.py:BaseMultiFrequency._get_frequency"]}
{"id": "C58", "title": "Series names are composed as documented", "statement": "The name of a series is the given series name if any; otherwise context labels joined by ' - ', then composed headers joined by spaces, then the stripped header text.", "quantifier": "all worksheets, headers, contexts", "why_tests_cant": "any number of parts", "anchors": ["xlseries/strategies/get/data.py:BaseGetDataStrategy._get_name"]}
{"id": "C59", "title": "Column names are unique", "statement": "Adding a series name to a data frame never duplicates a column: the name gets the least suffix '.2', '.3', ... that is free, existing columns are unchanged and the search always ends.", "quantifier": "all column lists and names", "why_tests_cant": "any number of repetitions, including names that already look indexed", "anchors": ["xlseries/strategies/strategies.py:ParameterDiscovery._add_name", "xlseries/strategies/strategies.py:ParameterDiscovery._indexed_name"]}
{"id": "C60", "title": "Period ranges enumerate the periods between first and last date", "statement": "For a single-frequency series whose first time cell is the start of a period and whose last is k periods later, the index of the data frame is exactly the k+1 consecutive period starts from the first to the last date.", "quantifier": "all start dates, all k, frequencies A S Q M D", "why_tests_cant": "unbounded k", "anchors": ["xlseries/strategies/get/period_range.py:GetPeriodRangesSingleFrequency", "xlseries/strategies/strategies.py:ParameterDiscovery._get_period_ranges"]}
{"id": "C61", "title": "Multi-frequency ranges start and end at the right cells", "statement": "For a multi-frequency series, the start (end) of each frequency is the first (last) time cell of that frequency. Holds for horizontal series at least one cycle long; VIOLATED for vertical series whose last cycle is incomplete: frequencies absent from the partial cycle get no end, and with data_ends given the call fails for every worksheet.", "quantifier": "all sheets, patterns, lengths", "why_tests_cant": "all lengths modulo the cycle", "anchors": ["xlseries/strategies/get/period_range.py:GetPeriodRangesMultifrequency"]}
{"id": "C62", "title": "End to end: every value is labelled with its own row's date", "statement": "For every sheet with a header, a single-frequency time column of consecutive period starts and a column of numbers, get_data_frames returns one data frame whose index is exactly the dates of the rows, whose column is the header text and whose i-th value is the number in row i.", "quantifier": "all such sheets, any number of rows and series", "why_tests_cant": "whole-pipeline statement for any size", "anchors": ["xlseries/xlseries.py:XlSeries.get_data_frames", "xlseries/strategies/strategies.py:ParameterDiscovery._get_data_frames"]}
{"id": "C63", "title": "Series with the same period range share a data frame", "statement": "The number of data frames equals the number of distinct period ranges; each series contributes one column per frequency to the frame of its period range, in series order.", "quantifier": "all parameter objects and clean sheets", "why_tests_cant": "any number of series", "anchors": ["xlseries/strategies/strategies.py:ParameterDiscovery._get_data", "xlseries/strategies/strategies.py:ParameterDiscovery._hash_period_range"]}
{"id": "C64", "title": "Column letters and numbers correspond one to one", "statement": "Converting a column number to letters and back gives the number, for every number, and letters to number and back gives the letters. A text names a cell exactly when it is column letters, small or capital, followed by a row number from 1 on, each of the two possibly after a dollar sign. Any other text given as a coordinate raises: ValueError if it holds anything but letters, digits and dollar signs, AttributeError if it is up to three letters alone (a whole column), IndexError if it is empty.", "quantifier": "all positive integers / all upper-case words / all texts", "why_tests_cant": "infinite", "anchors": ["xlseries/utils/xl_methods.py:consecutive_cells", "xlseries/strategies/clean/time_index.py:BaseCleanTiStrategy._time_index_iterator"]}
{"id": "C65", "title": "consecutive_cells recognises exactly the consecutive runs", "statement": "consecutive_cells(l) is True exactly when l is a left-to-right run in one row or a top-to-bottom run in one column. VIOLATED: a second cell in a different row and column is ignored (['A1','B2'] gives True).", "quantifier": "all coordinate lists", "why_tests_cant": "lists of any length", "anchors": ["xlseries/utils/xl_methods.py:consecutive_cells"]}
{"id": "C66", "title": "coord_in_scope is 'below' or 'to the right of'", "statement": "coord_in_scope(c, l) holds exactly when c is in the column of some cell of a horizontal run l and not above it, or in the row of some cell of a vertical run and not left of it. VIOLATED beyond column Z, where column letters are compared alphabetically.", "quantifier": "all coordinates and runs", "why_tests_cant": "all columns", "anchors": ["xlseries/utils/xl_methods.py:coord_in_scope"]}
{"id": "C67", "title": "approx_equal is a sensible tolerance test", "statement": "approx_equal(a, b, tol) is reflexive, symmetric up to tolerance and holds exactly when |a-b| <= tol*|a|. VIOLATED: for negative a it holds only if a == b; it is asymmetric; zero against non-zero raises.", "quantifier": "all numbers and tolerances", "why_tests_cant": "all numbers", "anchors": ["xlseries/utils/comparing.py:approx_equal", "xlseries/utils/comparing.py:_approx_equal"]}
{"id": "C68", "title": "compare_data_frames accepts equal frames and rejects different ones", "statement": "Comparing a frame with itself returns True; it returns True only if sizes, frequency, column sets and dates agree and values agree to tolerance; different column sets raise a plain Exception instead of AssertionError.", "quantifier": "all data frames", "why_tests_cant": "all frames", "anchors": ["xlseries/utils/data_frame.py:compare_data_frames", "xlseries/utils/data_frame.py:_check_columns", "xlseries/utils/data_frame.py:_check_values"]}
{"id": "C69", "title": "Sheet names are resolved tolerantly but safely", "statement": "A requested name that exists is used as is; otherwise the first sheet equal up to surrounding blanks, otherwise up to accents, otherwise the request unchanged; the result is always an existing sheet or the request itself.", "quantifier": "all sheet lists, all requests, all transliterations", "why_tests_cant": "all strings", "anchors": ["xlseries/xlseries.py:XlSeries._sanitize_ws_name"]}
{"id": "C70", "title": "Loading by extension", "statement": "A path ending in '.xlsx' is loaded as xlsx, one ending in '.xls' as xls, anything else (including upper-case extensions) raises ValueError.", "quantifier": "all paths", "why_tests_cant": "all strings", "anchors": ["xlseries/xlseries.py:XlSeries._load_wb"]}
{"id": "C71", "title": "Converting an .xls workbook terminates and keeps every cell", "statement": "open_xls_as_xlsx returns a workbook with every cell of every sheet at its position. VIOLATED for workbooks containing an empty sheet, on which it loops forever.", "quantifier": "all xls workbooks", "why_tests_cant": "non-termination cannot be tested", "anchors": ["xlseries/utils/xl_methods.py:open_xls_as_xlsx"]}
{"id": "C72", "title": "get_package_dir finds the enclosing package directory", "statement": "For an absolute path inside a directory named as the package, get_package_dir returns the innermost such directory. If there is none it should report it - VIOLATED: it recurses forever at the root.", "quantifier": "all paths", "why_tests_cant": "non-termination cannot be tested", "anchors": ["xlseries/utils/path_finders.py:get_package_dir"]}
{"id": "C73", "title": "infer_freq is unambiguous", "statement": "Every average spacing is classified as at most one frequency, exactly when it lies within 10% of that frequency's nominal number of seconds; semester spacing raises.", "quantifier": "all numbers of seconds", "why_tests_cant": "continuum of inputs", "anchors": ["xlseries/utils/time_manipulation.py:infer_freq"]}
{"id": "C74", "title": "A correct description is accepted", "statement": "A dictionary giving header cells (a range or a list of cells), a time header, a first data row behind the headers and a known frequency, and any other parameter left out, None or one allowed value, always builds a Parameters object: it has one series per header cell, and every series gets the same start and frequency.", "quantifier": "all dictionaries with the four critical parameters, any order of keys, any number of headers", "why_tests_cant": "dictionaries times headers times optional values", "anchors": ["xlseries/strategies/discover/parameters.py:Parameters.__init__", "xlseries/strategies/discover/parameters.py:Parameters._build", "xlseries/strategies/discover/parameters.py:Parameters._check_consistency"]}
{"id": "C75", "title": "The index between dates inside periods", "statement": "For a single-frequency series with any valid first and last date (same time of day), the index of the data frame consists of the consecutive period starts from the first one at or after the first date to the last one not after the last date; so a month-end index loses its first month.", "quantifier": "all pairs of dates, frequencies A S Q M W D", "why_tests_cant": "unbounded pairs of dates", "anchors": ["xlseries/strategies/get/period_range.py:GetPeriodRangesSingleFrequency", "xlseries/strategies/strategies.py:ParameterDiscovery._get_period_ranges"]}
{"id": "C76", "title": "A table in any supported layout becomes its data frame", "statement": "If the time cells between the first and the last one read, as dates or as text in one style, as dates on the grid of the stated frequency (blanks and footnotes allowed, gaps allowed when the data is not continuous or missings are declared), and the cells of each series say a list of values, then get_data_frames with a complete description returns one data frame whose index is the grid, whose columns are the series names made unique and whose values are the values written, in object, dictionary or file form, safe or not, preserving the workbook or not; the cleaned dates are written back next to the original header only.", "quantifier": "all sheets, layouts (vertical or horizontal), date styles, numbers of periods, series and blanks", "why_tests_cant": "the product of layouts, styles, gaps and sizes is unbounded", "anchors": ["xlseries/xlseries.py:XlSeries.get_data_frames", "xlseries/strategies/strategies.py:BaseStrategy.get_data_frames", "xlseries/strategies/clean/time_index.py:BaseCleanTiStrategy", "xlseries/strategies/get/data.py:BaseGetDataStrategy"]}
{"id": "C77", "title": "Assigning a parameter gives every series its value", "statement": "params[name] = value (names other than context and headers_coord): a list with an allowed entry per series is stored as it is; one allowed value goes to every series (a missing_value as a one-element list); anything else raises InvalidParameter; no other parameter changes. As many header texts as series given for headers_coord are split into headers and composed headers. VIOLATED: frequency codes that the constructor accepts ('m', 'AQQQQ') are refused; a composed_headers_coord list of another length is stored and changes the number of series; assigning headers_coord leaves the other lists and stale composed headers.", "quantifier": "all objects, names, values and numbers of series", "why_tests_cant": "all values of all types", "anchors": ["xlseries/strategies/discover/parameters.py:Parameters.__setitem__", "xlseries/strategies/discover/parameters.py:Parameters._valid_param_list", "xlseries/strategies/discover/parameters.py:Parameters._apply_to_all"]}
{"id": "C78", "title": "Forgetting what is not critical", "statement": "remove_non_critical keeps critical parameters, those with a default and time_multicolumn; sets the optional ones to None for each series; makes the others missing when all series agree (or always, with differents=True) and keeps them otherwise; the number of series stays. VIOLATED: it raises TypeError when only a later series has composed headers.", "quantifier": "all parameter objects", "why_tests_cant": "all objects and numbers of series", "anchors": ["xlseries/strategies/discover/parameters.py:Parameters.remove_non_critical", "xlseries/strategies/discover/parameters.py:Parameters.get_non_critical_params", "xlseries/strategies/discover/parameters.py:Parameters._no_differences"]}
{"id": "C79", "title": "The compact representation stands for the parameters", "statement": "compact_repr leaves out unused optional parameters and defaults, shows a value common to all series once and otherwise the list of values; building from it gives the same parameters again. VIOLATED for composed headers common to all series (become texts) and for contexts (refused).", "quantifier": "all complete objects", "why_tests_cant": "all objects and numbers of series", "anchors": ["xlseries/strategies/discover/parameters.py:Parameters.compact_repr", "xlseries/strategies/discover/parameters.py:Parameters._is_optional", "xlseries/strategies/discover/parameters.py:Parameters._is_default", "xlseries/strategies/discover/parameters.py:Parameters._is_repeated"]}
{"id": "C80", "title": "compare_cells tells equal workbooks from different ones", "statement": "compare_cells(wb1, wb2) returns True exactly if the workbooks have the same worksheets, rows and columns and each pair of cells says the same: numbers close to one part in a hundred thousand, texts equal up to blanks around them, equal times, empty or blank. It raises otherwise. VIOLATED: rows, columns and worksheets that only one workbook has are not looked at; texts that read as numbers must be identical and beside a number raise TypeError; negative numbers have no tolerance.", "quantifier": "all workbooks", "why_tests_cant": "unbounded numbers of sheets and cells, all values", "anchors": ["xlseries/utils/xl_methods.py:compare_cells", "xlseries/utils/xl_methods.py:compare_cells_ws", "xlseries/utils/xl_methods.py:normalize_value"]}
{"id": "C81", "title": "compare_period_ranges is equality of ranges", "statement": "For two ranges made by date_range, compare_period_ranges returns True exactly if they are the same range and not empty, although it only looks at the frequency and both ends; for an empty range it returns False.", "quantifier": "all pairs of ranges between any dates of any frequency in use", "why_tests_cant": "unbounded lengths of ranges", "anchors": ["xlseries/utils/data_frame.py:compare_period_ranges"]}
{"id": "C82", "title": "A stored data frame is found with or without its extension", "statement": "A path ending in .xlsx, .csv or .json is taken as it is; any other path stands for the first existing file among path.xlsx, path.csv, path.json; if there is none NoSerializedDataFrameFound is raised. VIOLATED: if the path is a directory and path.xlsx does not exist it is always taken for an .xlsx file.", "quantifier": "all paths and file systems", "why_tests_cant": "all paths and file systems", "anchors": ["xlseries/utils/data_frame.py:_parse_path_and_extension", "xlseries/utils/data_frame.py:_get_file_name_extension"]}
{"id": "C83", "title": "A time index with several frequencies is read as written", "statement": "A time index whose cells cycle through a pattern of frequencies - as dates, as a year followed by its quarters (AQQQQ) or as quarters followed by the total of the year (QQQQA), footnotes allowed on quarters and totals - is cleaned to the dates it says, each frequency advancing by its own period; it ends where it ends and no other cell changes. VIOLATED: with missings declared a year after the first takes the month of the quarter before it (2008 becomes October 2008); a numbered footnote on a year ends the index there without an error; a year repeated with a later quarter (2003 II) is read as its first month.", "quantifier": "all sheets, lengths, texts around years and quarters, alignments, patterns of A, Q, M, W, D", "why_tests_cant": "unbounded lengths, all texts, all patterns", "anchors": ["xlseries/strategies/clean/parse_time.py:ParseComposedYearQuarter1", "xlseries/strategies/clean/parse_time.py:ParseComposedQuarterYear1", "xlseries/strategies/clean/time_index.py:BaseMultiFrequency"]}
{"id": "C84", "title": "A table with several frequencies becomes one data frame per frequency", "statement": "If the series share a time index that cycles through a pattern of frequencies and is read as written (in a column the last cycle having all frequencies; no implicit missings), get_data_frames returns one data frame for each different frequency of the pattern, in order of appearance: its index has the dates of that frequency and its columns, named after the series, the values in the cells beside those dates. Only time cells of the worksheet used change.", "quantifier": "all sheets, patterns, numbers of cycles and series, alignments", "why_tests_cant": "unbounded numbers of cycles and series, all patterns", "anchors": ["xlseries/xlseries.py:XlSeries.get_data_frames", "xlseries/strategies/clean/time_index.py:BaseMultiFrequency", "xlseries/strategies/get/data.py:BaseMultiFrequency", "xlseries/strategies/get/period_range.py:GetPeriodRangesMultifrequency"]}
{"id": "C85", "title": "Every data frame given back is sound", "statement": "Whatever the workbook, the parameters and the flags: if get_data_frames returns, every data frame in what it returns has an index of real dates in increasing order, which are the starts of consecutive periods of the kind the frequency of the index names (or are the business days pandas gives between two dates), at least one column, columns with different names, and one value for each date in each column.", "quantifier": "all workbooks, sheets, parameters (complete, incomplete, wrong), safe_mode and preserve_wb_obj", "why_tests_cant": "all workbooks and parameters, including wrong ones", "anchors": ["xlseries/xlseries.py:XlSeries.get_data_frames", "xlseries/strategies/get/data.py:BaseGetDataStrategy.get_data", "xlseries/strategies/get/period_range.py:BaseGetPeriodRangesStrategy"]}
{"id": "C86", "title": "common_row_or_column gives the row or the column the cells share", "statement": "common_row_or_column(coords) of at least two coordinates is the number of their row if all are in one row, otherwise the number of their column if all are in one column, otherwise it raises; fewer than two coordinates are refused.", "quantifier": "all lists of coordinates", "why_tests_cant": "unbounded lists of coordinates", "anchors": ["xlseries/utils/xl_methods.py:common_row_or_column"]}
{"id": "C87", "title": "A daily table that leaves days out keeps its dates", "statement": "If a table of days leaves days out, a data frame that comes of it has each value under the date beside which it stands; if a series has neither one value per day between the first and the last date nor one per working day, ValueError is raised. VIOLATED: without missings declared a Monday after a Friday is taken for a typing mistake and becomes the Saturday; with missings declared, days that are not the working days come out as working days if they are equally many.", "quantifier": "all sheets, numbers of days and series, any notion of working days", "why_tests_cant": "unbounded numbers of days and series, every notion of working days", "anchors": ["xlseries/strategies/strategies.py:ParameterDiscovery._get_data", "xlseries/strategies/clean/time_index.py:BaseCleanTiStrategy._time_value_typo"]}
{"id": "C88", "title": "Dates spread over several columns are read together", "statement": "If time_multicolumn is set and what the cells of the time columns say together in each row, from the first column to the last with a blank between any two (an empty cell, a zero and the text None say nothing, a number says its whole part), are dates in one of the known ways, get_data_frames returns the data frame with these dates, the names and the values of the series; the cleaned dates replace the cells of the first column only. VIOLATED: if data_ends is given for the first series and not for another one, the other stays without an end and an AssertionError follows, though it works with a time index in one column.", "quantifier": "all sheets, numbers of time columns, rows and series, all ways to write dates", "why_tests_cant": "unbounded numbers of columns, rows and series", "anchors": ["xlseries/strategies/strategies.py:ParameterDiscovery._clean_data", "xlseries/strategies/clean/time_index.py:BaseCleanTiStrategy._time_index_iterator"]}
{"id": "C89", "title": "Every number in a data frame stands in a cell of the worksheet", "statement": "Whatever the workbook, the parameters and the flags: if get_data_frames returns, there is for each data frame in what it returns a sheet of the caller's workbook, with the name that is recorded, such that the values of every column other than NaN are the numbers in different cells of one column or one row of that sheet, in the order of the sheet, as the workbook was when the call was made.", "quantifier": "all workbooks, sheets, parameters (complete, incomplete, wrong), safe_mode and preserve_wb_obj", "why_tests_cant": "all workbooks and parameters, including wrong ones", "anchors": ["xlseries/xlseries.py:XlSeries.get_data_frames", "xlseries/strategies/get/data.py:BaseGetDataStrategy._get_values", "xlseries/strategies/get/data.py:BaseSingleFrequency._fill_implicit_missings"]}
{"id": "C90", "title": "Data frames are given back only if the parameters make sense", "statement": "If data frames are given back, every series has a header that is a cell, an alignment, known frequencies, a start in the sheet, an end after the start (given or found), one time header unless its time index is in several columns, and, with one frequency, something pandas takes for a date at its first and at its last position; with several frequencies down a column, none of them is absent from the last cycle. Scraping changes no parameter but data_ends, and not a data_ends that was given (unless the time index is in several columns).", "quantifier": "all worksheets and parameters with a value for every series", "why_tests_cant": "all worksheets and all parameters", "anchors": ["xlseries/strategies/strategies.py:ParameterDiscovery._get_data", "xlseries/strategies/strategies.py:ParameterDiscovery._clean_data", "xlseries/strategies/strategies.py:ParameterDiscovery._get_period_ranges"]}
{"id": "C91", "title": "Stored data frames are loaded from all their files", "statement": "data_frame.get_data_frames gives the data frames of all the sheets of a workbook in their order, the one of a .csv or .json file, or, if there is no such file but a directory of the same name, those of its files with this ending. If there is nothing to be found NoSerializedDataFrameFound is raised. VIOLATED: a directory given by its name is opened as a workbook, whatever files there are; a missing .csv or .json file gives an empty list instead of the exception; the data frames of a directory cannot be loaded one by one (string.lowercase raises AttributeError).", "quantifier": "all paths, all states of the file system, any number of sheets and files", "why_tests_cant": "all paths and file systems", "anchors": ["xlseries/utils/data_frame.py:get_data_frames", "xlseries/utils/data_frame.py:get_data_frame"]}
{"id": "C92", "title": "A stored data frame is loaded as it was", "statement": "A data frame given back by XlSeries.get_data_frames and stored in a file is loaded by data_frame.get_data_frame with the same dates, frequency, columns and values. True if there are enough rows (10 days, 10 weeks, 7 months, 9 quarters, 10 years). VIOLATED for fewer rows (the distance of the first and the last date is divided by the number of dates), for semesters and for business days.", "quantifier": "all workbooks, parameters and data frames given back, all files", "why_tests_cant": "all data frames of any size and at any date", "anchors": ["xlseries/utils/data_frame.py:get_data_frame", "xlseries/utils/time_manipulation.py:infer_freq"]}
{"id": "C93", "title": "Converting stored data frames restores the working directory", "statement": "dfs_to_json_and_csv writes a JSON and a CSV file for each workbook of the directory that holds one data frame, and the working directory is the same afterwards. VIOLATED: a workbook with several data frames ends the conversion with an AttributeError, the workbooks after it are not converted and the working directory is not restored.", "quantifier": "all directories with any number of workbooks", "why_tests_cant": "any number of workbooks", "anchors": ["xlseries/utils/data_frame.py:dfs_to_json_and_csv"]}
{"id": "C94", "title": "A column has the name and the numbers of one series", "statement": "If get_data_frames returns, for each column of each data frame there is one of the series of the parameters such that the column has the name of this series (the one given, or what the header, the composed headers and the context say; followed by a dot and a number if needed to tell it from another column) and its values, leaving out NaN, are the numbers in cells of this series, in the order of the sheet as it was before the call. No column has the name of one series and the numbers of another.", "quantifier": "all workbooks, all complete parameters with headers before the data, any number of series with any mix of periods and equal names", "why_tests_cant": "any number of series, data frames and equal names", "anchors": ["xlseries/strategies/strategies.py:ParameterDiscovery._get_data", "xlseries/strategies/strategies.py:ParameterDiscovery._add_name", "xlseries/strategies/get/data.py:BaseGetDataStrategy._get_name"]}
{"id": "C95", "title": "No series is lost and none is doubled", "statement": "If get_data_frames returns, every series of the parameters has at least one column in the data frames and not more than it has different frequencies; if all series have one frequency the columns of all data frames together are the series, each exactly once.", "quantifier": "all workbooks, all complete parameters with headers before the data, any number of series", "why_tests_cant": "any number of series and data frames", "anchors": ["xlseries/strategies/strategies.py:ParameterDiscovery._get_data", "xlseries/strategies/get/data.py:BaseGetDataStrategy._get_values"]}
{"id": "C96", "title": "Asking again with the same Parameters object gives the same data frames", "statement": "get_data_frames notes the ends of the data in the Parameters object it is given. Called a second time with the same object on the same workbook, which is kept, it gives the same data frames; it does not fail because of what the first call noted, and it never gives other data frames.", "quantifier": "all workbooks, all complete parameters of series with single-column time indexes in line with the values and one frequency each", "why_tests_cant": "depends on all the mutations of the object by the first call, for any number of series and rows", "anchors": ["xlseries/strategies/strategies.py:ParameterDiscovery._clean_data", "xlseries/strategies/strategies.py:ParameterDiscovery._get_data", "xlseries/strategies/clean/time_index.py:BaseCleanTiStrategy.clean_time_index"]}
{"id": "C97", "title": "A value gets the date that stands right before or after it", "statement": "If the dates do not stand beside the values but one position before (time_alignment -1) or after them (1), in another column or in turn with the values in the same one, get_data_frames labels every value with the date at that distance: the index is that of the dates, the column has the values that have a date, in order, none is lost and none is labelled with another date. The sheet is not changed.", "quantifier": "all workbooks with a time index of date cells, all gaps between the dates up to forty cells, any number of series and values, all frequencies, columns and rows", "why_tests_cant": "any number of values, any distance between them", "anchors": ["xlseries/strategies/clean/time_index.py:BaseOffsetTi._must_be_time_value", "xlseries/strategies/clean/time_index.py:BaseCleanTiStrategy._estimate_end", "xlseries/strategies/get/data.py:BaseNonContinuous._value_to_be_added", "xlseries/strategies/get/period_range.py:GetPeriodRangesSingleFrequency"]}
{"id": "C98", "title": "A result passes the check of a test case only if it is the expected one", "statement": "check_case_exp_result(n, dfs) prints OK exactly when dfs has as many data frames as the expected result of case n, each with the same frequency, dates and columns and close values as the one with the same number; otherwise it raises. Different cases and special cases are read from different files, and get_exp_cases_path(n) (and the like for original workbooks and parameters) is the path of the file read for case n. VIOLATED in part: the number of data frames is not checked (an empty list passes), the special case '1' of case 1 has the file of case 11, and the path given for case 0 is the directory.", "quantifier": "all lists of data frames, all expected results, all case numbers and special cases", "why_tests_cant": "any number of data frames of any size; any names", "anchors": ["xlseries/utils/case_loaders.py:check_case_exp_result", "xlseries/utils/case_loaders.py:_gen_filename", "xlseries/utils/data_frame.py:compare_data_frames"]}
{"id": "C99", "title": "The strategies of a module are its classes in alphabetical order", "statement": "get_strategies() gives each class of the calling module whose name does not begin with Base, that is not called Parameters and that is no exception, exactly once, in alphabetical order, however the file orders them. Adding a class does not change the order in which the others are tried. The parsers of time values are tried in the order this gives.", "quantifier": "all modules with any number of classes", "why_tests_cant": "any namespace", "anchors": ["xlseries/utils/strategies_helpers.py:get_strategies", "xlseries/utils/strategies_helpers.py:get_strategies_names", "xlseries/utils/strategies_helpers.py:get_parent_module_classes", "xlseries/strategies/clean/parse_time.py:get_strategies"]}
{"id": "C100", "title": "Leaving parameters out does not change the answer", "statement": "If parameters the package can find out (alignment, continuity, blank_rows, missings, time_composed, time_multicolumn, time_alignment) are left out, get_data_frames without safe mode gives an answer whenever the call with some possible values for them gives one; the answer is always that of a call with some of these values, and it is the same answer as with the usual values if that call gives one. VIOLATED as a whole: if several values give data frames, the answer is not the one of those that describe the sheet. With an empty row inside the table and blank_rows left out, the rows after it are silently lost.", "quantifier": "all workbooks, all sheets, all parameters with any of these left out for any number of series, with or without keeping the workbook", "why_tests_cant": "all combinations of left-out parameters on all worksheets", "anchors": ["xlseries/strategies/strategies.py:ParameterDiscovery._discover_parameters", "xlseries/xlseries.py:XlSeries.get_data_frames"]}
{"id": "C101", "title": "A table gives the same data frames with rows and columns exchanged", "statement": "If the rows and columns of a worksheet are exchanged, and the headers, the time header and alignment of its series are described accordingly, get_data_frames gives the same data frames under the same names, or the same error, and leaves the same cells, exchanged. VIOLATED: the end of a horizontal index is not found unless the index reaches the last column looked at, because a column letter is compared with a number: TypeError in place of the data frames. Also VIOLATED: several frequencies whose last cycle is not complete give an error in columns, data frames in rows. In every other respect the answers are the same; with the ends given, dates in line and a date at every position they are exactly the same.", "quantifier": "all worksheets, all workbooks, all lists of series with any frequencies and any number of header parts, time columns and footnotes", "why_tests_cant": "any size of sheet, any content of the cells, any number of series", "anchors": ["xlseries/strategies/clean/time_index.py:BaseCleanTiStrategy._estimate_end", "xlseries/strategies/clean/time_index.py:BaseCleanTiStrategy.clean_time_index", "xlseries/strategies/get/data.py:BaseGetDataStrategy.get_data", "xlseries/strategies/strategies.py:ParameterDiscovery._get_data"]}
{"id": "C102", "title": "A filled-in template describes its series, and templates are independent", "statement": "If a user takes complete_params_template() and assigns headers_coord, time_header_coord, data_starts and frequency, Parameters built from it has one series per header, with these values and all optional parameters at their documented ones, and is complete; a filled-in critical_params_template() is accepted with one series per header. What other users did to templates taken before does not matter. VIOLATED in part: a template holds the lists of the class themselves, so appending a marker to template['missing_value'] (or a header) changes all later templates and the defaults of all later Parameters. True as long as users append only to lists they have assigned.", "quantifier": "all sequences of changes to any number of templates, all headers, time headers, starts and frequencies", "why_tests_cant": "any sequence of changes of shared state", "anchors": ["xlseries/strategies/discover/parameters.py:Parameters.get_critical_params_template", "xlseries/strategies/discover/parameters.py:Parameters.get_complete_params_template", "xlseries/xlseries.py:XlSeries.complete_params_template", "xlseries/xlseries.py:XlSeries.critical_params_template"]}
{"id": "C103", "title": "Several tables on one worksheet are read as if each were alone", "statement": "A worksheet may hold any number of tables anywhere, each with its own dates in a column or row and its own series, as long as no date of one table lies in a cell of another. get_data_frames then gives one data frame per time index (frequency and dates), in the order in which the indexes first appear in the parameters; series of different tables with the same index share a data frame. The dates of all tables are cleaned, nothing else changes, and every series gets the end of its own table. VIOLATED for tables in rows: cleaning a table that reaches the last used column looks up the column after it, which makes it a used one; the next table in a row without data_ends then meets a blank column and TypeError is raised, although each table alone is read. Proved for tables in columns, and in rows if their ends are given.", "quantifier": "all worksheets, any number of tables of any of the known date styles, any number of series each, any order of series", "why_tests_cant": "all arrangements of tables; the effect of one table on the next", "anchors": ["xlseries/strategies/strategies.py:ParameterDiscovery._clean_data", "xlseries/strategies/strategies.py:ParameterDiscovery._get_data", "xlseries/strategies/clean/time_index.py:BaseCleanTiStrategy.clean_time_index", "xlseries/strategies/get/data.py:BaseGetDataStrategy.get_data"]}
{"id": "C104", "title": "Empty rows and columns that exist do not matter", "statement": "A worksheet may contain rows and columns that exist but are empty (formatted, once filled in, or looked at by some program). Two workbooks with the same titles and values give the same data frames or the same error, however many empty rows and columns exist in each, and end up with the same values and parameters. Proved for series in columns and for series with data_ends given. VIOLATED for series in rows without data_ends: one empty column after the table turns its data frame into a TypeError.", "quantifier": "all worksheets, any number of empty rows and columns, all lists of series with any frequencies and any number of time columns", "why_tests_cant": "any number of empty rows; the loop runs to the last row that exists", "anchors": ["xlseries/strategies/clean/time_index.py:BaseCleanTiStrategy.clean_time_index", "xlseries/strategies/clean/time_index.py:BaseCleanTiStrategy._estimate_end", "xlseries/strategies/clean/time_index.py:BaseCleanTiStrategy._time_index_iterator", "xlseries/strategies/get/period_range.py:GetPeriodRangesMultifrequency"]}
{"id": "C105", "title": "Printing a range shows every cell and changes nothing", "statement": "print_xl_range prints two equally long lines per row of the range, and in the upper one, for each column, a field of the given width with the coordinate and value of the cell, filled up with blanks, or cut off with three points exactly if it does not fit. No value of the worksheet changes, and get_data_frames gives afterwards what it would have given before. VIOLATED for width < 3: the end of the text is counted from its end and the fields are wider than the rule below. VIOLATED for series in rows without data_ends: openpyxl creates the cells of the printed range, and an empty column after the table makes get_data_frames raise TypeError. Proved for width >= 3, and for series in columns or with data_ends given.", "quantifier": "all worksheets, all ranges, all widths, all lists of series read afterwards", "why_tests_cant": "all contents and sizes; an effect of a display function on a later call", "anchors": ["xlseries/utils/xl_methods.py:print_xl_range", "xlseries/strategies/clean/time_index.py:BaseCleanTiStrategy._estimate_end"]}
{"id": "C106", "title": "significant_figures is the number of decimals needed", "statement": "significant_figures(series) is the greatest number of decimals needed to write one of its values, missing values left aside. The number for two series together is the greater of the two. VIOLATED: the value is multiplied by a power of ten and divided by it again, which need not give the same binary64 number: 0.043 is said to have 16 decimals, the whole number 999999999999902 one. Proved for whole numbers, halves, quarters and so on with at most 13 digits.", "quantifier": "all series of finite binary64 numbers of any length, with missing values", "why_tests_cant": "infinitely many series; rounding of floating point operations depends on every bit", "anchors": ["xlseries/utils/float_handlers.py:significant_figures", "xlseries/utils/float_handlers.py:infer_decimals", "xlseries/utils/float_handlers.py:truncate"]}
{"id": "C107", "title": "What a call gives depends on the parameters and the named worksheet only", "statement": "Two calls of get_data_frames with the same safe_mode, whose named worksheets have the same title and cells and whose parameters have the same content, give the same answer (data frames, sheet name) or raise the same exception. It does not matter what the other worksheets of the workbook contain, which objects exist in memory, whether preserve_wb_obj is set, whether the parameters are given as an object, a dict or a file, or what other calls went before. It holds also for calls that try many completions of incomplete parameters.", "quantifier": "all pairs of states of memory, workbooks and ways to give parameters; all parameters, complete or not; all worksheets", "why_tests_cant": "an equality over pairs of executions from arbitrary states", "anchors": ["xlseries/xlseries.py:XlSeries.get_data_frames", "xlseries/strategies/strategies.py:ParameterDiscovery.get_data_frames", "xlseries/strategies/strategies.py:ParameterDiscovery._remove_duplicates"]}
{"id": "C108", "title": "Where a table stands and what is around it does not matter", "statement": "Move a table by any number of rows and columns to another worksheet, or elsewhere on the same one, and change the parameters that name cells, rows and columns accordingly. get_data_frames gives the same data frames or raises the same exception, whatever other text, numbers, dates or tables stand outside the cells of the table: its headers, and the lines of its values and dates from data_starts on (up to data_ends, if given). This also holds for calls that leave parameters out, in safe mode or not. Proved for series in columns and for series in rows with data_ends given. VIOLATED for series in rows without data_ends: a longer line anywhere on the worksheet, for instance a title above the table, turns the data frame into a TypeError. VIOLATED for the dictionary form of the context: a group of series in rows that moves past column Z loses its context, because column letters are compared alphabetically.", "quantifier": "all worksheets, all distances, all other contents, all lists of series with any frequencies, composed headers and any number of time columns", "why_tests_cant": "all places and all surroundings; an equality over pairs of worksheets", "anchors": ["xlseries/strategies/strategies.py:ParameterDiscovery._clean_data", "xlseries/strategies/strategies.py:ParameterDiscovery._get_data", "xlseries/strategies/clean/time_index.py:BaseCleanTiStrategy.clean_time_index", "xlseries/strategies/clean/time_index.py:BaseCleanTiStrategy._estimate_end", "xlseries/strategies/get/data.py:BaseGetDataStrategy.get_data", "xlseries/strategies/discover/parameters.py:Parameters._process_context"]}
{"id": "C109", "title": "Series with common dates are read together as each is read alone", "statement": "Take series of one frequency that have all date parameters (time header, start, end, alignment, continuity, missing values and so on) in common. get_data_frames for all of them succeeds exactly if get_data_frames for each single one succeeds with the same index. The data frame then has the columns of the single data frames, in the order of the series, each under its own name or, if that name is taken, an indexed one. So asking for fewer series, for more, for one of them twice or in another order changes no value of any series.", "quantifier": "all worksheets, all lists of such series, time indexes in one or several columns or rows, all ways to give complete parameters", "why_tests_cant": "an equality between one call and any number of others, over all worksheets and all lists of series", "anchors": ["xlseries/strategies/strategies.py:ParameterDiscovery._clean_data", "xlseries/strategies/strategies.py:ParameterDiscovery._get_data", "xlseries/strategies/strategies.py:ParameterDiscovery._get_period_ranges", "xlseries/strategies/get/data.py:BaseGetDataStrategy.get_data"]}
{"id": "C110", "title": "Guesses for parameters left out are tried from the surest to the least sure", "statement": "If parameters are left out, get_data_frames tries the usual value of each first, and departs from the usual value of the parameter it is least sure about before it departs from that of a parameter it is surer about (LIKELINESS_ORDER). So the first attempt that gives data is the likeliest one. The exact list of attempts is proved for any set of parameters left out. VIOLATED: the parameter to vary is taken from the end of the list once and from its beginning from then on (pop() and pop(0)), so with two or more left out the surest parameter is varied first, and a series with days marked as missing gets its values on wrong days although a likelier completion puts them right. Proved if only one parameter was left out, or the last ones of the list and at most one other.", "quantifier": "all sets of parameters left out, all numbers of series", "why_tests_cant": "the completions multiply with every parameter left out; tests look at one answer, not at the order of attempts", "anchors": ["xlseries/strategies/strategies.py:ParameterDiscovery._discover_missing_params", "xlseries/strategies/strategies.py:ParameterDiscovery._generate_attempts", "xlseries/strategies/strategies.py:ParameterDiscovery._param_combinations_generator"]}
{"id": "C111", "title": "Numbers in a time index are read as the year, quarter or month they are", "statement": "A cell of the time index that holds a number instead of a text, whole or with decimals, is read by its whole part: a year from 1000 on as the first day of that year, 1 to 4 as a quarter and 1 to 12 as a month of the year of the date before. A number shown as year, point and month (1991.02) is that month, for years from 1300 on. So tables with such cells are read like those with texts. VIOLATED: October written as the number 1991.10 is the number 1991.1 and is read as January.", "quantifier": "all numbers in time index cells, all dates before them, all years", "why_tests_cant": "infinitely many numbers; excel keeps years as numbers, with or without decimals", "anchors": ["xlseries/strategies/clean/parse_time.py:BaseParseTimeStrategy.accepts", "xlseries/strategies/clean/parse_time.py:BaseParseTimeStrategy._parse_time", "xlseries/strategies/clean/parse_time.py:BasePEG._parse_date_elements"]}
{"id": "C112", "title": "The parameters that gave the result are kept", "statement": "After a call of get_data_frames that gives one result, in safe mode or not, XlSeries.params for that worksheet holds the parameters that gave it: those the caller gave, one of the possible values for each parameter that was left out, and the ends of the data that were found. Asking again with them, in any mode, gives the same result, provided a second reading of a completed table gives the same as the first (C96). VIOLATED: if safe mode finds several results, what is kept is the last attempt that was made, whether it worked or not; asking again with it can raise.", "quantifier": "all worksheets, all parameters left out, safe mode or not, workbook copied or not", "why_tests_cant": "the parameters kept depend on which of the many attempts worked; an equality between one call and any later call", "anchors": ["xlseries/xlseries.py:XlSeries.get_data_frames", "xlseries/strategies/strategies.py:ParameterDiscovery.get_data_frames", "xlseries/strategies/strategies.py:ParameterDiscovery._discover_parameters"]}
{"id": "C113", "title": "Separate tables on one worksheet are read together as each is read alone", "statement": "Take series with one frequency each from any number of tables that stand apart on one worksheet: the dates of one table are not among the cells of another. get_data_frames for all of them succeeds exactly if get_data_frames for each single one does. The result has one data frame for each different index (frequency, first and last date), in the order in which the indexes first appear among the series; its columns are those of the single data frames with this index, in the order of the series, each under its own name or, if that name is taken, an indexed one; the answer is a data frame if there is one and a list otherwise. Proved for series in columns and for series in rows with data_ends given. VIOLATED: a table of all days and a table of working days between the same two days raise ValueError together, since they are put into the same data frame. VIOLATED: of two tables that name the same time header only the dates of the first are read.", "quantifier": "all worksheets, all numbers of tables and series, all frequencies, vertical and horizontal, all ways to give complete parameters", "why_tests_cant": "an equality between one call and any number of others, over all worksheets and all lists of tables", "anchors": ["xlseries/strategies/strategies.py:ParameterDiscovery._clean_data", "xlseries/strategies/strategies.py:ParameterDiscovery._get_data", "xlseries/strategies/strategies.py:ParameterDiscovery._get_period_ranges", "xlseries/strategies/get/data.py:BaseGetDataStrategy.get_data", "xlseries/xlseries.py:XlSeries.get_data_frames"]}
{"id": "C114", "title": "How a table is read does not depend on the numbers in it", "statement": "Take two worksheets with the same dates and headers where, in the cells of the values, numbers stand for numbers and everything else (blanks, marks for missing values, texts) is the same. get_data_frames with the same complete parameters, in safe mode or not, gives the same error on both, or data frames with the same frequency, index and columns, whose numbers correspond cell by cell. So doubling all numbers of a table doubles the data frame and changes nothing else; no number (zero, negative, very large) makes a date or a series disappear. Without safe mode this also holds if parameters are left out. VIOLATED: in safe mode with parameters left out, different guesses whose results have equal numbers are taken for one, so the number of results depends on the numbers.", "quantifier": "all worksheets, all relations between numbers, all series, all parameters", "why_tests_cant": "a relation between two calls on any two worksheets; tests use the numbers of a few files", "anchors": ["xlseries/strategies/get/data.py:BaseGetDataStrategy._get_values", "xlseries/strategies/get/data.py:BaseContinuous._handle_new_value", "xlseries/strategies/get/data.py:BaseNonContinuous._handle_new_value", "xlseries/strategies/strategies.py:ParameterDiscovery._get_data", "xlseries/strategies/strategies.py:ParameterDiscovery._get_data_frames", "xlseries/xlseries.py:XlSeries.get_data_frames"]}
{"id": "C115", "title": "Rows added below a table extend its data frame", "statement": "Read a table, add rows below it (periods published since then), and read it again with the same parameters. If both calls give a data frame, the second one has the same frequency and columns, and its rows begin with all the rows of the first one, unchanged: no date or value read before moves, changes or disappears. Whatever stood below the table (footnotes) may have moved or gone. Proved for series in columns with common dates and one frequency, no data_ends given, headers not below the table, the last date a real date or the dates composed texts, and neither data frame one of working days. VIOLATED: a day added to a table of days can turn the data frame into one of working days, and earlier values move to other days. VIOLATED: the last date of a table, written as a text, is read with nothing to compare it to, so 05-09-2004 can be 5 September until a row is added below it and 9 May from then on.", "quantifier": "all worksheets, all lists of series with common dates, any number of added rows with any contents, all modes of the call", "why_tests_cant": "a relation between calls on any two versions of a worksheet; tests have one version of each file", "anchors": ["xlseries/strategies/clean/time_index.py:BaseCleanTiStrategy.clean_time_index", "xlseries/strategies/clean/time_index.py:BaseCleanTiStrategy._estimate_end", "xlseries/strategies/get/data.py:BaseGetDataStrategy.get_data", "xlseries/strategies/strategies.py:ParameterDiscovery._get_data", "xlseries/strategies/strategies.py:ParameterDiscovery._get_period_ranges", "xlseries/xlseries.py:XlSeries.get_data_frames"]}
{"id": "C116", "title": "Parameters that compare equal are interchangeable", "statement": "Parameters objects can be compared with ==. For objects whose attributes hold None, truth values, whole numbers, texts and lists of these (marks for missing values may also be decimal numbers), == is reflexive, symmetric and transitive. Two objects that compare equal clean any worksheet in the same way and read the same data from it, and two calls of get_data_frames with them on the same workbook give the same answer or raise the same exception, in safe mode or not, also when parameters are left out. So a mark may be given as 3 or as 3.0, and a truth value as True or as 1. An object compares equal to itself whatever it holds but NaN.", "quantifier": "all Parameters objects with such values, all worksheets, all modes of the call", "why_tests_cant": "a relation between calls with any two equal objects; tests compare objects with the expected attributes only", "anchors": ["xlseries/strategies/discover/parameters.py:Parameters.__eq__", "xlseries/strategies/get/data.py:BaseGetDataStrategy._get_values", "xlseries/strategies/strategies.py:ParameterDiscovery._get_data_frames", "xlseries/xlseries.py:XlSeries.get_data_frames"]}
{"id": "C117", "title": "The texts of headers matter only for the names of columns", "statement": "Take two worksheets with the same dates and values, whose other cells may be different: headers, titles, notes beside the table. get_data_frames with the same complete parameters, in safe mode or not, raises the same exception on both or gives data frames with the same frequencies, indexes, numbers and numbers of columns; only the names of the columns can differ. So renaming a header, leaving it empty or writing a number there changes nothing else. Where a series has several headers (composed headers) both worksheets must have a text there or none of them, since anything else raises. Without safe mode this also holds if parameters are left out.", "quantifier": "all pairs of worksheets with the same dates and values, all lists of series, all modes of the call", "why_tests_cant": "a relation between two calls on any two worksheets; tests use the headers of a few files", "anchors": ["xlseries/strategies/get/data.py:BaseGetDataStrategy._get_name", "xlseries/strategies/get/data.py:BaseGetDataStrategy._get_data", "xlseries/strategies/strategies.py:ParameterDiscovery._get_data", "xlseries/strategies/strategies.py:ParameterDiscovery._get_data_frames", "xlseries/xlseries.py:XlSeries.get_data_frames"]}
{"id": "C118", "title": "Dates may be written in other ways", "statement": "Take two worksheets with the same headers and values, whose dates may be written in different ways: with other blanks around the text, with or without accents and, where the dates are texts for months or years, in capital or small letters ('Enero 1991', ' ENERO 1991'). For series with their dates in one column or row, get_data_frames with the same parameters gives the same answer or exception on both, whether parameters are left out or not and in safe mode or not. For quarters the letters do matter: '2000 iv' is read as the first quarter of 2000, not as the fourth.", "quantifier": "all pairs of worksheets whose dates are the same apart from the way they are written, all lists of series, all modes of the call", "why_tests_cant": "a relation between two calls on any two worksheets; tests use the spellings of a few files", "anchors": ["xlseries/strategies/clean/parse_time.py:BaseParseTimeStrategy.parse_time", "xlseries/strategies/clean/parse_time.py:BasePEG._parse_date_elements", "xlseries/strategies/clean/time_index.py:BaseCleanTiStrategy._parse_time", "xlseries/strategies/get/data.py:BaseGetDataStrategy._get_data", "xlseries/strategies/strategies.py:ParameterDiscovery._get_data_frames", "xlseries/xlseries.py:XlSeries.get_data_frames"]}
{"id": "C119", "title": "Safe mode agrees with the ordinary call", "statement": "Take any call of get_data_frames and the same call in safe mode. If the ordinary call raises, safe mode raises the same exception. If safe mode gives an answer, be it one result or several, its first result is what the ordinary call gives. (The converse of the first part is false: safe mode may raise where the ordinary call gives an answer, see C48.)", "quantifier": "all calls: all workbooks, names, parameters complete or not, with or without keeping the workbook", "why_tests_cant": "a relation between two calls in all states; tests run single calls in one mode", "anchors": ["xlseries/strategies/strategies.py:ParameterDiscovery._get_data_frames", "xlseries/xlseries.py:XlSeries.get_data_frames"]}
{"id": "C120", "title": "The parameters for names matter only for the names of columns", "statement": "Take two complete descriptions of the same series that differ only in series_names, composed_headers_coord and context. get_data_frames with either of them on the same workbook, in safe mode or not, raises the same exception or gives data frames with the same frequencies, indexes, numbers and numbers of columns, and the worksheet is left in the same state; only the names of the columns can differ. So giving names to series, repeating a name, adding a further header or a context changes nothing else. For a series without a given name, the further headers must be cells with texts outside the lines of dates: a number there raises AttributeError, and a given name hides that. Without safe mode this also holds if parameters are left out, the same ones in both calls.", "quantifier": "all worksheets, all pairs of lists of series that differ in names only, all modes of the call", "why_tests_cant": "a relation between two calls with any two sets of names; tests use one set of names for each file", "anchors": ["xlseries/strategies/get/data.py:BaseGetDataStrategy._get_name", "xlseries/strategies/get/data.py:BaseGetDataStrategy._get_data", "xlseries/strategies/strategies.py:ParameterDiscovery._clean_data", "xlseries/strategies/strategies.py:ParameterDiscovery._get_data", "xlseries/strategies/strategies.py:ParameterDiscovery._add_name", "xlseries/xlseries.py:XlSeries.get_data_frames"]}
{"id": "C121", "title": "Setting data_ends to a row of the table gives the beginning of its data frame", "statement": "Read a table as far as it goes, and again with data_ends set to one of its rows (not after the end that the first call notes in the parameters). If both calls give a data frame, the second one has the same frequency and columns as the first, and its dates and values are the first dates and values of it: an end that is given changes no date or value before it. If the series are continuous, without blank rows and without missing values, there is exactly one date for each row from data_starts to data_ends. The same is true of two rows given as data_ends. This holds for series in columns beside their dates, with common dates and one frequency, headers not below data_ends, and data frames that are not of working days (for these see C115).", "quantifier": "all worksheets, all lists of series with common dates, all rows of the table as data_ends, all modes of the call", "why_tests_cant": "a relation between two calls for any row given as the end; the tests give data_ends for single files, or not at all", "anchors": ["xlseries/strategies/clean/time_index.py:BaseCleanTiStrategy.clean_time_index", "xlseries/strategies/clean/time_index.py:BaseCleanTiStrategy._estimate_end", "xlseries/strategies/get/data.py:BaseGetDataStrategy.get_data", "xlseries/strategies/strategies.py:ParameterDiscovery._clean_data", "xlseries/strategies/strategies.py:ParameterDiscovery._get_data", "xlseries/xlseries.py:XlSeries.get_data_frames"]}
{"id": "C122", "title": "Setting data_starts to a later row of the table gives the rest of its data frame", "statement": "Read a table whose dates are date cells, and again with data_starts set to a later row with a date (before the end that the first call notes in the parameters). If the first reading had nothing to correct in the dates and both calls give a data frame, the second one has the same frequency and columns as the first, and its dates and values are the last dates and values of it: the rows left out do not change what is read from the others, and the same end is found. If the series are continuous, without blank rows and without missing values, there is exactly one date for each row from the new data_starts to the end. The same is true if both calls have the same data_ends and every row down to it has a date cell. This holds for series in columns beside their dates, with common dates and one frequency other than semesters, missing values filled in from the dates only if there is one value per row and the dates are some of consecutive periods, the same time of day in the rows where the readings start and end, and data frames that are not of working days.", "quantifier": "all worksheets with date cells, all lists of series with common dates, all later rows as data_starts, all modes of the call", "why_tests_cant": "a relation between two calls for any row given as the start; the cleaner and the iterator over the values carry state from row to row, which the tests see only from the first row of each file on", "anchors": ["xlseries/strategies/clean/time_index.py:BaseCleanTiStrategy.clean_time_index", "xlseries/strategies/clean/time_index.py:BaseCleanTiStrategy._estimate_end", "xlseries/strategies/get/data.py:BaseGetDataStrategy.get_data", "xlseries/strategies/get/period_range.py:GetPeriodRangesSingleFrequency", "xlseries/strategies/strategies.py:ParameterDiscovery._clean_data", "xlseries/strategies/strategies.py:ParameterDiscovery._get_data", "xlseries/xlseries.py:XlSeries.get_data_frames"]}
{"id": "C123", "title": "Setting data_starts and data_ends to rows of a table gives exactly that part of its data frame", "statement": "Take any table that can be read as described in C76 (dates in any of the known ways of writing them, in a column or a row or in several, missing values marked or left out) whose series have one value in every row. Read it as it is, and again with data_starts and data_ends of every series set to two rows m < n of the table. If the date in row m is written in full, so that it can be read without the dates above it, both calls give one data frame, with the same frequency and the same columns; the dates and the values in every column of the second are those of consecutive periods of the first, from the date of row m to the date of row n. The same is true if data_starts alone is set to a later row: the data frame then goes on to the last date of the table.", "quantifier": "all tables as in C76 with one value per row, all rows m < n, all modes of the call", "why_tests_cant": "a relation between two calls for any two rows and any way of writing dates; tests read whole tables", "anchors": ["xlseries/strategies/clean/time_index.py:BaseCleanTiStrategy.clean_time_index", "xlseries/strategies/get/data.py:BaseGetDataStrategy.get_data", "xlseries/strategies/get/period_range.py:GetPeriodRangesSingleFrequency", "xlseries/strategies/strategies.py:ParameterDiscovery._clean_data", "xlseries/strategies/strategies.py:ParameterDiscovery._get_data", "xlseries/xlseries.py:XlSeries.get_data_frames"]}
{"id": "C124", "title": "Composed headers and contexts are lists of texts, unless the series has a name", "statement": "Whatever the other parameters and the worksheet: if data frames are given back, the header of every series is a text, and for every series without a name (series_names None, empty or otherwise counting as false) composed_headers_coord and context are lists of texts, or count as false. With a single text, a number or anything else there the call raises instead of giving the series a wrong name. If every series has a name, a text that is not empty, composed_headers_coord and context are not looked at: calls that differ in nothing else raise the same error or give the same data frames, whatever is in these parameters.", "quantifier": "all worksheets, all values of all parameters, all modes of the call", "why_tests_cant": "all values of the parameters, among them those that nobody should give; the tests only have well-formed contexts", "anchors": ["xlseries/strategies/get/data.py:BaseGetDataStrategy._get_name", "xlseries/strategies/get/data.py:BaseGetDataStrategy._get_data", "xlseries/strategies/strategies.py:ParameterDiscovery._get_data", "xlseries/xlseries.py:XlSeries.get_data_frames"]}
{"id": "C125", "title": "Of the missing markers it matters only which cells they tell", "statement": "Two objects of parameters give a value of every parameter for each series and differ in missing_value only. If for every series with missings set both missing_value are lists, both or neither contain \"Implicit\", and each cell content of the worksheet (a text without surrounding blanks; a text of blanks as nothing) is a marker of one list exactly if it is a marker of the other, then both calls raise the same error or give the same data frames. So the order and repetition of markers do not matter, nor does a further marker that occurs in no cell, and without missings missing_value does not matter at all, whatever it is.", "quantifier": "for all worksheets, all numbers of series, all parameters and all lists of markers", "why_tests_cant": "A test tries a few lists of markers on a few worksheets; the claim is about every pair of lists that tell the same cells, and about cleaning and reading, which both look at the markers.", "anchors": ["xlseries/strategies/get/data.py::308-331", "xlseries/strategies/get/data.py::368-391", "xlseries/strategies/get/data.py::125-141", "xlseries/strategies/clean/time_index.py::324-372"]}
