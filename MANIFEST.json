{
 "claims": [
  {
   "property": "C01",
   "status": "proved",
   "theorems": [
    "Sas.Props.C01_rows",
    "Sas.Props.C01_uncompressed",
    "Sas.Props.C01_compressed_partial"
   ],
   "note": "C01_rows: exactly the stored rows, in page order, with indices 0,1,2,..., once each, then one end_of_data, for every well-formed file, source, filter and compression. C01_uncompressed: the rows are the stored bytes. C01_compressed_partial: the rows are those that were compressed, except when the compressed form ends with commands that are not executed (C16, C17)."
  },
  {
   "property": "C02",
   "status": "proved",
   "theorems": [
    "Sas.Props.C02_granularity",
    "Sas.Props.C02_readAll"
   ],
   "note": "every reachable state of every source, all histories of reading calls"
  },
  {
   "property": "C03",
   "status": "proved",
   "theorems": [
    "Sas.Props.C03_skip",
    "Sas.Props.C03_skip_add"
   ],
   "note": "skip(n) against n discarded reads, all later histories"
  },
  {
   "property": "C04",
   "status": "proved",
   "theorems": [
    "Sas.Props.C04_open",
    "Sas.Props.C04_bounds",
    "Sas.Props.C04_step"
   ],
   "note": "an undecodable row counts as consumed (C10)"
  },
  {
   "property": "C05",
   "status": "proved",
   "theorems": [
    "Sas.Props.C05_end_final",
    "Sas.Props.C05_after_exception"
   ],
   "note": "requests for zero rows return true, also at the end"
  },
  {
   "property": "C06",
   "status": "proved",
   "theorems": [
    "Sas.Props.C06_readRows",
    "Sas.Props.C06_zero"
   ],
   "note": ""
  },
  {
   "property": "C07",
   "status": "proved",
   "theorems": [
    "Sas.Props.C07_no_sink",
    "Sas.Props.C07_cases"
   ],
   "note": ""
  },
  {
   "property": "C08",
   "status": "proved",
   "theorems": [
    "Sas.Props.C08_protocol",
    "Sas.Props.C08_end_last"
   ],
   "note": ""
  },
  {
   "property": "C09",
   "status": "partial",
   "theorems": [
    "Sas.Props.C09_count",
    "Sas.Props.C09_refuted",
    "Sas.Props.C09_once_partial"
   ],
   "note": "false as stated: every call that reports the end signals again; the exact count is proved"
  },
  {
   "property": "C10",
   "status": "proved",
   "theorems": [
    "Sas.Props.C10_resync"
   ],
   "note": ""
  },
  {
   "property": "C100",
   "status": "partial",
   "theorems": [
    "Sas.Props.C100_calls",
    "Sas.Props.C100_histories",
    "Sas.Props.C100_opening",
    "Sas.Props.C100_few",
    "Sas.Props.C100_missing",
    "Sas.Props.C100_decompress",
    "Sas.Props.C100_reasons",
    "Sas.Props.C100_warnings",
    "Sas.Props.C100_written",
    "Sas.Props.C100_texts",
    "Sas.Props.C100_levels",
    "Sas.Props.C100_lines",
    "Sas.Props.C100_screen",
    "Sas.Props.C100_listing_partial",
    "Sas.Props.C100_listing_refuted"
   ],
   "note": "Proved for every source, reader, history and build; the last clause holds as stated (files that are opened silently). The texts, levels and lines say what has happened, the reasons before cannot_decompress and the kinds of missing values are the true ones; C100_screen: what the command line program shows when a listing fails. For other files the warnings share the standard output with the listing: C100_listing_refuted."
  },
  {
   "property": "C101",
   "status": "proved",
   "theorems": [
    "Sas.Props.C101_rle",
    "Sas.Props.C101_rdc",
    "Sas.Props.C101_safe"
   ],
   "note": "Exact for all byte strings: C101_safe characterises the strings for which C19 fails. Row lengths below 2^64 for RDC (they are size_t)."
  },
  {
   "property": "C102",
   "status": "partial",
   "theorems": [
    "Sas.Props.C102_sink",
    "Sas.Props.C102_wrappers_partial",
    "Sas.Props.C102_refuted",
    "Sas.Props.C102_file_partial"
   ],
   "note": "The sink object's references are exactly its variable and the living readers, for every program. The full claim is refuted: set_cpp_attr leaks one object per reader; proved instead that exactly that many are left, whatever is read."
  },
  {
   "property": "C103",
   "status": "partial",
   "theorems": [
    "Sas.Props.C103_exact_partial",
    "Sas.Props.C103_together_partial",
    "Sas.Props.C103_file_partial",
    "Sas.Props.C103_refuted"
   ],
   "note": "Refuted: a sink whose last reader was dropped early, or that refused the properties, uses freed memory when asked. Proved: exactly the histories in which this happens, for any number of readers on one sink; never while no reader is dropped and none is refused."
  },
  {
   "property": "C104",
   "status": "proved",
   "theorems": [
    "Sas.Props.C104_python",
    "Sas.Props.C104_r",
    "Sas.Props.C104_distinct"
   ],
   "note": "Texts of exceptions for every file, file name, argument and sink of the two packages. Type of the Python exception only as far as IndexError, MemoryError and RuntimeError are told apart."
  },
  {
   "property": "C105",
   "status": "partial",
   "theorems": [
    "Sas.Props.C105_files_partial",
    "Sas.Props.C105_layouts_partial",
    "Sas.Props.C105_chunks_partial",
    "Sas.Props.C105_csv_partial",
    "Sas.Props.C105_only_python_refuted",
    "Sas.Props.C105_only_r_refuted",
    "Sas.Props.C105_twins_refuted"
   ],
   "note": "Proved for files that both can show, with rows, distinct names in UTF-8 and no zero bytes or double quotes where these are cut, and for R's SinkByChunk fewer rows than two chunks; refuted otherwise (C69_whole_refuted for two chunks and more)."
  },
  {
   "property": "C106",
   "status": "partial",
   "theorems": [
    "Sas.Props.C106_needed",
    "Sas.Props.C106_csv_partial",
    "Sas.Props.C106_print_partial",
    "Sas.Props.C106_commands",
    "Sas.Props.C106_dates_refuted",
    "Sas.Props.C106_rows_refuted"
   ],
   "note": "The export and the listing need more than the null sink: dates of the calendar, for the listing also none missing and no braces in names. Without these it is false (C106_dates_refuted, C58_brace_refuted, C52_refuted); with a number of rows 'print' tests less than 'null' (C106_rows_refuted)."
  },
  {
   "property": "C11",
   "status": "proved",
   "theorems": [
    "Sas.Props.C11_too_short",
    "Sas.Props.C11_magic",
    "Sas.Props.C11_short_only",
    "Sas.Props.C11_file"
   ],
   "note": "arbitrary sources; C11_file is the std::ifstream instance"
  },
  {
   "property": "C12",
   "status": "proved",
   "theorems": [
    "Sas.Props.C12_fields",
    "Sas.Props.C12_file"
   ],
   "note": "Relational layout of the header, all eight combinations of byte order, word size and padding; dates within 139000 years of 1960 to the microsecond, or missing."
  },
  {
   "property": "C13",
   "status": "proved",
   "theorems": [
    "Sas.Props.C13_unsigned",
    "Sas.Props.C13_signed",
    "Sas.Props.C13_reverse",
    "Sas.Props.C13_column",
    "Sas.Props.C13_column1"
   ],
   "note": "any width"
  },
  {
   "property": "C14",
   "status": "proved",
   "theorems": [
    "Sas.Props.C14_read",
    "Sas.Props.C14_accuracy",
    "Sas.Props.C14_nan"
   ],
   "note": "accuracy stated on exact rational magnitudes of the bit patterns"
  },
  {
   "property": "C15",
   "status": "proved",
   "theorems": [
    "Sas.Props.C15_cell",
    "Sas.Props.C15_unique",
    "Sas.Props.C15_text"
   ],
   "note": ""
  },
  {
   "property": "C16",
   "status": "partial",
   "theorems": [
    "Sas.Props.C16_rle_behaviour",
    "Sas.Props.C16_rle_roundtrip_partial",
    "Sas.Props.C16_refuted"
   ],
   "note": "a final one-byte command is dropped by the code"
  },
  {
   "property": "C17",
   "status": "partial",
   "theorems": [
    "Sas.Props.C17_rdc_behaviour",
    "Sas.Props.C17_rdc_roundtrip_partial",
    "Sas.Props.C17_refuted"
   ],
   "note": "up to two final bytes are dropped by the code"
  },
  {
   "property": "C18",
   "status": "proved",
   "theorems": [
    "Sas.Props.C18_rle",
    "Sas.Props.C18_rdc"
   ],
   "note": ""
  },
  {
   "property": "C19",
   "status": "partial",
   "theorems": [
    "Sas.Props.C19_rle_safe_partial",
    "Sas.Props.C19_rle_refuted",
    "Sas.Props.C19_rdc_safe_partial",
    "Sas.Props.C19_rdc_refuted"
   ],
   "note": "both decompressors read or copy out of bounds on malformed input"
  },
  {
   "property": "C20",
   "status": "proved",
   "theorems": [
    "Sas.Props.C20_count",
    "Sas.Props.C20_columns",
    "Sas.Props.C20_short"
   ],
   "note": "Count for any source; contents for every file in the documented layout (Spec.WellFormed), for any source; missing entries throw out_of_range."
  },
  {
   "property": "C21",
   "status": "proved",
   "theorems": [
    "Sas.Props.C21_filter",
    "Sas.Props.C21_acceptAll",
    "Sas.Props.C21_includeExclude"
   ],
   "note": "For any source, any accept predicate."
  },
  {
   "property": "C22",
   "status": "proved",
   "theorems": [
    "Sas.Props.C22_same_rows",
    "Sas.Props.C22_same_columns"
   ],
   "note": "For any source, any two filters and any history of calls."
  },
  {
   "property": "C23",
   "status": "proved",
   "theorems": [
    "Sas.Props.C23_type",
    "Sas.Props.C23_disjoint",
    "Sas.Props.C23_always"
   ],
   "note": "The classification columnType is part of the specification."
  },
  {
   "property": "C24",
   "status": "partial",
   "theorems": [
    "Sas.Props.C24_eight_partial",
    "Sas.Props.C24_refuted",
    "Sas.Props.C24_overread"
   ],
   "note": "false for lengths 3..7: the date getters read 8 bytes; proved for length 8"
  },
  {
   "property": "C25",
   "status": "partial",
   "theorems": [
    "Sas.Props.C25_opening_partial",
    "Sas.Props.C25_calls_partial",
    "Sas.Props.C25_before_pages_partial",
    "Sas.Props.C25_refuted",
    "Sas.Props.C25_overrun_refuted",
    "Sas.Props.C25_infinite_date_refuted"
   ],
   "note": "The claim is false: C25_refuted gives files on which the code terminates the process, reads outside its buffers (release, and debug through a wrapping bounds check) or does so in a later call. Proved part: on every byte string a release build that crashes while opening has met a header that reaches beyond its announced length (exactly characterised by C25_overrun_refuted), an infinite or very distant date in the header (infinite dates do crash: C25_infinite_date_refuted), or a page on which a pointer, a subheader or a text does not fit (C25_opening_partial; the conditions are Spec/Bounds.lean and say nothing about the content). If the rows fit too, no later call crashes in any history, and every row given away lies in memory (C25_calls_partial)."
  },
  {
   "property": "C26",
   "status": "partial",
   "theorems": [
    "Sas.Props.C26_terminates_partial",
    "Sas.Props.C26_file_partial",
    "Sas.Props.C26_refuted"
   ],
   "note": "Termination of opening and of every history of calls is proved for every finite source (and every byte string, also on a failing device) that does not announce a page length of 0. For a page length of 0 the claim is false in release builds: C26_refuted shows that opening never ends, for every such file and any number of turns."
  },
  {
   "property": "C27",
   "status": "proved",
   "theorems": [
    "Sas.Props.C27_truncated",
    "Sas.Props.C27_failed",
    "Sas.Props.C27_failed_open"
   ],
   "note": "File cut at any point after complete pages: rows of the complete pages and a normal end. Source failing while rows are read: rows of the complete pages, then cannot_read_page and no end_of_data. Source failing in the metadata: construction throws cannot_read_page."
  },
  {
   "property": "C28",
   "status": "partial",
   "theorems": [
    "Sas.Props.C28_refuted",
    "Sas.Props.C28_first_partial"
   ],
   "note": "Refuted: a data page announcing 0 rows after the first row page yields a bogus row (C28_refuted, a concrete file). Holds for the first page with rows (C28_first_partial)."
  },
  {
   "property": "C29",
   "status": "partial",
   "theorems": [
    "Sas.Props.C29_partial",
    "Sas.Props.C29_refuted",
    "Sas.Props.C29_fails",
    "Sas.Props.C29_date_refuted"
   ],
   "note": "Header and one record per row, parsed back by an independent RFC 4180 parser, for strings and names without double quotes and dates in 1400..9999. False for strings with quotes (not doubled) and for dates Boost cannot print."
  },
  {
   "property": "C30",
   "status": "partial",
   "theorems": [
    "Sas.Props.C30_chunks_partial",
    "Sas.Props.C30_refuted",
    "Sas.Props.C30_names_refuted"
   ],
   "note": "Chunks partition the pushed rows for every history, chunk size and column set with distinct names; start index only without skips. The full statement is false: refuted after a skip and for equal column names."
  },
  {
   "property": "C31",
   "status": "partial",
   "theorems": [
    "Sas.Props.C31_chunks_partial",
    "Sas.Props.C31_refuted",
    "Sas.Props.C31_index_refuted"
   ],
   "note": "Chunks partition the pushed rows within bounds for every history without an explicit end_of_data and up to 2^31 rows. The full statement is false: refuted with end_of_data between rows (write out of bounds) and for larger row numbers."
  },
  {
   "property": "C32",
   "status": "partial",
   "theorems": [
    "Sas.Props.C32_python_partial",
    "Sas.Props.C32_empty_refuted",
    "Sas.Props.C32_R_partial",
    "Sas.Props.C32_R_empty_refuted",
    "Sas.Props.C32_R_twice_refuted",
    "Sas.Props.C32_R_refuted"
   ],
   "note": "Python and R: exactly one set_data with all rows when there is a row and the end is reported once. False for a data set without rows and, in R, when the end is reported again or end_of_data comes between rows (refuted)."
  },
  {
   "property": "C33",
   "status": "partial",
   "theorems": [
    "Sas.Props.C33_refuted",
    "Sas.Props.C33_no_output",
    "Sas.Props.C33_readonly_partial",
    "Sas.Props.C33_name_partial"
   ],
   "note": "False for every input the program may write to: the input is truncated. No other file is ever written. Partial: read-only inputs are unchanged (but the program has undefined behaviour at the first row)."
  },
  {
   "property": "C34",
   "status": "proved",
   "theorems": [
    "Sas.Props.C34_limit",
    "Sas.Props.C34_print",
    "Sas.Props.C34_damaged"
   ],
   "note": "The rows are the first n of those read_all delivers, for every source; and the listing written by process_print."
  },
  {
   "property": "C35",
   "status": "partial",
   "theorems": [
    "Sas.Props.C35_datetime_partial",
    "Sas.Props.C35_stored",
    "Sas.Props.C35_time_stored",
    "Sas.Props.C35_parts",
    "Sas.Props.C35_date",
    "Sas.Props.C35_time_partial",
    "Sas.Props.C35_missing",
    "Sas.Props.C35_refuted"
   ],
   "note": "Proved: instants within half a microsecond plus 2^-35, exact for whole microseconds and for every time stamp or time of day of microseconds stored as its nearest double; dates, times of day and missing values exact. Not true, and refuted: nearest microsecond for every double (ties to within the rounding of the intermediate operations)."
  },
  {
   "property": "C36",
   "status": "proved",
   "theorems": [
    "Sas.Props.C36_inert"
   ],
   "note": ""
  },
  {
   "property": "C37",
   "status": "proved",
   "theorems": [
    "Sas.Props.C37_encoding"
   ],
   "note": ""
  },
  {
   "property": "C38",
   "status": "partial",
   "theorems": [
    "Sas.Props.C38_time",
    "Sas.Props.C38_from_delta",
    "Sas.Props.C38_delta_partial",
    "Sas.Props.C38_datetime",
    "Sas.Props.C38_date",
    "Sas.Props.C38_from_date",
    "Sas.Props.C38_missing",
    "Sas.Props.C38_refuted"
   ],
   "note": "Times of day, instants and dates convert exactly and (instants, dates) both ways; durations of one day to 68 years both ways. False for negative and longer durations, and a time of day does not convert back (refuted)."
  },
  {
   "property": "C39",
   "status": "proved",
   "theorems": [
    "Sas.Props.C39_partition"
   ],
   "note": ""
  },
  {
   "property": "C40",
   "status": "proved",
   "theorems": [
    "Sas.Props.C40_properties"
   ],
   "note": ""
  },
  {
   "property": "C41",
   "status": "partial",
   "theorems": [
    "Sas.Props.C41_missing_partial",
    "Sas.Props.C41_refuted"
   ],
   "note": "Proved for all getters, except that get_datetime of a time column reads the row before returning its missing value (refuted)."
  },
  {
   "property": "C42",
   "status": "proved",
   "theorems": [
    "Sas.Props.C42_resize",
    "Sas.Props.C42_page"
   ],
   "note": ""
  },
  {
   "property": "C43",
   "status": "proved",
   "theorems": [
    "Sas.Props.C43_uncompressed",
    "Sas.Props.C43_every"
   ],
   "note": "An independent writer (Spec/Writer.lean), values in cells as specified in Spec/Cells.lean."
  },
  {
   "property": "C44",
   "status": "partial",
   "theorems": [
    "Sas.Props.C44_inside",
    "Sas.Props.C44_text_partial",
    "Sas.Props.C44_refuted"
   ],
   "note": "Proved for texts starting and ending with visible ASCII characters; false for other texts (C44_refuted)."
  },
  {
   "property": "C45",
   "status": "proved",
   "theorems": [
    "Sas.Props.C45_compression",
    "Sas.Props.C45_unique"
   ],
   "note": "For every file in the documented layout, any source, any filter."
  },
  {
   "property": "C46",
   "status": "partial",
   "theorems": [
    "Sas.Props.C46_refuted",
    "Sas.Props.C46_rows_partial"
   ],
   "note": "Refuted: a compressed row on the page where the metadata ends is lost when its first bytes equal a subheader signature (C46_refuted). Holds when no row does (C46_rows_partial)."
  },
  {
   "property": "C47",
   "status": "proved",
   "theorems": [
    "Sas.Props.C47_rows"
   ],
   "note": "Rows laid out one after the other after the page header (data) or at the next multiple of 8 after the pointers (mix) are exactly the rows delivered, for all files."
  },
  {
   "property": "C48",
   "status": "partial",
   "theorems": [
    "Sas.Props.C48_refuted",
    "Sas.Props.C48_named_partial"
   ],
   "note": "False for a temporary sink, for every data set: the file stays empty and the first row is undefined behaviour. A named sink object works."
  },
  {
   "property": "C49",
   "status": "partial",
   "theorems": [
    "Sas.Props.C49_aligned_partial",
    "Sas.Props.C49_refuted"
   ],
   "note": "One entry per typed column in order, for every history. False with a column of unknown type (refuted)."
  },
  {
   "property": "C50",
   "status": "partial",
   "theorems": [
    "Sas.Props.C50_refuted",
    "Sas.Props.C50_rows_partial"
   ],
   "note": "Refuted: an amd page contributes a row when it is the first page with row pointers of a compressed file. Otherwise only meta, data and mix pages contribute rows and others do not disturb them (C50_rows_partial)."
  },
  {
   "property": "C51",
   "status": "proved",
   "theorems": [
    "Sas.Props.C51_calendar"
   ],
   "note": "Boost's day-number algorithm in 32-bit arithmetic, against counting days one by one."
  },
  {
   "property": "C52",
   "status": "partial",
   "theorems": [
    "Sas.Props.C52_text_partial",
    "Sas.Props.C52_refuted"
   ],
   "note": "Proved for every non-missing value in the calendar range. False for missing values: exception for dates and datetimes, read beyond a 16-byte buffer for times."
  },
  {
   "property": "C53",
   "status": "partial",
   "theorems": [
    "Sas.Props.C53_benign_partial",
    "Sas.Props.C53_refuted"
   ],
   "note": "Proved for missing values and the calendar range; false beyond the year 9999 (std::terminate)."
  },
  {
   "property": "C54",
   "status": "partial",
   "theorems": [
    "Sas.Props.C54_first_end_partial",
    "Sas.Props.C54_refuted"
   ],
   "note": "Number of errors is the number of end_of_data calls minus one, for every history and sink kind. The full statement is false (refuted)."
  },
  {
   "property": "C55",
   "status": "partial",
   "theorems": [
    "Sas.Props.C55_until_push_partial",
    "Sas.Props.C55_refuted",
    "Sas.Props.C55_vectors_refuted",
    "Sas.Props.C55_row_refuted"
   ],
   "note": "Unchanged until the next row is pushed. The full statement is false (refuted for the list, the vectors and the row)."
  },
  {
   "property": "C56",
   "status": "proved",
   "theorems": [
    "Sas.Props.C56_rows"
   ],
   "note": ""
  },
  {
   "property": "C57",
   "status": "partial",
   "theorems": [
    "Sas.Props.C57_refuted",
    "Sas.Props.C57_partial"
   ],
   "note": "False for missing header dates: a debug build throws out_of_range on every such file (C57_refuted). C57_partial: for every well-formed file with header dates in the calendar both builds open it and report the same."
  },
  {
   "property": "C58",
   "status": "partial",
   "theorems": [
    "Sas.Props.C58_partial",
    "Sas.Props.C58_brace_refuted",
    "Sas.Props.C58_cells"
   ],
   "note": "The listing for names without braces, printable header dates and cells with a text. False for names with a brace (used as format string) and cells without text."
  },
  {
   "property": "C59",
   "status": "proved",
   "theorems": [
    "Sas.Props.C59_null"
   ],
   "note": "Succeeds iff every cell of the pushed rows can be read."
  },
  {
   "property": "C60",
   "status": "proved",
   "theorems": [
    "Sas.Props.C60_sizes",
    "Sas.Props.C60_compression"
   ],
   "note": "Row length, row count, column counts, mix-page count and compression as declared, for every filter."
  },
  {
   "property": "C61",
   "status": "partial",
   "theorems": [
    "Sas.Props.C61_layouts_partial",
    "Sas.Props.C61_every_partial"
   ],
   "note": "Rows in a form that is decompressed correctly (Packed) that do not look like subheaders on the first page with rows; the excluded cases are refuted under C16, C17 and C46."
  },
  {
   "property": "C62",
   "status": "partial",
   "theorems": [
    "Sas.Props.C62_arguments_partial",
    "Sas.Props.C62_long_refuted",
    "Sas.Props.C62_sinks"
   ],
   "note": "Missing, and false: lists of 2^31 and more elements (their size is kept in an int)."
  },
  {
   "property": "C63",
   "status": "partial",
   "theorems": [
    "Sas.Props.C63_layouts_partial",
    "Sas.Props.C63_every_partial",
    "Sas.Props.C63_empty_refuted",
    "Sas.Props.C63_twins_refuted"
   ],
   "note": "For data sets with rows and distinct UTF-8 names; the others are refuted (C63_empty_refuted, C63_twins_refuted, C65_latin1_refuted). Compressed layouts as in C61."
  },
  {
   "property": "C64",
   "status": "partial",
   "theorems": [
    "Sas.Props.C64_df_partial",
    "Sas.Props.C64_labels_refuted",
    "Sas.Props.C64_stale_refuted",
    "Sas.Props.C64_lost_refuted",
    "Sas.Props.C64_dropped_refuted",
    "Sas.Props.C64_continue_refuted",
    "Sas.Props.C64_empty_refuted"
   ],
   "note": "Proved for every history of calls that return, nothing being called after end_of_data, and df looked at once while the reader lives; each of the other cases is refuted."
  },
  {
   "property": "C65",
   "status": "proved",
   "theorems": [
    "Sas.Props.C65_names",
    "Sas.Props.C65_latin1_refuted"
   ],
   "note": "C65_latin1_refuted shows the consequence: a file with a Latin-1 name cannot be read at all unless the column is left out."
  },
  {
   "property": "C66",
   "status": "partial",
   "theorems": [
    "Sas.Props.C66_arguments_partial",
    "Sas.Props.C66_long_refuted",
    "Sas.Props.C66_sinks_partial",
    "Sas.Props.C66_size_refuted"
   ],
   "note": "Missing, and false: vectors of 2^31 and more elements (their size is kept in an int); negative chunk sizes (undefined conversion to size_t)."
  },
  {
   "property": "C67",
   "status": "partial",
   "theorems": [
    "Sas.Props.C67_open_partial",
    "Sas.Props.C67_date_refuted",
    "Sas.Props.C67_row_refuted",
    "Sas.Props.C67_columns_refuted"
   ],
   "note": "For SinkByChunk and SinkWholeData and header dates in the years 1400 to 9999. Refuted: a header without a date, SinkByRow (no file can be opened with it), sink$columns (always NULL). Texts are cut at a zero byte."
  },
  {
   "property": "C68",
   "status": "partial",
   "theorems": [
    "Sas.Props.C68_data_partial",
    "Sas.Props.C68_layouts_partial",
    "Sas.Props.C68_every_partial",
    "Sas.Props.C68_empty_refuted",
    "Sas.Props.C68_zero_refuted"
   ],
   "note": "For data sets with rows, at most 2^31, header dates in the years 1400 to 9999, texts and names without zero bytes. Refuted: no rows, zero bytes, no header date (C67_date_refuted). Compressed layouts as in C61."
  },
  {
   "property": "C69",
   "status": "partial",
   "theorems": [
    "Sas.Props.C69_exact_partial",
    "Sas.Props.C69_chunks_partial",
    "Sas.Props.C69_layouts_partial",
    "Sas.Props.C69_whole_refuted",
    "Sas.Props.C69_chunks_refuted",
    "Sas.Props.C69_empty_refuted",
    "Sas.Props.C69_names_refuted"
   ],
   "note": "What the frame shows is proved exactly, for every chunk size and history (C69_exact_partial): right for fewer rows than two chunks or no chunking; for every data set with two chunks or more the rows of the second are shown in the places of the first (C69_whole_refuted). Distinct names that are names in R, and rows; the others are refuted."
  },
  {
   "property": "C70",
   "status": "partial",
   "theorems": [
    "Sas.Props.C70_checked_partial",
    "Sas.Props.C70_refuted"
   ],
   "note": "Proved for 32-bit files with header dates within 139000 years of 1960 or missing, for every byte string, device fault, filter, and, if the file is not compressed, every history of calls. False in general: the bounds check of a debug build wraps for 64-bit files, the decompressors have no checks against the source row, and column getters have none."
  },
  {
   "property": "C71",
   "status": "partial",
   "theorems": [
    "Sas.Props.C71_count_partial",
    "Sas.Props.C71_balanced_partial",
    "Sas.Props.C71_raising_partial",
    "Sas.Props.C71_unharmed_partial",
    "Sas.Props.C71_missing_refuted",
    "Sas.Props.C71_header_refuted"
   ],
   "note": "The exact number of references lost: for histories that return, one per missing cell handed over and per look at a missing header date (C71_count_partial); for every program, whatever raises, one per missing value converted (C71_raising_partial), hence none when no row and no header date is missing (C71_unharmed_partial) or None is immortal. Refuted otherwise: repeated reading aborts the interpreter, for every initial count. Rows of a chunk never handed over cost nothing."
  },
  {
   "property": "C72",
   "status": "proved",
   "theorems": [
    "Sas.Props.C72_open",
    "Sas.Props.C72_call",
    "Sas.Props.C72_histories",
    "Sas.Props.C72_protocol",
    "Sas.Props.C72_rows",
    "Sas.Props.C72_quiet"
   ],
   "note": "For every sink as a state machine that may throw in any call. C72_rows assumes that read_all would succeed with a sink that does not throw (no exception of the reader itself); C72_histories has no such hypothesis."
  },
  {
   "property": "C73",
   "status": "partial",
   "theorems": [
    "Sas.Props.C73_chunks_partial",
    "Sas.Props.C73_end_partial",
    "Sas.Props.C73_data_partial",
    "Sas.Props.C73_rows",
    "Sas.Props.C73_stuck",
    "Sas.Props.C73_names",
    "Sas.Props.C73_size_refuted",
    "Sas.Props.C73_stuck_refuted"
   ],
   "note": "Proved for all objects, files and histories with at most one end_of_data: nothing that was refused is lost or repeated. Sizes after a refusal and rows that cannot be converted are refuted."
  },
  {
   "property": "C74",
   "status": "partial",
   "theorems": [
    "Sas.Props.C74_written",
    "Sas.Props.C74_prefix",
    "Sas.Props.C74_silent",
    "Sas.Props.C74_reported_partial",
    "Sas.Props.C74_csv",
    "Sas.Props.C74_print",
    "Sas.Props.C74_refuted"
   ],
   "note": "False as stated: a stream with the default settings reports nothing (C74_silent: no caller can tell two such streams apart; C74_refuted). Proved: the output is always the beginning of the text; with exceptions enabled and none thrown, everything but what is in the buffer has arrived."
  },
  {
   "property": "C75",
   "status": "proved",
   "theorems": [
    "Sas.Props.C75_source",
    "Sas.Props.C75_memory"
   ],
   "note": "for all sources that agree (Spec.Agree); the corollary is about a source over bytes in memory against the file source"
  },
  {
   "property": "C76",
   "status": "partial",
   "theorems": [
    "Sas.Props.C76_tail_partial",
    "Sas.Props.C76_refuted"
   ],
   "note": "proved for datasets with at least one row; refuted for a dataset without rows whose file ends with the metadata"
  },
  {
   "property": "C77",
   "status": "proved",
   "theorems": [
    "Sas.Props.C77_reads",
    "Sas.Props.C77_enough",
    "Sas.Props.C77_logged",
    "Sas.Props.C77_file"
   ],
   "note": "Any source, wrapped in one that notes its reads; noting changes nothing (C77_logged)."
  },
  {
   "property": "C78",
   "status": "proved",
   "theorems": [
    "Sas.Props.C78_memory"
   ],
   "note": "The blocks of the page buffer and of the decompressor, and the row pointers of the current page; the memory of the properties themselves is fixed once the file is open."
  },
  {
   "property": "C79",
   "status": "partial",
   "theorems": [
    "Sas.Props.C79_block",
    "Sas.Props.C79_sink",
    "Sas.Props.C79_no_allocation",
    "Sas.Props.C79_bytes_partial",
    "Sas.Props.C79_refuted"
   ],
   "note": "Blocks: proved for all histories. Bytes: proved until the source is read again (page buffer) or the next row is asked for (decompressed rows); false beyond (C79_refuted). Only the aligned buffers count as allocations, not the small objects of the standard library."
  },
  {
   "property": "C80",
   "status": "partial",
   "theorems": [
    "Sas.Props.C80_instants",
    "Sas.Props.C80_dates",
    "Sas.Props.C80_texts",
    "Sas.Props.C80_columns",
    "Sas.Props.C80_times_partial",
    "Sas.Props.C80_refuted"
   ],
   "note": "Dates and datetimes: proved. Times: proved within a day; false for 24 hours and more (C80_refuted), where the clock starts again."
  },
  {
   "property": "C81",
   "status": "partial",
   "theorems": [
    "Sas.Props.C81_number",
    "Sas.Props.C81_whole",
    "Sas.Props.C81_csv",
    "Sas.Props.C81_to_string_partial",
    "Sas.Props.C81_refuted"
   ],
   "note": "csv: proved for every finite number. Column::to_string and the print sink: within half a millionth, exact for whole millionths and from 2^34 on; false otherwise (C81_refuted)."
  },
  {
   "property": "C82",
   "status": "proved",
   "theorems": [
    "Sas.Props.C82_builds",
    "Sas.Props.C82_vouches"
   ],
   "note": "Simulation for every source, filter and history; together with C70 the release build is safe wherever a debug build gets through a plain 32-bit file."
  },
  {
   "property": "C83",
   "status": "partial",
   "theorems": [
    "Sas.Props.C83_print_partial",
    "Sas.Props.C83_null_partial",
    "Sas.Props.C83_success_partial",
    "Sas.Props.C83_listing_partial",
    "Sas.Props.C83_one_partial",
    "Sas.Props.C83_csv_refuted"
   ],
   "note": "print and null are proved for all lists of files; csv is refuted for all of them: it empties the first file and fails"
  },
  {
   "property": "C84",
   "status": "partial",
   "theorems": [
    "Sas.Props.C84_text_partial",
    "Sas.Props.C84_whole_partial",
    "Sas.Props.C84_append_partial",
    "Sas.Props.C84_stale_refuted",
    "Sas.Props.C84_empty_refuted",
    "Sas.Props.C84_two_readers_refuted",
    "Sas.Props.C84_r_whole_partial",
    "Sas.Props.C84_r_chunk_partial",
    "Sas.Props.C84_r_empty_refuted",
    "Sas.Props.C84_r_columns_refuted"
   ],
   "note": "The text sinks are proved for any number of readers one after the other, the Python sinks for frames that were not looked at before and, for SinkWholeData, for files with rows, the R sinks for files with rows and, for SinkByChunk, the same columns; the rest is refuted."
  },
  {
   "property": "C85",
   "status": "partial",
   "theorems": [
    "Sas.Props.C85_alive_partial",
    "Sas.Props.C85_shows_partial",
    "Sas.Props.C85_dangling_refuted"
   ],
   "note": "Proved for every program that does not let its reader die after calling reader.properties(); those are refuted for every file. C85_shows_partial: what a variable shows is what the file said, whatever happened in between."
  },
  {
   "property": "C86",
   "status": "partial",
   "theorems": [
    "Sas.Props.C86_chunks_partial",
    "Sas.Props.C86_safe_partial",
    "Sas.Props.C86_end_partial",
    "Sas.Props.C86_data_partial",
    "Sas.Props.C86_data_end_partial",
    "Sas.Props.C86_rows",
    "Sas.Props.C86_next_row",
    "Sas.Props.C86_refuted"
   ],
   "note": "Chunks: as long as nothing is written outside the vectors, the rows that can be shown fall into the chunks taken and the rest kept; at an end without error all were taken; nothing is written outside as long as push_rows raises no error. Whole data: all rows, however often refused. Rows: exactly one row lost per error. Missing, and proved false: the row after a refused chunk is written outside the vectors (C86_next_row for all files, C86_refuted). Assumed: at most 2^31 rows; values whose conversion is undefined excluded (RSafe)."
  },
  {
   "property": "C87",
   "status": "partial",
   "theorems": [
    "Sas.Props.C87_csv_partial",
    "Sas.Props.C87_layouts_csv",
    "Sas.Props.C87_layouts_python_partial",
    "Sas.Props.C87_layouts_r_partial",
    "Sas.Props.C87_r_order_refuted"
   ],
   "note": "CSV equality of two layouts is proved in full, and equality of the tables in R including the order of the columns when each has a value; missing, and false: CSV records for names and texts with double quotes (C29_refuted), data frames of data sets without rows or with twin or non-UTF-8 names (C63, C65), the order in R of columns with missing values only (C87_r_order_refuted)."
  },
  {
   "property": "C88",
   "status": "proved",
   "theorems": [
    "Sas.Props.C88_python",
    "Sas.Props.C88_python_open",
    "Sas.Props.C88_r",
    "Sas.Props.C88_r_open"
   ],
   "note": "lists of fewer than 2^31 names (longer ones: C62_long_refuted, C66_long_refuted); the sinks of the packages"
  },
  {
   "property": "C89",
   "status": "proved",
   "theorems": [
    "Sas.Props.C89_ends",
    "Sas.Props.C89_loop",
    "Sas.Props.C89_loop_row",
    "Sas.Props.C89_python",
    "Sas.Props.C89_r",
    "Sas.Props.C89_read_sas",
    "Sas.Props.C89_r_read_sas",
    "Sas.Props.C89_zero_refuted"
   ],
   "note": "C89_zero_refuted: loops that ask for no rows never end"
  },
  {
   "property": "C90",
   "status": "partial",
   "theorems": [
    "Sas.Props.C90_prefix_partial",
    "Sas.Props.C90_cut_partial",
    "Sas.Props.C90_device_partial",
    "Sas.Props.C90_csv_partial",
    "Sas.Props.C90_silent_refuted",
    "Sas.Props.C90_metadata_refuted"
   ],
   "note": "Proved for all sources, cuts, failing devices and histories, provided one row can be read; refuted without this (metadata cut off), and a user is not told that rows are missing."
  },
  {
   "property": "C91",
   "status": "partial",
   "theorems": [
    "Sas.Props.C91_python",
    "Sas.Props.C91_python_raises",
    "Sas.Props.C91_python_index",
    "Sas.Props.C91_python_script",
    "Sas.Props.C91_r_partial",
    "Sas.Props.C91_r_raises",
    "Sas.Props.C91_r_index_partial",
    "Sas.Props.C91_r_script_partial",
    "Sas.Props.C91_r_half",
    "Sas.Props.C91_r_wild_refuted"
   ],
   "note": "Python in full. Missing in R, and false (C91_r_wild_refuted): numbers out of the range of size_t and missing values; the index of the row beyond 2^53."
  },
  {
   "property": "C92",
   "status": "partial",
   "theorems": [
    "Sas.Props.C92_python_partial",
    "Sas.Props.C92_columns_partial",
    "Sas.Props.C92_names",
    "Sas.Props.C92_written_partial",
    "Sas.Props.C92_text_refuted",
    "Sas.Props.C92_label_refuted",
    "Sas.Props.C92_date_refuted"
   ],
   "note": "Missing, and false (C92_text_refuted, C92_label_refuted, C92_date_refuted): texts that are not UTF-8; dates outside of the years 1400 to 9999. For written files, compressed rows are in the forms that are decompressed correctly (C16, C17)."
  },
  {
   "property": "C93",
   "status": "proved",
   "theorems": [
    "Sas.Props.C93_asked",
    "Sas.Props.C93_throws",
    "Sas.Props.C93_either",
    "Sas.Props.C93_fails",
    "Sas.Props.C93_function"
   ],
   "note": "Any filter program, any sink program. The reader without a filter is the reference for the columns and the rows."
  },
  {
   "property": "C94",
   "status": "partial",
   "theorems": [
    "Sas.Props.C94_open",
    "Sas.Props.C94_read_partial",
    "Sas.Props.C94_arrives",
    "Sas.Props.C94_final",
    "Sas.Props.C94_retry_refuted"
   ],
   "note": "All but the last sentence, which does not hold: an exception of the source is final, see C94_retry_refuted."
  },
  {
   "property": "C95",
   "status": "partial",
   "theorems": [
    "Sas.Props.C95_open",
    "Sas.Props.C95_alone",
    "Sas.Props.C95_empty",
    "Sas.Props.C95_shared_refuted",
    "Sas.Props.C95_taken_refuted"
   ],
   "note": "Proved for all programs that make no two readers on one source object; refuted for readers that share one: the second may not open, and the first may show rows of the other's file."
  },
  {
   "property": "C96",
   "status": "proved",
   "theorems": [
    "Sas.Props.C96_creator",
    "Sas.Props.C96_rdc"
   ],
   "note": "For files with one row-size subheader, before the first column text. In an RDC-compressed file the marker of the compression is reported as the program's name (C96_rdc)."
  },
  {
   "property": "C97",
   "status": "proved",
   "theorems": [
    "Sas.Props.C97_values",
    "Sas.Props.C97_formatters",
    "Sas.Props.C97_outlives",
    "Sas.Props.C97_equal",
    "Sas.Props.C97_moved"
   ],
   "note": "For all programs. A column that was moved from keeps its texts only; a getter on it is undefined behaviour (C97_moved). One thread; memory for every copy."
  },
  {
   "property": "C98",
   "status": "proved",
   "theorems": [
    "Sas.Props.C98_numbers",
    "Sas.Props.C98_columns",
    "Sas.Props.C98_buffers",
    "Sas.Props.C98_reader"
   ],
   "note": "For all machines and all bytes. Doubles are stored with their bytes in the same order as integers (IEEE 754 hosts); mixed orders are not modelled."
  },
  {
   "property": "C99",
   "status": "proved",
   "theorems": [
    "Sas.Props.C99_damage",
    "Sas.Props.C99_bytes",
    "Sas.Props.C99_cell",
    "Sas.Props.C99_one_row"
   ],
   "note": "Damage to the rows of data pages. C99_damage for all histories; C99_bytes says where in the files the two rows are; C99_cell and C99_one_row locate the effect."
  }
 ]
}