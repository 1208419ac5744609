{"id": "C01", "title": "Every row is delivered once, in file order", "statement": "For a file whose row-bearing pages (after the first) each announce at least one row, Reader::read_all calls the sink's push_row exactly once for each of the first row_count rows stored in the file's pages, in page order, with row_index 0,1,2,... and with exactly the row's bytes (decompressed when needed; which commands of a compressed row are executed is the subject of C16 and C17), and then calls end_of_data exactly once.", "quantifier": "every data source that presents a well-formed header and a finite sequence of pages (any page kinds, any number of pages and rows), every row_count, row_length, endianness, format and compression, every column filter", "why_tests_cant": "A unit test fixes one file; the claim is about every interleaving of meta/data/mix/other pages and every row count, including row_count larger or smaller than the rows present.", "anchors": ["src/data.hpp: READ_DATA::next, _read_line, read_line, read_next_page, build_page", "src/reader-impl.hpp: ReaderImpl::read_row, impl::read_all"]}
{"id": "C02", "title": "Reading granularity does not matter", "statement": "Any sequence of read_row, read_rows(n) and read_all calls pushes the same rows with the same indices as one read_all: the concatenated push_row calls of any such history are a prefix of the rows read_all would push, and equal to them once some call has reported the end.", "quantifier": "every finite history of read_row/read_rows/read_all calls and every chunk size, on every data source", "why_tests_cant": "The number of call histories and chunk sizes is unbounded.", "anchors": ["src/reader-impl.hpp: impl::read_rows, impl::read_all, ReaderImpl::read_row"]}
{"id": "C03", "title": "skip(n) is n discarded reads", "statement": "skip(n) returning true leaves the reader in the position reached by n successful reads: every later read_row delivers the same row bytes and the same row_index as if the n rows had been read and ignored; skip(a) then skip(b) is skip(a+b).", "quantifier": "every reader state, every n, every later call history", "why_tests_cant": "Needs all n, all page boundaries crossed by the skip, and all later histories.", "anchors": ["src/data.hpp: READ_DATA::skip, next, _read_line", "src/reader-impl.hpp: ReaderImpl::skip"]}
{"id": "C04", "title": "current_row_index counts rows and never passes row_count", "statement": "current_row_index() is 0 after construction, increases by one for each row read or skipped and by nothing else, never decreases and never exceeds properties().row_count; it equals the row_index the next push_row will carry.", "quantifier": "every call history on every data source, including histories with exceptions", "why_tests_cant": "Invariant over all histories.", "anchors": ["src/data.hpp: READ_DATA::current_row, next, _read_line", "src/reader-impl.hpp: current_row_index"]}
{"id": "C05", "title": "The end of the data is final", "statement": "Once read_row, skip(n) or read_rows(n) has returned false or read_row_no_sink has returned a null pointer, every later call pushes no row, returns false (null), and leaves current_row_index unchanged.", "quantifier": "every call history after the first failure, on every data source (even one that would deliver more bytes)", "why_tests_cant": "Quantifies over all later histories and over sources that change their answers.", "anchors": ["src/data.hpp: READ_DATA::next, read_next_page"]}
{"id": "C06", "title": "read_rows reports whether the chunk was complete", "statement": "read_rows(n) returns true iff it pushed exactly n rows; if it returns false it pushed fewer than n rows and then signalled end_of_data; read_rows(0) returns true and does nothing.", "quantifier": "every reader state and every n", "why_tests_cant": "All n and all states.", "anchors": ["src/reader-impl.hpp: impl::read_rows"]}
{"id": "C07", "title": "read_row_no_sink is read_row without the sink", "statement": "read_row_no_sink returns the pointer to the same bytes read_row would have pushed, moves the reader to the same state, and never calls the sink, not even end_of_data.", "quantifier": "every reader state", "why_tests_cant": "All states, including page boundaries and the end of the data.", "anchors": ["src/reader-impl.hpp: ReaderImpl::read_row_no_sink, read_row"]}
{"id": "C08", "title": "Sink protocol", "statement": "The sink receives set_properties exactly once, before any other call, with the properties later returned by properties(); push_row row indices are strictly increasing; if construction fails the sink receives nothing.", "quantifier": "every call history on every data source, every filter", "why_tests_cant": "A protocol over all histories.", "anchors": ["src/reader-impl.hpp: impl::impl, push_row, end_of_data", "src/reader.cpp: impl::build"]}
{"id": "C09", "title": "end_of_data is signalled exactly once", "statement": "A user who drains the reader sees exactly one end_of_data call, whatever mix of read_row/read_rows/read_all/skip calls is used and however often the reader is polled after the end.", "quantifier": "every call history", "why_tests_cant": "All histories. (The code signals once per failing call: proved, with the exact count, and the 'exactly once' reading refuted.)", "anchors": ["src/reader-impl.hpp: ReaderImpl::read_row, skip, end_of_data"]}
{"id": "C10", "title": "A row that cannot be decoded does not desynchronise the reader", "statement": "If read_row throws because a compressed row is malformed, the row is consumed: the next read_row delivers the following row with its own correct index, exactly as if the bad row had been skipped.", "quantifier": "every reader state and every malformed compressed row", "why_tests_cant": "Quantifies over all crash points (rows) and all later reads.", "anchors": ["src/data.hpp: READ_DATA::read_line, extract_row_values", "src/decompressors.hpp: assert_check"]}
{"id": "C11", "title": "Header acceptance", "statement": "Opening a source that cannot deliver 288 bytes throws header_too_short; otherwise a source whose first 32 bytes are not the SAS magic number throws invalid_magic_number; in both cases no sink call happens. A source that delivers them is never rejected for these reasons.", "quantifier": "every byte string / every data source", "why_tests_cant": "All inputs, all 2^256 magic prefixes.", "anchors": ["src/header.hpp: CHECK_HEADER", "src/sas7bdat-impl.hpp: check_header"]}
{"id": "C12", "title": "Header fields are decoded from the documented positions", "statement": "For every combination of endianness, 32/64-bit format and the two alignment flags, header fields written at the documented offsets (shifted by align1/align1+align2) are returned unchanged by properties(): lengths, counts, strings (trimmed), platform, encoding; the creation and modification dates are the instants stored, to the microsecond.", "quantifier": "all field values, all 8 combinations of flags, all header lengths >= 288+total_align", "why_tests_cant": "Value domain is all 32-bit integers and all strings.", "anchors": ["src/header.hpp: READ_HEADER::set_header, set_header_length_and_read, CHECK_HEADER::set_aligns_endianness"]}
{"id": "C13", "title": "Integers are decoded independently of byte order", "statement": "Decoding the big- or little-endian encoding of any 16/32/64-bit integer returns that integer (two's complement for signed), and decoding a byte string in one order equals decoding its reversal in the other.", "quantifier": "all integers of each width, both byte orders", "why_tests_cant": "2^64 values per width.", "anchors": ["src/types.hpp: ENDIAN::get_val", "src/buffer.hpp: get_uint16, get_uint32, get_integer, get_uinteger, get_int16"]}
{"id": "C14", "title": "Truncated doubles keep sign, exponent and leading mantissa", "statement": "A numeric column of length n in 3..7 holding the n most significant bytes of a double is read back as the double with its low 8-n bytes zeroed: exact when those bytes were zero, never larger in magnitude, and off by less than one unit of the last kept mantissa bit; length 8 returns the bit pattern unchanged.", "quantifier": "all 2^64 doubles, all lengths 3..8, both byte orders", "why_tests_cant": "All doubles.", "anchors": ["src/types.hpp: get_incomplete_double, get_double", "src/formatters.hpp: IncompleteDoubleFormatter, DoubleFormatter"]}
{"id": "C15", "title": "String values are trimmed exactly", "statement": "get_string of a string column returns the column's bytes with exactly the trailing NUL/white-space bytes removed: a prefix of the cell, whose last byte is not NUL/space, all removed bytes being NUL/space; other bytes (leading blanks, inner bytes, non-ASCII) are preserved. Header strings and column texts drop leading white space and trailing non-printable or white-space bytes.", "quantifier": "all byte strings of all lengths", "why_tests_cant": "All strings.", "anchors": ["src/types.hpp: get_string_trim_0, get_string_trim", "src/formatters.hpp: StringFormatter"]}
{"id": "C16", "title": "RLE decompression inverts RLE compression", "statement": "For every row and every valid RLE command sequence that encodes it, decompression returns the row.", "quantifier": "all command sequences, all row lengths", "why_tests_cant": "All command sequences of any length. (False in the code for a sequence ending in a one-byte command; refuted, partial theorem proved.)", "anchors": ["src/decompressors.hpp: RLE::operator()"]}
{"id": "C17", "title": "RDC decompression inverts RDC compression", "statement": "For every row and every valid RDC token sequence that encodes it, decompression returns the row.", "quantifier": "all token sequences (literals, runs, back references), all row lengths", "why_tests_cant": "All token sequences. (False in the code when fewer than 3 source bytes remain; refuted, partial theorem proved.)", "anchors": ["src/decompressors.hpp: RDC::operator(), store_pattern"]}
{"id": "C18", "title": "Decompression yields exactly row_length bytes", "statement": "Decompressing any byte string either throws cannot_decompress or returns exactly row_length bytes, never writes outside the row buffer, and the result depends only on that byte string, not on the rows decompressed before.", "quantifier": "all byte strings, all row lengths, all previous buffer contents", "why_tests_cant": "All inputs and all histories of the reused buffer.", "anchors": ["src/decompressors.hpp: DST_VALUES, RLE, RDC"]}
{"id": "C19", "title": "Decompressors never read outside their input or the produced row", "statement": "Decompressing any byte string never reads past the end of the compressed row and never copies from outside the bytes already produced.", "quantifier": "all byte strings, all row lengths", "why_tests_cant": "All malformed inputs. (False in the code: refuted with concrete inputs; exact safe conditions proved.)", "anchors": ["src/decompressors.hpp: SRC_VALUES::pop, RDC::store_pattern, RLE INSERT_BYTE18"]}
{"id": "C20", "title": "Columns are reported completely and in order", "statement": "If construction succeeds with the accept-all filter, properties().columns has exactly column_count entries; the i-th has the i-th name, label, format, offset, length and type found in the metadata subheaders; if any of the lists is too short construction throws instead.", "quantifier": "all metadata contents, all column counts", "why_tests_cant": "All metadata lists.", "anchors": ["src/metadata.hpp: create_columns, get_value"]}
{"id": "C21", "title": "Column filters select exactly the requested columns", "statement": "With a filter, properties().columns is the sub-sequence of the unfiltered columns that the filter accepts, in the same order; IncludeExclude with a non-empty include set accepts exactly the included names (ignoring exclusions), else with a non-empty exclude set exactly the non-excluded names, else everything. column_count stays the unfiltered count.", "quantifier": "all column lists, all name sets, any user filter", "why_tests_cant": "All filters and all column lists.", "anchors": ["include/cppsas7bdat/filter/column.hpp: IncludeExclude::is_accepted", "src/metadata.hpp: create_columns"]}
{"id": "C22", "title": "Filtering columns does not change values or rows", "statement": "Two readers on the same source that differ only in their filter push the same rows with the same indices, and a column kept by both yields the same value on each row.", "quantifier": "all sources, all pairs of filters, all call histories", "why_tests_cant": "A two-run property over all inputs and histories.", "anchors": ["src/metadata.hpp: create_columns", "src/data.hpp", "src/formatters.hpp"]}
{"id": "C23", "title": "Column type classification is total and deterministic", "statement": "Every (stored type, length, format) triple gets exactly one column type: string; integer for numeric length 1 or 2; otherwise datetime/date/time according to the format tables in that priority; otherwise number for lengths 3..8; otherwise unknown. The format tables are disjoint.", "quantifier": "all types, all lengths, all format strings", "why_tests_cant": "All format strings and lengths.", "anchors": ["src/metadata.hpp: create_columns, is_datetime_format, is_date_format, is_time_format"]}
{"id": "C24", "title": "Date, datetime and time columns are decoded from their own bytes", "statement": "The value of a numeric column carrying a date/datetime/time format depends only on the column's own length bytes, and is the same number a plain numeric column of that length would return.", "quantifier": "all rows, all column lengths 3..8", "why_tests_cant": "All rows. (False in the code for lengths 3..7, which read 8 bytes; refuted, true for length 8.)", "anchors": ["src/metadata.hpp: create_columns", "src/formatters.hpp: DateTimeFormatter, DateFormatter, TimeFormatter"]}
{"id": "C25", "title": "Malformed files are reported by exceptions", "statement": "Opening and reading any byte string as a file either succeeds or throws a catchable exception: it never terminates the process and never accesses memory outside its buffers.", "quantifier": "all byte strings", "why_tests_cant": "All byte strings. (False in the code: process termination through noexcept, unchecked reads and a wrapping bounds check; refuted with concrete files, exact safe conditions proved.)", "anchors": ["src/buffer.hpp: assert_check, check, data", "src/page.hpp: _get_page_subheader", "src/metadata.hpp: process_*"]}
{"id": "C26", "title": "Opening a file terminates", "statement": "Constructing a Reader on any finite file and every later call terminates.", "quantifier": "all files", "why_tests_cant": "Termination for all inputs. (False when page_length is 0: refuted; proved for page_length > 0.)", "anchors": ["src/metadata.hpp: set_metadata", "src/page.hpp: read_page", "src/data.hpp: read_next_page"]}
{"id": "C27", "title": "Truncation and I/O errors are distinguished", "statement": "If the file ends in the middle of a page, the rows of all complete pages are delivered, the incomplete page contributes no row, and the end is signalled normally; if the source reports an error that is not end-of-file, cannot_read_page is thrown and no row of the failed page is delivered.", "quantifier": "all truncation points after the header of all well-formed files, all failure points of a source that presents a well-formed file", "why_tests_cant": "All crash points.", "anchors": ["src/page.hpp: read_page", "include/cppsas7bdat/source/ifstream.hpp: read_bytes, eof"]}
{"id": "C28", "title": "A page without rows contributes no rows", "statement": "A data page announcing 0 rows, or a mixed page whose row count is 0, contributes nothing to the delivered rows.", "quantifier": "all page sequences", "why_tests_cant": "All page sequences. (False in the code except for the first data page; refuted, partial theorem proved.)", "anchors": ["src/data.hpp: READ_DATA::next, read_next_page"]}
{"id": "C29", "title": "CSV output is rectangular and parses back", "statement": "The csv sink writes one header line and one line per pushed row, each with exactly one field per column in column order; parsing the output back with standard quoting rules returns the column names and cell texts.", "quantifier": "all column lists, all rows, all cell contents", "why_tests_cant": "All cell contents. (False when a string contains a double quote or a line break outside RFC4180 quoting; refuted, partial theorem proved.)", "anchors": ["include/cppsas7bdat/sink/csv.hpp: detail::csv"]}
{"id": "C30", "title": "Chunked Python sink delivers every row once", "statement": "Concatenating the chunks delivered to push_rows gives exactly the pushed rows in order; every chunk but the last has chunk_size rows, no chunk is empty, and [istartrow,iendrow] is the index range of its rows.", "quantifier": "all row sequences, all chunk sizes, all mixtures of reads and skips", "why_tests_cant": "All histories. (The index range is wrong after a skip: refuted, partial theorem proved.)", "anchors": ["python/pycppsas7bdat/cpp/sink.hpp: SinkChunk"]}
{"id": "C31", "title": "Chunked R sink delivers every row once, within bounds", "statement": "Concatenating the chunks delivered to push_rows gives exactly the pushed rows with their indices; chunk vectors are never written out of bounds.", "quantifier": "all row sequences, all chunk sizes, all call histories including explicit end_of_data", "why_tests_cant": "All histories. (Out of bounds after a mid-stream end_of_data: refuted, partial theorem proved.)", "anchors": ["R/CPPSAS7BDAT/src/sink_chunk.hpp: SinkChunk", "R/CPPSAS7BDAT/src/sink_by_columns.hpp: SinkByColumns"]}
{"id": "C32", "title": "Whole-data sinks deliver the data set once", "statement": "A whole-data sink drained by read_all receives exactly one set_data call containing all rows, also for a data set without rows.", "quantifier": "all row sequences", "why_tests_cant": "All data sets. (False for empty data sets: refuted, partial theorem proved.)", "anchors": ["python/pycppsas7bdat/cpp/sink.hpp: SinkData", "R/CPPSAS7BDAT/src/sink_data.hpp: SinkData"]}
{"id": "C33", "title": "Command line csv does not modify its input", "statement": "`cppsas7bdat-ci csv file` leaves file unchanged and writes its rows to the file with extension csv.", "quantifier": "all file systems and file names", "why_tests_cant": "All files. (False in the code: the input is truncated; refuted for every input.)", "anchors": ["apps/cppsas7bdat-ci.cpp: process_csv, get_csv_filename"]}
{"id": "C34", "title": "Command line print shows at most n lines", "statement": "`print --nlines=n` with n >= 0 pushes exactly min(n, rows) rows; without it (or with a negative n) all rows.", "quantifier": "all n and all files", "why_tests_cant": "All n and row counts.", "anchors": ["apps/cppsas7bdat-ci.cpp: process_print"]}
{"id": "C35", "title": "Date and time conversion is exact", "statement": "A datetime cell holding s seconds since 1960-01-01 is returned as that instant rounded to the nearest microsecond (exactly, for whole seconds); a date cell holding d days as that date; a missing value as not-a-date; a time cell as the instant's time of day.", "quantifier": "all doubles in the calendar range", "why_tests_cant": "All doubles, including every rounding of the intermediate floating-point operations.", "anchors": ["src/types.hpp: get_datetime_from_epoch, get_date_from_epoch, get_time_from_epoch"]}
{"id": "C36", "title": "A default-constructed or moved-from reader is inert", "statement": "On a reader without implementation every call is safe: reads and skips return false/null, current_row_index is 0, properties() are the defaults, no sink is called.", "quantifier": "all call histories", "why_tests_cant": "All histories.", "anchors": ["src/reader.cpp"]}
{"id": "C37", "title": "Every encoding byte has a name", "statement": "The encoding byte of any header maps to a non-empty encoding name; bytes without an assigned encoding map to the documented default, never to an out-of-range table access.", "quantifier": "all 256 bytes", "why_tests_cant": "Finite but exhaustive table, tests only touch those in sample files.", "anchors": ["src/encodings.cpp: get_encoding"]}
{"id": "C38", "title": "Time values survive conversion to Python and back", "statement": "Converting a duration to a Python timedelta/time and back returns the same duration; conversion to Python keeps hours, minutes, seconds and microseconds.", "quantifier": "all durations, positive and negative", "why_tests_cant": "All durations. (False for negative durations: refuted, partial theorem proved.)", "anchors": ["python/pycppsas7bdat/cpp/import_datetime.cpp"]}
{"id": "C39", "title": "Splitting columns by type is a partition", "statement": "Columns(columns) contains every column of a known type exactly once, in the list of its type and in original order, and nothing else.", "quantifier": "all column lists", "why_tests_cant": "All lists.", "anchors": ["src/column.cpp: get_columns, Columns::Columns"]}
{"id": "C40", "title": "properties() never changes", "statement": "The properties returned after construction are the same before and after any call history, and equal those passed to set_properties.", "quantifier": "all call histories", "why_tests_cant": "All histories.", "anchors": ["src/reader-impl.hpp: impl::properties", "src/reader.cpp: Reader::properties"]}
{"id": "C41", "title": "Getters of the wrong type return a missing value without touching memory", "statement": "Calling a getter that does not apply to a column's type returns the documented missing value (empty string, NaN, 0, not-a-date) and never reads the row.", "quantifier": "all columns, all getters, all row pointers (even invalid)", "why_tests_cant": "All columns and pointers.", "anchors": ["src/formatters.hpp: IFormatter and derived"]}
{"id": "C42", "title": "Buffer growth keeps the bytes already read", "statement": "Resizing the page buffer keeps its first min(old,new) bytes, and after any sequence of resizes and reads a successfully read page is exactly what the source delivered, whatever was in the buffer before.", "quantifier": "all sequences of resizes and reads", "why_tests_cant": "All histories of buffer sizes.", "anchors": ["src/buffer.hpp: MBUFFER::resize, read_stream"]}
{"id": "C43", "title": "A written data set is read back", "statement": "Writing any data set (columns with names, labels and formats that start and end with a visible ASCII character, types, offsets and lengths; any number of rows) uncompressed in the documented page layout, in any byte order and word size, and opening it reports exactly that header and those columns, pushes exactly those rows, in order, and ends; and each column returns from each pushed row the text, integer, number, date, time or datetime that was stored. Every data set whose parts fit on pages one by one can be written so.", "quantifier": "all data sets, both byte orders, both word sizes, all page lengths, all distributions of columns, subheaders and rows over groups and pages that fit", "why_tests_cant": "All data sets and layouts. (Texts with non-ASCII ends are damaged: C44.)", "anchors": ["src/sas7bdat-impl.hpp: READ::data", "src/metadata.hpp", "src/data.hpp", "src/header.hpp"]}
{"id": "C44", "title": "Column texts (names, labels, formats)", "statement": "A name/label/format reference (text index, offset, length) into the column texts returns exactly the referenced text without surrounding blanks; references outside the texts yield the part that exists, never memory outside the text.", "quantifier": "all references and all texts", "why_tests_cant": "All references. (A text starting with a non-ASCII byte is returned empty and trailing non-ASCII bytes are dropped: refuted for non-ASCII, proved for printable ASCII.)", "anchors": ["src/metadata.hpp: get_column_text_substr"]}
{"id": "C45", "title": "Compression detection", "statement": "A file is treated as RLE (RDC) compressed iff its first column text contains the RLE marker (contains the RDC marker and not the RLE one); later column texts never change it.", "quantifier": "all sequences of column texts", "why_tests_cant": "All texts.", "anchors": ["src/metadata.hpp: process_COLUMN_TEXT_SUBHEADER"]}
{"id": "C46", "title": "Rows of a compressed first page are all delivered", "statement": "Every data subheader of the page on which the metadata phase stops is delivered as a row.", "quantifier": "all pages of compressed files", "why_tests_cant": "All row contents. (False when a compressed row's first bytes equal a metadata signature: refuted, partial theorem proved.)", "anchors": ["src/metadata.hpp: process_subheader", "src/data.hpp: process_page_metadata"]}
{"id": "C47", "title": "Row addressing within a page", "statement": "The rows of a data or mixed page are consecutive, non-overlapping slices of row_length bytes starting right after the page header (and, on mixed pages, after the subheader pointers, rounded up to the next multiple of 8).", "quantifier": "all page headers, all row lengths, both formats", "why_tests_cant": "All counts and lengths.", "anchors": ["src/data.hpp: data_type::read_line, mix_type::read_line, build_page"]}
{"id": "C48", "title": "The file-backed csv sink writes to its file", "statement": "Rows pushed to datasink::csv(filename) given to a Reader end up in that file.", "quantifier": "all rows", "why_tests_cant": "Lifetime property over all executions. (False in the code: the moved sink keeps a reference to the destroyed stream; refuted.)", "anchors": ["include/cppsas7bdat/sink/csv.hpp: csv_ofstream", "include/cppsas7bdat/reader.hpp: build_sink"]}
{"id": "C49", "title": "Python row sink rows align with the columns", "statement": "Every row list given to a Python row sink has one entry per column, in column order.", "quantifier": "all column lists and rows", "why_tests_cant": "All column types. (False with a column of unknown type: refuted, partial theorem proved.)", "anchors": ["python/pycppsas7bdat/cpp/sink.hpp: Sink::push_row"]}
{"id": "C50", "title": "Page kind decides how a page is read", "statement": "Pages of type meta (0), data (256) and mix (512, 640) are the only ones that contribute rows; amd (1024) pages are only used for metadata, and any other page type is ignored without disturbing the rows of the other pages.", "quantifier": "all 65536 page types, all page sequences", "why_tests_cant": "All page sequences.", "anchors": ["src/page.hpp: is_page_*", "src/data.hpp: build_page", "src/metadata.hpp: process_page"]}
{"id": "C51", "title": "Dates are those of the Gregorian calendar", "statement": "The date returned for d days after (or before) 1960-01-01 is the year, month and day reached by counting d days forward (or backward) in the Gregorian calendar, with its leap years.", "quantifier": "every day of the years 1400 to 9999", "why_tests_cant": "More than three million days, and the arithmetic is 32-bit unsigned with divisions by 146097 and 1461.", "anchors": ["src/types.hpp: get_date_from_epoch_days", "src/formatters.hpp: DateFormatter, DateTimeFormatter"]}
{"id": "C52", "title": "Every date or time can be turned into text", "statement": "Turning a date, datetime or time cell into text gives its ISO 8601 form, for every cell, missing values included, and never fails.", "quantifier": "all cells of date, datetime and time columns", "why_tests_cant": "All values. (False for missing values, which raise an exception or read beyond a buffer: refuted, partial theorem proved.)", "anchors": ["src/types.cpp: to_string", "src/formatters.hpp: to_string"]}
{"id": "C53", "title": "Reading a date never ends the program", "statement": "The date and time getters return a value for every cell.", "quantifier": "all bit patterns in date, datetime and time cells", "why_tests_cant": "All doubles. (False beyond the year 9999: the getters are noexcept and Boost throws: refuted, partial theorem proved.)", "anchors": ["src/types.hpp: get_date_from_epoch, get_datetime_from_epoch", "src/formatters.hpp: get_date, get_datetime, get_time"]}
{"id": "C54", "title": "Polling a drained reader from Python is harmless", "statement": "Once all rows are delivered, calling read_row, read_rows or read_all again on a reader with a Python sink reports the end and raises no error.", "quantifier": "all sources, all histories of calls, all three kinds of Python sink", "why_tests_cant": "All histories of calls. (False: every end_of_data after the first tries to delete an attribute that is gone: refuted, partial theorem counts the errors.)", "anchors": ["python/pycppsas7bdat/cpp/sink.hpp: SinkBase::del_cpp_attr, Sink::end_of_data, SinkChunk::end_of_data, SinkData::end_of_data"]}
{"id": "C55", "title": "What an R sink has received stays as it was", "statement": "A row or chunk handed to an R sink's push_row or push_rows keeps its contents when further rows are pushed.", "quantifier": "all sequences of pushed rows, all chunk sizes", "why_tests_cant": "All histories. (False: the list and vectors handed over are reused for the following rows: refuted.)", "anchors": ["R/CPPSAS7BDAT/src/sink.hpp: Sink::push_row", "R/CPPSAS7BDAT/src/sink_by_columns.hpp: SinkByColumns::set_values", "R/CPPSAS7BDAT/src/sink_chunk.hpp: SinkChunk::flush"]}
{"id": "C56", "title": "R row sink rows align with the columns", "statement": "push_row of an R row sink is called once per row, in order, with the row's index and a list of one element per column in column order: the cell's value, NA for a missing number, NULL for a missing date or time or a column of unknown type.", "quantifier": "all sources, all histories of calls, all sets of columns", "why_tests_cant": "All column sets and histories; the list is reused from row to row, so stale elements would show only in particular sequences.", "anchors": ["R/CPPSAS7BDAT/src/sink.hpp: Sink::push_row, process_value"]}
{"id": "C57", "title": "Debug and release builds open the same files", "statement": "A file that a release build opens is also opened by a debug build, with the same reported header and columns.", "quantifier": "all sources that present a well-formed file, all header dates", "why_tests_cant": "All files and header contents. (False: a debug build converts the header dates to text for a log message and throws std::out_of_range when one is missing: refuted for every such file; partial theorem for dates in the calendar.)", "anchors": ["src/header.hpp: READ_HEADER::set_header (log message)", "src/types.cpp: to_string(DATETIME)"]}
{"id": "C58", "title": "The print sink lists every data set", "statement": "The print sink writes the properties of the file, a description of every column, a line with the column names, and for every pushed row one line with its index and the texts of its cells, in column order.", "quantifier": "all sources, filters and histories of calls; all names, header dates and cell contents", "why_tests_cant": "All names and cells. (False: a column name is used as a format string, so that a brace in it makes the construction of the reader throw, and a missing date has no text: refuted; partial theorem proved.)", "anchors": ["include/cppsas7bdat/sink/print.hpp: print", "src/types.cpp: to_string"]}
{"id": "C59", "title": "The null sink reads every cell", "statement": "The null sink (and `cppsas7bdat-ci null`) reads every cell of every pushed row and does nothing else: it succeeds exactly when every cell can be read.", "quantifier": "all sources, filters and histories of calls", "why_tests_cant": "All files and histories.", "anchors": ["include/cppsas7bdat/sink/null.hpp: null"]}
{"id": "C60", "title": "The reported sizes are those the file declares", "statement": "The properties passed to the sink report the row length, row count, column counts and mix-page row count of the file's row-size and column-size subheaders, whatever columns are selected.", "quantifier": "all well-formed files, all column filters", "why_tests_cant": "All files and filters.", "anchors": ["src/metadata.hpp: process_ROW_SIZE_SUBHEADER, process_COLUMN_SIZE_SUBHEADER", "include/cppsas7bdat/properties.hpp"]}
{"id": "C61", "title": "A written compressed data set is read back", "statement": "Writing any data set compressed (rows in any form the documented RLE and RDC compressions allow, or stored as they are) and opening the file reports exactly that header and those columns and pushes exactly those rows; in particular a data set written with an RLE compressor is read back.", "quantifier": "all data sets, both compressions, both byte orders, both word sizes, all page lengths and distributions over pages that fit", "why_tests_cant": "All data sets and compressed forms. (False in general: some compressed forms are decompressed wrongly (C16, C17) and rows that look like subheaders are lost (C46).)", "anchors": ["src/metadata.hpp: process_subheader", "src/data.hpp", "src/decompressors.hpp"]}
{"id": "C62", "title": "Python arguments select columns and sinks", "statement": "`Reader(filename, sink, include, exclude)` in Python reports exactly the columns named in the list `include` (or, when that is empty or None, those not named in `exclude`), and raises an exception when one of them is neither None nor a list of str and bytes. The sink's methods decide how it is served: with set_properties and push_row row by row, with set_properties, push_rows and a chunk_size by chunks of that size, with set_properties and set_data as a whole; any other object, and a chunk size that is not a size_t, is rejected.", "quantifier": "all argument values, all files, all sink objects", "why_tests_cant": "Arbitrary lists and files. (False for lists of 2^31 and more elements, whose size is kept in an int.)", "anchors": ["python/pycppsas7bdat/cpp/reader.cpp: filter, list_to_set, build", "include/cppsas7bdat/filter/column.hpp: IncludeExclude"]}
{"id": "C63", "title": "read_sas returns the data set as a data frame", "statement": "For a file that holds a data set, `read_sas(filename, sink, include, exclude).df` in Python is a data frame with the selected columns in the order of the file and under their names, and with the value stored in every row of them: bytes, int, float, datetime, date and time objects, None for missing dates and times.", "quantifier": "all data sets, all layouts over pages, compressed or not, all selections of columns, the three sinks of the package", "why_tests_cant": "All data sets, layouts and selections. (False for data sets without rows and for columns with equal names.)", "anchors": ["python/pycppsas7bdat/read_sas.py: read_sas", "python/pycppsas7bdat/sink.py", "python/pycppsas7bdat/cpp/sink.hpp", "python/pycppsas7bdat/cpp/import_datetime.cpp"]}
{"id": "C64", "title": "The data frame holds the rows read so far", "statement": "Whatever a Python program has called on the reader, `sink.df` is a data frame with exactly the rows pushed to the sink so far, labelled 0, 1, 2, ...", "quantifier": "all files, all histories of calls, the three sinks of the package", "why_tests_cant": "Arbitrary histories. (False of several programs: labels restart with every chunk, a frame is never updated, rows after end_of_data are lost, the sink outlives the reader, no rows.)", "anchors": ["python/pycppsas7bdat/sink.py: df, _cpp_flush_sink", "python/pycppsas7bdat/cpp/sink.hpp: flush_sink, end_of_data", "python/pycppsas7bdat/cpp/reader.cpp"]}
{"id": "C65", "title": "A file whose column names are UTF-8 can be opened from Python", "statement": "A file that the library can open can be opened from Python with the sinks of the package exactly when the names of all selected columns are valid UTF-8; otherwise an exception is raised (and not a wrong name delivered).", "quantifier": "all files and selections of columns", "why_tests_cant": "All files. (So files with names in other encodings cannot be read at all.)", "anchors": ["python/pycppsas7bdat/sink.py: set_properties", "python/pycppsas7bdat/cpp/pycppsas7bdat.cpp: Column"]}
{"id": "C66", "title": "R arguments select columns and sinks", "statement": "`sas_reader(filename, sink, include, exclude)` in R reports exactly the columns named in the character vector `include` (or, when that is empty or NULL, those not named in `exclude`), and raises an error when one of them is neither NULL nor a character vector. The sink's methods decide how it is served (row by row, by chunks of chunk_size rows, as a whole); any other object, and a chunk size that is not a size_t, is rejected.", "quantifier": "all argument values, all files, all sink objects", "why_tests_cant": "Arbitrary vectors and files. (False for vectors of 2^31 and more names and for negative chunk sizes.)", "anchors": ["R/CPPSAS7BDAT/src/filter.cpp", "R/CPPSAS7BDAT/src/reader.cpp: _build", "R/CPPSAS7BDAT/R/reader.R"]}
{"id": "C67", "title": "R programs open every file and see its properties", "statement": "A file that the library can open can be opened from R with each sink class of the package; the sink and `properties()` get the list of the properties of the file (header, sizes, columns with name, label, format and type), and `sink$columns` holds the names of the columns.", "quantifier": "all files, all selections of columns, the three sink classes of the package", "why_tests_cant": "All files. (False for files whose header has no date, for SinkByRow with every file, and for sink$columns.)", "anchors": ["R/CPPSAS7BDAT/src/wrap_properties.hpp", "R/CPPSAS7BDAT/src/sink_base.hpp: set_properties", "R/CPPSAS7BDAT/R/sink.R"]}
{"id": "C68", "title": "R read_sas returns the data set", "statement": "For a file that holds a data set, `read_sas(filename, include, exclude)$df` in R has each selected column exactly once and under its name, and in every row the value that is stored there: strings, integers, numbers, ISO texts for dates and times, NA for missing dates and times.", "quantifier": "all data sets, all layouts over pages, compressed or not, all selections of columns", "why_tests_cant": "All data sets, layouts and selections. (False for data sets without rows, header dates missing, zero bytes in texts and names.)", "anchors": ["R/CPPSAS7BDAT/R/read_sas.R: read_sas", "R/CPPSAS7BDAT/R/sink.R: SinkWholeData", "R/CPPSAS7BDAT/src/sink_data.hpp"]}
{"id": "C69", "title": "R chunks are put together to a frame", "statement": "Reading a file to its end with a SinkByChunk of the R package leaves in `sink$df` a frame with the selected columns under their names and exactly the rows that were read, whatever the chunk size.", "quantifier": "all files, all chunk sizes, all histories of read calls that come to the end", "why_tests_cant": "All files, sizes and histories. (False as soon as there are two full chunks: the first frame shares its vectors with the sink, which overwrites them.)", "anchors": ["R/CPPSAS7BDAT/R/sink.R: SinkByChunk", "R/CPPSAS7BDAT/src/sink_chunk.hpp", "R/CPPSAS7BDAT/src/sink_by_columns.hpp"]}
{"id": "C70", "title": "Debug builds stay inside their buffers", "statement": "A build with DEBUG bounds checks never accesses memory outside its buffers, whatever the bytes of the file and wherever its device fails: opening the file, and every later call in any history, succeeds, throws, or is stopped by a check, and every row that is handed out lies in memory.", "quantifier": "all byte strings, all points at which the device fails, all filters, all histories of calls", "why_tests_cant": "All byte strings, faults and histories; fuzzing can only sample them. (False for 64-bit files, compressed rows and columns, whose accesses are not checked or whose checks wrap.)", "anchors": ["src/buffer.hpp: BUFFER, check", "src/header.hpp", "src/page.hpp", "src/metadata.hpp", "src/data.hpp"]}
{"id": "C71", "title": "Reading leaves Python's None alone", "statement": "A Python program that opens a file, reads it with a sink, looks at the dates of the header, and releases everything, leaves the reference count of None as it was, however often it is repeated; reading never aborts the interpreter.", "quantifier": "all files, all sinks (by row, by chunk, whole data; keeping or dropping what they are given), all histories of calls, all reference counts, any number of repetitions", "why_tests_cant": "A lost reference is invisible until hundreds of them have been lost: all files, histories and repetition counts. (False before Python 3.12: every missing date costs a reference.)", "anchors": ["python/pycppsas7bdat/cpp/import_datetime.cpp: to_python", "python/pycppsas7bdat/cpp/sink.hpp: push_row, flush", "python/pycppsas7bdat/cpp/pycppsas7bdat.cpp: get_date_created, get_date_modified"]}
{"id": "C72", "title": "A sink that throws loses no row", "statement": "An exception thrown by a sink in any call reaches the caller of the reader unchanged, at once, and leaves the reader usable: the caller can catch it and go on reading. Whatever calls throw, no row is handed over twice or left out: once a later read reports the end, the sink has been given exactly the rows, in order and each once, that read_all gives to a sink that never throws.", "quantifier": "all sinks (any state, throwing in any calls), all sources, all reachable readers, all histories of calls with any interruptions", "why_tests_cant": "Any call may throw: all sinks, all interruption points and all histories.", "anchors": ["src/reader-impl.hpp: read_row, read_rows, read_all, skip", "src/reader.cpp", "include/cppsas7bdat/reader.hpp: DatasetSinkModel"]}
{"id": "C73", "title": "A Python sink that raises gets its rows all the same", "statement": "When a method of a Python sink raises, or a value cannot be made a Python object, the program gets the exception and may go on reading. A chunk sink has then taken, in chunks with the right indices, the first of the rows that were pushed, each once and in order, and keeps the others until a later chunk or the end; if the call that signals the end returns, all rows were taken, also those of chunks refused before. A whole-data sink gets all rows or, if set_data raises, none. A row sink loses at most the row at which the exception was raised. Chunks have the size asked for, and a row that cannot be converted costs no other row.", "quantifier": "all Python objects (any behaviour, raising in any calls), all files, chunk sizes and histories of calls", "why_tests_cant": "Any call may raise: all objects, interruption points and histories. (False of the sizes after a refused chunk, and of a row that cannot be converted, after which a chunk sink never gets anything again.)", "anchors": ["python/pycppsas7bdat/cpp/sink.hpp: Sink::push_row, SinkChunk::push_row, SinkChunk::flush, clear_values, SinkData::end_of_data, set_dict_values"]}
{"id": "C74", "title": "Text that cannot be written is reported", "statement": "When the csv or print sink was used and no call has thrown, everything the sink has written is in the output once the stream is gone; and whatever happens, the output is the beginning of the text the sink would have written to a stream that takes everything.", "quantifier": "all files, call histories, streams (with any buffer size, with and without exceptions enabled) and all amounts of room on the device", "why_tests_cant": "a full disk can strike at any byte of any output; tests write to string streams that never fail", "anchors": ["include/cppsas7bdat/sink/csv.hpp: csv::set_properties, push_row, end_of_data, csv_ofstream", "include/cppsas7bdat/sink/print.hpp: print::print_properties, set_properties, push_row"]}
{"id": "C75", "title": "Nothing but the bytes of a source matters", "statement": "Two sources that give the same bytes, answer eof alike and fail at the same reads cannot be told apart by what the reader does: it is opened or not with the same error, the properties are the same, and all calls have the same results, exceptions included, and make the same calls on the sink. What a failed read has stored does not matter. In particular the bytes of a file held in memory by a source of one's own are read as the file is.", "quantifier": "all pairs of sources that agree, all filters, files and histories of calls", "why_tests_cant": "Users write their own sources; all sources, all bytes and all histories.", "anchors": ["include/cppsas7bdat/reader.hpp: DataSourceConcept, DataSourceModel", "include/cppsas7bdat/source/ifstream.hpp", "README.md: MyDataSource", "src/buffer.hpp: read_stream", "src/page.hpp: read_page"]}
{"id": "C76", "title": "Bytes behind the data do not matter", "statement": "What follows the last row in a file has no effect: if some calls read a dataset to its last row, then with anything appended to the file, or with a device that fails behind its end, the file is opened with the same properties and the same calls give the same results and the same rows.", "quantifier": "all files, all bytes appended, all positions of a fault behind the end, all filters and histories that reach the last row", "why_tests_cant": "All tails of all files. (False of a dataset without rows whose file ends with its metadata: what follows is read as more metadata.)", "anchors": ["src/data.hpp: READ_DATA::next, read_next_page", "src/metadata.hpp: set_metadata", "src/page.hpp: read_page"]}
{"id": "C77", "title": "A source is read once, front to back, in portions the header announces", "statement": "Reading asks a source for 288 bytes, then for the rest of the header, then for pages of the length the header gives, and for nothing else. At most one read fails and it is the last one: afterwards every call finds the end of the data. Once the last row has been read, no call asks the source for anything.", "quantifier": "all sources, filters and files that are opened, all points of all histories of calls", "why_tests_cant": "A source may be a pipe, a socket or a decompressor that cannot go back; all sources, files and histories.", "anchors": ["include/cppsas7bdat/reader.hpp: DataSourceConcept", "src/header.hpp: CHECK_HEADER, set_header_length_and_read", "src/page.hpp: read_page", "src/data.hpp: READ_DATA::next, read_next_page"]}
{"id": "C78", "title": "Memory does not grow with what is read", "statement": "At every point of every history the buffers of a reader take no more bytes than the header or a page, whichever is longer, and one row; and it holds pointers to the rows of one page at most, fewer than 65536. The properties stay what they were when the file was opened.", "quantifier": "all sources, filters and files that are opened, all points of all histories of calls", "why_tests_cant": "Files of any number of rows and pages; unit tests read small ones.", "anchors": ["src/buffer.hpp: BUFFER, resize, read_stream", "src/page.hpp: read_page, process_page_subheaders", "src/data.hpp: READ_DATA, meta_type", "src/decompressors.hpp"]}
{"id": "C79", "title": "A row stays where it is", "statement": "A pointer to a row, and a text taken from it, can be used as long as the reader lives: once a file is open no buffer is allocated, moved or freed, and no call fails for want of memory for one. The bytes behind the pointer stay those of the row.", "quantifier": "all sources, files and filters, all histories before and after the row was handed out", "why_tests_cant": "Dangling pointers need not show in a test; all histories and page layouts. (The second sentence is false: a later row overwrites the bytes. They stay until the source is read again, or for a decompressed row until the next one is asked for.)", "anchors": ["include/cppsas7bdat/reader.hpp: read_row_no_sink", "include/cppsas7bdat/column.hpp: get_string", "src/data.hpp: extract_row_values", "src/buffer.hpp: resize", "src/decompressors.hpp: DST_VALUES"]}
{"id": "C80", "title": "The order of dates and times is kept", "statement": "The larger of two numbers in a date, datetime or time column is never returned as an earlier date, instant or time, and its text never sorts before that of the smaller one. Instants two microseconds apart, and dates a day apart, stay different.", "quantifier": "all pairs of cells of a column, in any two rows, with numbers within the calendar from 1400 to 9999, both byte orders", "why_tests_cant": "Pairs of doubles; monotonicity must survive several roundings and the conversion to days, seconds and microseconds. (False for time columns: the clock starts again at 24 hours.)", "anchors": ["src/formatters.hpp: DateTimeFormatter, DateFormatter, TimeFormatter", "src/types.hpp: get_datetime_from_epoch, get_date_from_epoch, get_time_from_epoch", "src/types.cpp: to_string", "include/cppsas7bdat/column.hpp: get_datetime, get_date, get_time, to_string"]}
{"id": "C81", "title": "Numbers survive being written as text", "statement": "The text of a finite number, in the csv sink and from Column::to_string, is a decimal number that is read as exactly this number; missing numbers are empty csv fields. Whole numbers below 2^53 appear in csv without point and exponent.", "quantifier": "all 64-bit patterns of finite numbers, all files and histories for the csv sink", "why_tests_cant": "2^64 numbers. (False for Column::to_string, and so for the print sink: std::to_string keeps six decimals, so that small numbers become zero; the error bound and the exact cases are proved.)", "anchors": ["include/cppsas7bdat/sink/csv.hpp: print(NUMBER)", "src/formatters.hpp: DoubleFormatter::to_string, IncompleteDoubleFormatter::to_string", "include/cppsas7bdat/sink/print.hpp: push_row", "conanfile.py: fmt"]}
{"id": "C82", "title": "Builds with and without checks give the same answers", "statement": "Of two builds of the library, one with more checks than the other (a debug and a release build): whatever the build with more checks opens, the other one opens too, with the same properties, the same answers to the same calls and the same rows for the sink; what it rejects with an exception the other one rejects as well. It differs only where it ends the program, or when a header date has no text for its log. So a debug build that gets through a plain 32-bit file vouches for the release build: that one stays inside its buffers.", "quantifier": "all sources (any object with eof and read_bytes), all byte strings, filters and histories of calls, all combinations of DEBUG and NDEBUG", "why_tests_cant": "Tests compare two builds on chosen files; the claim ranges over all malformed files and all histories, and undefined behaviour in the release build need not show.", "anchors": ["src/buffer.hpp: check, assert_check, data", "src/header.hpp: set_header_length_and_read, set_header", "src/data.hpp: extract_row_values", "src/decompressors.hpp: store_pattern", "include/cppsas7bdat/reader.hpp: Reader"]}
{"id": "C83", "title": "The command line program treats its files one after the other", "statement": "cppsas7bdat-ci with several files does for each of them, in their order, what it does for that file alone: print writes one listing after the other, and --nlines counts anew for each file; csv converts each file; null reads each file. It fails exactly when one of the files fails alone, with the failure of the first such file; the files before it are treated completely and the files after it are not looked at. print and null change no file.", "quantifier": "all lists of files, all contents of the file system, all values of --nlines", "why_tests_cant": "Lists of any length with a failure at any place. (False for csv: it empties the first file, fails, and never looks at the others.)", "anchors": ["apps/cppsas7bdat-ci.cpp: main, process_print, process_csv, process_null"]}
{"id": "C84", "title": "A sink can be used for several files", "statement": "A sink that has been used for a file can be used for the next one. The csv, print and null sinks do for each file what a new sink would do. In Python, a SinkWholeData then has the frame a new one would have, and SinkByRow and SinkByChunk have the rows of all files with these columns, in their order. In R the same holds of SinkWholeData and SinkByChunk.", "quantifier": "all sequences of files and readers, all histories of calls on each reader, all earlier states of the sink", "why_tests_cant": "The state of the sink depends on all files read before. (False of frames that were looked at before the next file is read, of a next file without rows, and of two readers that use a sink at the same time. In R, reading a file with other columns into the same SinkByChunk is an error.)", "anchors": ["include/cppsas7bdat/sink/csv.hpp: set_properties, push_row", "include/cppsas7bdat/sink/print.hpp: set_properties, push_row", "include/cppsas7bdat/sink/null.hpp: set_properties, push_row", "python/pycppsas7bdat/sink.py: SinkByRow, SinkByChunk, SinkWholeData", "python/pycppsas7bdat/read_sas.py: read_sas", "R/CPPSAS7BDAT/R/sink.R: SinkByChunk, SinkWholeData"]}
{"id": "C85", "title": "Properties a Python program holds stay valid", "statement": "What a Python program gets from reader.properties() or sink.properties, the columns in it and the single columns can be used as long as the program has them, whatever happens to the reader and the sink, and they always show what the file said when it was opened.", "quantifier": "all files, all programs that call the reader, take properties, columns and single columns from the reader or the sink, look at them, and delete variables, the reader or the sink in any order", "why_tests_cant": "A dangling pointer often still shows the old bytes; the claim is about all orders of deletion. (False for reader.properties(): it does not keep the reader alive, so that Reader(filename, sink).properties().row_count is undefined.)", "anchors": ["python/pycppsas7bdat/cpp/reader.cpp: bind_reader", "python/pycppsas7bdat/cpp/pycppsas7bdat.cpp: Properties, Columns, Column", "python/pycppsas7bdat/cpp/sink.hpp: SinkBase::set_properties"]}
{"id": "C86", "title": "R functions that raise errors lose no rows and harm no memory", "statement": "When an R function of a sink raises an error while rows are handed to it, and the program catches it and goes on reading, then the rows of the refused chunk or frame are handed over with a later call, each row exactly once and in order, chunks keep their size, and nothing is written outside the R vectors. A row sink loses only the row it has refused. A row with a value that has no text takes no other row with it.", "quantifier": "all files, all histories of calls on the reader, all R objects (any pattern of errors), all chunk sizes", "why_tests_cant": "Which rows are pending depends on the whole history of calls and errors, and a write past the end of a vector often shows nothing. (False of chunks: the counter is reset only after push_rows has returned, so that after a refused chunk the next row is written one past the end of the vectors.)", "anchors": ["R/CPPSAS7BDAT/src/sink_chunk.hpp: SinkChunk::push_row, flush, end_of_data", "R/CPPSAS7BDAT/src/sink_data.hpp: push_row, end_of_data", "R/CPPSAS7BDAT/src/sink.hpp: push_row", "R/CPPSAS7BDAT/src/sink_by_columns.hpp: push_value", "R/CPPSAS7BDAT/R/sink.R: push_rows, push_row, set_data"]}
{"id": "C87", "title": "How a data set is stored does not matter", "statement": "Two files that hold the same values under the same column names give the same CSV text byte by byte, the same Python data frame and the same R data frame, whatever their byte order, word size, headers, page lengths, compression, places, widths and formats of the cells; and the records of the CSV text are the column names followed by the stored values.", "quantifier": "all data sets, all layouts of files that hold them (uncompressed and RLE-compressed), all include and exclude lists", "why_tests_cant": "Tests compare a fixed collection of files with stored results; the claim is about every pair of files with the same content, in all combinations of layout options.", "anchors": ["include/cppsas7bdat/sink/csv.hpp:csv", "src/column.cpp:Column", "src/metadata.hpp:METADATA", "python/pycppsas7bdat/read_sas.py:read_sas", "R/CPPSAS7BDAT/R/read_sas.R:read_sas"]}
{"id": "C88", "title": "Errors of the library are not silent in Python and R", "statement": "If a Python or R program comes to its end without an exception, then its arguments were names, the library opened the file it names, and each of its calls came back from the library; and what stops the library from opening a file stops the program with the same exception.", "quantifier": "all files, all arguments, all sinks of the packages, all sequences of calls", "why_tests_cant": "A swallowed exception shows only for the inputs that cause it, and programs are unbounded sequences of calls on arbitrary files.", "anchors": ["python/pycppsas7bdat/cpp/reader.cpp:Reader", "R/CPPSAS7BDAT/src/reader.cpp:Reader", "python/pycppsas7bdat/read_sas.py:read_sas", "R/CPPSAS7BDAT/R/read_sas.R:read_sas"]}
{"id": "C89", "title": "Loops read everything and end", "statement": "A program that keeps calling as long as it gets what it asks for, and asks for at least one row each time, stops after at most as many calls as there are announced rows left plus one. The loops while(read_row()) and while(read_rows(n)), n at least 1, end exactly if read_all would come back, and leave exactly the reader, the sink and the data frame that read_all leaves, in C++, Python and R. With n = 0 such a loop never ends.", "quantifier": "all files and data sources, all states of the reader, all n, all sequences of calls that ask for rows, all sinks of the packages", "why_tests_cant": "Termination of a loop and equality with read_all are claims about every file, every chunk size and every starting point.", "anchors": ["include/cppsas7bdat/reader.hpp:Reader", "src/reader-impl.hpp:read_rows", "python/pycppsas7bdat/cpp/reader.cpp:Reader", "R/CPPSAS7BDAT/src/reader.cpp:Reader"]}
{"id": "C90", "title": "A file that is cut off gives the beginning of its data", "statement": "If a file has been cut off anywhere, is still being written, or lies on a device or behind a source that fails from some byte on, and at least one row can be read from it, then opening it shows the properties of the whole file, and in every history of calls the rows pushed to the sink are the first ones of those that the same calls push for the whole file, with the same numbers and bytes: never a wrong or invented row. A csv file written from it is the beginning of the one written from the whole file. (Not: that the user is told; read_all returns as if nothing were missing. Not: files cut off within their metadata.)", "quantifier": "all files, all places where they are cut or the device fails, all sources that give the bytes of another one until they fail, all filters, all histories of calls", "why_tests_cant": "Every byte position may be the last one and every sequence of calls may meet it; a test cuts a few files in a few places.", "anchors": ["src/buffer.hpp:read_stream", "include/cppsas7bdat/source/ifstream.hpp:read_bytes", "src/page.hpp:read_page", "src/data.hpp:READ_DATA", "src/reader-impl.hpp:read_all"]}
{"id": "C91", "title": "What Python and R programs pass to the reader arrives", "statement": "A Python program that calls a method of a reader makes the C++ call of that name with the same number, and is told its result: None, a truth value, or an exception. Every other call (no such method, too few or too many arguments, a negative or too large int, a float, a str, None) raises an exception and leaves the reader as it was, so that whatever a program does, its reader does what a C++ program with the same sequence of calls makes it do. The same in R, where numbers lose their fraction and current_row_index is exact up to 2^53. (Not: negative numbers, NA and infinite numbers in R; their conversion to an unsigned number is undefined. Asking for half a row in R is answered with TRUE and reads nothing.)", "quantifier": "all readers in all states, all data sources, all method names, all argument lists, all sequences of calls", "why_tests_cant": "Arguments range over all objects of the language, and any sequence of good and bad calls may come; a test calls a few methods with a few literals.", "anchors": ["python/pycppsas7bdat/cpp/reader.cpp:bind_reader", "R/CPPSAS7BDAT/src/Rcppsas7bdat.cpp:RCPP_MODULE", "R/CPPSAS7BDAT/src/reader.cpp", "src/reader.cpp:Reader"]}
{"id": "C92", "title": "The properties of a file in Python", "statement": "After any calls, reader.properties().X in Python has the value of the property of that name in C++: an int, the member of an enumeration with the same name, a str, a datetime that is exact to the microsecond or None, the columns with their name, label, format and type; other names raise an exception. For a file in which a data set has been written in any layout, these are the header (32 or 64 bits, byte order, platform, encoding, names, sizes, dates), the compression, the numbers of rows and columns and the descriptions of the columns that were written. (Not: texts that are not UTF-8, whose property cannot be read, such as labels in Latin-1; dates outside of the years 1400 to 9999.)", "quantifier": "all files and data sets, all layouts, all histories of calls, all attribute names", "why_tests_cant": "Each property may have any value, and must stay the same whatever is called in between; a test looks at the properties of a few files.", "anchors": ["python/pycppsas7bdat/cpp/pycppsas7bdat.cpp:BOOST_PYTHON_MODULE", "python/pycppsas7bdat/cpp/import_datetime.cpp:ptime_to_python_datetime", "include/cppsas7bdat/properties.hpp:Properties", "src/header.hpp:READ_HEADER", "src/metadata.hpp:READ_METADATA"]}
{"id": "C93", "title": "A filter of the user's own is asked once about each column", "statement": "A filter may be any object: it may remember what it was asked, answer differently each time, or throw. Opening a file asks it exactly once about each column, in the order of the file, before the sink is told anything. The sink is then told the properties with exactly the columns that were accepted, and all later calls return the same and hand over the same rows as without a filter. If the filter throws at a column it is not asked again, the constructor throws the same exception, and the sink is told nothing. A file that cannot be opened without a filter cannot be opened with one: the error is the same unless the filter has thrown before.", "quantifier": "all filters (any state, any answers, any exceptions), all sinks including those that throw, all sources, all later histories of calls", "why_tests_cant": "A filter is a program of the user's own; a test tries a few filters that are functions of the name.", "anchors": ["include/cppsas7bdat/reader.hpp:FilterConcept", "src/metadata.hpp:create_columns", "src/reader.cpp:Reader", "src/reader-impl.hpp:impl"]}
{"id": "C94", "title": "A source that throws is heard, and no row is made up", "statement": "When the data source's read throws, the constructor or the call of the reader during which it throws lets exactly this exception through: none is lost, none is made up, and there is at most one per reader. Whatever was answered before is what a source that does not throw would have given, the rows given to the sink are the first ones of the rows of the data set, and the sink is not told of the end in that call. Once the source works again, calling again gives the remaining rows.", "quantifier": "every source program that throws at any read it likes, every state of it, every file behind it, every filter, every history of calls", "why_tests_cant": "The exception can come from any of the reads and before or after any of the calls; a test throws at one place.", "anchors": ["include/cppsas7bdat/reader.hpp:DataSource", "src/buffer.hpp:MBUFFER::read_stream", "src/header.hpp:set_header_length_and_read", "src/page.hpp:read_page", "src/data.hpp:read_next_page", "src/reader-impl.hpp:read_row"]}
{"id": "C95", "title": "Several readers in one program do not disturb one another", "statement": "A program may make any number of readers, on the same or different files, with the same or different sinks, call them in any order, move them between variables and drop them. Each reader answers the calls made on it and tells its sink exactly what it would if it were the only reader of the program. Whether a reader can be made does not depend on the other readers. A sink that several readers share is told by each of them what that one would tell; a reader tells nothing to other sinks. Calls on a variable without a reader do nothing.", "quantifier": "all programs (lists of statements of any length) with any number of readers, variables, sources and sinks, all sources, all files, all filters", "why_tests_cant": "The statements of several readers can be interleaved in any order; a test runs one interleaving.", "anchors": ["include/cppsas7bdat/reader.hpp:Reader", "include/cppsas7bdat/reader.hpp:DataSource", "include/cppsas7bdat/reader.hpp:DatasetSink", "src/reader.cpp:Reader", "src/data.hpp:READ_DATA"]}
{"id": "C96", "title": "Who has made a file is reported as stored", "statement": "The properties of a file name the program (creator) or the procedure (creator_proc) that the file says it was made by, without surrounding blanks and padding, together with the lengths of the two names (lcs, lcp): the procedure in an uncompressed and in an RLE-compressed file, the program in every other file that gives a length for its name. What is not named is empty, and the length of the name that is not used is 0.", "quantifier": "all well-formed files (any header, pages, subheaders, columns, rows), 32 and 64 bit, both byte orders, all sources and filters", "why_tests_cant": "Where the names are depends on the compression, the word size and lengths stored in another part of the file, in every combination with any names; a test has a few files.", "anchors": ["src/metadata.hpp:process_COLUMN_TEXT_SUBHEADER", "src/metadata.hpp:process_ROW_SIZE_SUBHEADER", "include/cppsas7bdat/properties.hpp:Metadata"]}
{"id": "C97", "title": "Columns are values", "statement": "A program may copy the columns of a reader, move its copies and destroy them, in any order, and keep them when the reader is gone: a copy reads cells, gives its texts and compares exactly as the column it was copied from did when the reader was made. The object behind the columns is destroyed exactly when the last column that needs it is. A column that was moved from keeps its texts and cannot read cells; two columns are equal if their names are.", "quantifier": "all readers (any columns) and all programs of copies, moves, destructions, calls of the getters, reads of the fields and comparisons, of any length and in any order, on any bytes", "why_tests_cant": "Whether something is used after it was destroyed, or never destroyed, depends on the order of all copies, moves and destructions; a test runs a few orders.", "anchors": ["include/cppsas7bdat/column.hpp:Column", "include/cppsas7bdat/column.hpp:FormatterModel", "src/metadata.hpp:create_columns"]}
{"id": "C98", "title": "The machine does not matter", "statement": "A file gives the same numbers, dates and times, the same header and the same columns on a little-endian and on a big-endian machine, and with either of the two versions of the code that turns the bytes of a number around (USE_INHOUSE): the numbers that are written in the file.", "quantifier": "all machines (both byte orders, both versions of the code), all byte orders of the file, all numbers of every width, all columns and all bytes of a row or of a page", "why_tests_cant": "Tests run on one machine, with one version compiled in, on a few numbers; most numbers in small tests read the same or fail to show which byte is where.", "anchors": ["src/types.hpp:ENDIAN", "src/types.hpp:get_val", "src/types.hpp:get_double", "src/types.hpp:get_incomplete_double", "src/buffer.hpp:EBUFFER"]}
{"id": "C99", "title": "Damage to rows stays where it is", "statement": "If the content of data pages of a file is changed in any way (their heads left alone), the file is still opened, or refused with the same error, with the same properties; every history of calls gives the same results, the same number of rows with the same indexes and the same end of data. Only rows change whose own bytes were changed: damage inside one row changes at most one call of the sink, and a cell whose bytes are untouched keeps its value.", "quantifier": "all files, all changes of the content of data pages, all builds, filters, compressions and histories", "why_tests_cant": "There are as many damages as there are byte strings; a test tries a few of them on a few files.", "anchors": ["src/page.hpp:read_page", "src/metadata.hpp:set_metadata", "src/data.hpp:READ_DATA", "src/data.hpp:extract_row_values", "src/reader-impl.hpp:ReaderImpl"]}
{"id": "C100", "title": "The messages of the library", "statement": "The messages that the library writes to its log tell the truth. A call of a reader that returns writes no message; a call that is left by an exception of the library announces this exception, once, in its last message; no other exception is announced. Before a failure to decompress comes the reason, which is true: bytes that do not fit in the row, or a command that does not exist. The same holds for opening, where warnings can come before: exactly one for each subheader of a kind that is not known, and one when the column counts differ, in the order of the file; and a file is refused for lack of column values exactly when a message says that values are missing, which names a kind of value of which there are not enough and how many there are. Files of an independent writer are opened silently, and the listing of the command line program is all that it writes for files that are opened silently. Each message is a line of its own with its time and its level; a critical one means that an exception of the library has left the call; the numbers and names in the texts are those of the event.", "quantifier": "all sources, files, readers, histories of calls, builds and filters", "why_tests_cant": "Whether a message is missing, repeated or wrong depends on the content of the file and on every earlier call; tests do not look at the log.", "anchors": ["src/exceptions.cpp:raise_exception", "src/metadata.hpp:process_subheader", "src/metadata.hpp:process_column_size_subheader", "src/metadata.hpp:create_columns", "src/decompressors.hpp:assert_check", "src/decompressors.hpp:RLE", "src/decompressors.hpp:RDC", "apps/cppsas7bdat-ci.cpp:process_print"]}
{"id": "C101", "title": "Decompression of arbitrary bytes", "statement": "Whatever bytes a file stores as a compressed row, the outcome of reading it is determined by the compression format and the row length: the commands at the beginning of the bytes are carried out one after the other until the row is full or fewer than two (RLE) or three (RDC) bytes are left, and the row is what they produce, followed by zeros; a copy that the input cuts short copies what is there; a command that stands for more bytes than there is room for, or that does not exist, raises cannot_decompress. Earlier rows do not matter. The strings that are not decompressed safely are exactly those that end within a command, that refer to bytes before the row, or whose pattern overlaps its copy.", "quantifier": "all byte strings, all row lengths, all contents left by earlier rows, both compressions, release and debug builds", "why_tests_cant": "Tests try the strings of some files. Corrupt files contain any others, and which of them are harmless is a statement about all strings.", "anchors": ["src/decompressors.hpp: RLE::operator(), RDC::operator(), store_value, store_values, store_pattern, fill"]}
{"id": "C102", "title": "A Python reader keeps its sink alive, and nothing is left once both are released", "statement": "In a Python program the sink object is referred to by its own variable and once by each living Reader opened with it, never more or less: a Reader keeps its sink alive, a Reader that could not be opened or whose sink refused the properties keeps nothing, and the sink is freed as soon as the last of them goes. Once everything has been released, no object the library made remains.", "quantifier": "every program: any number of Readers on one sink object, opened in any order and at the same time, any outcome of each opening, any calls, readers and sink dropped in any order; every file and every sequence of calls for the file-level theorem", "why_tests_cant": "A test can look at the reference counts of one program on one file; the balance must hold after every history of openings, failures, calls and drops.", "anchors": ["python/pycppsas7bdat/cpp/sink.hpp: SinkBase, set_cpp_attr, del_cpp_attr", "python/pycppsas7bdat/cpp/reader.cpp: Reader::build", "include/cppsas7bdat/reader.hpp: Reader"]}
{"id": "C103", "title": "Asking a Python sink for its data is safe whatever has become of its readers", "statement": "The sinks of the Python package flush what the library still holds for them when they are asked for their data (df). This is safe at any time: while a Reader lives, after it has been dropped, after a Reader could not be made, and when several Readers share the sink.", "quantifier": "every program: any number of Readers on one sink object, any outcome of each opening, any calls, Readers dropped in any order, the sink asked at any time; every file and every sequence of calls for the file-level theorem", "why_tests_cant": "Use of freed memory usually goes unnoticed in a test, and which histories lead to it depends on the order of openings, ends of data and drops.", "anchors": ["python/pycppsas7bdat/sink.py: _cpp_flush_sink", "python/pycppsas7bdat/cpp/sink.hpp: set_cpp_attr, flush_sink, del_cpp_attr, ~SinkBase", "python/pycppsas7bdat/cpp/reader.cpp: SinkBase.flush_sink"]}
{"id": "C104", "title": "What the exception says when a Reader cannot be made in Python or R", "statement": "When a Reader cannot be made, the text of the exception in Python (and of the error in R) tells why. An include or exclude argument of a wrong kind is named, whatever the content of the file; when the file cannot be opened either, one of the two is named, depending on the order in which the C++ compiler evaluates arguments. With good arguments a file that cannot be opened is named, a file shorter than 288 bytes is called header_too_short, and a longer one is called invalid_magic_number exactly when it does not begin with the magic number. In general the exception has the text t exactly when the library refuses the file with the exception named t, so filters and sinks do not change it. There is no exception exactly when there is a Reader. No two of these texts can be confused, and the text of a missing file determines its name.", "quantifier": "every file system and file name without a zero byte, every content of the file, every include and exclude argument, every sink of the packages, both orders of evaluation", "why_tests_cant": "A program that looks at the text must rely on it for every content of the file and every combination of arguments; tests show it for a few.", "anchors": ["python/pycppsas7bdat/cpp/reader.cpp: Reader::filter, Reader::build", "R/CPPSAS7BDAT/src/filter.cpp: filter", "R/CPPSAS7BDAT/src/reader.cpp: Reader::_build", "src/exceptions.cpp", "src/stream.cpp: open_stream"]}
{"id": "C105", "title": "A data set is the same in Python, in R and in CSV", "statement": "Python's read_sas, R's read_sas and the CSV export show the same data: the same columns under the same names, the same rows in the same order, and in every cell values that stand for the same. bytes are strings, None is NA and not-a-date-time, and dates and times in R and in CSV are the texts of the Python objects. This is so whatever the layouts of the files and the machines they are read on, and also for any sequence of calls on any file.", "quantifier": "all data sets, all pairs of layouts and machines, all include and exclude arguments, all three Python sinks; for Python and R also all files and all sequences of calls", "why_tests_cant": "The three ways to look at a file use different sinks, orders of columns and texts for values; that they agree is a statement about every value of every file.", "anchors": ["python/pycppsas7bdat/read_sas.py:read_sas", "python/pycppsas7bdat/cpp/sink.hpp", "R/CPPSAS7BDAT/R/read_sas.R:read_sas", "R/CPPSAS7BDAT/src/sink_by_columns.hpp", "include/cppsas7bdat/sink/csv.hpp:csv", "src/formatters.hpp"]}
{"id": "C106", "title": "The null command is a test of a file", "statement": "Reading a file with the null sink tests it: whatever is read, if the CSV export or the listing gets through it, so does the null sink; and if the null sink gets through it, so do the export (when every date is of the calendar or missing) and the listing (when also no date or time is missing and no column name has a brace). On the command line, a file that 'print' lists completely is accepted by 'null'.", "quantifier": "all files, all sources, all filters, all sequences of calls, all texts of numbers", "why_tests_cant": "Three sinks read cells by different paths (values, texts, formats); that none fails where the null sink succeeds, outside the named cases, concerns every cell of every file.", "anchors": ["include/cppsas7bdat/sink/null.hpp", "include/cppsas7bdat/sink/csv.hpp", "include/cppsas7bdat/sink/print.hpp", "src/formatters.hpp", "apps/cppsas7bdat-ci.cpp:process_null"]}
