# Formal model of cpp-sas7bdat in Lean 4

## Trusted base

* Lean 4.33.0's kernel, and the axioms each theorem depends on (at most `propext`,
  `Classical.choice`, `Quot.sound`; printed by `Verif/Audit.lean` during the build).
* The reading of the C++ sources written down in the comments of the definitions under
  `lean/Verif/Model/`. Every definition cites the file and lines it models.
* The small specification files under `lean/Verif/Spec/`, which say what the English
  properties mean without referring to the model's helpers.
* The C++ standard library, boost, fmt, Rcpp, boost.python and the operating system behave as
  described in the comments where they are used (for example: a `std::ifstream` read that hits the
  end of the file sets eofbit and failbit). They are not modelled further.

## Shape of the model

* A byte is a `UInt8`, memory is a `List UInt8`. `size_t` values are natural numbers, and the
  operations that can wrap on file-controlled values are written with an explicit `% 2^64`.
* Every operation returns `Except Stop α` with `Stop` one of
  `exn e` (a C++ exception the caller can catch), `terminate` (an exception that leaves a `noexcept`
  function, or a failed `FMT_ASSERT` in a build with assertions), `ub` (an access outside an
  allocation, an overlapping memcpy, ...) and `fuel` (the bound on loop iterations used to define a
  possibly non-terminating loop was exhausted). Undefined behaviour is therefore a distinct outcome, never
  assumed away.
* A build is described by `Cfg`: whether DEBUG bounds checks are compiled in, whether `FMT_ASSERT` is
  active, the allocation limit, the content of fresh memory. Theorems quantify over it.
* A data source is an arbitrary state machine `Source σ` with `eof` and `read`; a lawful one writes
  exactly n bytes when it reports success. `std::ifstream` over a byte string is one instance. Thus
  truncation and I/O errors at every point are covered by quantification.
* A `Reader` is a state machine over the public calls (`Op`); the sink is represented by the trace of
  the calls it receives.

Modelled: `src/types.hpp`, `src/buffer.hpp`, `src/header.hpp`, `src/page.hpp`, `src/subheaders.hpp`,
`src/metadata.hpp`, `src/data.hpp`, `src/decompressors.hpp`, `src/formatters.hpp`,
`src/encodings.cpp`, `src/column.cpp`, `src/reader-impl.hpp`, `src/reader.cpp`,
`src/sas7bdat-impl.hpp`, `src/stream.cpp`, `include/cppsas7bdat/{source,sink,filter}/*` (with sinks and sources that throw and streams that fail), `apps/cppsas7bdat-ci.cpp`,
the chunk/row/data sinks of the Python and R bindings, the Python time conversions, and the Python package
(`reader.cpp`, `pycppsas7bdat.cpp`, `sink.py`, `read_sas.py`) with its use of pandas data frames, and the R package (`reader.cpp`, `filter.cpp`, `wrap_properties.hpp`,
`sink.R`, `read_sas.R`) with R's lists, frames and shared vectors.

Boost.DateTime is modelled as far as the conversions need it (`Model/DateTime.lean`): the day-number
algorithms, the 64-bit tick counter, the year range check and the special values. Doubles are rationals
plus infinities and NaNs (`Model/Float.lean`); every operation rounds to nearest even, as IEEE 754
prescribes and as compilers do without fused multiply-add; overflow to infinity does not occur in the
modelled expressions for finite cells because conversions out of range stop first.

Mathlib is used for rational arithmetic (`Mathlib.Data.Rat.Floor`, tactics) in `Model/Float.lean` and the
proofs about dates; the rest only needs Lean's core library.

Not modelled: the debug messages (but the conversions debug builds perform for the header's log message are; and the messages of all
builds with their texts: `Model/Log.lean`), sinks and patterns of spdlog other than its default, docopt, the build system, the
machinery of Rcpp and boost.python (the conversions of arguments and results are: `Model/Args.lean`), the algorithms by which fmt and the C library
find the digits of a double (their results are: `Model/NumText.lean`; the text sinks take them as a parameter),
output devices that recover from a failure, reference counts in the Python binding except those of `None`, sink objects and the objects of `_cpp`, the encoding marks of
R strings (that they end at a zero byte is modelled), `make.unique` (a parameter).

## Plan per property

| id | modelled by | proof |
|----|-------------|-------|
| C01 | page stream + reader state machine | refinement to `take row_count (concat of page rows)`, induction on pages and rows |
| C02 | histories of `Op` | induction on the history; corollary of the step refinement |
| C03 | `skip` | induction on n against `read_line` |
| C04 | invariant `row <= row_count` | induction on histories, arbitrary source |
| C05 | `page = none` or `row = row_count` is absorbing | invariant over histories |
| C06 | `read_rows` | induction on n |
| C07 | `read_row_no_sink` | unfolding against `read_row` |
| C08 | trace | invariant over histories |
| C09 | trace | count theorem; refutation by a two-call history |
| C10 | `read_line` with failing decompressor | state equality with `skip 1` |
| C11 | `check_header` | case analysis on the source's first read |
| C12 | header parse | round trip with an independent header writer |
| C13 | `get_val` | round trip with positional encoding |
| C14 | incomplete double | arithmetic on bit patterns and values |
| C15 | trims | characterisation (prefix, maximality), induction |
| C16 | RLE | round trip from a token spec; refutation for one-byte final command |
| C17 | RDC | round trip from a token spec; refutation for short tails |
| C18 | both decompressors | invariant on (buffer, i_dst), independence of old contents |
| C19 | both decompressors | `ub` characterised; refutations |
| C20 | `create_columns` | induction on column count |
| C21 | filters | `List.filter` equality, decision logic |
| C22 | two readers with different filters | simulation |
| C23 | classification | decision logic over all strings |
| C24 | formatters | frame property; refutation for lengths 3..7 |
| C25 | whole opening, all calls | refutation by concrete files; a predicate on the bytes of the file (positions and lengths fit their pages, `Spec/Bounds.lean`) under which no step of opening and no later call crashes, by an invariant of the reader |
| C26 | page loops | measure = bytes left; refutation for page_length = 0 |
| C27 | `ifstream` source and failing sources | corollary of C01 with truncated stream |
| C28 | empty pages | refutation; partial |
| C29 | csv sink | round trip with an independent CSV parser |
| C30,C31,C32 | chunk sinks | invariants over pushes; refutations |
| C33 | file system + process_csv | refutation for every input |
| C34 | process_print | induction on n |
| C35 | conversions over rationals, with round-to-nearest-even after every floating-point operation | error bounds; refutation near ties |
| C36 | `Option` reader | case analysis over histories |
| C37 | table | kernel evaluation of the whole 256-entry table |
| C38 | integer arithmetic of the conversions | arithmetic; refutation |
| C39 | get_columns | list induction |
| C40 | properties | invariant over histories |
| C41 | getters | case analysis |
| C42 | resize / read_stream | list lemmas |
| C43 | independent writer | composition of header, metadata and data theorems |
| C44 | text references | characterisation; refutation for non-ASCII |
| C45 | compression detection | fold over texts |
| C46 | metadata phase on data subheaders | refutation; partial |
| C47 | addressing | arithmetic |
| C48 | object lifetimes of the moved sink | refutation |
| C49 | python row sink | refutation; partial |
| C50 | page kinds | decision logic + C01 |
| C51 | Boost's day-number arithmetic, 32-bit unsigned | against counting days one by one; induction on days |
| C52 | `to_string` of dates and times, with its buffers | digits by induction; refutation for missing values |
| C53 | `noexcept` getters over Boost's throwing constructors | range arithmetic; refutation beyond year 9999 |
| C54 | attribute life cycle of the Python sinks | count of errors over histories; refutation |
| C55 | R vectors as heap objects | refutation; partial |
| C56 | R row sink | invariant on the reused list |
| C58 | print sink, fmt format strings | lines against a listing specification; refutation for names with a brace |
| C59 | null sink | induction over the trace |
| C60 | sizes in the properties | fold over the subheaders |
| C61 | independent writer with compressed rows, an RLE compressor | composition, as C43; the excluded cases are the refutations of C16, C17, C46 |
| C62 | arguments and sink choice of the Python reader | case analysis, induction on lists; refutation for long lists |
| C63 | `read_sas` on written files | composition of C43/C61, C22, the sink invariants and the conversions |
| C66 | arguments and sink choice of the R reader | as C62 |
| C67 | `wrap` of the properties, the `set_properties` methods of sink.R | evaluation of list construction; refutations |
| C68, C69 | an R program as reader, C++ sink with vectors, R object | invariants over the calls, composition with C43/C61; refutations. What a sink by chunks shows is said exactly by `Spec/RChunks.lean`, with the sharing of vectors in the invariant |
| C64 | a Python program as reader, C++ sink and Python object | invariants over the calls; refutations |
| C65 | UTF-8 names (Lean's own definition of UTF-8) | case analysis; refutation for Latin-1 |
| C70 | all of opening and reading, with `Cfg.debug` | a safety predicate carried through every definition (`Proofs/Debug*.lean`); refutations |
| C71 | the reference count of `None` in a Python program (`Model/PyRefs.lean`), also when conversions and methods of the sink raise (`Model/PyCounts.lean`) | an invariant over the calls: what is lost is what was missing; refutations for any count |
| C72 | the reader with any sink that may throw (`Model/Throwing.lean`) | simulation: an interrupted call is a shorter call of the reader of `Model/Reader.lean`; C02, C08 carry over |
| C73 | the sinks of `sink.hpp` for any Python object, whose methods may raise (`Model/PyThrowing.lean`) | an invariant over the calls: rows taken in chunks, then rows kept; through C72 for all histories; refutations for the sizes and for values without Python objects |
| C74 | streams with a buffer on a device with limited room under the csv and print sinks (`Model/Streams.lean`) | an invariant over the calls (the device holds the beginning of the text); a simulation between any two streams that do not throw; refutations |
| C75 | nothing new: the reader over any two sources (`Spec/Sources.lean` says when they agree, and has a source of one's own) | a simulation of opening and of every call, which does not look at what a failed read has stored |
| C76 | nothing new: the file source over a file with a tail and a fault | the same simulation, up to the first read that fails; a reader that has used up its source has not read its last row |
| C77 | nothing new: a source that notes every call of `read_bytes` around any source (`Spec/Resources.lean`) | an invariant of the list of notes over opening and every call; noting changes nothing by C75 |
| C78 | nothing new: the lengths of the blocks and of the list of row pointers (`Spec/Resources.lean`) | an invariant: a buffer is only made longer, to the longest request so far; the pointers of a page are counted by 16 bits |
| C79 | the pointers that are handed out (`Model/Places.lean`) | invariants: the page buffer is exactly as long as a page once there is one, so that it is never reallocated; a simulation with an allocator that refuses everything |
| C80 | nothing new | rounding to doubles and to integers is monotone; a number is split into whole seconds and at most half a second, so that two numbers differ in the former or are ordered by the latter; texts by induction along the calendar |
| C81 | the texts of doubles: `printf("%f")` and fmt's shortest decimal (`Model/NumText.lean`) | doubles keep a relative distance of 2^-53, so that a decimal with 17 digits is read as the double next to it; the search for the shortest stops there; a reader of decimals (`Spec/NumText.lean`) is run on each of the four notations |
| C82 | two builds that run on the same machine, one of which checks less (`Spec/Builds.lean`) | simulation through every function that looks at the build: equal outcomes unless the first is the end of the program; together with C70 it bounds the release build |
| C83 | `main` of the command line program (`Model/CliMain.lean`) | induction on the list of files; C34 for the listings, C33 for the refutation |
| C84 | the text sinks over the calls of one reader after the other; `read_sas` into a sink object in any state (`Model/Reuse.lean`); R programs that open a file with a sink object in any state (`Model/RReuse.lean`; `rbind` of vectors of different types is a parameter) | `set_properties` replaces the columns; a used Python object is at each call what it was followed by what a new one would be; in R an invariant that a used frame is the old one bound with the rows read so far; refutations |
| C85 | which Python object keeps which C++ object alive (`Model/PyLife.lean`, after the call policies of Boost.Python) | an invariant over the statements of a program: only what came from the reader can outlive its target; refutation for all files |
| C86 | the three R sinks for any R object, whose functions may raise errors (`Model/RThrowing.lean`) | an invariant over the calls: rows taken in chunks, then rows kept, or stuck at a full chunk; through C72 for all histories; the next row after a refused chunk is proved to be written outside the vectors |
| C87 | the writer of C43/C61 (all layouts) followed by the reader with a filter and the csv sink, Python sinks, R sinks; Spec/Export: what a value is in CSV | the trace of a written file is determined by names and values (`csv_of_written`); the relations of Spec (`PyMeans`, `RMeans`, `IsDay`, chunk sizes) are functional, so equal values give equal frames. Quotes are excluded in `C87_csv_partial` (C29); in R the order of columns is left out |
| C88 | sessions in Python and R over the reader | inversion of the monadic programs: a completed program has completed each call; induction over its statements |
| C89 | loops over the reader and over Python and R sessions, as big-step relations (Model/Loops.lean) | a call that gets its rows advances the index, which is bounded; `read_rows(n)` splits `read_all`: induction over its fuel and over the loop; calls of the sink are appended |
| C90 | the reader on two sources of which one gives the bytes of the other until it fails (`Agree True`, Spec/Sources.lean); cut files and failing devices are instances | simulation (Proofs/Sources.lean) until the first failed read, after which the first reader has no page and pushes nothing, while the rows of the second one only grow: induction over the calls and the rows |
| C91 | the methods the two packages register, with the conversions of arguments and results (`Model/Args.lean`, after Boost.Python and Rcpp) | case analysis of the call; induction over the program |
| C92 | the attributes of the classes `Properties` and `Column` in Python (`Model/PyProps.lean`) | case analysis over the attributes; C38 for the dates, C43, C60 and C61 for written files, and that no call changes the properties |
| C93 | filters that are programs, in `create_columns` (`Model/Filters.lean`) | induction over the columns; the reader without a filter as the reference |
| C94 | the reader again, function by function, on a source whose `read_bytes` is a program that may throw (`Model/SourceThrowing.lean`) | simulation with the reader on a source that does not throw: the same outcome, or the exception and no page any more; induction over the pages, the rows and the calls |
| C95 | programs that make, call, move and drop any number of readers; sources owned or shared by name, sinks by name (`Model/Several.lean`) | invariant of the variables (one per reader, references up to date) and, for each reader, induction over the statements: what is left of the program for it is what it would be alone |
| C96 | `process_ROW_SIZE_SUBHEADER` and `process_COLUMN_TEXT_SUBHEADER` (`Model/Metadata.lean`); where the names are is in `Spec/Creator.lean` | the four fields are a fold over the subheaders (one more field of the invariant `AccIs`); with one row-size subheader before the first text the fold is the text at its place. `C96_rdc`: the marker of RDC compression passes for the name of a program |
| C97 | `Model/ColumnObjects.lean`: columns as objects that share counted formatters, and programs that copy, move, destroy and use them; `Spec/ColumnObjects.lean`: the same programs on plain values | refinement: the counts are the numbers of living columns, so the two runs give the same results (`C97_values`), a formatter exists exactly while it is needed (`C97_formatters`), and columns outlive the reader (`C97_outlives`). A column that was moved from cannot read cells (`C97_moved`) |
| C98 | `Model/HostOrder.lean`: the copy of the bytes into an object of the machine, and the two versions of the code that reverses it; the getters of columns and buffers on a machine. A number in a file is `encode` (`Spec/Values.lean`) | induction on the bytes: reversing the value is reading the reversed bytes (`endianReverse_natLE`), hence `Machine.getVal` is `getVal` on all four machines; the rest by congruence |
| C99 | nothing new; `Spec/Damage.lean`: damaged copies of a file, places of rows, lists of calls that agree up to rows from the same place. Rows on metadata and mix pages are not damaged | a relation between the readers of both files (`DRead`): same state, buffers that hold the same page number, which is the same page or a data page with the same head; kept by every call. The places used are ordered, so damage inside one place shows in one call |
| C100 | the messages of all builds, as functions beside those they come from (`Model/Log.lean`); their lines on the standard output in spdlog's default pattern, with the clock as a parameter; the debug messages are not modelled. `Spec/Log.lean`: what messages announce, what is said about subheaders | each call: by the shape of the function, with the lemmas about its failures; opening: messages that announce nothing, then the exception; warnings: the layout of the pages, as for C01 to C03. The listing shares the standard output with the warnings: refuted for files with an unknown subheader |
| C101 | the decompressors; `Spec/Decode.lean`: what any byte string means as a compressed row, by the encodings of `Spec/Compression.lean` | one turn of the loop for any command (token) that the input begins with; induction on the reading; every string has one: induction on its length. The exact set of strings that C19 fails for |
| C102 | `SinkBase`, `set_cpp_attr`, `del_cpp_attr`: the references to a sink object and to the objects of its attribute `_cpp` (`Model/PyOwn.lean`), in programs with any number of readers on one sink | invariant over the statements: the references to the sink are its variable and the living readers; every `_cpp` object has one reference more than the attribute holds; for a file the calls are those of C08 |
| C103 | `_cpp_flush_sink`, `flush_sink`: to which C++ sink the attribute `_cpp` refers (`Model/PyOwn.lean`); `Spec/PyOwn.lean`: `Abandoned`, a history of statements | exact set of histories after which asking is undefined: the attribute was set by the last reader that told its properties, induction from the end; it is kept by what is quiet, induction from there |
| C104 | the texts of the exceptions of `filter` and of opening in Python and R (`Model/Says.lean`), with the translation of C++ exceptions that Boost.Python and Rcpp make; the order in which the arguments of the constructor are evaluated is a parameter; texts of the standard library, of fmt and of Python and R themselves are not modelled. The library's names are in `Spec/LogText.lean` | cases of the arguments; the failures of opening from C11 and the phases of the constructor; a filter does not change a failure (C21); the calls on the sink never raise an exception of the library |
| C105 | nothing new; `Spec/Agree.lean` says when a Python object, an R value and a CSV field stand for the same, without the model of the file | through the values of the data set (C63, C68, C87), and for any file and any calls cell by cell (C64, C68); uniqueness of calendar dates |
| C106 | nothing new: the null, csv and print sinks on one trace, and the commands | from when each sink fails (C29, C58, C59): a cell with a text has a value, and values outside the exceptions have texts |
| C57 | the log message of `set_header` | refutation for all files with a missing date; C20 for the others |

## What does not hold

The code does not have some of the properties. Each of these is a theorem with a concrete witness (a file, a
history of calls, a cell), named `*_refuted` unless given otherwise, beside a theorem for the part that holds:

* C09, C54: every call that reports the end signals `end_of_data` again; the Python sinks raise an error each time.
* C16, C17: the final command or token of a compressed row is dropped in some forms.
* C19, C25: accesses outside buffers, and process termination, on corrupt files. C70: debug builds too, for 64-bit files
  (the check wraps), compressed rows and columns that reach beyond their row.
* C24: the date getters read 8 bytes from cells of 3 to 7 bytes.
* C26: a page length of 0 makes reading endless.
* C28: a data page that announces 0 rows, after the first page with rows, yields a bogus row.
* C29: quotes in CSV output are not doubled; dates outside the calendar. C58: braces in names.
* C30, C31, C32: chunk indices after a skip, equal column names, `end_of_data` between rows, empty data sets.
* C33: `cppsas7bdat-ci csv file` empties its input file. C48: a CSV sink built from a temporary file object writes
  nothing, and its first row is undefined behaviour.
* C35, C38, C52, C53: ties between microseconds, missing values, negative and long durations, years beyond 9999.
* C41: `get_datetime` of a time column reads the row. C49: columns of unknown type in the Python row sink.
* C44: texts with non-ASCII ends. C46, C50: rows that look like subheaders, rows on amd pages.
* C62: arguments with 2^31 elements. C63, C64: frames without rows, equal names, labels of chunks, frames looked at
  twice, rows after `end_of_data`, frames of dead readers. C65: names in other encodings.
* C66: arguments with 2^31 elements, negative chunk sizes. C67: headers without dates, `SinkByRow`, `sink$columns`.
  C68, C69: no rows, zero bytes, two full chunks, names that are not names in R.
* C71: before Python 3.12 each missing date, datetime or time costs a reference to `None`, and the interpreter aborts in the end.
* C73: `flush` clears its values only after `push_rows` has returned, and compares `idata == size`: after a chunk was refused the
  next one comes at the end of the data and holds all remaining rows. A row with a value that has no Python object (a datetime before
  1400), or a column name that is not UTF-8, can never be handed over, and neither can any row after it.
* C74: the csv and print sinks never look at their stream and never flush it: a full disk cuts the output and nobody is told.
* C76: if a dataset has no rows and its file ends with the metadata, bytes behind the file are read as more metadata (a page there can even give it rows).
* C79: the bytes of a row, and the texts taken from it, are overwritten by later rows.
* C80: a time column keeps the order only within a day; 86400 seconds are read as 00:00:00.
* C81: `Column::to_string`, and with it the print sink, keeps six decimals: numbers that differ get one text.
* C83: `csv` with several files empties the first one and stops. C84: Python frames that were looked at before, or that were there before
  a file without rows was read, stay as they are; two readers at the same time mix up the columns of a csv sink.
  In R, a file with other columns cannot be read into a used `SinkByChunk`, and a file without rows leaves the old frame.
* C85: `reader.properties()` does not keep the reader alive.
* C86: the R chunk sink resets its counter only after `push_rows` has returned; the row after a refused chunk is written outside the vectors.
* C90: `read_all` on a file that is cut off returns as for a whole file, and the end of the data is signalled, with rows
  missing (`C90_silent_refuted`); a file cut off in its metadata may open with other properties (`C90_metadata_refuted`).
* C87: in R, a column without any value may stand at another place for another kind of date (`C87_r_order_refuted`).
* C91: in R `read_rows(-1)`, `skip(NA)` or `skip(Inf)` convert a double to `size_t` out of its range, which is undefined
  (`C91_r_wild_refuted`); `read_rows(0.5)` says TRUE and reads nothing (`C91_r_half`).
* C92: in Python, a property or label that is not UTF-8 cannot be read (`C92_text_refuted`, `C92_label_refuted`), nor a date
  of creation after the year 9999 (`C92_date_refuted`).
* C94: after an exception of the source the reader is at its end (`read_next_page` forgets the page before it reads). A source
  that works again is not asked: `read_row` returns `false` and `end_of_data` is signalled although rows are left.
* C95: readers made on one and the same source object disturb one another: the second one starts where the first one has left
  the stream and cannot be made (`C95_shared_refuted`); if it can be made, the first one shows its rows (`C95_taken_refuted`). Proved: all programs that make no two readers on one source object.
* C97: a column that was moved from has a null formatter; every getter, `to_string` and `length` on it is undefined behaviour (`C97_moved`).
* C100: a warning about a file is written to the standard output, before the listing of `cppsas7bdat-ci print`.
* C102: `set_cpp_attr` takes a reference that is never released; every reader that tells its sink its properties leaves an object
  behind for good (`C102_refuted`). Proved: the sink object itself is in balance, and there is never more than one such object per reader.
* C103: the attribute `_cpp` refers to a C++ sink that belongs to a reader. When that reader is dropped before the end of its data, or the
  sink refuses the properties, the next `df` uses freed memory (`C103_refuted`). Proved: exactly in which histories this happens.
* C105: a file without a date of creation is shown by Python but not by R (`C105_only_python_refuted`); one with a name that is not UTF-8 is
  shown by R but not by Python (`C105_only_r_refuted`); of columns with the same name, Python shows the last one's values for all, R shows each (`C105_twins_refuted`).
* C106: the null sink gets through dates of years before 1400, which the others cannot write (`C106_dates_refuted`); `print` with a number of
  rows gets through files that `null` rejects (`C106_rows_refuted`).
* C55: R rows that change after they were handed over. C57: debug builds and missing header dates.

`MANIFEST.json` has the details in the notes.

The current state of each property (proved / partial / refuted) is in `MANIFEST.json`.
