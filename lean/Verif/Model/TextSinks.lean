import Verif.Model.Cell

/-!
# The sinks that write text, and the one that writes nothing

include/cppsas7bdat/sink/csv.hpp, print.hpp and null.hpp. The stream they write to is modelled by the bytes
written. The text of a double (`fmt`'s shortest representation and `std::to_string`) is a parameter (NumText.lean computes it), and so
is Boost's text of a negative duration. The texts of other dates and times are modelled after Boost's
documented default formats. Simplification: writing to the stream does not fail (Streams.lean has
streams that do).
-/

namespace Sas

/-- What has been written to the stream, and how it ended
(the statements of include/cppsas7bdat/sink/csv.hpp:28-82 and include/cppsas7bdat/sink/print.hpp:25-83). -/
abbrev Printed := List Byte × Res Unit

/-- A `fmt::print` that succeeds (the statements of include/cppsas7bdat/sink/csv.hpp:28-82 and include/cppsas7bdat/sink/print.hpp:25-83). -/
def say (t : List Byte) : Printed := (t, .ok ())

/-- A `fmt::print` of something that has to be computed first; nothing is written when that fails
(the statements of include/cppsas7bdat/sink/csv.hpp:28-82 and include/cppsas7bdat/sink/print.hpp:25-83). -/
def sayRes : Res (List Byte) → Printed
  | .ok t => say t
  | .error e => ([], .error e)

/-- One statement after the other: an exception keeps what has been written
(the statements of include/cppsas7bdat/sink/csv.hpp:28-82 and include/cppsas7bdat/sink/print.hpp:25-83). -/
def Printed.andThen (p q : Printed) : Printed :=
  match p.2 with
  | .ok _ => (p.1 ++ q.1, q.2)
  | .error e => (p.1, .error e)

/-- A sequence of statements (the statements of include/cppsas7bdat/sink/csv.hpp:28-82 and include/cppsas7bdat/sink/print.hpp:25-83). -/
def sayAll : List Printed → Printed
  | [] => say []
  | p :: ps => p.andThen (sayAll ps)

/-- The texts that are not modelled (include/cppsas7bdat/sink/csv.hpp:77, 82; src/formatters.hpp:116, 132). -/
structure Texts where
  /-- `fmt`'s `{}` of a double -/
  number : Num → List Byte
  /-- `std::to_string(double)` -/
  fixed : Num → List Byte
  /-- `boost::posix_time::operator<<` of a negative duration, in microseconds -/
  negative : Int → List Byte

/-- The abbreviated month names of Boost.DateTime (for include/cppsas7bdat/sink/csv.hpp:80-82, include/cppsas7bdat/sink/print.hpp:30-33). -/
def monthShort (m : Nat) : List Byte :=
  ascii (["Jan", "Feb", "Mar", "Apr", "May", "Jun", "Jul", "Aug", "Sep", "Oct", "Nov", "Dec"].getD (m - 1) "")

/-- Boost's default date format `%Y-%b-%d` (for include/cppsas7bdat/sink/csv.hpp:80-82, include/cppsas7bdat/sink/print.hpp:30-33). -/
def Ymd.boostText (x : Ymd) : List Byte :=
  padded 4 x.year ++ [45] ++ monthShort x.month ++ [45] ++ padded 2 x.day

/-- Boost's text of every not-a-date-time (for include/cppsas7bdat/sink/csv.hpp:80-82, include/cppsas7bdat/sink/print.hpp:30-33). -/
def notADateTimeText : List Byte := ascii "not-a-date-time"

/-- `boost::gregorian::operator<<` of a date: an exception when the year is outside 1400..9999 (include/cppsas7bdat/sink/csv.hpp:81). -/
def Date.boostText (d : Date) : Res (List Byte) :=
  match d with
  | .notADate => .ok notADateTimeText
  | .day _ => do return (← d.ymd).boostText

/-- `boost::posix_time::operator<<` of a duration, default format `%O:%M:%S%F`: the hours without limit, the
fraction only when it is not zero (include/cppsas7bdat/sink/csv.hpp:82). -/
def Duration.boostText (x : Texts) : Duration → List Byte
  | .notADateTime => notADateTimeText
  | .us n =>
    if n < 0 then x.negative n
    else
      let n := n.toNat
      let hms := padded 2 (n / 3600000000) ++ [58] ++ padded 2 (n / 60000000 % 60) ++ [58]
        ++ padded 2 (n / 1000000 % 60)
      if n % 1000000 ≠ 0 then hms ++ [46] ++ padded 6 (n % 1000000) else hms

/-- `boost::posix_time::operator<<` of a time stamp, default format `%Y-%b-%d %H:%M:%S%F`
(include/cppsas7bdat/sink/csv.hpp:80, include/cppsas7bdat/sink/print.hpp:30-33). -/
def DateTime.boostText (x : Texts) (t : DateTime) : Res (List Byte) :=
  match t with
  | .notADateTime => .ok notADateTimeText
  | .at _ => do return (← (← t.date).ymd).boostText ++ [32] ++ t.timeOfDay.boostText x

/-! ## CSV -/

/-- The six `print` functions (include/cppsas7bdat/sink/csv.hpp:74-82). -/
def Cell.csvText (x : Texts) : Cell → Res (List Byte)
  | .str s => .ok ([34] ++ s ++ [34])
  | .num y => .ok (if y.isNan then [] else x.number y)
  | .int i => .ok (intText i)
  | .datetime t => t.boostText x
  | .date d => d.boostText
  | .time t => .ok (t.boostText x)

/-- One element of a row: the switch of include/cppsas7bdat/sink/csv.hpp:48-67. Nothing is written for a column of unknown type. -/
def csvCell (x : Texts) (mem : List Byte) (c : Column) : Printed :=
  sayRes do
    match ← c.value mem with
    | some v => v.csvText x
    | none => return []

/-- The loops with the variable `first` (include/cppsas7bdat/sink/csv.hpp:30-36, 42-68): commas between the elements. -/
def csvElements : (first : Bool) → List Printed → Printed
  | _, [] => say []
  | true, p :: ps => p.andThen (csvElements false ps)
  | false, p :: ps => (say [44]).andThen (p.andThen (csvElements false ps))

/-- A line: the elements and `fmt::print(os, "\n")` (include/cppsas7bdat/sink/csv.hpp:38, 69). -/
def csvLine (ps : List Printed) : Printed := (csvElements true ps).andThen (say [10])

/-- `csv::set_properties` (include/cppsas7bdat/sink/csv.hpp:28-39), `push_row` (41-70), `end_of_data` (72): what is written, and
the member `columns` afterwards. -/
def csvStep (x : Texts) (cols : List Column) : Event → Printed × List Column
  | .setProperties p => (csvLine (p.columns.map fun c => (Cell.str c.name).csvText x |> sayRes), p.columns)
  | .pushRow _ r => (csvLine (cols.map (csvCell x r.mem)), cols)
  | .endOfData => (say [], cols)

/-- A sink run over the calls the reader makes; it stops at the first exception (the calls of include/cppsas7bdat/reader.hpp:56-64). -/
def runText (step : List Column → Event → Printed × List Column) : List Column → List Event → Printed
  | _, [] => say []
  | cols, ev :: evs => (step cols ev).1.andThen (runText step (step cols ev).2 evs)

/-- What the csv sink writes (include/cppsas7bdat/sink/csv.hpp:21-83). -/
def csvText (x : Texts) (evs : List Event) : Printed := runText (csvStep x) [] evs

/-! ## Print -/

/-- `to_string(Format)` (src/types.cpp:71-80). -/
def Format.text : Format → List Byte
  | .bit32 => ascii "32bits"
  | .bit64 => ascii "64bits"

/-- `to_string(Endian)` (src/types.cpp:60-69). -/
def Endian.text : Endian → List Byte
  | .little => ascii "little"
  | .big => ascii "big"

/-- `to_string(Platform)` (src/types.cpp:82-91). -/
def Platform.text : Platform → List Byte
  | .unknown => ascii "unknown"
  | .unix => ascii "unix"
  | .windows => ascii "windows"

/-- `to_string(Compression)` (src/types.cpp:93-104). -/
def Compression.text : Compression → List Byte
  | .none => ascii "none"
  | .rle => ascii "RLE"
  | .rdc => ascii "RDC"

/-- `to_string(Column::Type)` (src/types.cpp:106-123). -/
def ColType.text : ColType → List Byte
  | .unknown => ascii "unknown"
  | .string => ascii "string"
  | .number => ascii "number"
  | .integer => ascii "integer"
  | .datetime => ascii "datetime"
  | .date => ascii "date"
  | .time => ascii "time"

/-- `fmt::print(os, name)`, the name being the format string, without arguments (include/cppsas7bdat/sink/print.hpp:70): doubled
braces stand for single ones, any other brace is a `fmt::format_error`. -/
def fmtBare : List Byte → Res (List Byte)
  | 123 :: 123 :: t => do return 123 :: (← fmtBare t)
  | 125 :: 125 :: t => do return 125 :: (← fmtBare t)
  | b :: t => if b = 123 ∨ b = 125 then .error (.exn .formatError) else do return b :: (← fmtBare t)
  | [] => .ok []

/-- A line `label: text` (include/cppsas7bdat/sink/print.hpp:27-50, 55-58). -/
def labelled (label : String) (t : List Byte) : List Byte := ascii label ++ ascii ": " ++ t ++ [10]

/-- The part of `print_properties` about one column (include/cppsas7bdat/sink/print.hpp:53-59). -/
def printColumn (i : Nat) (c : Column) : Printed :=
  sayAll
    [ say (ascii "  - column #" ++ decimal i ++ [10]),
      say (labelled "    name" c.name),
      say (labelled "    label" c.label),
      say (labelled "    format" c.format),
      say (labelled "    type" c.type.text) ]

/-- `print_properties` (include/cppsas7bdat/sink/print.hpp:25-62). -/
def printProperties (x : Texts) (p : Properties) : Printed :=
  (sayAll
    [ say (ascii "Properties:" ++ [10]),
      say (labelled "  format" p.header.format.text),
      say (labelled "  endianness" p.header.endian.text),
      say (labelled "  platform" p.header.platform.text),
      sayRes (do return labelled "  date created" (← p.header.dateCreated.boostText x)),
      sayRes (do return labelled "  date modified" (← p.header.dateModified.boostText x)),
      say (labelled "  dataset name" p.header.datasetName),
      say (labelled "  encoding" (ascii p.header.encoding)),
      say (labelled "  file type" p.header.fileType),
      say (labelled "  SAS release" p.header.sasRelease),
      say (labelled "  SAS server type" p.header.serverType),
      say (labelled "  OS type" p.header.osType),
      say (labelled "  OS name" p.header.osName),
      say (labelled "  compression" p.md.compression.text),
      say (labelled "  creator" p.md.creator),
      say (labelled "  creator proc" p.md.creatorProc),
      say (labelled "  row count" (decimal p.md.rowCount)),
      say (labelled "  column count" (decimal p.md.columnCount)),
      say (ascii "Columns:" ++ [10]) ]).andThen
  ((sayAll (p.columns.mapIdx printColumn)).andThen
  (say (ascii "Data:" ++ [10])))

/-- `print::set_properties` (include/cppsas7bdat/sink/print.hpp:64-73), `push_row` (75-81), `end_of_data` (83). -/
def printStep (x : Texts) (cols : List Column) : Event → Printed × List Column
  | .setProperties p =>
    ((printProperties x p).andThen ((say [35]).andThen
      ((sayAll (p.columns.map fun c => (say [44]).andThen (sayRes (fmtBare c.name)))).andThen (say [10]))),
     p.columns)
  | .pushRow i r =>
    ((say (decimal i)).andThen
      ((sayAll (cols.map fun c => sayRes (do return 44 :: (← c.toText x.fixed r.mem)))).andThen (say [10])),
     cols)
  | .endOfData => (say [], cols)

/-- What the print sink writes (include/cppsas7bdat/sink/print.hpp:17-84). -/
def printText (x : Texts) (evs : List Event) : Printed := runText (printStep x) [] evs

/-! ## Null -/

/-- `null::set_properties` (include/cppsas7bdat/sink/null.hpp:20-22), `push_row` (24-48), `end_of_data` (53): every cell is read, none
is used. -/
def nullStep (cols : List Column) : Event → Res (List Column)
  | .setProperties p => .ok p.columns
  | .pushRow _ r => do
    cols.forM fun c => do let _ ← c.value r.mem
    return cols
  | .endOfData => .ok cols

/-- The null sink run over the calls the reader makes (include/cppsas7bdat/sink/null.hpp:17-54). -/
def nullRun : List Column → List Event → Res Unit
  | _, [] => .ok ()
  | cols, ev :: evs => do nullRun (← nullStep cols ev) evs

end Sas
