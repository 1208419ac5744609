import Verif.Model.TextSinks
import Verif.Spec.Sinks
import Verif.Spec.DateTime

/-!
# What the text sinks should write

A reader of comma separated values (RFC 4180, records ended by a line feed), and what the fields and lines
should say.
-/

namespace Sas.Spec

/-- Where the CSV parser is: at the start of a field, in a field without quotes, between quotes, after a
quote that may have been the closing one. -/
inductive CsvState
  | start | plain | quoted | closed

/-- The records of a text, each a list of fields; `none` for a text that is not CSV. Quotes within quotes
are doubled; fields without quotes contain no quotes. -/
def csvParse : CsvState → (field : List Byte) → (record : List (List Byte)) → List Byte →
    Option (List (List (List Byte)))
  | .start, _, [], [] => some []
  | .start, _, r, [] => some [r ++ [[]]]
  | .plain, f, r, [] => some [r ++ [f]]
  | .closed, f, r, [] => some [r ++ [f]]
  | .quoted, _, _, [] => none
  | .start, _, r, b :: t =>
    if b = 34 then csvParse .quoted [] r t
    else if b = 44 then csvParse .start [] (r ++ [[]]) t
    else if b = 10 then (csvParse .start [] [] t).map ((r ++ [[]]) :: ·)
    else csvParse .plain [b] r t
  | .plain, f, r, b :: t =>
    if b = 34 then none
    else if b = 44 then csvParse .start [] (r ++ [f]) t
    else if b = 10 then (csvParse .start [] [] t).map ((r ++ [f]) :: ·)
    else csvParse .plain (f ++ [b]) r t
  | .quoted, f, r, b :: t =>
    if b = 34 then csvParse .closed f r t else csvParse .quoted (f ++ [b]) r t
  | .closed, f, r, b :: t =>
    if b = 34 then csvParse .quoted (f ++ [34]) r t
    else if b = 44 then csvParse .start [] (r ++ [f]) t
    else if b = 10 then (csvParse .start [] [] t).map ((r ++ [f]) :: ·)
    else none

/-- The records of a CSV text. -/
def csvRecords (text : List Byte) : Option (List (List (List Byte))) := csvParse .start [] [] text

/-- The usual decimal representation of a number. -/
def Digits (n : Nat) (t : List Byte) : Prop :=
  t ≠ [] ∧ (∀ b ∈ t, 48 ≤ b ∧ b ≤ 57) ∧ (t.head? = some 48 → t = [48]) ∧
    t.foldl (fun a b => 10 * a + (b.toNat - 48)) 0 = n

/-- The usual decimal representation of an integer. -/
def SignedDigits (i : Int) (t : List Byte) : Prop :=
  (0 ≤ i ∧ Digits i.natAbs t) ∨ (i < 0 ∧ ∃ u, t = 45 :: u ∧ Digits i.natAbs u)

/-- A text without quotes, commas and line feeds. -/
def Plain (t : List Byte) : Prop := 34 ∉ t ∧ 44 ∉ t ∧ 10 ∉ t

/-- The English abbreviation of a month. -/
def monthName : Nat → List Byte
  | 1 => ascii "Jan" | 2 => ascii "Feb" | 3 => ascii "Mar" | 4 => ascii "Apr"
  | 5 => ascii "May" | 6 => ascii "Jun" | 7 => ascii "Jul" | 8 => ascii "Aug"
  | 9 => ascii "Sep" | 10 => ascii "Oct" | 11 => ascii "Nov" | 12 => ascii "Dec"
  | _ => []

/-- `YYYY-Mon-DD` -/
def namedDate (x : Ymd) : List Byte :=
  decimals 4 x.year ++ [45] ++ monthName x.month ++ [45] ++ decimals 2 x.day

/-- The day number `d` after 1960-01-01 lies in the years 1400 to 9999 (C51). -/
def CalendarDay (d : Int) : Prop := -204535 ≤ d ∧ d ≤ 2936549

/-- What a time stamp is in text: `not-a-date-time`, or `YYYY-Mon-DD HH:MM:SS[.ffffff]`. -/
def StampShows (t : DateTime) (s : List Byte) : Prop :=
  (t = .notADateTime ∧ s = ascii "not-a-date-time") ∨
  ∃ us x, t = at1960 us ∧ CalendarDay (us / 86400000000) ∧ (day1960 (us / 86400000000)).ymd = .ok x ∧
    RealDate x ∧ s = namedDate x ++ [32] ++ isoTime (us % 86400000000).toNat

/-- What a cell is in CSV: strings and numbers themselves, nothing for a missing number, dates and times in
Boost's format. -/
def CsvShows (x : Texts) : Cell → List Byte → Prop
  | .str s, t => t = s
  | .int i, t => SignedDigits i t
  | .num y, t => (NanNum y ∧ t = []) ∨ (¬ NanNum y ∧ t = x.number y)
  | .datetime d, t => StampShows d t
  | .date d, t => (d = .notADate ∧ t = ascii "not-a-date-time") ∨
      ∃ n y, d = day1960 n ∧ CalendarDay n ∧ d.ymd = .ok y ∧ RealDate y ∧ t = namedDate y
  | .time d, t => (d = .notADateTime ∧ t = ascii "not-a-date-time") ∨
      ∃ n : Nat, d = .us n ∧ n < 86400000000 ∧ t = isoTime n

/-- The values that can be written: strings without quotes, dates in the calendar (years 1400 to 9999),
times of the day. -/
def Writable : Cell → Prop
  | .str s => 34 ∉ s
  | .datetime t => t = .notADateTime ∨ ∃ us, t = at1960 us ∧ CalendarDay (us / 86400000000)
  | .date d => d = .notADate ∨ ∃ n, d = day1960 n ∧ CalendarDay n
  | .time t => t = .notADateTime ∨ ∃ n : Nat, t = .us n ∧ n < 86400000000
  | _ => True

/-- The fields of a record against the cells of a row: one field per column, in column order. -/
def CsvRow (x : Texts) (cols : List Column) (r : Nat × Row) (fields : List (List Byte)) : Prop :=
  List.Forall₂ (fun c t => (c.type = .unknown ∧ t = []) ∨
    ∃ v, c.value r.2.mem = .ok (some v) ∧ CsvShows x v t) cols fields

/-- The names of the properties' values in the listing. -/
def formatName : Format → List Byte
  | .bit32 => ascii "32bits" | .bit64 => ascii "64bits"
def endianName : Endian → List Byte
  | .little => ascii "little" | .big => ascii "big"
def platformName : Platform → List Byte
  | .unknown => ascii "unknown" | .unix => ascii "unix" | .windows => ascii "windows"
def compressionName : Compression → List Byte
  | .none => ascii "none" | .rle => ascii "RLE" | .rdc => ascii "RDC"
def typeName : ColType → List Byte
  | .unknown => ascii "unknown" | .string => ascii "string" | .number => ascii "number"
  | .integer => ascii "integer" | .datetime => ascii "datetime" | .date => ascii "date"
  | .time => ascii "time"

/-- The lines about the file. -/
def FileLines (p : Properties) (lines : List (List Byte)) : Prop :=
  ∃ created modified rows columns, StampShows p.header.dateCreated created ∧
    StampShows p.header.dateModified modified ∧ Digits p.md.rowCount rows ∧ Digits p.md.columnCount columns ∧
    lines =
      [ ascii "Properties:",
        ascii "  format: " ++ formatName p.header.format,
        ascii "  endianness: " ++ endianName p.header.endian,
        ascii "  platform: " ++ platformName p.header.platform,
        ascii "  date created: " ++ created,
        ascii "  date modified: " ++ modified,
        ascii "  dataset name: " ++ p.header.datasetName,
        ascii "  encoding: " ++ ascii p.header.encoding,
        ascii "  file type: " ++ p.header.fileType,
        ascii "  SAS release: " ++ p.header.sasRelease,
        ascii "  SAS server type: " ++ p.header.serverType,
        ascii "  OS type: " ++ p.header.osType,
        ascii "  OS name: " ++ p.header.osName,
        ascii "  compression: " ++ compressionName p.md.compression,
        ascii "  creator: " ++ p.md.creator,
        ascii "  creator proc: " ++ p.md.creatorProc,
        ascii "  row count: " ++ rows,
        ascii "  column count: " ++ columns,
        ascii "Columns:" ]

/-- The lines about the columns, the first of which has number `i`. -/
def ColumnLines : Nat → List Column → List (List Byte) → Prop
  | _, [], lines => lines = []
  | i, c :: cs, lines => ∃ n rest, Digits i n ∧ ColumnLines (i + 1) cs rest ∧
    lines =
      [ ascii "  - column #" ++ n,
        ascii "    name: " ++ c.name,
        ascii "    label: " ++ c.label,
        ascii "    format: " ++ c.format,
        ascii "    type: " ++ typeName c.type ] ++ rest

/-- The line for a row: its index, and the texts of its cells (C52) after commas. -/
def PrintedRow (x : Texts) (cols : List Column) (r : Nat × Row) (line : List Byte) : Prop :=
  ∃ n texts, Digits r.1 n ∧ List.Forall₂ (fun c t => c.toText x.fixed r.2.mem = .ok t) cols texts ∧
    line = n ++ texts.flatMap ([44] ++ ·)

/-- The listing of a file: the lines about the file and the columns, the names, the rows. -/
def Listing (x : Texts) (p : Properties) (rows : List (Nat × Row)) (lines : List (List Byte)) : Prop :=
  ∃ file columns data, FileLines p file ∧ ColumnLines 0 p.columns columns ∧
    List.Forall₂ (PrintedRow x p.columns) rows data ∧
    lines = file ++ columns ++ [ascii "Data:", [35] ++ p.columns.flatMap ([44] ++ ·.name)] ++ data

/-- Lines, each ended by a line feed. -/
def unlines (ls : List (List Byte)) : List Byte := ls.flatMap (· ++ [10])

end Sas.Spec
