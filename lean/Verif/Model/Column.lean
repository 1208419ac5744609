import Verif.Model.Types

/-!
# Columns and formatters: include/cppsas7bdat/column.hpp, src/column.cpp, src/formatters.hpp,
include/cppsas7bdat/filter/column.hpp
-/

namespace Sas

/-- `Column::Type` (include/cppsas7bdat/column.hpp:19). -/
inductive ColType
  | unknown | string | number | integer | datetime | date | time
deriving DecidableEq, Repr

/-- The formatter classes of src/formatters.hpp:51-206. `incomplete e n` is
`IncompleteDoubleFormatter<e, n>`. -/
inductive Formatter
  | none
  | string
  | smallInt
  | int16 (e : Endian)
  | double (e : Endian)
  | incomplete (e : Endian) (n : Nat)
  | datetime (e : Endian)
  | date (e : Endian)
  | time (e : Endian)
deriving DecidableEq, Repr

/-- `IFormatter::type` (src/formatters.hpp:24 and the constructors at 52-53, 59-60, 72-73, 88-89,
105-107, 122-123, 138-139, 164-165, 188-189). -/
def Formatter.type : Formatter → ColType
  | .none => .unknown
  | .string => .string
  | .smallInt => .integer
  | .int16 _ => .integer
  | .double _ => .number
  | .incomplete _ _ => .number
  | .datetime _ => .datetime
  | .date _ => .date
  | .time _ => .time

/-- `Column` (include/cppsas7bdat/column.hpp:18-110) with the `offset` and `length` of its formatter
(src/formatters.hpp:22-23). -/
structure Column where
  name : List Byte
  label : List Byte
  format : List Byte
  fmt : Formatter
  offset : Nat
  length : Nat
deriving DecidableEq

/-- `Column::type` (include/cppsas7bdat/column.hpp:78, 95). -/
def Column.type (c : Column) : ColType := c.fmt.type

/-- Reading `n` bytes at `data(p)` (src/formatters.hpp:45-48), where `p` points to memory `mem` (all
bytes from `p` to the end of the allocation it points into). Reading outside is undefined behaviour. -/
def Column.cell (c : Column) (mem : List Byte) (n : Nat) : Res (List Byte) :=
  if c.offset + n ≤ mem.length then .ok (slice mem c.offset n) else .error .ub

/-- `NUMBER` values: a double given by its bit pattern, or the double equal to an `int32_t`
(include/cppsas7bdat/types.hpp:24; src/formatters.hpp:79, 97 for the second kind). -/
inductive Num
  | bits (b : Nat)
  | ofInt (i : Int)
deriving DecidableEq, Repr

/-- `std::numeric_limits<double>::quiet_NaN()` (src/formatters.hpp:31). -/
def qNaN : Num := .bits 0x7ff8000000000000

/-- `Column::get_string` (src/formatters.hpp:28-29, 64-66). -/
def Column.getString (c : Column) (mem : List Byte) : Res (List Byte) :=
  match c.fmt with
  | .string => do return getStringTrim0 (← c.cell mem c.length)
  | _ => .ok []

/-- `Column::get_integer` (src/formatters.hpp:33-35, 77, 93-95). -/
def Column.getInteger (c : Column) (mem : List Byte) : Res Int :=
  match c.fmt with
  | .smallInt => do return (natLE (← c.cell mem 1) : Int)
  | .int16 e => do return toSigned 16 (getVal e (← c.cell mem 2))
  | _ => .ok 0

/-- `Column::get_number` (src/formatters.hpp:30-32, 79, 97, 111-113, 127-129 and, inherited, for date
and time columns). -/
def Column.getNumber (c : Column) (mem : List Byte) : Res Num :=
  match c.fmt with
  | .smallInt => do return .ofInt (← c.getInteger mem)
  | .int16 _ => do return .ofInt (← c.getInteger mem)
  | .double e => do return .bits (getDoubleBits e (← c.cell mem 8))
  | .datetime e => do return .bits (getDoubleBits e (← c.cell mem 8))
  | .date e => do return .bits (getDoubleBits e (← c.cell mem 8))
  | .time e => do return .bits (getDoubleBits e (← c.cell mem 8))
  | .incomplete e n => do return .bits (getIncompleteDoubleBits e (← c.cell mem n))
  | .none => .ok qNaN
  | .string => .ok qNaN

/-- `get_columns(columns, type)` (src/column.cpp:16-23): a loop appending the matching columns. -/
def getColumns : List Column → ColType → List Column
  | [], _ => []
  | c :: cs, t => if c.type = t then c :: getColumns cs t else getColumns cs t

/-- `Columns` (include/cppsas7bdat/column.hpp:125-135). -/
structure Columns where
  strings : List Column
  numbers : List Column
  integers : List Column
  datetimes : List Column
  dates : List Column
  times : List Column
deriving DecidableEq

/-- `Columns::Columns(const COLUMNS &)` (src/column.cpp:25-31). -/
def Columns.ofColumns (cs : List Column) : Columns where
  strings := getColumns cs .string
  numbers := getColumns cs .number
  integers := getColumns cs .integer
  datetimes := getColumns cs .datetime
  dates := getColumns cs .date
  times := getColumns cs .time

/-- A column filter object: its `accept`. Simplification: `accept` is a pure function (include/cppsas7bdat/reader.hpp:70-74). -/
abbrev Filter := Column → Bool

/-- `AcceptAll::accept` (include/cppsas7bdat/filter/column.hpp:21-25). -/
def Filter.acceptAll : Filter := fun _ => true

/-- `Include::accept` (include/cppsas7bdat/filter/column.hpp:27-43). `std::set::find` is membership. -/
def Filter.include (included : List (List Byte)) : Filter := fun c => included.contains c.name

/-- `Exclude::accept` (include/cppsas7bdat/filter/column.hpp:45-61). -/
def Filter.exclude (excluded : List (List Byte)) : Filter := fun c => !excluded.contains c.name

/-- `IncludeExclude::accept` (include/cppsas7bdat/filter/column.hpp:63-75). -/
def Filter.includeExclude (included excluded : List (List Byte)) : Filter := fun c =>
  if !included.isEmpty then included.contains c.name
  else if !excluded.isEmpty then !excluded.contains c.name
  else true

end Sas
