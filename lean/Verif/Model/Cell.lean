import Verif.Model.DateTime
import Verif.Model.Reader

/-!
# Cells as the sinks see them
-/

namespace Sas

/-- The value of a cell, as returned by the getter for the type of its column (include/cppsas7bdat/column.hpp:97-102). -/
inductive Cell
  | str (s : List Byte)
  | int (i : Int)
  | num (x : Num)
  | datetime (t : DateTime)
  | date (d : Date)
  | time (t : Duration)
deriving DecidableEq

/-- `std::isnan` (R/CPPSAS7BDAT/src/sink.hpp:35, include/cppsas7bdat/sink/csv.hpp:76). -/
def Num.isNan : Num → Bool
  | .bits b => match Dbl.ofBits b with | .nan => true | _ => false
  | .ofInt _ => false

/-- The switch of the row sinks (python/pycppsas7bdat/cpp/sink.hpp:94-113,
R/CPPSAS7BDAT/src/sink.hpp:67-86, include/cppsas7bdat/sink/csv.hpp:48-67): `none` for a column of unknown
type. -/
def Column.value (c : Column) (mem : List Byte) : Res (Option Cell) :=
  match c.type with
  | .string => do return some (.str (← c.getString mem))
  | .integer => do return some (.int (← c.getInteger mem))
  | .number => do return some (.num (← c.getNumber mem))
  | .datetime => do return some (.datetime (← c.getDatetime mem))
  | .date => do return some (.date (← c.getDate mem))
  | .time => do return some (.time (← c.getTime mem))
  | .unknown => .ok none

/-- A column of one of the six groups of `Columns` with the getter its group is read by
(python/pycppsas7bdat/cpp/sink.hpp:232-264, R/CPPSAS7BDAT/src/sink_by_columns.hpp:122-151). -/
abbrev GroupedColumn := Column × (Column → List Byte → Res Cell)

/-- The six groups one after the other, in the order in which both bindings go through them. The bindings
keep one vector of vectors per group; the model keeps one list of vectors in this order
(python/pycppsas7bdat/cpp/sink.hpp:232-264, R/CPPSAS7BDAT/src/sink_by_columns.hpp:122-151). -/
def Columns.grouped (cs : Columns) : List GroupedColumn :=
  cs.numbers.map (·, fun c m => do return .num (← c.getNumber m))
  ++ cs.integers.map (·, fun c m => do return .int (← c.getInteger m))
  ++ cs.datetimes.map (·, fun c m => do return .datetime (← c.getDatetime m))
  ++ cs.dates.map (·, fun c m => do return .date (← c.getDate m))
  ++ cs.times.map (·, fun c m => do return .time (← c.getTime m))
  ++ cs.strings.map (·, fun c m => do return .str (← c.getString m))

end Sas
