import Verif.Model.PyFront
import Verif.Spec.Sinks
import Verif.Spec.Cells
import Verif.Spec.PyTime
import Verif.Spec.Text

/-!
# What a Python program should see
-/

namespace Sas.Spec

/-- The UTF-8 encoding of some text (Lean's own definition of UTF-8). -/
def IsUtf8 (s : List Byte) : Prop := (ByteArray.mk s.toArray).IsValidUTF8

/-- The names an argument `include` or `exclude` stands for: none for `None`; those of a list of `str` and
`bytes` objects. -/
def ArgNames : PyArg → List (List Byte) → Prop
  | .none, names => names = []
  | .list items, names => List.Forall₂ (fun i n => i = .str n ∨ i = .bytes n) items names
  | .other, _ => False

/-- The names of the columns asked for: the included ones if there are any, else those that are not excluded. -/
def Wanted (incl excl : List (List Byte)) (name : List Byte) : Prop :=
  if incl ≠ [] then name ∈ incl else name ∉ excl

/-- The calendar date `n` days after 1960-01-01. -/
def IsDay (n : Int) (y : Ymd) : Prop :=
  RealDate y ∧ (0 ≤ n → y = daysAfter n.toNat ⟨1960, 1, 1⟩) ∧ (n ≤ 0 → daysAfter (-n).toNat y = ⟨1960, 1, 1⟩)

/-- The Python object for an instant. -/
def PyInstant (us : Int) (x : PyVal) : Prop :=
  ∃ y h m s u, x = .time (.datetime y h m s u) ∧ IsDay (us / 86400000000) y ∧ IsTime h m s u ∧
    timeUs h m s u = us % 86400000000

/-- The Python object for a date. -/
def PyDay (n : Int) (x : PyVal) : Prop := ∃ y, x = .time (.date y) ∧ IsDay n y

/-- The Python object for a time of day. -/
def PyClock (us : Int) (x : PyVal) : Prop := ∃ h m s u, x = .time (.time h m s u) ∧ IsTime h m s u ∧ timeUs h m s u = us

/-- The Python object for a cell: `bytes`, `int`, `float`, `datetime`, `date`, `time`; `None` for a missing date
or time. Dates lie in the years 1400 to 9999 and times in a day. -/
def PyShows : Cell → PyVal → Prop
  | .str s, x => x = .bytes s
  | .int i, x => x = .int i
  | .num y, x => x = .float y
  | .datetime t, x => (t = .notADateTime ∧ x = .time .none) ∨
      ∃ us, t = at1960 us ∧ CalendarDay (us / 86400000000) ∧ PyInstant us x
  | .date d, x => (d = .notADate ∧ x = .time .none) ∨ ∃ n, d = day1960 n ∧ CalendarDay n ∧ PyDay n x
  | .time t, x => (t = .notADateTime ∧ x = .time .none) ∨
      ∃ n : Nat, t = .us n ∧ n < 86400000000 ∧ PyClock n x

/-- The Python object for a value of a data set. -/
def PyMeans : Value → PyVal → Prop
  | .text t, x => x = .bytes t
  | .integer i, x => x = .int i
  | .number b, x => x = .float (.bits b)
  | .datetime us, x => PyInstant us x
  | .date n, x => PyDay n x
  | .time us, x => PyClock us x
  | .missing, x => x = .time .none

/-- Every cell of these rows can be read and has a Python object. -/
def PyReadable (cols : List Column) (rows : List (Nat × Row)) : Prop :=
  ∀ c ∈ typed cols, ∀ r ∈ rows, ∃ v y, c.value r.2.mem = .ok (some v) ∧ PyShows v y

/-- An entry of a frame: the Python object for the cell, or the filler for a column of unknown type. -/
def EntryShows (c : Column) (r : Nat × Row) (x : Option PyVal) : Prop :=
  (c.type = .unknown ∧ x = none) ∨ ∃ v y, c.value r.2.mem = .ok (some v) ∧ PyShows v y ∧ x = some y

/-- A frame holds exactly these columns, in this order and under their names, and in each exactly these rows. -/
def FrameHolds (cols : List Column) (rows : List (Nat × Row)) (f : PyFrame) : Prop :=
  f.names = cols.map Column.name ∧ List.Forall₂ (fun c col => List.Forall₂ (EntryShows c) rows col) cols f.columns

/-- The columns of which a sink can show everything: row by row, there are columns and all have a type; by chunks
or as a whole, the names are distinct and at least one column has a type. -/
def GoodCols (cols : List Column) : PyKind → Prop
  | .row => cols ≠ [] ∧ ∀ c ∈ cols, c.type ≠ .unknown
  | _ => (cols.map Column.name).Nodup ∧ typed cols ≠ []

/-- Row labels: 0, 1, 2, ...; in a frame made of chunks they start again with every chunk, and all chunks but
the last have the chunk size. -/
def LabelsAre (count : Nat) (index : List Nat) : PyKind → Prop
  | .chunk n => ∃ sizes : List Nat, sizes.sum = count ∧ (∀ k ∈ sizes, 0 < k ∧ (0 < n → k ≤ n)) ∧
      (∀ k ∈ sizes.dropLast, k = n) ∧ index = sizes.flatMap List.range
  | _ => index = List.range count

/-- The frame of a data set: the wanted columns, in their order and under their names, with the value of every
row. `values` are the rows. -/
def DataFrameOf (columns : List ColumnDesc) (wanted : List Byte → Prop) (values : List (List Value)) (f : PyFrame) :
    Prop :=
  ∃ js : List Nat, js.Pairwise (· < ·) ∧ (∀ j, j ∈ js ↔ ∃ c, columns[j]? = some c ∧ wanted c.name) ∧
    List.Forall₂ (fun j name => ∃ c, columns[j]? = some c ∧ name = c.name) js f.names ∧
    List.Forall₂ (fun j column => List.Forall₂ (fun row x => ∃ v y, row[j]? = some v ∧ x = some y ∧ PyMeans v y)
      values column) js f.columns

end Sas.Spec
