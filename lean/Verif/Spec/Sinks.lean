import Verif.Model.PySinks
import Verif.Model.RSinks
import Verif.Spec.Reader

/-!
# What the sinks of the bindings should do

The rows a reader has pushed are `pushes trace` (Spec/Reader.lean); the value of a cell is what the getter for the type of its
column returns (`Column.value`).
-/

namespace Sas.Spec

/-- The columns that have a type. -/
def typed (cols : List Column) : List Column := cols.filter fun c => c.type ≠ .unknown

/-- Every cell of these rows can be read (conditions for this: C24, C35, C53). -/
def Readable (cols : List Column) (rows : List (Nat × Row)) : Prop :=
  ∀ c ∈ typed cols, ∀ r ∈ rows, ∃ v, c.value r.2.mem = .ok (some v)

/-- `vs` are the values of column `c` in these rows. -/
def ColumnValues (c : Column) (rows : List (Nat × Row)) (vs : List Cell) : Prop :=
  rows.map (fun r => c.value r.2.mem) = vs.map fun v => .ok (some v)

/-- A dictionary holds exactly the typed columns of these rows, under their names. -/
def Holds (cols : List Column) (rows : List (Nat × Row)) (d : PyDict) : Prop :=
  (∀ c ∈ typed cols, ∃ vs, d.lookup c.name = some vs ∧ ColumnValues c rows vs)
  ∧ ∀ k ∈ d.map Prod.fst, ∃ c ∈ typed cols, c.name = k

/-- The chunks among the calls. -/
def chunks : List PyCall → List (Nat × Nat × PyDict)
  | [] => []
  | .pushRows s e d :: cs => (s, e, d) :: chunks cs
  | _ :: cs => chunks cs

/-- The `set_data` calls. -/
def datas : List PyCall → List PyDict
  | [] => []
  | .setData d :: cs => d :: datas cs
  | _ :: cs => datas cs

/-- Delivered chunks against the groups of rows they stand for: each holds the rows of its group, its end
is the index of its last row, its start is `start` for the first chunk and otherwise one more than the end
of the chunk before. -/
def ChunksAre (cols : List Column) : Nat → List (Nat × Nat × PyDict) → List (List (Nat × Row)) → Prop
  | _, [], [] => True
  | start, (s, e, d) :: cs, q :: qs =>
    s = start ∧ q.getLast?.map Prod.fst = some e ∧ Holds cols q d ∧ ChunksAre cols (e + 1) cs qs
  | _, _, _ => False

/-- The number of Python errors raised by the sink. -/
def attributeErrors : List PyCall → Nat
  | [] => 0
  | .attributeError :: cs => attributeErrors cs + 1
  | _ :: cs => attributeErrors cs

/-- The rows among the calls. -/
def rowCalls : List PyCall → List (Nat × List Cell)
  | [] => []
  | .pushRow i l :: cs => (i, l) :: rowCalls cs
  | _ :: cs => rowCalls cs

/-- Delivered rows against the rows pushed: the same indices, and the values of the typed columns. -/
def RowsAre (cols : List Column) (calls : List (Nat × List Cell)) (rows : List (Nat × Row)) : Prop :=
  List.Forall₂ (fun c r => c.1 = r.1 ∧
    (typed cols).map (fun col => col.value r.2.mem) = c.2.map fun v => .ok (some v)) calls rows

/-! ## R -/

/-- A text as an R string, which cannot contain a zero byte. -/
def upToZero (t : List Byte) : List Byte := t.takeWhile (· ≠ 0)

/-- What a cell is in an R vector: missing dates and times are `NA`, others their text (C52), everything else
itself. -/
def RShows : Cell → RVal → Prop
  | .str s, x => x = .str (upToZero s)
  | .int i, x => x = .int i
  | .num y, x => x = .num y
  | .datetime t, x => (t = .notADateTime ∧ x = .na) ∨ (t ≠ .notADateTime ∧ ∃ s, t.toText = .ok s ∧ x = .str s)
  | .date t, x => (t = .notADate ∧ x = .na) ∨ (t ≠ .notADate ∧ ∃ s, t.toText = .ok s ∧ x = .str s)
  | .time t, x => (t = .notADateTime ∧ x = .na) ∨ (t ≠ .notADateTime ∧ ∃ s, t.toText = .ok s ∧ x = .str s)

/-- Every cell of these rows can be read and shown in R. -/
def RReadable (cols : List Column) (rows : List (Nat × Row)) : Prop :=
  ∀ c ∈ typed cols, ∀ r ∈ rows, ∃ v x, c.value r.2.mem = .ok (some v) ∧ RShows v x

/-- The typed columns sorted by type. -/
def byType (cols : List Column) : List Column :=
  [.number, .integer, .datetime, .date, .time, .string].flatMap fun t => cols.filter fun c => c.type = t

/-- An index vector and a list hold exactly these rows: their indices, and for every typed column its name
and its values. -/
def RHolds (cols : List Column) (rows : List (Nat × Row)) (index : List RVal)
    (list : List (List Byte × List RVal)) : Prop :=
  index = rows.map (fun r => .int r.1) ∧
  List.Forall₂ (fun c e => e.1 = upToZero c.name ∧
    List.Forall₂ (fun r x => ∃ v, c.value r.2.mem = .ok (some v) ∧ RShows v x) rows e.2) (byType cols) list

/-- A double that is not a number, by its bits. -/
def NanNum (y : Num) : Prop := ∃ b, y = .bits b ∧ b / 2 ^ 52 % 2 ^ 11 = 2047 ∧ b % 2 ^ 52 ≠ 0

/-- What a cell is in an R row: missing numbers are `NA`, missing dates and times are `NULL`. -/
def RRowShows (v : Cell) (x : Option RVal) : Prop :=
  (∃ y, v = .num y ∧ NanNum y ∧ x = some .na) ∨
  ((v = .datetime .notADateTime ∨ v = .date .notADate ∨ v = .time .notADateTime) ∧ x = none) ∨
  ((∀ y, v = .num y → ¬ NanNum y) ∧ v ≠ .datetime .notADateTime ∧ v ≠ .date .notADate ∧
    v ≠ .time .notADateTime ∧ ∃ z, x = some z ∧ RShows v z)

/-- The rows among the calls. -/
def rrows : List RCall → List (Nat × List (Option RVal))
  | [] => []
  | .pushRow i l :: cs => (i, l) :: rrows cs
  | _ :: cs => rrows cs

/-- Delivered rows against the rows pushed: the same indices, and one element per column, which is `NULL`
for a column of unknown type. -/
def RRowsAre (cols : List Column) (calls : List (Nat × List (Option RVal))) (rows : List (Nat × Row)) : Prop :=
  List.Forall₂ (fun e r => e.1 = r.1 ∧ List.Forall₂ (fun c x => (c.type = .unknown ∧ x = none) ∨
    ∃ v, c.value r.2.mem = .ok (some v) ∧ RRowShows v x) cols e.2) calls rows

/-- The chunks among the calls. -/
def rchunks : List RCall → List (List RVal × List (List Byte × List RVal))
  | [] => []
  | .pushRows i l :: cs => (i, l) :: rchunks cs
  | _ :: cs => rchunks cs

/-- The `set_data` calls. -/
def rdatas : List RCall → List (List RVal × List (List Byte × List RVal))
  | [] => []
  | .setData i l :: cs => (i, l) :: rdatas cs
  | _ :: cs => rdatas cs

end Sas.Spec
