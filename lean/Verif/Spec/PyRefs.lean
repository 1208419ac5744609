import Verif.Model.PyRefs
import Verif.Spec.PyFront

/-!
# Counting missing dates and times
-/

namespace Sas.Spec

/-- Is the cell of this column in this row a missing datetime, date or time? -/
def MissingAt (c : Column) (r : Nat × Row) : Bool :=
  match c.value r.2.mem with
  | .ok (some (.datetime .notADateTime)) => true
  | .ok (some (.date .notADate)) => true
  | .ok (some (.time .notADateTime)) => true
  | _ => false

/-- The number of missing datetimes, dates and times in these rows. -/
def missingCells (cols : List Column) (rows : List (Nat × Row)) : Nat :=
  (rows.map fun r => cols.countP fun c => MissingAt c r).sum

/-- Every cell of these rows can be read and has a Python object. -/
def Convertible (cols : List Column) (rows : List (Nat × Row)) : Prop :=
  ∀ c ∈ typed cols, ∀ r ∈ rows, ∃ v y, c.value r.2.mem = .ok (some v) ∧ v.toPy = .ok y

/-- The calls of the reader in a program. -/
def calls : List RefStmt → List Op
  | [] => []
  | .call op :: ss => op :: calls ss
  | _ :: ss => calls ss

/-- How often a program looks at a date of the header that is missing. -/
def missingLooks (p : Properties) (ss : List RefStmt) : Nat :=
  ss.countP fun s => (s = .dateCreated ∧ p.header.dateCreated = .notADateTime)
    ∨ (s = .dateModified ∧ p.header.dateModified = .notADateTime)

/-- The rows a sink has been given as Python lists when these rows have been read: row by row, all of them; by chunks
of `n`, all full chunks; as whole data, none before the end. At the end (`ended`) it is given all of them. -/
def handedOver (kind : PyKind) (ended : Bool) (rows : List (Nat × Row)) : List (Nat × Row) :=
  if ended then rows else
    match kind with
    | .row => rows
    | .chunk n => rows.take (rows.length - rows.length % n)
    | .data => []

/-- The interpreter after it has lost `k` references to `None`: it aborts when none is left. -/
def lose (h : PyHeap) (k : Nat) : PyM PyHeap :=
  if h.immortal then .ok h else if k < h.none then .ok { h with none := h.none - k } else .error (.cpp .terminate)

end Sas.Spec
