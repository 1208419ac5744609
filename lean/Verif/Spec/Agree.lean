import Verif.Spec.RFront
import Verif.Spec.Export

/-!
# The same data in Python, in R and in CSV
-/

namespace Sas.Spec

/-- `HH:MM:SS`, with six decimals when there is a fraction of a second. -/
def clockText (hour minute second us : Nat) : List Byte :=
  decimals 2 hour ++ [58] ++ decimals 2 minute ++ [58] ++ decimals 2 second ++ (if us = 0 then [] else [46] ++ decimals 6 us)

/-- A Python object and an element of an R vector stand for the same: texts up to the first zero byte, equal integers and
numbers, `None` and `NA`; dates and times are texts in R. -/
def SameValue : PyVal → RVal → Prop
  | .bytes s, x => x = .str (upToZero s)
  | .int i, x => x = .int i
  | .float y, x => x = .num y
  | .time .none, x => x = .na
  | .time (.datetime d h m s u), x => x = .str (isoDate d ++ [32] ++ clockText h m s u)
  | .time (.date d), x => x = .str (isoDate d)
  | .time (.time h m s u), x => x = .str (clockText h m s u)
  | .time (.delta _ _ _), _ => False

/-- A frame of Python and a table of R show the same data: every column of the table is a column of the frame, another one for
each, with the same name up to the first zero byte and the same values in the same order; a column of the frame that is not in the
table has no values. -/
def SameData (f : PyFrame) (t : RTable) : Prop :=
  ∃ js : List Nat, js.Nodup ∧
    (∀ j, j < f.names.length → j ∉ js → ∃ col, f.columns[j]? = some col ∧ ∀ x ∈ col, x = none) ∧
    List.Forall₂ (fun j e => ∃ name col, f.names[j]? = some name ∧ f.columns[j]? = some col ∧ e.1 = upToZero name ∧
      List.Forall₂ (fun x y => ∃ p, x = some p ∧ SameValue p y) col e.2) js t

/-- A Python object and a field of a CSV file stand for the same. Numbers as in `FieldMeans`. -/
def SameField : PyVal → List Byte → Prop
  | .bytes s, f => f = s
  | .int i, f => SignedDigits i f
  | .float y, f => ∃ b, y = .bits b ∧ (IeeeNaN b → f = []) ∧ ∀ x, IeeeValue b x → ∃ d, readDecimal f = some d ∧ Nearest x d ∧ fl d = x
  | .time .none, f => f = ascii "not-a-date-time"
  | .time (.datetime d h m s u), f => f = namedDate d ++ [32] ++ clockText h m s u
  | .time (.date d), f => f = namedDate d
  | .time (.time h m s u), f => f = clockText h m s u
  | .time (.delta _ _ _), _ => False

/-- A frame of Python and the records of a CSV file show the same data: the first record has the names of the columns; every other one
has one field for each column, and the fields for a column are the values of the column, in the same order. -/
def SameRecords (f : PyFrame) (records : List (List (List Byte))) : Prop :=
  ∃ table, records = f.names :: table ∧ f.columns.length = f.names.length ∧ (∀ r ∈ table, r.length = f.names.length) ∧
    ∀ (j : Nat) col, f.columns[j]? = some col →
      List.Forall₂ (fun x r => ∃ p field, x = some p ∧ r[j]? = some field ∧ SameField p field) col table

end Sas.Spec
