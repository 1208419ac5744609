import Verif.Spec.NumText
import Verif.Spec.PyFront

/-!
# What the values of a data set should look like in CSV
-/

namespace Sas.Spec
open Sas

/-- The field says this value. Texts are there as they are. Integers are decimal numbers, and the decimal number for a
finite double is one that is nearest to this double; missing numbers are empty. Dates and times are in Boost's formats,
`1992-Nov-08`, `09:30:00.500000`, and both with a blank between; missing ones say so. -/
def FieldMeans : Value → List Byte → Prop
  | .text t, f => f = t
  | .integer i, f => SignedDigits i f
  | .number b, f => (IeeeNaN b → f = []) ∧ ∀ x, IeeeValue b x → ∃ d, readDecimal f = some d ∧ Nearest x d ∧ fl d = x
  | .datetime us, f => ∃ y, IsDay (us / 86400000000) y ∧ f = namedDate y ++ [32] ++ isoTime (us % 86400000000).toNat
  | .date n, f => ∃ y, IsDay n y ∧ f = namedDate y
  | .time us, f => f = isoTime us.toNat
  | .missing, f => f = ascii "not-a-date-time"

/-- Values without double quotes. -/
def Unquoted : Value → Prop
  | .text t => 34 ∉ t
  | _ => True

/-- The records of a data set: the names of the wanted columns, then a record for each row, with the values of these
columns. `values` are the rows. -/
def RecordsOf (columns : List ColumnDesc) (wanted : List Byte → Prop) (values : List (List Value))
    (records : List (List (List Byte))) : Prop :=
  ∃ (js : List Nat) (names : List (List Byte)) (table : List (List (List Byte))), js.Pairwise (· < ·) ∧
    (∀ j, j ∈ js ↔ ∃ c, columns[j]? = some c ∧ wanted c.name) ∧ records = names :: table ∧
    List.Forall₂ (fun j name => ∃ c, columns[j]? = some c ∧ name = c.name) js names ∧
    List.Forall₂ (fun row fields => List.Forall₂ (fun j f => ∃ v, row[j]? = some v ∧ FieldMeans v f) js fields)
      values table

end Sas.Spec
