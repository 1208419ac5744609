import Verif.Spec.Sinks
import Verif.Spec.Throwing
import Verif.Model.RThrowing

/-!
# R sinks whose functions raise errors: what can be handed over
-/

namespace Sas.Spec

/-- The exceptions of the sink among the results of calls of the reader. -/
def sinkExceptions {ε : Type} (rs : List (TRes ε Ret)) : List ε :=
  rs.filterMap fun r => match r with | .error (.sink x) => some x | _ => none

/-- The values of these columns in this row can be read and shown in R. -/
def InR (cols : List Column) (r : Row) : Prop :=
  ∀ c ∈ typed cols, ∃ v x, c.value r.mem = .ok (some v) ∧ RShows v x

/-- The values of these columns in these rows can be read. A date that has no text throws an exception (C52); no text is
longer than its buffer (C33). -/
def RSafe (cols : List Column) (rows : List (Nat × Row)) : Prop :=
  ∀ c ∈ typed cols, ∀ r ∈ rows, ∃ v, c.value r.2.mem = .ok (some v) ∧ ((∃ x, RShows v x) ∨ ∃ e, v.toR = .error (.exn e))

end Sas.Spec
