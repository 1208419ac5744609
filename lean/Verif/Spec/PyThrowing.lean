import Verif.Spec.Sinks
import Verif.Spec.Throwing
import Verif.Model.PyThrowing

/-!
# Python sinks whose methods raise: what can be handed over
-/

namespace Sas.Spec

/-- The values of these columns in this row have Python objects. -/
def InPython (cols : List Column) (r : Row) : Prop :=
  ∀ c ∈ typed cols, ∀ v, c.value r.mem = .ok (some v) → ∃ x, v.toPy = .ok x

/-- The number of calls that ended in an exception of the sink. -/
def sinkErrors {ε : Type} (rs : List (TRes ε Ret)) : Nat :=
  (rs.filter fun r => match r with | .error (.sink _) => true | _ => false).length

end Sas.Spec
