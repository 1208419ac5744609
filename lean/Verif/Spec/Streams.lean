import Verif.Model.Streams

/-!
# Streams that fail: what should be on them
-/

namespace Sas.Spec

/-- The texts of all these calls, one after the other. -/
def written (step : List Column → Event → Printed × List Column) : List Column → List Event → List Byte
  | _, [] => []
  | cols, e :: es => (step cols e).1.1 ++ written step (step cols e).2 es

/-- A stream as it is made: nothing in the buffer, no failure yet. -/
structure Fresh (o : Out) : Prop where
  pend : o.pend = []
  bad : o.bad = false

end Sas.Spec
