import Verif.Model.PyCounts

/-!
# Missing dates and times among cells
-/

namespace Sas.Spec

/-- The number of missing datetimes, dates and times among these cells. -/
def missingCount (cells : List Cell) : Nat :=
  cells.count (.datetime .notADateTime) + cells.count (.date .notADate) + cells.count (.time .notADateTime)

end Sas.Spec
