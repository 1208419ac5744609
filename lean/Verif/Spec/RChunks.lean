import Verif.Spec.RFront

/-!
# What the frame of a sink by chunks shows
-/

namespace Sas.Spec

/-- What R's `SinkByChunk` shows of the rows that were read, as (number, row), from a file of `count` rows: when a whole chunk could
still follow the first one in the file, the rows of the second chunk, as far as there are any, take the places of the rows of the
first; otherwise all is shown as it is. -/
def shownRows {α : Type} (size count : Nat) (rows : List (Nat × α)) : List (Nat × α) :=
  match rows[size - 1]? with
  | some last =>
    if 0 < size ∧ last.1 + 1 + size ≤ count then
      let next := (rows.drop size).take size
      next ++ (rows.take size).drop next.length ++ rows.drop size
    else rows
  | none => rows

end Sas.Spec
