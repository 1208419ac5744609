import Verif.Model.Reader

/-!
# Vocabulary for statements about a reader and its sink

The sink is observed through the list of the calls it received (`Reader.trace`).
-/

namespace Sas.Spec

open Sas

variable {σ : Type}

/-- The `push_row` calls among the sink calls: row index and row. -/
def pushes : List Event → List (Nat × Row)
  | [] => []
  | .pushRow i r :: es => (i, r) :: pushes es
  | .setProperties _ :: es => pushes es
  | .endOfData :: es => pushes es

/-- The number of `end_of_data` calls. -/
def ends : List Event → Nat
  | [] => 0
  | .endOfData :: es => ends es + 1
  | .setProperties _ :: es => ends es
  | .pushRow _ _ :: es => ends es

/-- The `push_row` calls for consecutive rows, the first of which has index `i`. -/
def pushEvents : Nat → List Row → List Event
  | _, [] => []
  | i, r :: rs => .pushRow i r :: pushEvents (i + 1) rs

/-- What a thrown exception does to the row index: a row that cannot be decompressed is used up, any
other exception leaves the index alone. -/
def lostRows : Exn → Nat
  | .cannotDecompress => 1
  | _ => 0

/-- The states a user can reach: open a source, then call anything. -/
inductive Reachable (S : Source σ) : Reader σ → Prop
  | opened (cfg : Cfg) (fuel : Nat) (filter : Option Filter) (s : σ) (R : Reader σ)
      (h : openReader cfg S fuel filter s = .ok R) : Reachable S R
  | called (R : Reader σ) (op : Op) (h : Reachable S R) : Reachable S (R.step S op).2

/-- The calls that read rows and give them to the sink. -/
def isRead : Op → Bool
  | .readRow | .readRows _ | .readAll => true
  | _ => false

/-- Does this result of this call tell the caller that there are no more rows? -/
def reportsEnd : Op → Res Ret → Bool
  | .readRow, .ok (.bool false) => true
  | .readRows _, .ok (.bool false) => true
  | .skip _, .ok (.bool false) => true
  | .readAll, .ok .unit => true
  | .readRowNoSink, .ok (.ptr none) => true
  | _, _ => false

/-- Does the call, with this result, call the sink's `end_of_data` ? -/
def signalsEnd : Op → Res Ret → Bool
  | .endOfData, _ => true
  | .readRowNoSink, _ => false
  | op, r => reportsEnd op r

/-- The sink call made for the end of the data, or none. -/
def endEvents : Bool → List Event
  | true => [.endOfData]
  | false => []

/-- What every call has to answer at the end of the data. (A request for zero rows is satisfied.) -/
def answerAtEnd : Op → Res Ret
  | .readRow => .ok (.bool false)
  | .readRows n => .ok (.bool (n == 0))
  | .skip n => .ok (.bool (n == 0))
  | .readAll => .ok .unit
  | .readRowNoSink => .ok (.ptr none)
  | .endOfData => .ok .unit

end Sas.Spec
