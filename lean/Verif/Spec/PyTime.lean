import Verif.Model.PyTime
import Verif.Spec.DateTime

/-! # What Python's date and time objects mean -/

namespace Sas.Spec

/-- The length of a `timedelta`, in microseconds. -/
def deltaUs (days : Int) (seconds us : Nat) : Int := days * 86400000000 + seconds * 1000000 + us

/-- The `timedelta` objects that exist. -/
def IsDelta (days : Int) (seconds us : Nat) : Prop :=
  -999999999 ≤ days ∧ days ≤ 999999999 ∧ seconds < 86400 ∧ us < 1000000

/-- The `time` objects that exist. -/
def IsTime (hour minute second us : Nat) : Prop := hour < 24 ∧ minute < 60 ∧ second < 60 ∧ us < 1000000

/-- Microseconds since midnight of a `time`. -/
def timeUs (hour minute second us : Nat) : Int := ((hour * 60 + minute) * 60 + second) * 1000000 + us

end Sas.Spec
