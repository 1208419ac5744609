import Verif.Model.DateTime

/-!
# Dates and times in Python

python/pycppsas7bdat/cpp/import_datetime.cpp. The constructors of Python's `datetime` module are modelled
after its documentation: `time` and `datetime` reject fields out of range, `timedelta` normalises. Reference
counts are not modelled (the conversions return `Py_None` without a new reference).
-/

namespace Sas

/-- The Python objects involved (python/pycppsas7bdat/cpp/import_datetime.cpp:40, 98, 106, 158). -/
inductive PyTime
  | none
  | datetime (d : Ymd) (hour minute second us : Nat)
  | date (d : Ymd)
  | time (hour minute second us : Nat)
  | delta (days : Int) (seconds us : Nat)
deriving DecidableEq, Repr

/-- The outcome of a conversion that may raise a Python exception (a null pointer in C)
(python/pycppsas7bdat/cpp/import_datetime.cpp:35, 89, 155). -/
inductive PyResult (α : Type)
  | ok (x : α)
  | raised
deriving DecidableEq, Repr

/-- `time_duration::hours()`, 32 bits (python/pycppsas7bdat/cpp/import_datetime.cpp:41, 92). -/
def Duration.hours (t : Duration) : Int := toSigned 32 ((t.ticks.tdiv 3600000000 % 2 ^ 32).toNat)

/-- `time_duration::minutes()` (python/pycppsas7bdat/cpp/import_datetime.cpp:41, 95). -/
def Duration.minutes (t : Duration) : Int := (t.ticks.tdiv 60000000).tmod 60

/-- `time_duration::seconds()` (python/pycppsas7bdat/cpp/import_datetime.cpp:42, 96). -/
def Duration.seconds (t : Duration) : Int := (t.ticks.tdiv 1000000).tmod 60

/-- `time_duration::total_seconds()`, 32 bits (python/pycppsas7bdat/cpp/import_datetime.cpp:102). -/
def Duration.totalSeconds (t : Duration) : Int := toSigned 32 ((t.ticks.tdiv 1000000 % 2 ^ 32).toNat)

/-- `get_usecs` (python/pycppsas7bdat/cpp/import_datetime.cpp:23-31): `ticks_per_second()` is 1000000, so
that the second branch multiplies by one. -/
def Duration.usecs (t : Duration) : Int := t.ticks.tmod 1000000

/-- `PyTime_FromTime`: `ValueError` for a field out of range (python/pycppsas7bdat/cpp/import_datetime.cpp:98). -/
def PyTime.fromTime (hour minute second us : Int) : PyResult PyTime :=
  if 0 ≤ hour ∧ hour < 24 ∧ 0 ≤ minute ∧ minute < 60 ∧ 0 ≤ second ∧ second < 60 ∧ 0 ≤ us ∧ us < 1000000 then
    .ok (.time hour.toNat minute.toNat second.toNat us.toNat)
  else .raised

/-- `PyDelta_FromDSU`: normalises to `0 ≤ us < 1000000` and `0 ≤ seconds < 86400`; `OverflowError` when
the days exceed 999999999 (python/pycppsas7bdat/cpp/import_datetime.cpp:106). -/
def PyTime.fromDSU (days seconds us : Int) : PyResult PyTime :=
  let s := seconds + us / 1000000
  let d := days + s / 86400
  if -999999999 ≤ d ∧ d ≤ 999999999 then .ok (.delta d (s % 86400).toNat (us % 1000000).toNat) else .raised

/-- `tduration_to_python_delta::convert` (python/pycppsas7bdat/cpp/import_datetime.cpp:88-109). -/
def Duration.toPython (t : Duration) : PyResult PyTime :=
  match t with
  | .notADateTime => .ok .none
  | .us _ =>
    let days := t.hours.tdiv 24
    if days = 0 then PyTime.fromTime t.hours t.minutes t.seconds t.usecs
    else
      let days := if days < 0 then days - 1 else days
      let seconds := t.totalSeconds - days * 86400
      let us := if days < 0 then 999999 - t.usecs else t.usecs
      PyTime.fromDSU days seconds us

/-- `tduration_from_python_delta` (python/pycppsas7bdat/cpp/import_datetime.cpp:113-151): only a
`timedelta` is convertible; anything else is a `TypeError`. -/
def PyTime.toDuration : PyTime → PyResult (Res Duration)
  | .delta days seconds us => .ok do
    let negative := days < 0
    let days := if negative then -days else days
    let n ← ticks64 (days * 86400000000)
    let n ← ticks64 (n + seconds * 1000000)
    let n ← ticks64 (n + us)
    return .us (if negative then -n else n)
  | _ => .raised

/-- `PyDateTime_FromDateAndTime`: `ValueError` for a field out of range. The date comes from Boost, whose
dates are valid Python dates (years 1400 to 9999) (python/pycppsas7bdat/cpp/import_datetime.cpp:40-42). -/
def PyTime.fromDateAndTime (d : Ymd) (hour minute second us : Int) : PyResult PyTime :=
  if 0 ≤ hour ∧ hour < 24 ∧ 0 ≤ minute ∧ minute < 60 ∧ 0 ≤ second ∧ second < 60 ∧ 0 ≤ us ∧ us < 1000000 then
    .ok (.datetime d hour.toNat minute.toNat second.toNat us.toNat)
  else .raised

/-- `ptime_to_python_datetime::convert` (python/pycppsas7bdat/cpp/import_datetime.cpp:34-44). -/
def DateTime.toPython (t : DateTime) : Res (PyResult PyTime) :=
  match t with
  | .notADateTime => .ok (.ok .none)
  | .at _ => do
    let d ← (← t.date).ymd
    let td := t.timeOfDay
    return PyTime.fromDateAndTime d td.hours td.minutes td.seconds td.usecs

/-- `gregorian_date_to_python_date::convert` (python/pycppsas7bdat/cpp/import_datetime.cpp:154-161). -/
def Date.toPython (d : Date) : Res (PyResult PyTime) :=
  match d with
  | .notADate => .ok (.ok .none)
  | .day _ => do return .ok (.date (← d.ymd))

/-- `boost::gregorian::date(year, month, day)` of a valid Python date: `bad_year` outside 1400..9999
(python/pycppsas7bdat/cpp/import_datetime.cpp:66-68, 183-185). -/
def Date.ofYmd (d : Ymd) : Res Date := if d.inRange then .ok (.day d.dayNumber) else .error (.exn .outOfRange)

/-- `ptime_from_python_datetime` (python/pycppsas7bdat/cpp/import_datetime.cpp:46-85). -/
def PyTime.toDateTime : PyTime → PyResult (Res DateTime)
  | .datetime d hour minute second us => .ok do
    match ← Date.ofYmd d with
    | .notADate => return .notADateTime
    | .day n =>
      let t : Int := (hour * 3600 + minute * 60 + second) * 1000000
      return .at (n * usPerDay + (t + us))
  | _ => .raised

/-- `gregorian_date_from_python_date` (python/pycppsas7bdat/cpp/import_datetime.cpp:163-194). A Python
`datetime` is a `date` too (`PyDate_Check` accepts subclasses). -/
def PyTime.toDate : PyTime → PyResult (Res Date)
  | .date d => .ok (Date.ofYmd d)
  | .datetime d _ _ _ _ => .ok (Date.ofYmd d)
  | _ => .raised

end Sas
