import Verif.Model.Column
import Verif.Model.Float

/-!
# Dates and times

src/types.hpp:143-182, src/types.cpp:15-58, the date and time getters of src/formatters.hpp, and the part
of Boost.DateTime they use. Boost is not in the repository; what is used of it is modelled after its
documented behaviour and sources (version 1.86, conanfile.py:45): a `ptime` is a 64-bit count of
microseconds since the start of Julian day 0, a `gregorian::date` is a 32-bit Julian day number.
-/

namespace Sas

/-- `DATETIME` = `boost::posix_time::ptime` (include/cppsas7bdat/types.hpp:26): no value, or the count of
microseconds since the start of Julian day 0. -/
inductive DateTime
  | notADateTime
  | at (ticks : Int)
deriving DecidableEq, Repr

/-- `DATE` = `boost::gregorian::date` (include/cppsas7bdat/types.hpp:27): no value, or the Julian day
number. -/
inductive Date
  | notADate
  | day (n : Nat)
deriving DecidableEq, Repr

/-- `TIME` = `boost::posix_time::time_duration` (include/cppsas7bdat/types.hpp:28): no value, or a signed
number of microseconds. -/
inductive Duration
  | notADateTime
  | us (n : Int)
deriving DecidableEq, Repr

/-- Microseconds per day (src/types.hpp:150 in microseconds). -/
def usPerDay : Int := 86400000000

/-- The Julian day number of 1960-01-01, `boost::gregorian::date(1960, 1, 1)` (src/types.hpp:148, 172). -/
def startDay : Int := 2436935

/-- A `ptime` tick count after an addition. `int64_t` overflow is undefined, and the three largest and
smallest counts stand for infinities and not-a-date-time; both are the outcome `ub` (the sums of src/types.hpp:155-156, 173). -/
def ticks64 (n : Int) : Res Int := if -2 ^ 63 < n ∧ n < 2 ^ 63 - 2 then .ok n else .error .ub

/-- `std::lround` of an integral double, passed to `boost::gregorian::days`, a 32-bit count with the three
extreme values reserved. A number that does not fit gives an unspecified result (`std::lround`) or another
number (narrowing); both are the outcome `ub` (src/types.hpp:155, 173). -/
def days32 (n : Int) : Res Int := if -2 ^ 31 < n ∧ n < 2 ^ 31 - 2 then .ok n else .error .ub

/-- `get_datetime_from_epoch` (src/types.hpp:143-157). `_days`, `_secs` and `_microseconds` are integral
doubles, here integers. For an infinity `std::lround` is applied to NaN, with an unspecified result
(`ub`). The largest finite doubles, for which the unbounded exponent of `fl` would matter, already fail
`days32`. The compiler may fuse the multiplication and subtraction of line 152; the product is exact
wherever `days32` succeeds, so that this makes no difference. -/
def datetimeFromEpoch : Dbl → Res DateTime
  | .nan => .ok .notADateTime
  | .inf _ => .error .ub
  | .fin seconds => do
    let days := roundAway (fl (seconds / 86400))
    let seconds := fl (seconds - fl (days * 86400))
    let secs := roundAway seconds
    let microseconds := roundAway (fl (fl (seconds - secs) * 1000000))
    let days ← days32 days
    let t ← ticks64 ((startDay + days) * usPerDay)
    let t ← ticks64 (t + secs * 1000000)
    let t ← ticks64 (t + microseconds)
    return .at t

/-- A calendar date: `boost::gregorian::greg_year_month_day` (the fields used in src/types.cpp:23, 29, 39). -/
structure Ymd where
  year : Nat
  month : Nat
  day : Nat
deriving DecidableEq, Repr

/-- `boost::date_time::gregorian_calendar_base::from_day_number`, in 32-bit unsigned arithmetic, with the
year stored in 16 bits (behind `year()`, `month()` and `day()` of src/types.cpp:23, 29, 39). -/
def ymdOfDayNumber (dayNumber : Nat) : Ymd :=
  let u (n : Nat) : Nat := n % 2 ^ 32
  let a := u (dayNumber + 32044)
  let b := u (4 * a + 3) / 146097
  let c := u (a + (2 ^ 32 - u (146097 * b) / 4))
  let d := u (4 * c + 3) / 1461
  let e := u (c + (2 ^ 32 - u (1461 * d) / 4))
  let m := u (5 * e + 2) / 153
  { year := u (u (100 * b + d) + (2 ^ 32 - 4800) + m / 10) % 2 ^ 16
    month := u (m + 3 + (2 ^ 32 - 12 * (m / 10))) % 2 ^ 16
    day := u (e + (2 ^ 32 - u (153 * m + 2) / 5) + 1) % 2 ^ 16 }

/-- `boost::date_time::gregorian_calendar_base::day_number` (behind the date of src/types.hpp:148, 172). -/
def Ymd.dayNumber (x : Ymd) : Nat :=
  let a := (14 - x.month) / 12
  let y := x.year + 4800 - a
  let m := x.month + 12 * a - 3
  x.day + (153 * m + 2) / 5 + 365 * y + y / 4 - y / 100 + y / 400 - 32045

/-- The range checks of `boost::gregorian::greg_year`, `greg_month` and `greg_day`, whose constructors throw
`bad_year` outside 1400..9999, `bad_month` outside 1..12 and `bad_day_of_month` outside 1..31, all of them
`std::out_of_range` (behind `year()`, `month()` and `day()` of src/types.cpp:23, 29, 39). -/
def Ymd.inRange (x : Ymd) : Bool :=
  1400 ≤ x.year && x.year ≤ 9999 && (1 ≤ x.month && x.month ≤ 12 && (1 ≤ x.day && x.day ≤ 31))

/-- `ptime::date()`: the conversion of the day number throws a `std::out_of_range` when it does
not give a year from 1400 to 9999, a month and a day (src/types.hpp:164, 173; src/types.cpp:18). -/
def DateTime.date : DateTime → Res Date
  | .notADateTime => .ok .notADate
  | .at t =>
    let x := ymdOfDayNumber ((t.tdiv usPerDay % 2 ^ 32).toNat)
    if x.inRange then .ok (.day x.dayNumber) else .error (.exn .outOfRange)

/-- `ptime::time_of_day()` (src/types.hpp:160; src/types.cpp:19). -/
def DateTime.timeOfDay : DateTime → Duration
  | .notADateTime => .notADateTime
  | .at t => .us (t.tmod usPerDay)

/-- The body of a `noexcept` function: an exception ends in `std::terminate`
(src/types.hpp:143, 159, 163, 167, 176; the getters of src/formatters.hpp:143-198). -/
def noexcept {α : Type} : Res α → Res α
  | .error (.exn _) => .error .terminate
  | r => r

/-- `get_time_from_epoch` (src/types.hpp:159-161). -/
def timeFromEpoch (x : Dbl) : Res Duration := do return (← datetimeFromEpoch x).timeOfDay

/-- `get_date_from_epoch_seconds` (src/types.hpp:163-165). -/
def dateFromEpochSeconds (x : Dbl) : Res Date := noexcept do (← datetimeFromEpoch x).date

/-- `get_date_from_epoch_days` (src/types.hpp:167-174). -/
def dateFromEpochDays : Dbl → Res Date
  | .nan => .ok .notADate
  | .inf _ => .error .ub
  | .fin d => noexcept do
    let days ← days32 (roundAway d)
    let t ← ticks64 ((startDay + days) * usPerDay)
    (DateTime.at t).date

/-- `get_date_from_epoch` (src/types.hpp:176-182). -/
def dateFromEpoch (x : Dbl) : Res Date := do
  match ← dateFromEpochDays x with
  | .notADate => dateFromEpochSeconds x
  | d => return d

/-- The double a `DoubleFormatter` reads (src/formatters.hpp:111-113), for the getters that inherit it. -/
def Column.getDouble (c : Column) (e : Endian) (mem : List Byte) : Res Dbl := do
  return .ofBits (getDoubleBits e (← c.cell mem 8))

/-- `Column::get_time` (src/formatters.hpp:40-42, 152-154, 178, 193-196). -/
def Column.getTime (c : Column) (mem : List Byte) : Res Duration :=
  match c.fmt with
  | .datetime e => do return (← datetimeFromEpoch (← c.getDouble e mem)).timeOfDay
  | .date _ => .ok (.us 0)
  | .time e => do timeFromEpoch (← c.getDouble e mem)
  | _ => .ok .notADateTime

/-- `Column::get_date` (src/formatters.hpp:39, 148-150, 169-172). `TimeFormatter` has none of its own. -/
def Column.getDate (c : Column) (mem : List Byte) : Res Date :=
  match c.fmt with
  | .datetime e => noexcept do (← datetimeFromEpoch (← c.getDouble e mem)).date
  | .date e => do dateFromEpoch (← c.getDouble e mem)
  | _ => .ok .notADate

/-- `Column::get_datetime` (src/formatters.hpp:36-38, 143-146, 174-176, 198-200). The constructor
`DATETIME(date, time)` gives not-a-date-time when either part is special. -/
def Column.getDatetime (c : Column) (mem : List Byte) : Res DateTime :=
  match c.fmt with
  | .datetime e => do datetimeFromEpoch (← c.getDouble e mem)
  | .date _ => do
    match ← c.getDate mem with
    | .notADate => return .notADateTime
    | .day n => return .at (n * usPerDay)
  | .time _ => do
    let _ ← c.getTime mem
    return .notADateTime
  | _ => .ok .notADateTime

/-! ### Text -/

/-- The decimal digits of a number, as bytes (in src/types.cpp:21-29, 38, 48-54). -/
def decimal (n : Nat) : List Byte := (Nat.toDigits 10 n).map fun c => UInt8.ofNat c.toNat

/-- fmt's `{:0w}` for a non-negative number (in src/types.cpp:21-29, 38, 48-54). -/
def padded (w n : Nat) : List Byte := List.replicate (w - (decimal n).length) 48 ++ decimal n

/-- fmt's `{:0w}` for a signed number: the sign counts for the width (in src/types.cpp:21-29, 38, 48-54). -/
def paddedInt (w : Nat) (n : Int) : List Byte :=
  if n < 0 then 45 :: padded (w - 1) n.natAbs else padded w n.natAbs

/-- The fields of a `date`: `year()`, `month()` and `day()` convert the day number and throw when it
does not give a year from 1400 to 9999, a month and a day. The day number of not-a-date is 2^32 - 2 (src/types.cpp:23, 29, 39). -/
def Date.ymd (d : Date) : Res Ymd :=
  let x := ymdOfDayNumber (match d with | .notADate => 2 ^ 32 - 2 | .day n => n)
  if x.inRange then .ok x else .error (.exn .outOfRange)

/-- `YYYY-MM-DD`, the format string of src/types.cpp:38 and the first half of those of lines 21 and 28. -/
def Ymd.text (x : Ymd) : List Byte :=
  padded 4 x.year ++ [45] ++ padded 2 x.month ++ [45] ++ padded 2 x.day

/-- The tick count of a `time_duration`; that of not-a-date-time is 2^63 - 2
(behind `hours()`, `minutes()`, `seconds()` and `fractional_seconds()`, src/types.cpp:20-29, 47-54). -/
def Duration.ticks : Duration → Int
  | .notADateTime => 2 ^ 63 - 2
  | .us n => n

/-- `HH:MM:SS` or `HH:MM:SS.ffffff` (src/types.cpp:47-56 and the second half of lines 21 and 28), with
Boost's `hours()` (32 bits), `minutes()`, `seconds()` and `fractional_seconds()`. -/
def Duration.text (t : Duration) : List Byte :=
  let n := t.ticks
  let hours := toSigned 32 ((n.tdiv 3600000000 % 2 ^ 32).toNat)
  let hms := paddedInt 2 hours ++ [58] ++ paddedInt 2 ((n.tdiv 60000000).tmod 60) ++ [58]
    ++ paddedInt 2 ((n.tdiv 1000000).tmod 60)
  if n.tmod 1000000 ≠ 0 then hms ++ [46] ++ paddedInt 6 (n.tmod 1000000) else hms

/-- The end of the three `to_string` functions: `fmt::format_to_n` writes at most `room` characters and
returns the length of the whole text, and `std::string(szBuffer, size)` then reads that many (src/types.cpp:16-32, 36-41, 45-57). -/
def fromBuffer (room : Nat) (text : List Byte) : Res (List Byte) :=
  if text.length ≤ room then .ok text else .error .ub

/-- `to_string(DATETIME)` (src/types.cpp:15-33). -/
def DateTime.toText (x : DateTime) : Res (List Byte) := do
  let d ← (← x.date).ymd
  fromBuffer 32 (d.text ++ [32] ++ x.timeOfDay.text)

/-- `to_string(DATE)` (src/types.cpp:35-42). -/
def Date.toText (x : Date) : Res (List Byte) := do
  fromBuffer 16 (← x.ymd).text

/-- `to_string(TIME)` (src/types.cpp:44-58). -/
def Duration.toText (x : Duration) : Res (List Byte) := fromBuffer 16 x.text

/-- `std::to_string(int)` (src/formatters.hpp:81-83, 99-101). -/
def intText (n : Int) : List Byte := paddedInt 0 n

/-- `Column::to_string` (src/formatters.hpp:43, 68, 81-83, 99-101, 115-117, 131-133, 156-159, 180-183,
202-205). `showNumber` is `std::to_string(double)`, which is in NumText.lean. -/
def Column.toText (showNumber : Num → List Byte) (c : Column) (mem : List Byte) : Res (List Byte) :=
  match c.fmt with
  | .none => .ok []
  | .string => c.getString mem
  | .smallInt => do return intText (← c.getInteger mem)
  | .int16 _ => do return intText (← c.getInteger mem)
  | .double _ => do return showNumber (← c.getNumber mem)
  | .incomplete _ _ => do return showNumber (← c.getNumber mem)
  | .datetime _ => do (← c.getDatetime mem).toText
  | .date _ => do (← c.getDate mem).toText
  | .time _ => do (← c.getTime mem).toText

end Sas
