import Verif.Model.DateTime
import Verif.Spec.Values

/-!
# What dates and times should be

Independent of the model's calendar and floating-point functions.
-/

namespace Sas.Spec

/-- The finite doubles: integers of at most 53 bits times a power of two not below 2^-1074. (The largest
doubles are excluded nowhere: no statement below is about numbers above 2^42.) -/
def IsDouble (x : ℚ) : Prop := ∃ n e : Int, x = (n : ℚ) * (2 : ℚ) ^ e ∧ |n| < 2 ^ 53 ∧ -1074 ≤ e

/-- `s` is a double nearest to the number `x` (there may be two). -/
def Nearest (s x : ℚ) : Prop := IsDouble s ∧ ∀ t, IsDouble t → |s - x| ≤ |t - x|

/-- The finite number with IEEE 754 binary64 representation `b`: sign, 11 bits of exponent, 52 bits of
fraction. -/
def IeeeValue (b : Nat) (x : ℚ) : Prop :=
  ∃ sign ex frac : Nat, sign ≤ 1 ∧ frac < 2 ^ 52 ∧ b = sign * 2 ^ 63 + ex * 2 ^ 52 + frac
    ∧ ((ex = 0 ∧ x = (-1) ^ sign * (frac / 2 ^ 52) * (2 : ℚ) ^ (-1022 : Int))
      ∨ (1 ≤ ex ∧ ex ≤ 2046 ∧ x = (-1) ^ sign * (1 + frac / 2 ^ 52) * (2 : ℚ) ^ ((ex : Int) - 1023)))

/-- The representations that are not a number, SAS's missing values among them. -/
def IeeeNaN (b : Nat) : Prop :=
  ∃ sign frac : Nat, sign ≤ 1 ∧ 0 < frac ∧ frac < 2 ^ 52 ∧ b = sign * 2 ^ 63 + 2047 * 2 ^ 52 + frac

/-- The representations of the two infinities. -/
def IeeeInf (b : Nat) : Prop := ∃ sign : Nat, sign ≤ 1 ∧ b = sign * 2 ^ 63 + 2047 * 2 ^ 52

/-- The instant `us` microseconds after 1960-01-01 00:00:00. -/
def at1960 (us : Int) : DateTime := .at (2436935 * 86400000000 + us)

/-- The date `d` days after 1960-01-01. -/
def day1960 (d : Int) : Date := .day (2436935 + d).toNat

/-- Leap years of the Gregorian calendar. -/
def leap (y : Nat) : Bool := y % 4 == 0 && (y % 100 != 0 || y % 400 == 0)

/-- Days in a month. -/
def monthDays (y m : Nat) : Nat :=
  if m = 2 then (if leap y then 29 else 28)
  else if m = 4 ∨ m = 6 ∨ m = 9 ∨ m = 11 then 30 else 31

/-- The dates of the calendar. -/
def RealDate (x : Ymd) : Prop := 1 ≤ x.month ∧ x.month ≤ 12 ∧ 1 ≤ x.day ∧ x.day ≤ monthDays x.year x.month

/-- The day after. -/
def tomorrow (x : Ymd) : Ymd :=
  if x.day < monthDays x.year x.month then { x with day := x.day + 1 }
  else if x.month < 12 then { x with month := x.month + 1, day := 1 }
  else { year := x.year + 1, month := 1, day := 1 }

/-- The date `n` days after another. -/
def daysAfter : Nat → Ymd → Ymd
  | 0, x => x
  | n + 1, x => tomorrow (daysAfter n x)

/-- The last `w` decimal digits of a number, in ASCII. -/
def decimals : (w n : Nat) → List Byte
  | 0, _ => []
  | w + 1, n => decimals w (n / 10) ++ [UInt8.ofNat (48 + n % 10)]

/-- `YYYY-MM-DD` -/
def isoDate (x : Ymd) : List Byte :=
  decimals 4 x.year ++ [45] ++ decimals 2 x.month ++ [45] ++ decimals 2 x.day

/-- `HH:MM:SS`, with six decimals when there is a fraction of a second. -/
def isoTime (us : Nat) : List Byte :=
  decimals 2 (us / 3600000000) ++ [58] ++ decimals 2 (us / 60000000 % 60) ++ [58]
    ++ decimals 2 (us / 1000000 % 60)
    ++ (if us % 1000000 = 0 then [] else [46] ++ decimals 6 (us % 1000000))

/-- The getters of a column. -/
inductive Getter
  | string | integer | number | datetime | date | time
deriving DecidableEq

/-- Which getters have a meaning for which columns: every column has its own; integers, dates and times are
numbers; a datetime has a date and a time; a date has a datetime (its midnight) and a time. -/
def Applies : Getter → ColType → Prop
  | .string, t => t = .string
  | .integer, t => t = .integer
  | .number, t => t ≠ .unknown ∧ t ≠ .string
  | .datetime, t => t = .datetime ∨ t = .date
  | .date, t => t = .datetime ∨ t = .date
  | .time, t => t = .datetime ∨ t = .date ∨ t = .time

end Sas.Spec
