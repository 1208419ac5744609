import Verif.Model.Types
import Mathlib.Data.Rat.Floor

/-!
# Double precision numbers

IEEE 754 binary64 values and the operations that src/types.hpp:143-182 applies to them, with exact
rationals as the values of finite doubles.
-/

namespace Sas

/-- A `double`. Simplification: the two zeros are one value (nothing modelled tells them apart) (include/cppsas7bdat/types.hpp:24). -/
inductive Dbl
  | nan
  | inf (negative : Bool)
  | fin (q : ℚ)
deriving DecidableEq

/-- `2 ^ e` (for the value of the doubles of src/types.hpp:111-122). -/
def pow2 : Int → ℚ
  | .ofNat n => ((2 ^ n : Nat) : ℚ)
  | .negSucc n => mkRat 1 (2 ^ (n + 1))

/-- The double with the given 64-bit pattern (src/types.hpp:112-122, `std::memcpy(&d, &x, sizeof(d))`
with IEEE 754 binary64 doubles). -/
def Dbl.ofBits (b : Nat) : Dbl :=
  let sign := b / 2 ^ 63 % 2
  let ex := b / 2 ^ 52 % 2 ^ 11
  let frac := b % 2 ^ 52
  if ex = 2047 then (if frac = 0 then .inf (sign = 1) else .nan)
  else
    let m : Nat := if ex = 0 then frac else 2 ^ 52 + frac
    let v : ℚ := (m : ℚ) * pow2 ((max ex 1 : Nat) - 1075 : Int)
    .fin (if sign = 1 then -v else v)

/-- `⌊log₂ x⌋` for positive `x` (for the arithmetic of src/types.hpp:151-154). -/
def ilog2 (x : ℚ) : Int :=
  let k : Int := (x.num.natAbs.log2 : Int) - (x.den.log2 : Int)
  if x < pow2 k then k - 1 else k

/-- The exponent of the last place of the double nearest to `x`: 53 significant bits, no place below
`2^-1074`. Simplification: no largest exponent, so that results of 2^1024 and above, which are infinite
in C++, stay finite here; see `datetimeFromEpoch` for why this makes no difference (for the arithmetic of src/types.hpp:151-154). -/
def ulpExp (x : ℚ) : Int :=
  if x = 0 then -1074 else max (ilog2 (if x < 0 then -x else x) - 52) (-1074)

/-- Nearest integer, ties to even (for the arithmetic of src/types.hpp:151-154). -/
def rint (x : ℚ) : Int :=
  let f := x.floor
  let r := x - f
  if r < 1 / 2 then f else if 1 / 2 < r then f + 1 else if f % 2 = 0 then f else f + 1

/-- IEEE 754 rounding to nearest, ties to even: the double that `+ - * /` return for the exact result
`x` (for the arithmetic of src/types.hpp:151-154). -/
def fl (x : ℚ) : ℚ := rint (x / pow2 (ulpExp x)) * pow2 (ulpExp x)

/-- `std::round` and, where the result fits, `std::lround`: nearest integer, ties away from zero (src/types.hpp:151, 153-156, 173). -/
def roundAway (x : ℚ) : Int :=
  if 0 ≤ x then (x + 1 / 2).floor else -((-x + 1 / 2).floor)

end Sas
