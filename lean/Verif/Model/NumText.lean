import Verif.Model.TextSinks

/-!
# The texts of numbers

`std::to_string(double)`, which `Column::to_string` calls (src/formatters.hpp:115-117, 131-133), and `{}` of a double in
fmt 8.0.1 (conanfile.py:20), which the csv sink uses (include/cppsas7bdat/sink/csv.hpp:74-77), after their documentation.
TextSinks.lean takes them as parameters; here they are functions.
-/

namespace Sas

/-- The sign bit of a `NUMBER` (include/cppsas7bdat/types.hpp) (include/cppsas7bdat/types.hpp:24). -/
def Num.negative : Num → Bool
  | .bits b => b / 2 ^ 63 % 2 == 1
  | .ofInt i => i < 0

/-- The value of a `NUMBER` (include/cppsas7bdat/types.hpp:24). -/
def Num.toDbl : Num → Dbl
  | .bits b => Dbl.ofBits b
  | .ofInt i => .fin i

/-- The minus sign, which `-0.0` has as well (for src/formatters.hpp:116, 132 and include/cppsas7bdat/sink/csv.hpp:77). -/
def minus (negative : Bool) : List Byte := if negative then [45] else []

/-- `-x` for a negative `x` (for src/formatters.hpp:116, 132 and include/cppsas7bdat/sink/csv.hpp:77). -/
def magnitude (x : ℚ) : ℚ := if x < 0 then -x else x

/-- `printf("%f")` of a finite number, without its sign: the exact value rounded to six decimals, ties to even
(`std::to_string`, src/formatters.hpp:116, 132). -/
def fixedText (x : ℚ) : List Byte :=
  let n := (rint (x * 1000000)).toNat
  decimal (n / 1000000) ++ [46] ++ padded 6 (n % 1000000)

/-- `std::to_string(double)`, i.e. `printf("%f")` (src/formatters.hpp:116, 132). -/
def stdToString (x : Num) : List Byte :=
  minus x.negative ++
    match x.toDbl with
    | .nan => ascii "nan"
    | .inf _ => ascii "inf"
    | .fin q => fixedText (magnitude q)

/-- `10 ^ e` (behind `fmt::print` of a double, include/cppsas7bdat/sink/csv.hpp:77). -/
def pow10 : Int → ℚ
  | .ofNat n => ((10 ^ n : Nat) : ℚ)
  | .negSucc n => mkRat 1 (10 ^ (n + 1))

/-- `⌊log₁₀ x⌋` for positive `x` (behind `fmt::print` of a double, include/cppsas7bdat/sink/csv.hpp:77). -/
def ilog10 (x : ℚ) : Int :=
  let k : Int := ((decimal x.num.natAbs).length : Int) - ((decimal x.den).length : Int)
  if x < pow10 k then k - 1 else k

/-- `m * 10^k` is read as the double `x` (behind `fmt::print` of a double, include/cppsas7bdat/sink/csv.hpp:77). -/
def readsAs (x : ℚ) (k : Int) (m : Nat) : Bool := 0 < m && fl (m * pow10 k) == x

/-- The multiple of `10^k` next to `x` that is read as `x`, if there is one: of two, the nearer one, and the even one if
both are as near (behind `fmt::print` of a double, include/cppsas7bdat/sink/csv.hpp:77). -/
def nextTo (x : ℚ) (k : Int) : Option Nat :=
  let lo := (x / pow10 k).floor.toNat
  let below := x - lo * pow10 k
  let above := (lo + 1 : Nat) * pow10 k - x
  if readsAs x k lo && (!readsAs x k (lo + 1) || below < above || (below == above && lo % 2 == 0)) then some lo
  else if readsAs x k (lo + 1) then some (lo + 1)
  else none

/-- The first of the places `k`, `k - 1`, ... (at most `n` of them) with such a multiple
(behind `fmt::print` of a double, include/cppsas7bdat/sink/csv.hpp:77). -/
def searchDigits (x : ℚ) : (n : Nat) → (k : Int) → Nat × Int
  | 0, _ => (0, 0)
  | n + 1, k =>
    match nextTo x k with
    | some m => (m, k)
    | none => searchDigits x n (k - 1)

/-- Zeros at the end of the digits are moved to the exponent (behind `fmt::print` of a double, include/cppsas7bdat/sink/csv.hpp:77). -/
def stripZeros : (n : Nat) → (m : Nat) → (k : Int) → Nat × Int
  | 0, m, k => (m, k)
  | n + 1, m, k => if m % 10 = 0 then stripZeros n (m / 10) (k + 1) else (m, k)

/-- `fmt::detail::dragonbox::to_decimal`: the shortest decimal `m * 10^k` that is read as `x`, and of those the one nearest
to `x`. Seventeen digits always suffice (behind `fmt::print` of a double, include/cppsas7bdat/sink/csv.hpp:77). -/
def toDecimal (x : ℚ) : Nat × Int :=
  if x = 0 then (0, 0)
  else
    let (m, k) := searchDigits x 17 (ilog10 x)
    stripZeros 17 m k

/-- `fmt::detail::write_float` for the decimal `m * 10^k`: fixed notation for exponents from -4 to 15
(behind `fmt::print` of a double, include/cppsas7bdat/sink/csv.hpp:77). -/
def writeFloat (m : Nat) (k : Int) : List Byte :=
  let s := decimal m
  let exp := k + s.length
  if exp - 1 < -4 ∨ 16 ≤ exp - 1 then
    (if s.length = 1 then s else s.take 1 ++ [46] ++ s.drop 1) ++ [101] ++ [if exp - 1 < 0 then 45 else 43]
      ++ padded 2 (exp - 1).natAbs
  else if 0 ≤ k then s ++ List.replicate k.toNat 48
  else if 0 < exp then s.take exp.toNat ++ [46] ++ s.drop exp.toNat
  else [48, 46] ++ List.replicate (-exp).toNat 48 ++ s

/-- `fmt::print(os, "{}", x)` of a double (include/cppsas7bdat/sink/csv.hpp:76). -/
def fmtNumber (x : Num) : List Byte :=
  minus x.negative ++
    match x.toDbl with
    | .nan => ascii "nan"
    | .inf _ => ascii "inf"
    | .fin q => let (m, k) := toDecimal (magnitude q); writeFloat m k

/-- The texts of the libraries. Boost's default format of durations begins with `%-`: a minus sign before the text of the
magnitude (src/formatters.hpp:116, 132; include/cppsas7bdat/sink/csv.hpp:77, 82). -/
def libTexts : Texts where
  number := fmtNumber
  fixed := stdToString
  negative := fun n => [45] ++ (Duration.us (-n)).boostText ⟨fun _ => [], fun _ => [], fun _ => []⟩

end Sas
