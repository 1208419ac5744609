import Verif.Spec.Text
import Verif.Spec.DateTime

/-!
# Reading numbers

What a program that reads a decimal number makes of a text, independently of how the text was written.
-/

namespace Sas.Spec
open Sas

/-- A digit. -/
def isDigit (b : Byte) : Bool := 48 ≤ b && b ≤ 57

/-- The number with the given digits. -/
def digitsValue (l : List Byte) : Nat := l.foldl (fun a b => 10 * a + (b.toNat - 48)) 0

/-- What may follow the digits: nothing, or `e`, a sign and the digits of a power of ten. -/
def readExponent : List Byte → Option ℚ
  | [] => some 1
  | 101 :: c :: ds =>
    if ds ≠ [] ∧ ds.all isDigit then
      if c = 43 then some ((10 : ℚ) ^ digitsValue ds)
      else if c = 45 then some (1 / (10 : ℚ) ^ digitsValue ds)
      else none
    else none
  | _ => none

/-- A number without sign: digits, perhaps a point and more digits, perhaps an exponent. -/
def readUnsigned (t : List Byte) : Option ℚ :=
  let whole := t.takeWhile isDigit
  if whole = [] then none
  else
    match t.dropWhile isDigit with
    | 46 :: r =>
      let frac := r.takeWhile isDigit
      (readExponent (r.dropWhile isDigit)).map fun p => ((digitsValue whole : ℚ) + digitsValue frac / 10 ^ frac.length) * p
    | r => (readExponent r).map fun p => (digitsValue whole : ℚ) * p

/-- The value of a decimal number, such as `-12.5` or `1.7e-05`. -/
def readDecimal : List Byte → Option ℚ
  | 45 :: t => (readUnsigned t).map (- ·)
  | t => readUnsigned t

end Sas.Spec
