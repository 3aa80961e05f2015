import Verif.Model.Text
import Verif.Model.Double
import Mathlib.Data.Int.Log

/-!
# Numbers printed with fifteen digits

`include/OpenSpaceToolkit/Mathematics/Object/Eigen.hpp` 130-170, the branch that streams a number with a precision of 15: the conversion `%.15g` of the C library. A number
other than zero is rounded to fifteen decimal digits. It is then written with a decimal point if the exponent is at least -4 and below 15, and with an exponent of
at least two digits otherwise; zeros at the end of the fraction are left out, and so is a point without a fraction.
-/

namespace Verif.Text

/-- the fraction after its point, without the zeros at the end -/
def fractionText (f : List Char) : List Char := if dropZeros f = [] then [] else '.' :: dropZeros f

/-- the exponent: `e`, a sign and at least two digits -/
def exponentText (e : ℤ) : List Char :=
  'e' :: (if e < 0 then '-' else '+') :: (if e.natAbs < 10 then '0' :: digits e.natAbs else digits e.natAbs)

/-- a positive number `k * 10 ^ (e - 14)`, where `k` has fifteen digits -/
def generalDigits (k : ℕ) (e : ℤ) : List Char :=
  if -4 ≤ e ∧ e < 15 then digits (k / 10 ^ (14 - e).toNat) ++ fractionText (padded (14 - e).toNat k)
  else digits (k / 10 ^ 14) ++ fractionText (padded 14 k) ++ exponentText e

variable {α : Type} [Field α] [LinearOrder α] [IsStrictOrderedRing α] [FloorRing α]

/-- `%.15g` of a number other than zero (zero is an integer and is printed by another branch) -/
def general15 (rnd : α → ℤ) (x : α) : List Char :=
  let e := Int.log 10 |x|
  let k := (rnd (|x| * 10 ^ (14 - e))).toNat
  (if x < 0 then ['-'] else []) ++ (if k = 10 ^ 15 then generalDigits (10 ^ 14) (e + 1) else generalDigits k e)

/-- the `double` that `atof` gives for a decimal number: the nearest one -/
def toDouble : Dbl α → F64 α
  | .nan => .nan
  | .inf b => .inf b
  | .fin x => F64.ofExact x

/-- `Parse` (`Eigen.hpp` 428-467) with the numbers rounded to doubles -/
def parseDouble (s : List Char) : Res (List (F64 α)) := do
  let v ← parse s
  return v.map toDouble

end Verif.Text
