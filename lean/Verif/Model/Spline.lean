import Verif.Model.Interpolator
import Mathlib.Algebra.Order.Floor.Ring

/-!
# Evaluation of cubic splines

`src/OpenSpaceToolkit/Mathematics/CurveFitting/Interpolator/CubicSpline.cpp` 56-88. The class stores a
`boost::math::interpolators::cardinal_cubic_b_spline` made without the derivatives at the ends; the library then estimates them from the
values. How it does so is left open: `ends` is any function from the values and the step to the two derivatives. The rest is modelled from the
library's source (`cubic_b_spline_detail.hpp`): an almost tridiagonal system for the coefficients, and a sum over the basis functions near the
query. Queries so far away that their place does not fit in a `long` are not modelled.
-/

namespace Verif

namespace SplineI

variable {α : Type} [Field α] [LinearOrder α]

/-- `b3_spline` -/
def b3 (x : α) : α :=
  if |x| < 1 then 1 / 6 * ((2 - |x|) * (2 - |x|) * (2 - |x|) - 4 * (1 - |x|) * (1 - |x|) * (1 - |x|))
  else if |x| < 2 then 1 / 6 * (2 - |x|) * (2 - |x|) * (2 - |x|)
  else 0

/-- `b3_spline_prime` of an argument that is not negative -/
def b3PrimeRight (x : α) : α :=
  if x < 1 then x * (3 * (1 / 2) * x - 2)
  else if x < 2 then -(1 / 2) * (2 - x) * (2 - x)
  else 0

/-- `b3_spline_prime` -/
def b3Prime (x : α) : α := if x < 0 then -b3PrimeRight (-x) else b3PrimeRight x

/-- the loop for the average: the number of the next value and the average so far -/
def averageLoop : List α → α → α → α
  | [], _, m => m
  | f :: fs, t, m => averageLoop fs (t + 1) (m + (f - m) / t)

/-- `m_avg` -/
def average (y : List α) : α := averageLoop y 1 0

/-- `super_diagonal` after the row reduction -/
def superDiag : ℕ → α
  | 0 => 0
  | 1 => 1 / 2
  | i + 2 => 1 / (4 - superDiag (i + 1))

/-- `rhs` of an inner row before the row reduction -/
def rhs (y : List α) (i : ℕ) : α := 6 * (y.getD (i - 1) 0 - average y)

/-- `rhs` after the row reduction, up to the last row but one; `r0` is the first element -/
def reduced (y : List α) (r0 : α) : ℕ → α
  | 0 => r0
  | 1 => (rhs y 1 - r0) / 4
  | i + 2 => (rhs y (i + 2) - reduced y r0 (i + 1)) / (4 - superDiag (i + 1))

/-- the last coefficient, from the last row with right hand side `rn` -/
def top (y : List α) (r0 rn : α) : α :=
  let n := y.length
  let finalSubdiag := -superDiag (n - 1)
  let last := (rn - reduced y r0 (n - 1)) / finalSubdiag
  let finalDiag := -1 / finalSubdiag - superDiag n
  (last - reduced y r0 n) / finalDiag

/-- back substitution: the coefficient `j` places before the last -/
def back (y : List α) (r0 rn : α) : ℕ → α
  | 0 => top y r0 rn
  | j + 1 => reduced y r0 (y.length - j) - superDiag (y.length - j) * back y r0 rn j

/-- `m_beta` -/
def beta (ends : List α → α → α × α) (s : SplineI α) (k : ℕ) : α :=
  let r0 := -2 * s.step * (ends s.y s.step).1
  let rn := -2 * s.step * (ends s.y s.step).2
  if k = 0 then back s.y r0 rn (s.y.length - 1) + r0 else back s.y r0 rn (s.y.length + 1 - k)

/-- the place of a query in steps, the node before the first being 0 -/
def place (s : SplineI α) (q : α) : α := 1 / s.step * (q - s.left) + 1

variable [FloorRing α]

/-- `k_min` -/
def kMin (t : α) : ℕ := (max 0 ⌈t - 2⌉).toNat

/-- `k_max`, for `size` coefficients -/
def kMax (size : ℕ) (t : α) : ℕ := (max (min ((size : ℤ) - 1) ⌊t + 2⌋) 0).toNat

/-- `evaluate (double)` (`Interpolator/CubicSpline.cpp` 68-71): `operator ()` of the library -/
def evaluate (ends : List α → α → α × α) (s : SplineI α) (q : α) : α :=
  let t := s.place q
  (List.range' (kMin t) (kMax (s.y.length + 2) t + 1 - kMin t)).foldl (fun z (k : ℕ) => z + s.beta ends k * b3 (t - (k : α))) (average s.y)

/-- `computeDerivative (double)` (`Interpolator/CubicSpline.cpp` 73-76): `prime` of the library -/
def computeDerivative (ends : List α → α → α × α) (s : SplineI α) (q : α) : α :=
  let t := s.place q
  (List.range' (kMin t) (kMax (s.y.length + 2) t + 1 - kMin t)).foldl (fun z (k : ℕ) => z + s.beta ends k * b3Prime (t - (k : α))) 0 *
    (1 / s.step)

/-- `evaluate (VectorXd)` (`Interpolator/CubicSpline.cpp` 56-66) -/
def evaluateAll (ends : List α → α → α × α) (s : SplineI α) (qs : List α) : List α := qs.map (s.evaluate ends)

/-- `computeDerivative (VectorXd)` (`Interpolator/CubicSpline.cpp` 78-88) -/
def computeDerivativeAll (ends : List α → α → α × α) (s : SplineI α) (qs : List α) : List α := qs.map (s.computeDerivative ends)

end SplineI

end Verif
