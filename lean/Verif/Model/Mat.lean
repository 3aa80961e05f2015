import Verif.Model.Text
import Mathlib.Analysis.Real.Sqrt
import Mathlib.Algebra.BigOperators.Group.Finset.Basic

/-!
# Vectors and matrices

`include/OpenSpaceToolkit/Mathematics/Object/Eigen.hpp` 18-95 and 240-417: the tests and constructors that the library adds to Eigen matrices. Over the
reals; elements may also be infinite or not a number. Indices outside of the matrix are never used.
-/

namespace Verif

/-- an Eigen matrix; a vector has one column -/
structure Mat where
  rows : ℕ
  cols : ℕ
  elem : ℕ → ℕ → Dbl ℝ

namespace Mat

/-- the loops of `isNaN` and `isInf` -/
def any (m : Mat) (test : Dbl ℝ → Bool) : Bool := (List.range m.rows).any fun i => (List.range m.cols).any fun j => test (m.elem i j)

/-- `isNaN` (`Eigen.hpp` 31-45) -/
def isNaN (m : Mat) : Bool := m.any fun | .nan => true | _ => false

/-- `isInf` (`Eigen.hpp` 55-69) -/
def isInf (m : Mat) : Bool := m.any fun | .inf _ => true | _ => false

/-- `isDefined` (`Eigen.hpp` 18-21) -/
def isDefined (m : Mat) : Bool := !m.isNaN && !m.isInf

/-- the value of a finite double -/
def value : Dbl ℝ → ℝ
  | .fin x => x
  | _ => 0

/-- the Frobenius norm of the difference of two matrices of the same shape -/
noncomputable def distance (m n : Mat) : ℝ :=
  Real.sqrt (∑ i ∈ Finset.range m.rows, ∑ j ∈ Finset.range m.cols, (value (m.elem i j) - value (n.elem i j)) ^ 2)

/-- `isNear` (`Eigen.hpp` 82-95); Eigen subtracts matrices of different shapes without a check when assertions are off -/
noncomputable def isNear (m n : Mat) (tol : ℝ) : Res Bool :=
  if !m.isDefined || !n.isDefined then .error .runtimeError
  else if m.rows * m.cols ≠ n.rows * n.cols then .error .runtimeError
  else if m.rows ≠ n.rows ∨ m.cols ≠ n.cols then .error .ub
  else .ok (decide (m.distance n ≤ tol))

/-- `NaN` and `Undefined` (`Eigen.hpp` 276-364) -/
def NaN (r c : ℕ) : Mat := ⟨r, c, fun _ _ => .nan⟩

/-- `Inf` (`Eigen.hpp` 371-417) -/
def Inf (r c : ℕ) : Mat := ⟨r, c, fun _ _ => .inf false⟩

/-- `X`, `Y` and `Z` (`Eigen.hpp` 240-267) -/
noncomputable def axis (k : ℕ) : Mat := ⟨3, 1, fun i _ => .fin (if i = k then 1 else 0)⟩

end Mat

end Verif
