import Verif.Model.MatrixInterpolator
import Mathlib.LinearAlgebra.Matrix.Symmetric
import Mathlib.Analysis.Normed.Algebra.MatrixExponential

/-! # What logarithms of matrices and eigensolvers are -/

namespace Verif.Spec

open Verif

/-- the symmetric matrix of which a matrix holds the lower triangle -/
def lowerSym {n : ℕ} (A : SqMat n) : SqMat n := fun i j => if j ≤ i then A i j else A j i

/-- what Eigen's documentation says of its self-adjoint eigensolver: it reads the lower triangle only; the eigenvectors are orthonormal and diagonalise the matrix -/
def SolvesSym (solver : EigenSolver) : Prop :=
  ∀ (n : ℕ) (A : SqMat n) (w : Fin n → ℝ) (V : SqMat n), solver n A = some (w, V) → V.transpose * V = 1 ∧ V * Matrix.diagonal w * V.transpose = lowerSym A

/-- the eigensolver converges -/
def Converges (solver : EigenSolver) : Prop := ∀ (n : ℕ) (A : SqMat n), ∃ w V, solver n A = some (w, V)

/-- the symmetric logarithm of a matrix, with the exponential of analysis -/
def LogOf {n : ℕ} (A L : SqMat n) : Prop := L.IsSymm ∧ NormedSpace.exp L = A

/-- the matrix a fraction `r` of the way from one matrix to another along logarithms -/
def Between {n : ℕ} (A B : SqMat n) (r : ℝ) (M : SqMat n) : Prop := ∃ L K, LogOf A L ∧ LogOf B K ∧ LogOf M ((1 - r) • L + r • K)

end Verif.Spec
