import Verif.Model.Interpolator
import Mathlib.Data.Real.Basic
import Mathlib.Data.Matrix.Mul
import Mathlib.Data.Matrix.Diagonal
import Mathlib.Analysis.SpecialFunctions.Log.Basic

/-!
# Log-Euclidean interpolation of matrices

`src/OpenSpaceToolkit/Mathematics/CurveFitting/MatrixInterpolator/LogEuclideanRiemannian.cpp`, over the real numbers. The self-adjoint eigensolver of Eigen is a parameter.
-/

namespace Verif

/-- a `MatrixXd`: its dimensions and elements -/
structure MatX where
  rows : ℕ
  cols : ℕ
  elem : ℕ → ℕ → ℝ

/-- a square matrix of dimension `n` -/
abbrev SqMat (n : ℕ) := Matrix (Fin n) (Fin n) ℝ

/-- the elements of a `MatrixXd` of dimension `n` -/
def MatX.sq (A : MatX) (n : ℕ) : SqMat n := fun i j => A.elem i j

/-- `SelfAdjointEigenSolver`: the eigenvalues and eigenvectors, `none` when it does not converge -/
abbrev EigenSolver := (n : ℕ) → SqMat n → Option ((Fin n → ℝ) × SqMat n)

/-- `LogEuclideanRiemannian` (members `x_`, `matrices_`, `logMatrices_`); the common dimension of the matrices is kept apart -/
structure LogI where
  n : ℕ
  x : List ℝ
  mats : List (SqMat n)
  logs : List (SqMat n)

namespace LogI

open Classical

/-- `MatrixLogSPD` (`MatrixInterpolator/LogEuclideanRiemannian.cpp` 102-125) -/
noncomputable def matrixLogSPD (solver : EigenSolver) {n : ℕ} (A : SqMat n) : Res (SqMat n) :=
  match solver n A with
  | none => .error .runtimeError
  | some (w, V) => if ∃ i, w i ≤ 0 then .error .runtimeError else .ok (V * Matrix.diagonal (fun i => Real.log (w i)) * V.transpose)

/-- `MatrixExpSymmetric` (`MatrixInterpolator/LogEuclideanRiemannian.cpp` 127-140) -/
noncomputable def matrixExpSymmetric (solver : EigenSolver) {n : ℕ} (A : SqMat n) : Res (SqMat n) :=
  match solver n A with
  | none => .error .runtimeError
  | some (w, V) => .ok (V * Matrix.diagonal (fun i => Real.exp (w i)) * V.transpose)

/-- the loop on the nodes (`MatrixInterpolator/LogEuclideanRiemannian.cpp` 50-56) -/
noncomputable def increasing : List ℝ → Bool
  | a :: b :: l => if b ≤ a then false else increasing (b :: l)
  | _ => true

/-- the loop on the logarithms (`MatrixInterpolator/LogEuclideanRiemannian.cpp` 59-63) -/
noncomputable def logAll (solver : EigenSolver) {n : ℕ} : List (SqMat n) → Res (List (SqMat n))
  | [] => .ok []
  | A :: l =>
    match matrixLogSPD solver A with
    | .error e => .error e
    | .ok L =>
      match logAll solver l with
      | .error e => .error e
      | .ok Ls => .ok (L :: Ls)

/-- constructor (`MatrixInterpolator/LogEuclideanRiemannian.cpp` 18-64) -/
noncomputable def ctor (solver : EigenSolver) (x : List ℝ) (ms : List MatX) : Res LogI :=
  if x.length < 2 then .error .wrong
  else if x.length ≠ ms.length then .error .wrong
  else
    match ms with
    | [] => .error .ub
    | A :: l =>
      if A.rows ≠ A.cols then .error .wrong
      else if !l.all (fun B => decide (B.rows = A.rows ∧ B.cols = A.cols)) then .error .wrong
      else if !increasing x then .error .wrong
      else
        match logAll solver ((A :: l).map fun B => B.sq A.rows) with
        | .error e => .error e
        | .ok Ls => .ok ⟨A.rows, x, (A :: l).map fun B => B.sq A.rows, Ls⟩

/-- `findIndexRange` (`MatrixInterpolator/LogEuclideanRiemannian.cpp` 142-157) -/
noncomputable def findIndexRange (l : LogI) (q : ℝ) : ℕ × ℕ :=
  if lowerBound l.x q = 0 then (0, 0)
  else if lowerBound l.x q = l.x.length then (lowerBound l.x q - 1, lowerBound l.x q - 1)
  else (lowerBound l.x q - 1, lowerBound l.x q)

/-- `evaluate (double)` (`MatrixInterpolator/LogEuclideanRiemannian.cpp` 68-82) -/
noncomputable def evaluate (solver : EigenSolver) (l : LogI) (q : ℝ) : Res (SqMat l.n) :=
  if (l.findIndexRange q).1 = (l.findIndexRange q).2 then vecAt l.mats (l.findIndexRange q).1
  else do
    let x0 ← vecAt l.x (l.findIndexRange q).1
    let x1 ← vecAt l.x (l.findIndexRange q).2
    let L0 ← vecAt l.logs (l.findIndexRange q).1
    let L1 ← vecAt l.logs (l.findIndexRange q).2
    matrixExpSymmetric solver ((1 - (q - x0) / (x1 - x0)) • L0 + ((q - x0) / (x1 - x0)) • L1)

/-- `evaluate (VectorXd)` (`MatrixInterpolator/LogEuclideanRiemannian.cpp` 84-95) -/
noncomputable def evaluateAll (solver : EigenSolver) (l : LogI) : List ℝ → Res (List (SqMat l.n))
  | [] => .ok []
  | q :: qs =>
    match l.evaluate solver q with
    | .error e => .error e
    | .ok M =>
      match evaluateAll solver l qs with
      | .error e => .error e
      | .ok Ms => .ok (M :: Ms)

/-- `getMatrices` (`MatrixInterpolator/LogEuclideanRiemannian.cpp` 97-100) -/
def getMatrices (l : LogI) : List (SqMat l.n) := l.mats

end LogI

end Verif
