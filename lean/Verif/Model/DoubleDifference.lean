import Verif.Model.DoubleRotate
import Verif.Model.DoubleMake

/-!
# Inverse, quotient, angular difference and nearness of quaternions in double precision

Source: `src/OpenSpaceToolkit/Mathematics/Geometry/3D/Transformation/Rotation/Quaternion.cpp`. The numbers are doubles, every operation rounds (`Model/Double.lean`);
`o` tells in which order Eigen adds the three products of a dot product, `eps` is `Real::Epsilon()`, `acos` is `std::acos` between -1 and 1.
-/

namespace Verif

/-- `std::acos`: NaN for an argument that is not between -1 and 1 -/
noncomputable def arcCos (acos : ℝ → ℝ) (x : F64 ℝ) : F64 ℝ := if x.abs.le (.fin 1) then libm acos x else .nan

namespace DQuat

/-- `toInverse` (`Quaternion.cpp` 265-268), `inverse` (441-461) -/
noncomputable def toInverse (eps : F64 ℝ) (q : DQuat) : Res DQuat :=
  if !q.isDefined then .error .undefined
  else if q.normSq.abs.lt eps then .error .runtimeError
  else .ok ⟨q.x.neg.div q.normSq, q.y.neg.div q.normSq, q.z.neg.div q.normSq, q.s.div q.normSq⟩

/-- `operator /` (`Quaternion.cpp` 97-105) -/
noncomputable def divide (o : Bool) (eps : F64 ℝ) (p q : DQuat) : Res DQuat := do
  let n ← q.norm
  if n.lt eps then .error .runtimeError
  else do
    let i ← q.toInverse eps
    p.product o i

/-- `angularDifferenceWith` (`Quaternion.cpp` 481-491) -/
noncomputable def angularDifferenceWith (o : Bool) (eps : F64 ℝ) (acos : ℝ → ℝ) (p q : DQuat) : Res (DAngle ℝ) := do
  let a ← p.isUnitary eps
  if !a then .error .runtimeError
  else do
    let b ← q.isUnitary eps
    if !b then .error .runtimeError
    else do
      let d ← p.divide o eps q
      let d ← d.normalize eps
      return ⟨(F64.fin 2).mul (arcCos acos d.s.abs), .radian⟩

/-- `isNear` (`Quaternion.cpp` 184-193); `n` bounds the tests of the loops that reduce angles -/
noncomputable def isNear (o : Bool) (n : ℕ) (eps : F64 ℝ) (acos : ℝ → ℝ) (p q : DQuat) (tol : DAngle ℝ) : Option (Res Bool) :=
  if !tol.isDefined then some (.error .undefined)
  else
    match p.angularDifferenceWith o eps acos q with
    | .error e => some (.error e)
    | .ok a =>
      match a.inRange n .radian (.fin 0) DAngle.twoPi, tol.inRange n .radian (.fin 0) DAngle.twoPi with
      | some (.ok x), some (.ok t) => some (.ok (x.le t))
      | some (.error e), _ => some (.error e)
      | _, some (.error e) => some (.error e)
      | _, _ => none

end DQuat

end Verif
