import Verif.Model.DoubleMatrix
import Verif.Model.DoubleAngle
import Verif.Model.Rotation

/-!
# Conversions to and from quaternions in double precision

Source: `Quaternion.cpp` and `RotationVector.cpp` of `src/OpenSpaceToolkit/Mathematics/Geometry/3D/Transformation/Rotation`, with the arithmetic of `Model/Double.lean`.
`std::sin`, `std::cos` and `std::acos` are parameters. Eigen is not in the repository: the trace of a matrix is the sum of the diagonal in one of the two orders of `DVec.sum`.
-/

namespace Verif

/-- a function of the mathematical library: it answers NaN for what is not finite -/
def libm (f : ℝ → ℝ) : F64 ℝ → F64 ℝ
  | .fin x => .fin (f x)
  | _ => .nan

/-- `RotationVector` (members `axis_` and `angle_`) -/
structure DRotVec where
  axis : DVec
  angle : DAngle ℝ

namespace DRotVec

/-- `isDefined` (`RotationVector.cpp` 79-82) -/
noncomputable def isDefined (r : DRotVec) : Bool := r.axis.isDefined && r.angle.isDefined

/-- the constructor from an axis and an angle (`RotationVector.cpp` 24-32); `eps` is `Real::Epsilon()` -/
noncomputable def ctor (o : Bool) (eps : F64 ℝ) (axis : DVec) (angle : DAngle ℝ) : Res DRotVec :=
  if axis.isDefined && eps.lt ((axis.norm o).sub (.fin 1)).abs then .error .runtimeError
  else .ok ⟨if axis.isDefined then axis.normalized o else ⟨.nan, .nan, .nan⟩, angle⟩

/-- `Unit` (`RotationVector.cpp` 143-146) -/
noncomputable def Unit (o : Bool) (eps : F64 ℝ) : Res DRotVec := ctor o eps ⟨.fin 0, .fin 0, .fin 1⟩ ⟨.fin 0, .radian⟩

/-- `RotationVector::Quaternion` (`RotationVector.cpp` 178-199). The square root of a negative number is `neg`: ostk-core, where it is computed, is not in the repository.
`std::acos` answers NaN outside of -1 to 1. -/
noncomputable def Quaternion (o : Bool) (eps : F64 ℝ) (acos : ℝ → ℝ) (neg : Res (F64 ℝ)) (q : DQuat) : Res DRotVec :=
  if !q.isDefined then .error .undefined
  else do
    let b ← q.isUnitary eps
    if !b then .error .runtimeError
    else if q.beq DQuat.Unit || q.s.abs.eq (.fin 1) then Unit o eps
    else do
      let v ← q.getVectorPart
      let d := (F64.fin 1).sub (q.s.mul q.s)
      let r ← if d.lt (.fin 0) then neg else .ok d.sqrt
      ctor o eps ((v.div r).normalized o) ⟨(F64.fin 2).mul (if q.s.abs.le (.fin 1) then libm acos q.s else .nan), .radian⟩

end DRotVec

/-- `EulerAngle` (members `phi_`, `theta_`, `psi_` and `axisSequence_`) -/
structure DEuler where
  phi : DAngle ℝ
  theta : DAngle ℝ
  psi : DAngle ℝ
  sequence : AxisSequence

/-- `isDefined` (`EulerAngle.cpp` 99-103) -/
noncomputable def DEuler.isDefined (e : DEuler) : Bool := e.phi.isDefined && e.theta.isDefined && e.psi.isDefined && decide (e.sequence ≠ .undefined)

namespace DQuat

/-- `Quaternion::RotationVector` (`Quaternion.cpp` 510-520) -/
noncomputable def RotationVector (eps : F64 ℝ) (sin cos : ℝ → ℝ) (r : DRotVec) : Res DQuat :=
  if !r.isDefined then .error .undefined
  else do
    let t ← r.angle.inUnit .radian
    let v := DVec.scale (libm sin (t.div (.fin 2))) r.axis
    normalize eps ⟨v.x, v.y, v.z, libm cos (t.div (.fin 2))⟩

/-- `Quaternion::RotationMatrix` (`Quaternion.cpp` 522-584) -/
noncomputable def RotationMatrix (o : Bool) (eps : F64 ℝ) (m : Fin 3 → Fin 3 → F64 ℝ) : Res DQuat :=
  if !DRot.isDefined m then .error .undefined
  else
    let trace := DVec.sum o (m 0 0) (m 1 1) (m 2 2)
    let one : F64 ℝ := .fin 1
    let two : F64 ℝ := .fin 2
    if (m 0 0).le trace && (m 1 1).le trace && (m 2 2).le trace then
      normalize eps ⟨(m 1 2).sub (m 2 1), (m 2 0).sub (m 0 2), (m 0 1).sub (m 1 0), one.add trace⟩
    else if trace.le (m 0 0) && (m 1 1).le (m 0 0) && (m 2 2).le (m 0 0) then
      normalize eps ⟨(one.add (two.mul (m 0 0))).sub trace, (m 0 1).add (m 1 0), (m 0 2).add (m 2 0), (m 1 2).sub (m 2 1)⟩
    else if (m 0 0).le (m 1 1) && trace.le (m 1 1) && (m 2 2).le (m 1 1) then
      normalize eps ⟨(m 1 0).add (m 0 1), (one.add (two.mul (m 1 1))).sub trace, (m 1 2).add (m 2 1), (m 2 0).sub (m 0 2)⟩
    else if (m 0 0).le (m 2 2) && (m 1 1).le (m 2 2) && trace.le (m 2 2) then
      normalize eps ⟨(m 2 0).add (m 0 2), (m 2 1).add (m 1 2), (one.add (two.mul (m 2 2))).sub trace, (m 0 1).sub (m 1 0)⟩
    else .error .runtimeError

/-- `Quaternion::EulerAngle` (`Quaternion.cpp` 586-644) -/
noncomputable def EulerAngle (eps : F64 ℝ) (sin cos : ℝ → ℝ) (e : DEuler) : Res DQuat :=
  if !e.isDefined then .error .undefined
  else do
    let phi ← e.phi.inUnit .radian
    let theta ← e.theta.inUnit .radian
    let psi ← e.psi.inUnit .radian
    let c1 := libm cos (phi.div (.fin 2))
    let c2 := libm cos (theta.div (.fin 2))
    let c3 := libm cos (psi.div (.fin 2))
    let s1 := libm sin (phi.div (.fin 2))
    let s2 := libm sin (theta.div (.fin 2))
    let s3 := libm sin (psi.div (.fin 2))
    let plus (a b c d e f : F64 ℝ) : F64 ℝ := ((a.mul b).mul c).add ((d.mul e).mul f)
    let minus (a b c d e f : F64 ℝ) : F64 ℝ := ((a.mul b).mul c).sub ((d.mul e).mul f)
    match e.sequence with
    | .xyz => normalize eps ⟨plus s1 c2 c3 c1 s2 s3, minus c1 s2 c3 s1 c2 s3, plus c1 c2 s3 s1 s2 c3, minus c1 c2 c3 s1 s2 s3⟩
    | .zxy => normalize eps ⟨minus c1 s2 c3 s1 c2 s3, plus c1 c2 s3 s1 s2 c3, plus c1 s2 s3 s1 c2 c3, minus c1 c2 c3 s1 s2 s3⟩
    | .zyx => normalize eps ⟨minus c1 c2 s3 s1 s2 c3, plus c1 s2 c3 s1 c2 s3, minus s1 c2 c3 c1 s2 s3, plus c1 c2 c3 s1 s2 s3⟩
    | .undefined => .error .toBeImplemented

end DQuat

end Verif
