import Verif.Model.DoubleDifference

/-!
# Euler angles and rotation vectors from quaternions and matrices in double precision

Source: `EulerAngle.cpp` and `RotationVector.cpp` of `src/OpenSpaceToolkit/Mathematics/Geometry/3D/Transformation/Rotation`, with the arithmetic of `Model/Double.lean`.
`std::asin`, `std::acos` and `std::atan2` are parameters. The two zeros are one number here, so nothing is assumed of `std::atan2` that tells them apart.
-/

namespace Verif

/-- `std::asin`: NaN for an argument that is not between -1 and 1 -/
noncomputable def arcSin (asin : ℝ → ℝ) (x : F64 ℝ) : F64 ℝ := if x.abs.le (.fin 1) then libm asin x else .nan

namespace DEuler

/-- the adjustment before the return (`EulerAngle.cpp` 244-252, 305-313); the returned sequence is always `ZYX`, `M_PI` is `DAngle.pi` -/
noncomputable def adjusted (phi theta psi : F64 ℝ) : DEuler :=
  if phi.lt (.fin 0) then ⟨⟨phi.add DAngle.pi, .radian⟩, ⟨DAngle.pi.sub theta, .radian⟩, ⟨psi.add DAngle.pi, .radian⟩, .zyx⟩
  else ⟨⟨phi, .radian⟩, ⟨theta, .radian⟩, ⟨psi, .radian⟩, .zyx⟩

/-- `EulerAngle::RotationMatrix` (`EulerAngle.cpp` 262-314) -/
noncomputable def RotationMatrix (asin : ℝ → ℝ) (atan2 : F64 ℝ → F64 ℝ → F64 ℝ) (m : Fin 3 → Fin 3 → F64 ℝ) (sq : AxisSequence) : Res DEuler :=
  if !DRot.isDefined m then .error .undefined
  else
    match sq with
    | .xyz => .ok (adjusted (atan2 (m 2 1).neg (m 2 2)) (arcSin asin (m 2 0)) (atan2 (m 1 0).neg (m 0 0)))
    | .zxy => .ok (adjusted (atan2 (m 1 0).neg (m 1 1)) (arcSin asin (m 1 2)) (atan2 (m 0 2).neg (m 2 2)))
    | .zyx => .ok (adjusted (atan2 (m 0 1) (m 0 0)) (arcSin asin (m 0 2).neg) (atan2 (m 1 2) (m 2 2)))
    | .undefined => .error .toBeImplemented

/-- `EulerAngle::Quaternion` (`EulerAngle.cpp` 206-253) -/
noncomputable def Quaternion (o : Bool) (eps : F64 ℝ) (asin : ℝ → ℝ) (atan2 : F64 ℝ → F64 ℝ → F64 ℝ) (q : DQuat) (sq : AxisSequence) : Res DEuler :=
  if !q.isDefined then .error .undefined
  else do
    let b ← q.isUnitary eps
    if !b then .error .runtimeError
    else
      match sq with
      | .zyx => .ok (adjusted
          (atan2 ((F64.fin 2).mul ((q.x.mul q.y).add (q.s.mul q.z))) ((((q.s.mul q.s).sub (q.z.mul q.z)).sub (q.y.mul q.y)).add (q.x.mul q.x)))
          (arcSin asin ((F64.fin (-2)).mul ((q.x.mul q.z).sub (q.y.mul q.s))))
          (atan2 ((F64.fin 2).mul ((q.y.mul q.z).add (q.x.mul q.s))) ((((q.s.mul q.s).add (q.z.mul q.z)).sub (q.y.mul q.y)).sub (q.x.mul q.x))))
      | sq => do
        let m ← DRot.Quaternion o eps q
        RotationMatrix asin atan2 m sq

end DEuler

/-- `RotationVector::RotationMatrix` (`RotationVector.cpp` 201-223); `inRadians` throws when the arc cosine is NaN -/
noncomputable def DRotVec.RotationMatrix (o : Bool) (eps : F64 ℝ) (acos : ℝ → ℝ) (m : Fin 3 → Fin 3 → F64 ℝ) : Res DRotVec :=
  if !DRot.isDefined m then .error .undefined
  else do
    let angle : DAngle ℝ := ⟨arcCos acos (((DVec.sum o (m 0 0) (m 1 1) (m 2 2)).sub (.fin 1)).div (.fin 2)), .radian⟩
    let a ← angle.inUnit .radian
    if a.abs.lt eps then ctor o eps ⟨.fin 1, .fin 0, .fin 0⟩ angle
    else ctor o eps (DVec.normalized o ⟨(m 1 2).sub (m 2 1), (m 2 0).sub (m 0 2), (m 0 1).sub (m 1 0)⟩) angle

end Verif
