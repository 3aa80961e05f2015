import Verif.Model.DoubleVec

/-!
# Products of quaternions and rotation of vectors in double precision

Source: `src/OpenSpaceToolkit/Mathematics/Geometry/3D/Transformation/Rotation/Quaternion.cpp`, with the arithmetic of `Model/Double.lean` over the real numbers.
-/

namespace Verif

namespace DQuat

/-- `crossMultiply` (`Quaternion.cpp` 322-335), also `operator *` (77-80): `getVectorPart` throws when the quaternion is not defined -/
noncomputable def product (o : Bool) (p q : DQuat) : Res DQuat :=
  if !p.isDefined then .error .undefined
  else if !q.isDefined then .error .undefined
  else .ok (crossMultiply o p q)

/-- `toConjugate` (`Quaternion.cpp` 260-263), `conjugate` (427-439) -/
noncomputable def toConjugate (q : DQuat) : Res DQuat :=
  if !q.isDefined then .error .undefined else .ok ⟨q.x.neg, q.y.neg, q.z.neg, q.s⟩

/-- `getVectorPart` (`Quaternion.cpp` 235-243) -/
noncomputable def getVectorPart (q : DQuat) : Res DVec := if !q.isDefined then .error .undefined else .ok ⟨q.x, q.y, q.z⟩

/-- `rotateVector` (`Quaternion.cpp` 362-375) -/
noncomputable def rotateVector (o : Bool) (tol : F64 ℝ) (q : DQuat) (v : DVec) : Res DVec :=
  if !v.isDefined then .error .undefined
  else do
    let b ← q.isUnitary tol
    if !b then .error .runtimeError
    else do
      let r ← q.product o ⟨v.x, v.y, v.z, .fin 0⟩
      let c ← q.toConjugate
      let w ← r.product o c
      w.getVectorPart

end DQuat

end Verif
