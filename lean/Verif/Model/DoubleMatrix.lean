import Verif.Model.DoubleRotate

/-!
# Rotation matrices in double precision

Source: `src/OpenSpaceToolkit/Mathematics/Geometry/3D/Transformation/Rotation/RotationMatrix.cpp` and `Quaternion.cpp`, with the arithmetic of `Model/Double.lean` over the
real numbers. Eigen is not in the repository: it adds the three terms of a dot product, or of a coefficient of a product, in one of two orders, which `o` tells, and products
are rounded before they are added. The compiler is taken not to contract `a * b + c` into one operation. A coefficient that is not defined is `nan`.
-/

namespace Verif

/-- `operator ==` of quaternions (`Quaternion.cpp` 57-66) -/
noncomputable def DQuat.beq (p q : DQuat) : Bool :=
  p.isDefined && q.isDefined &&
    ((p.x.eq q.x && p.y.eq q.y && p.z.eq q.z && p.s.eq q.s) || (p.x.eq q.x.neg && p.y.eq q.y.neg && p.z.eq q.z.neg && p.s.eq q.s.neg))

/-- `Quaternion::Unit` (`Quaternion.cpp` 498-501) -/
noncomputable def DQuat.Unit : DQuat := ⟨.fin 0, .fin 0, .fin 0, .fin 1⟩

namespace DRot

/-- `matrix.col(j)` -/
def col (m : Fin 3 → Fin 3 → F64 ℝ) (j : Fin 3) : DVec := ⟨m 0 j, m 1 j, m 2 j⟩

/-- the constructors (`RotationMatrix.cpp` 24-56, 58-109); `eps` is `Real::Epsilon()` -/
noncomputable def ctor (o : Bool) (eps : F64 ℝ) (m : Fin 3 → Fin 3 → F64 ℝ) : Res (Fin 3 → Fin 3 → F64 ℝ) :=
  if eps.lt (((col m 0).norm o).sub (.fin 1)) then .error .runtimeError
  else if eps.lt (((col m 1).norm o).sub (.fin 1)) then .error .runtimeError
  else if eps.lt (((col m 2).norm o).sub (.fin 1)) then .error .runtimeError
  else if eps.lt ((col m 0).dot o (col m 1)).abs then .error .runtimeError
  else if eps.lt ((col m 1).dot o (col m 2)).abs then .error .runtimeError
  else if eps.lt ((col m 2).dot o (col m 0)).abs then .error .runtimeError
  else .ok m

/-- `Unit` (`RotationMatrix.cpp` 290-293) -/
noncomputable def Unit (o : Bool) (eps : F64 ℝ) : Res (Fin 3 → Fin 3 → F64 ℝ) := ctor o eps (fun i j => if i = j then .fin 1 else .fin 0)

/-- the coefficients `m_00` to `m_22` of `RotationMatrix::Quaternion` (`RotationMatrix.cpp` 475-494) -/
noncomputable def ofQuat (q : DQuat) : Fin 3 → Fin 3 → F64 ℝ :=
  let two : F64 ℝ := .fin 2
  ![![(((q.x.mul q.x).sub (q.y.mul q.y)).sub (q.z.mul q.z)).add (q.s.mul q.s), two.mul ((q.x.mul q.y).add (q.z.mul q.s)), two.mul ((q.x.mul q.z).sub (q.y.mul q.s))],
    ![two.mul ((q.y.mul q.x).sub (q.z.mul q.s)), (((q.x.neg.mul q.x).add (q.y.mul q.y)).sub (q.z.mul q.z)).add (q.s.mul q.s), two.mul ((q.y.mul q.z).add (q.x.mul q.s))],
    ![two.mul ((q.z.mul q.x).add (q.y.mul q.s)), two.mul ((q.z.mul q.y).sub (q.x.mul q.s)), (((q.x.neg.mul q.x).sub (q.y.mul q.y)).add (q.z.mul q.z)).add (q.s.mul q.s)]]

/-- `RotationMatrix::Quaternion` (`RotationMatrix.cpp` 458-497) -/
noncomputable def Quaternion (o : Bool) (eps : F64 ℝ) (q : DQuat) : Res (Fin 3 → Fin 3 → F64 ℝ) :=
  if !q.isDefined then .error .undefined
  else do
    let b ← q.isUnitary eps
    if !b then .error .runtimeError
    else if q.beq DQuat.Unit then Unit o eps
    else ctor o eps (ofQuat q)

/-- `isDefined` (`RotationMatrix.cpp` 207-210) -/
noncomputable def isDefined (m : Fin 3 → Fin 3 → F64 ℝ) : Bool := open Classical in decide (∀ i j, m i j ≠ .nan)

/-- `operator * (RotationMatrix)` (`RotationMatrix.cpp` 126-134) -/
noncomputable def mul (o : Bool) (eps : F64 ℝ) (a b : Fin 3 → Fin 3 → F64 ℝ) : Res (Fin 3 → Fin 3 → F64 ℝ) :=
  if !isDefined a || !isDefined b then .error .undefined
  else ctor o eps (fun i j => DVec.sum o ((a i 0).mul (b 0 j)) ((a i 1).mul (b 1 j)) ((a i 2).mul (b 2 j)))

/-- `operator * (Vector3d)` (`RotationMatrix.cpp` 136-149) -/
noncomputable def mulVec (o : Bool) (m : Fin 3 → Fin 3 → F64 ℝ) (v : DVec) : Res DVec :=
  if !v.isDefined then .error .undefined
  else if !isDefined m then .error .undefined
  else
    let row (i : Fin 3) : F64 ℝ := DVec.sum o ((m i 0).mul v.x) ((m i 1).mul v.y) ((m i 2).mul v.z)
    .ok ⟨row 0, row 1, row 2⟩

end DRot

end Verif
