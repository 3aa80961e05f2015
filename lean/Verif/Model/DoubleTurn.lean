import Verif.Model.DoubleMake

/-!
# Rotation matrices from angles and rotation vectors in double precision

Source: `src/OpenSpaceToolkit/Mathematics/Geometry/3D/Transformation/Rotation/RotationMatrix.cpp`, with the arithmetic of `Model/Double.lean`. `std::sin` and `std::cos` are parameters,
`eps` is `Real::Epsilon()`, `o` the order in which Eigen adds three products.
-/

namespace Verif.DRot

/-- `RX` (`RotationMatrix.cpp` 295-310) -/
noncomputable def RX (o : Bool) (eps : F64 ℝ) (sin cos : ℝ → ℝ) (a : DAngle ℝ) : Res (Fin 3 → Fin 3 → F64 ℝ) :=
  if !a.isDefined then .error .undefined
  else do
    let t ← a.inUnit .radian
    ctor o eps ![![.fin 1, .fin 0, .fin 0], ![.fin 0, libm cos t, libm sin t], ![.fin 0, (libm sin t).neg, libm cos t]]

/-- `RY` (`RotationMatrix.cpp` 312-327) -/
noncomputable def RY (o : Bool) (eps : F64 ℝ) (sin cos : ℝ → ℝ) (a : DAngle ℝ) : Res (Fin 3 → Fin 3 → F64 ℝ) :=
  if !a.isDefined then .error .undefined
  else do
    let t ← a.inUnit .radian
    ctor o eps ![![libm cos t, .fin 0, (libm sin t).neg], ![.fin 0, .fin 1, .fin 0], ![libm sin t, .fin 0, libm cos t]]

/-- `RZ` (`RotationMatrix.cpp` 329-344) -/
noncomputable def RZ (o : Bool) (eps : F64 ℝ) (sin cos : ℝ → ℝ) (a : DAngle ℝ) : Res (Fin 3 → Fin 3 → F64 ℝ) :=
  if !a.isDefined then .error .undefined
  else do
    let t ← a.inUnit .radian
    ctor o eps ![![libm cos t, libm sin t, .fin 0], ![(libm sin t).neg, libm cos t, .fin 0], ![.fin 0, .fin 0, .fin 1]]

/-- the coefficients of `RotationVector` (`RotationMatrix.cpp` 518-528) -/
noncomputable def ofVector (n : DVec) (c s : F64 ℝ) : Fin 3 → Fin 3 → F64 ℝ :=
  let k := (F64.fin 1).sub c
  ![![c.add ((k.mul n.x).mul n.x), ((k.mul n.x).mul n.y).add (s.mul n.z), ((k.mul n.x).mul n.z).sub (s.mul n.y)],
    ![((k.mul n.y).mul n.x).sub (s.mul n.z), c.add ((k.mul n.y).mul n.y), ((k.mul n.y).mul n.z).add (s.mul n.x)],
    ![((k.mul n.z).mul n.x).add (s.mul n.y), ((k.mul n.z).mul n.y).sub (s.mul n.x), c.add ((k.mul n.z).mul n.z)]]

/-- `RotationVector` (`RotationMatrix.cpp` 499-531) -/
noncomputable def RotationVector (o : Bool) (eps : F64 ℝ) (sin cos : ℝ → ℝ) (r : DRotVec) : Res (Fin 3 → Fin 3 → F64 ℝ) :=
  if !r.isDefined then .error .undefined
  else do
    let t ← r.angle.inUnit .radian
    ctor o eps (ofVector r.axis (libm cos t) (libm sin t))

/-- `EulerAngle` (`RotationMatrix.cpp` 533-563) -/
noncomputable def EulerAngle (o : Bool) (eps : F64 ℝ) (sin cos : ℝ → ℝ) (e : DEuler) : Res (Fin 3 → Fin 3 → F64 ℝ) :=
  let three (a b c : DAngle ℝ) : Res (Fin 3 → Fin 3 → F64 ℝ) := do
    let x ← RX o eps sin cos a
    let y ← RY o eps sin cos b
    let z ← RZ o eps sin cos c
    let xy ← mul o eps x y
    mul o eps xy z
  if !e.isDefined then .error .undefined
  else
    match e.sequence with
    | .xyz => three e.phi e.theta e.psi
    | .zxy => three e.psi e.phi e.theta
    | .zyx => three e.psi e.theta e.phi
    | .undefined => .error .toBeImplemented

end Verif.DRot
