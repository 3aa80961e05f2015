import Mathlib.Data.Real.Sqrt
import Verif.Model.Double
import Verif.Model.Err

/-!
# Quaternions in double precision

Source: `src/OpenSpaceToolkit/Mathematics/Geometry/3D/Transformation/Rotation/Quaternion.cpp`, with the arithmetic of `Model/Double.lean` over the real numbers. The
square root is the correctly rounded one of IEEE 754. A component that is not defined is `nan`; `Real` is taken to compute as a `double`, infinite values included.
-/

namespace Verif

/-- square root (IEEE 754, correctly rounded) -/
noncomputable def F64.sqrt : F64 ℝ → F64 ℝ
  | .fin x => open Classical in if x < 0 then .nan else .fin (Double.rnd (Real.sqrt x))
  | .inf false => .inf false
  | .inf true => .nan
  | .nan => .nan

/-- absolute value -/
noncomputable def F64.abs : F64 ℝ → F64 ℝ
  | .fin x => .fin |x|
  | .inf _ => .inf false
  | .nan => .nan

/-- `Quaternion` (members `x_`, `y_`, `z_`, `s_`) -/
@[ext] structure DQuat where
  x : F64 ℝ
  y : F64 ℝ
  z : F64 ℝ
  s : F64 ℝ

namespace DQuat

/-- `isDefined` (`Quaternion.cpp` 164-167) -/
noncomputable def isDefined (q : DQuat) : Bool := open Classical in decide (q.x ≠ .nan ∧ q.y ≠ .nan ∧ q.z ≠ .nan ∧ q.s ≠ .nan)

/-- `(x_ * x_) + (y_ * y_) + (z_ * z_) + (s_ * s_)` (`Quaternion.cpp` 319, 448) -/
noncomputable def normSq (q : DQuat) : F64 ℝ := (((q.x.mul q.x).add (q.y.mul q.y)).add (q.z.mul q.z)).add (q.s.mul q.s)

/-- `norm` (`Quaternion.cpp` 312-320) -/
noncomputable def norm (q : DQuat) : Res (F64 ℝ) := if !q.isDefined then .error .undefined else .ok q.normSq.sqrt

/-- `isUnitary` (`Quaternion.cpp` 169-182) -/
noncomputable def isUnitary (tol : F64 ℝ) (q : DQuat) : Res Bool :=
  if !q.isDefined then .error .undefined
  else if tol = .nan ∨ tol.le (.fin 0) then .error .undefined
  else do
    let n ← q.norm
    return (n.sub (.fin 1)).abs.le tol

/-- `normalize` (`Quaternion.cpp` 410-425); `eps` is `Real::Epsilon()` -/
noncomputable def normalize (eps : F64 ℝ) (q : DQuat) : Res DQuat := do
  let n ← q.norm
  if n.abs.lt eps then .error .runtimeError
  else return ⟨q.x.div n, q.y.div n, q.z.div n, q.s.div n⟩

/-- the computation of `crossMultiply` (`Quaternion.cpp` 322-335); `o` tells in which order Eigen adds the three products of the dot product -/
noncomputable def crossMultiply (o : Bool) (p q : DQuat) : DQuat :=
  let v (a b a1 b2 a2 b1 : F64 ℝ) : F64 ℝ := ((q.s.mul a).add (p.s.mul b)).sub ((a1.mul b2).sub (a2.mul b1))
  let d := if o then (p.x.mul q.x).add ((p.y.mul q.y).add (p.z.mul q.z)) else ((p.x.mul q.x).add (p.y.mul q.y)).add (p.z.mul q.z)
  ⟨v p.x q.x p.y q.z p.z q.y, v p.y q.y p.z q.x p.x q.z, v p.z q.z p.x q.y p.y q.x, (p.s.mul q.s).sub d⟩

end DQuat

end Verif
