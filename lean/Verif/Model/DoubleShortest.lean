import Verif.Model.DoubleRotate

/-!
# `ShortestRotation`, `LERP` and `NLERP` in double precision

Source: `src/OpenSpaceToolkit/Mathematics/Geometry/3D/Transformation/Rotation/Quaternion.cpp`. The numbers are doubles, every operation rounds
(`Model/Double.lean`); `o` tells in which order Eigen adds the three products of a dot product.
-/

namespace Verif

namespace DQuat

/-- `ShortestRotation` (`Quaternion.cpp` 665-685) -/
noncomputable def ShortestRotation (o : Bool) (eps : F64 ℝ) (a b : DVec) : Res DQuat :=
  if !a.isDefined then .error .undefined
  else if !b.isDefined then .error .undefined
  else
    let m := a.normalized o
    let n := b.normalized o
    let c := n.cross m
    normalize eps ⟨c.x, c.y, c.z, (F64.fin 1).add (m.dot o n)⟩

/-- `operator * (Real)` (`Quaternion.cpp` 87-90) -/
noncomputable def scale (q : DQuat) (k : F64 ℝ) : Res DQuat :=
  if !q.isDefined then .error .undefined else .ok ⟨q.x.mul k, q.y.mul k, q.z.mul k, q.s.mul k⟩

/-- `operator +` (`Quaternion.cpp` 70-75) -/
noncomputable def plus (p q : DQuat) : Res DQuat :=
  if !p.isDefined then .error .undefined
  else if !q.isDefined then .error .undefined
  else .ok ⟨p.x.add q.x, p.y.add q.y, p.z.add q.z, p.s.add q.s⟩

open Classical in
/-- `LERP` (`Quaternion.cpp` 687-700) -/
noncomputable def LERP (p q : DQuat) (r : F64 ℝ) : Res DQuat :=
  if r = .nan then .error .undefined
  else if r.lt (.fin 0) || (F64.fin 1).lt r then .error .runtimeError
  else do
    let a ← p.scale ((F64.fin 1).sub r)
    let b ← q.scale r
    plus a b

/-- `NLERP` (`Quaternion.cpp` 702-707) -/
noncomputable def NLERP (eps : F64 ℝ) (p q : DQuat) (r : F64 ℝ) : Res DQuat := do
  normalize eps (← LERP p q r)

end DQuat

end Verif
