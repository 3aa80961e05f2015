import Verif.Model.DoubleShortest
import Verif.Model.DoubleDifference

/-!
# Exponential, logarithm, powers and `SLERP` of quaternions in double precision

Source: `src/OpenSpaceToolkit/Mathematics/Geometry/3D/Transformation/Rotation/Quaternion.cpp`. The numbers are doubles, every operation rounds (`Model/Double.lean`);
`o` tells in which order Eigen adds the three products of a dot product, `eps` is `Real::Epsilon()`. The functions of the mathematical library are parameters.
-/

namespace Verif

/-- the functions of the mathematical library that are used: `std::sin` and `std::cos` of finite numbers, `std::atan2`, `std::exp`, `std::log` -/
structure MathLib where
  sin : ℝ → ℝ
  cos : ℝ → ℝ
  atan2 : F64 ℝ → F64 ℝ → F64 ℝ
  exp : F64 ℝ → F64 ℝ
  log : F64 ℝ → F64 ℝ

namespace DQuat

/-- `exp` (`Quaternion.cpp` 275-288) -/
noncomputable def exp (o : Bool) (eps : F64 ℝ) (L : MathLib) (q : DQuat) : Res DQuat :=
  if !q.isDefined then .error .undefined
  else
    let v : DVec := ⟨q.x, q.y, q.z⟩
    let n := v.norm o
    if n.le eps then .ok ⟨.fin 0, .fin 0, .fin 0, .fin 1⟩
    else
      let w := (v.scale (libm L.sin n)).div n
      scale ⟨w.x, w.y, w.z, libm L.cos n⟩ (L.exp q.s)

/-- `log` (`Quaternion.cpp` 290-303) -/
noncomputable def log (o : Bool) (eps : F64 ℝ) (L : MathLib) (q : DQuat) : Res DQuat :=
  if !q.isDefined then .error .undefined
  else
    let v : DVec := ⟨q.x, q.y, q.z⟩
    let n := v.norm o
    do
      let k ← q.norm
      if n.le eps then return ⟨.fin 0, .fin 0, .fin 0, L.log k⟩
      else
        let w := v.scale ((L.atan2 n q.s).div n)
        return ⟨w.x, w.y, w.z, L.log k⟩

/-- `pow`, `operator ^` (`Quaternion.cpp` 305-310, 107-110) -/
noncomputable def pow (o : Bool) (eps : F64 ℝ) (L : MathLib) (q : DQuat) (k : F64 ℝ) : Res DQuat := do
  let l ← q.log o eps L
  let m ← l.scale k
  m.exp o eps L

/-- `dotProduct` (`Quaternion.cpp` 352-360) -/
noncomputable def dotProduct (p q : DQuat) : Res (F64 ℝ) :=
  if !p.isDefined || !q.isDefined then .error .undefined
  else .ok ((((p.x.mul q.x).add (p.y.mul q.y)).add (p.z.mul q.z)).add (p.s.mul q.s))

open Classical in
/-- `SLERP` (`Quaternion.cpp` 709-729) -/
noncomputable def SLERP (o : Bool) (eps : F64 ℝ) (L : MathLib) (p q : DQuat) (r : F64 ℝ) : Res DQuat :=
  if r = .nan then .error .undefined
  else if r.lt (.fin 0) || (F64.fin 1).lt r then .error .runtimeError
  else do
    let d ← p.dotProduct q
    let i ← p.toInverse eps
    let i ← if (F64.fin 0).le d then .ok i else i.scale (.fin (-1))
    let x ← i.product o q
    let x ← x.pow o eps L r
    let y ← p.product o x
    y.normalize eps

end DQuat

end Verif
