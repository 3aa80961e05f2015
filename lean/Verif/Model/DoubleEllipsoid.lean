import Verif.Model.DoubleRotate

/-!
# Points of an ellipsoid in double precision

Source: `src/OpenSpaceToolkit/Mathematics/Geometry/3D/Object/Ellipsoid.cpp`, with the arithmetic of `Model/Double.lean`. `eps` is `Real::Epsilon()`, `o` the order in which Eigen adds
three products. Operations on `Real` are those on doubles.
-/

namespace Verif

/-- `Ellipsoid` (members `center_`, `a_`, `b_`, `c_` and `q_`) -/
structure DEllipsoid where
  center : DVec
  a : F64 ℝ
  b : F64 ℝ
  c : F64 ℝ
  q : DQuat

namespace DEllipsoid

/-- the constructor (`Ellipsoid.cpp` 66-94) -/
noncomputable def ctor (center : DVec) (a b c : F64 ℝ) (q : DQuat) : Res DEllipsoid :=
  if a.lt (.fin 0) then .error .runtimeError
  else if b.lt (.fin 0) then .error .runtimeError
  else if c.lt (.fin 0) then .error .runtimeError
  else .ok ⟨center, a, b, c, q⟩

/-- `isDefined` (`Ellipsoid.cpp` 126-129) -/
noncomputable def isDefined (e : DEllipsoid) : Bool :=
  open Classical in e.center.isDefined && decide (e.a ≠ .nan) && decide (e.b ≠ .nan) && decide (e.c ≠ .nan) && e.q.isDefined

/-- `contains(Point)` (`Ellipsoid.cpp` 458-485), also `intersects(Point)` (131-134) -/
noncomputable def contains (o : Bool) (eps : F64 ℝ) (e : DEllipsoid) (p : DVec) : Res Bool :=
  if !p.isDefined then .error .undefined
  else if !e.isDefined then .error .undefined
  else do
    let u ← e.q.rotateVector o eps ⟨.fin 1, .fin 0, .fin 0⟩
    let v ← e.q.rotateVector o eps ⟨.fin 0, .fin 1, .fin 0⟩
    let w ← e.q.rotateVector o eps ⟨.fin 0, .fin 0, .fin 1⟩
    let d := p.sub e.center
    let x := u.dot o d
    let y := v.dot o d
    let z := w.dot o d
    .ok ((((((x.mul x).div (e.a.mul e.a)).add ((y.mul y).div (e.b.mul e.b))).add ((z.mul z).div (e.c.mul e.c))).sub (.fin 1)).abs.lt eps)

end DEllipsoid

end Verif
