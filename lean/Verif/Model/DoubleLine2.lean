import Verif.Model.DoubleVec

/-!
# Lines of the plane in double precision

Source: `src/OpenSpaceToolkit/Mathematics/Geometry/2D/Object/Line.cpp`, with the arithmetic of `Model/Double.lean` over the real numbers and the correctly rounded
square root. A coordinate that is not defined is `nan`.
-/

namespace Verif

namespace DVec2

/-- `isDefined` (`2D/Object/Point.cpp` 92-95), also of `Vector2d` -/
noncomputable def isDefined (p : DVec2) : Bool := open Classical in decide (p.x ≠ .nan ∧ p.y ≠ .nan)

/-- `a == b` -/
noncomputable def eq (a b : DVec2) : Bool := a.x.eq b.x && a.y.eq b.y

/-- `-a` -/
noncomputable def neg (a : DVec2) : DVec2 := ⟨a.x.neg, a.y.neg⟩

/-- `a + b` -/
noncomputable def add (a b : DVec2) : DVec2 := ⟨a.x.add b.x, a.y.add b.y⟩

/-- `a - b` -/
noncomputable def sub (a b : DVec2) : DVec2 := ⟨a.x.sub b.x, a.y.sub b.y⟩

/-- `a.squaredNorm()` -/
noncomputable def squaredNorm (a : DVec2) : F64 ℝ := (a.x.mul a.x).add (a.y.mul a.y)

/-- `a.normalized()`: a vector whose squared norm is not positive is left alone -/
noncomputable def normalized (a : DVec2) : DVec2 :=
  if (F64.fin 0).lt a.squaredNorm then ⟨a.x.div a.squaredNorm.sqrt, a.y.div a.squaredNorm.sqrt⟩ else a

end DVec2

/-- `Line` of the plane (members `origin_`, `direction_`) -/
structure DLine2 where
  origin : DVec2
  direction : DVec2

namespace DLine2

/-- `isDefined` (`2D/Object/Line.cpp` 62-65) -/
noncomputable def isDefined (l : DLine2) : Bool := l.origin.isDefined && l.direction.isDefined

/-- constructor (`2D/Object/Line.cpp` 21-35) -/
noncomputable def ctor (o d : DVec2) : Res DLine2 :=
  if d.isDefined && !(d.squaredNorm.eq (.fin 1)) then
    if d.squaredNorm.eq (.fin 0) then .error .wrong else .ok ⟨o, d.normalized⟩
  else .ok ⟨o, d⟩

/-- `Points` (`2D/Object/Line.cpp` 213-231) -/
noncomputable def Points (p q : DVec2) : Res DLine2 :=
  if !p.isDefined then .error .undefined
  else if !q.isDefined then .error .undefined
  else if p.eq q then .error .runtimeError
  else ctor p (q.sub p).normalized

/-- `contains (Point)` (`2D/Object/Line.cpp` 72-100); a sum or difference that is not defined is refused by `x ()` and `y ()` (`2D/Object/Point.cpp` 107-125) -/
noncomputable def contains (l : DLine2) (p : DVec2) : Res Bool :=
  if !p.isDefined then .error .undefined
  else if !l.isDefined then .error .undefined
  else if p.eq l.origin then .ok true
  else
    let p1 := l.origin
    let p2 := l.origin.add l.direction
    if !p2.isDefined then .error .undefined
    else if p2.x.eq p1.x then .ok (p.x.eq p1.x)
    else
      let m := (p2.y.sub p1.y).div (p2.x.sub p1.x)
      .ok (p.y.eq ((m.mul (p.x.sub p1.x)).add p1.y))

/-- `operator ==` (`2D/Object/Line.cpp` 42-55) -/
noncomputable def eq (a b : DLine2) : Res Bool :=
  if !a.isDefined || !b.isDefined then .ok false
  else if a.direction.eq b.direction || a.direction.eq b.direction.neg then a.contains b.origin
  else .ok false

end DLine2

end Verif
