import Verif.Model.DoubleQuat
import Verif.Model.DoubleAngle

/-!
# Vectors, points, lines and segments in double precision

Source: `src/OpenSpaceToolkit/Mathematics/Geometry/3D/Object/Point.cpp`, `Segment.cpp`, `Line.cpp`, `Ray.cpp`, `Plane.cpp` and `Geometry/Angle.cpp`, with the arithmetic
of `Model/Double.lean` over the real numbers and the correctly rounded square root. Eigen is not in the repository: its sums of three terms are taken in one of the two
orders that it uses, which `o` tells; products are rounded before they are added. A coordinate that is not defined is `nan`.
-/

namespace Verif

/-- `Vector3d`; also `Point` (members `x_`, `y_`, `z_`) -/
@[ext] structure DVec where
  x : F64 ℝ
  y : F64 ℝ
  z : F64 ℝ

namespace DVec

/-- `isDefined` (`Point.cpp` 93-96) -/
noncomputable def isDefined (p : DVec) : Bool := open Classical in decide (p.x ≠ .nan ∧ p.y ≠ .nan ∧ p.z ≠ .nan)

/-- `a + b`, coordinate by coordinate (`Point.cpp` 48-61) -/
noncomputable def add (a b : DVec) : DVec := ⟨a.x.add b.x, a.y.add b.y, a.z.add b.z⟩

/-- `a - b`, coordinate by coordinate (`Point.cpp` 78-91) -/
noncomputable def sub (a b : DVec) : DVec := ⟨a.x.sub b.x, a.y.sub b.y, a.z.sub b.z⟩

/-- `k * a` -/
noncomputable def scale (k : F64 ℝ) (a : DVec) : DVec := ⟨k.mul a.x, k.mul a.y, k.mul a.z⟩

/-- `a / k` -/
noncomputable def div (a : DVec) (k : F64 ℝ) : DVec := ⟨a.x.div k, a.y.div k, a.z.div k⟩

/-- the sum of three numbers -/
noncomputable def sum (o : Bool) (a b c : F64 ℝ) : F64 ℝ := if o then a.add (b.add c) else (a.add b).add c

/-- `a.dot(b)` -/
noncomputable def dot (o : Bool) (a b : DVec) : F64 ℝ := sum o (a.x.mul b.x) (a.y.mul b.y) (a.z.mul b.z)

/-- `a.squaredNorm()` -/
noncomputable def squaredNorm (o : Bool) (a : DVec) : F64 ℝ := dot o a a

/-- `a.norm()` -/
noncomputable def norm (o : Bool) (a : DVec) : F64 ℝ := (squaredNorm o a).sqrt

/-- `a.cross(b)` -/
noncomputable def cross (a b : DVec) : DVec :=
  ⟨(a.y.mul b.z).sub (a.z.mul b.y), (a.z.mul b.x).sub (a.x.mul b.z), (a.x.mul b.y).sub (a.y.mul b.x)⟩

/-- `a.normalized()`: a vector whose squared norm is not positive is left alone -/
noncomputable def normalized (o : Bool) (a : DVec) : DVec :=
  if (F64.fin 0).lt (squaredNorm o a) then a.div (squaredNorm o a).sqrt else a

/-- `a == b` -/
noncomputable def eq (a b : DVec) : Bool := a.x.eq b.x && a.y.eq b.y && a.z.eq b.z

/-- `-a` -/
noncomputable def neg (a : DVec) : DVec := ⟨a.x.neg, a.y.neg, a.z.neg⟩

/-- `Angle::Between(Vector3d, Vector3d)` (`Angle.cpp` 526-561), in radians; `eps` is `Real::Epsilon()`, `acos` is `std::acos` between -1 and 1 -/
noncomputable def between (o : Bool) (eps : F64 ℝ) (acos : ℝ → ℝ) (a b : DVec) : Res (F64 ℝ) :=
  if !a.isDefined || !b.isDefined then .error .undefined
  else if (squaredNorm o a).lt eps || (squaredNorm o b).lt eps then .error .runtimeError
  else if a.eq b then .ok (.fin 0)
  else if a.eq b.neg then .ok DAngle.pi
  else
    let d := dot o (a.normalized o) (b.normalized o)
    if (F64.fin 1).le d then .ok (.fin 0)
    else if d.le (.fin (-1)) then .ok DAngle.pi
    else match d with
      | .fin x => .ok (.fin (acos x))
      | _ => .ok .nan

end DVec

/-- `Point` of the plane (members `x_`, `y_`) -/
structure DVec2 where
  x : F64 ℝ
  y : F64 ℝ

namespace DPoint

/-- `Point::distanceTo` of the plane (`2D/Object/Point.cpp` 137-150, `operator -` 77-90) -/
noncomputable def distanceTo2 (p q : DVec2) : Res (F64 ℝ) :=
  if q.x = .nan ∨ q.y = .nan then .error .undefined
  else if p.x = .nan ∨ p.y = .nan then .error .undefined
  else .ok (((p.x.sub q.x).mul (p.x.sub q.x)).add ((p.y.sub q.y).mul (p.y.sub q.y))).sqrt

/-- `Point::distanceTo` (`Point.cpp` 148-161) -/
noncomputable def distanceTo (o : Bool) (p q : DVec) : Res (F64 ℝ) :=
  if !q.isDefined then .error .undefined
  else if !p.isDefined then .error .undefined
  else .ok ((p.sub q).norm o)

/-- `Point::isNear` (`Point.cpp` 98-106) -/
noncomputable def isNear (o : Bool) (p q : DVec) (tol : F64 ℝ) : Res Bool :=
  if tol = .nan then .error .undefined
  else do
    let d ← distanceTo o p q
    return d.le tol

end DPoint

namespace DSegment

/-- `Segment::contains (Point)` (`3D/Object/Segment.cpp` 115-145); `a` and `b` are `firstPoint_` and `secondPoint_` -/
noncomputable def contains (o : Bool) (a b p : DVec) : Res Bool :=
  if !p.isDefined then .error .undefined
  else if !a.isDefined || !b.isDefined then .error .undefined
  else if a.eq b then .ok (a.eq p)
  else
    let ab := b.sub a
    let ac := p.sub a
    if ((ab.cross ac).squaredNorm o).eq (.fin 0) then .ok ((F64.fin 0).le (ab.dot o ac) && (ab.dot o ac).le (ab.dot o ab))
    else .ok false

/-- `Segment::getCenter` (`3D/Object/Segment.cpp` 172-180); the sum throws for a vector that is not defined (`Point.cpp` 48-61) -/
noncomputable def getCenter (a b : DVec) : Res DVec :=
  if !a.isDefined || !b.isDefined then .error .undefined
  else
    let v := (b.sub a).div (.fin 2)
    if !v.isDefined then .error .undefined else .ok (a.add v)

/-- `std::min (a, b)` -/
noncomputable def min (a b : F64 ℝ) : F64 ℝ := if b.lt a then b else a

/-- `std::max (a, b)` -/
noncomputable def max (a b : F64 ℝ) : F64 ℝ := if a.lt b then b else a

/-- `Segment::distanceTo (Point)` (`3D/Object/Segment.cpp` 207-240) -/
noncomputable def distanceTo (o : Bool) (a b p : DVec) : Res (F64 ℝ) :=
  if !p.isDefined then .error .undefined
  else if !a.isDefined || !b.isDefined then .error .undefined
  else if a.eq b then DPoint.distanceTo o a p
  else
    let l2 := (b.sub a).squaredNorm o
    let t := max (.fin 0) (min (.fin 1) (((p.sub a).dot o (b.sub a)).div l2))
    let v := DVec.scale t (b.sub a)
    if !v.isDefined then .error .undefined else DPoint.distanceTo o (a.add v) p

end DSegment

namespace DLine

/-- `Line::contains (Point)` (`3D/Object/Line.cpp` 118-131) -/
noncomputable def contains (o : Bool) (origin direction p : DVec) : Res Bool :=
  if !p.isDefined then .error .undefined
  else if !origin.isDefined || !direction.isDefined then .error .undefined
  else .ok (((direction.cross (p.sub origin)).squaredNorm o).eq (.fin 0))

end DLine

namespace DRay

/-- `Ray::contains (Point)` (`3D/Object/Ray.cpp` 116-131) -/
noncomputable def contains (o : Bool) (origin direction p : DVec) : Res Bool :=
  if !p.isDefined then .error .undefined
  else if !origin.isDefined || !direction.isDefined then .error .undefined
  else
    let ac := p.sub origin
    .ok (((direction.cross ac).squaredNorm o).eq (.fin 0) && (F64.fin 0).le (direction.dot o ac))

end DRay

namespace DPlane

/-- `Plane::contains (Point)` (`3D/Object/Plane.cpp` 100-113) -/
noncomputable def contains (o : Bool) (point normal p : DVec) : Res Bool :=
  if !p.isDefined then .error .undefined
  else if !point.isDefined || !normal.isDefined then .error .undefined
  else .ok (((p.sub point).dot o normal).eq (.fin 0))

end DPlane

end Verif
