import Verif.Model.DoubleLine2

/-!
# Spheres, and the constructors of lines, rays and planes, in double precision

Source: `Sphere.cpp`, `Line.cpp`, `Ray.cpp` and `Plane.cpp` of `src/OpenSpaceToolkit/Mathematics/Geometry/3D/Object`, with the arithmetic of `Model/Double.lean` and the
vectors of `Model/DoubleVec.lean`.
-/

namespace Verif

namespace DSphere

/-- `Sphere::contains (Point)` (`3D/Object/Sphere.cpp` 263-278); `eps` is `Real::Epsilon()` -/
noncomputable def contains (o : Bool) (eps : F64 ℝ) (center : DVec) (radius : F64 ℝ) (p : DVec) : Res Bool :=
  if !p.isDefined then .error .undefined
  else if !center.isDefined || (open Classical in decide (radius = .nan)) then .error .undefined
  else .ok ((((p.sub center).squaredNorm o).sub (radius.mul radius)).abs.lt eps)

end DSphere

namespace DLine

/-- the constructors of `Line` and of `Ray` (`3D/Object/Line.cpp` 24-38, `Ray.cpp` 24-38): the origin and the direction -/
noncomputable def ctor (o : Bool) (origin d : DVec) : Res (DVec × DVec) :=
  if d.isDefined && !((d.squaredNorm o).eq (.fin 1)) then
    if (d.squaredNorm o).eq (.fin 0) then .error .wrong else .ok (origin, d.normalized o)
  else .ok (origin, d)

/-- `Line::Points` (`3D/Object/Line.cpp` 254-272) -/
noncomputable def Points (o : Bool) (p q : DVec) : Res (DVec × DVec) :=
  if !p.isDefined then .error .undefined
  else if !q.isDefined then .error .undefined
  else if p.eq q then .error .runtimeError
  else ctor o p ((q.sub p).normalized o)

end DLine

namespace DPlane

/-- the constructor of `Plane` (`3D/Object/Plane.cpp` 21-26): the point and the normal -/
noncomputable def ctor (o : Bool) (point n : DVec) : DVec × DVec := (point, n.normalized o)

end DPlane

end Verif
