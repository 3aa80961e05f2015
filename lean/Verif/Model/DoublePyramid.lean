import Verif.Model.DoublePolygon
import Verif.Model.Pyramid

/-!
# Lateral faces of pyramids in double precision

Source: `src/OpenSpaceToolkit/Mathematics/Geometry/3D/Object/Pyramid.cpp` (242-270), with the arithmetic of `Model/Double.lean` over the real numbers. The base edge is given by its two points. The polygon of
the plane is that of `Model/Polygon.lean`: boost decides by the sign of an area in which order the three points are kept, and that area is exact here. A point of the plane with an infinite coordinate
counts as undefined. `o` is the order in which Eigen adds three products.
-/

namespace Verif

namespace DPyramid

/-- a point of the plane given by two doubles -/
def planePoint : F64 ℝ → F64 ℝ → Option V2
  | .fin x, .fin y => some ⟨x, y⟩
  | _, _ => none

/-- the axes of a lateral face (`3D/Object/Pyramid.cpp` 254-258) -/
noncomputable def axes (o : Bool) (apex f s : DVec) : DVec × DVec :=
  let u := (f.sub apex).normalized o
  let v := (s.sub apex).normalized o
  (u, ((u.cross v).cross u).normalized o)

/-- the points of a lateral face in its plane (`3D/Object/Pyramid.cpp` 260-267) -/
noncomputable def points (o : Bool) (apex f s : DVec) : List (Option V2) :=
  let e := s.sub f
  let d := (f.sub apex).norm o
  [some ⟨0, 0⟩, planePoint d (.fin 0), planePoint (d.add (e.dot o (axes o apex f s).1)) ((F64.fin 0).add (e.dot o (axes o apex f s).2))]

/-- `getLateralFaceAt` (`3D/Object/Pyramid.cpp` 242-270) -/
noncomputable def lateralFace (o : Bool) (eps : F64 ℝ) (apex f s : DVec) : Res DPolygon :=
  if !apex.isDefined || !f.isDefined || !s.isDefined then .error .undefined
  else do
    let polygon ← Polygon2.ofPoints (points o apex f s)
    DPolygon.ctor o eps polygon apex (axes o apex f s).1 (axes o apex f s).2

end DPyramid

end Verif
