import Verif.Model.DoubleMove
import Verif.Model.Polygon

/-!
# Polygons of space in double precision

Source: `src/OpenSpaceToolkit/Mathematics/Geometry/3D/Object/Polygon.cpp`, with the arithmetic of `Model/Double.lean` over the real numbers. The polygon of the plane is that of `Model/Polygon.lean`: no
arithmetic is done with it, its coordinates are finite doubles. `o` is the order in which Eigen adds three products, `q` that of four.
-/

namespace Verif

/-- `d3::object::Polygon` (members `polygon_`, `origin_`, `xAxis_`, `yAxis_`) -/
structure DPolygon where
  polygon : Polygon2
  origin : DVec
  xAxis : DVec
  yAxis : DVec

namespace DPolygon

/-- constructor (`3D/Object/Polygon.cpp` 20-34) -/
noncomputable def ctor (o : Bool) (eps : F64 ℝ) (p : Polygon2) (c x y : DVec) : Res DPolygon :=
  let x' := if x.isDefined then x.normalized o else x
  let y' := if y.isDefined then y.normalized o else y
  if x'.isDefined && y'.isDefined then
    if eps.lt (x'.dot o y').abs then .error .runtimeError else .ok ⟨p, c, x', y'⟩
  else .ok ⟨p, c, x', y'⟩

/-- `isDefined` (`3D/Object/Polygon.cpp` 59-62) -/
noncomputable def isDefined (p : DPolygon) : Bool := p.polygon.isDefined && p.origin.isDefined && p.xAxis.isDefined && p.yAxis.isDefined

/-- `operator ==` (`3D/Object/Polygon.cpp` 41-52) -/
noncomputable def eq (B : Boost) (p q : DPolygon) : Bool :=
  if !p.isDefined || !q.isDefined then false
  else p.polygon.eq B q.polygon && p.origin.eq q.origin && p.xAxis.eq q.xAxis && p.yAxis.eq q.yAxis

/-- `origin_ + ((x * xAxis_) + (y * yAxis_))` (`3D/Object/Polygon.cpp` 186-187, 203, 236; `Point.cpp` 48-61) -/
noncomputable def place (p : DPolygon) (v : V2) : Res DVec :=
  let w := (p.xAxis.scale (.fin v.x)).add (p.yAxis.scale (.fin v.y))
  if !p.origin.isDefined then .error .undefined
  else if !w.isDefined then .error .undefined
  else .ok (p.origin.add w)

/-- `getVertexAt` (`3D/Object/Polygon.cpp` 192-204) -/
noncomputable def getVertexAt (p : DPolygon) (i : ℕ) : Res DVec :=
  if !p.isDefined then .error .undefined
  else do
    let v ← p.polygon.getVertexAt i
    p.place v

/-- `getVertices` (`3D/Object/Polygon.cpp` 228-240) -/
noncomputable def getVertices (p : DPolygon) : Res (List DVec) := do
  let vs ← p.polygon.getVertices
  mapRes p.place vs

/-- `getNormalVector` (`3D/Object/Polygon.cpp` 141-149) -/
noncomputable def getNormalVector (o : Bool) (p : DPolygon) : Res DVec :=
  if !p.isDefined then .error .undefined
  else .ok ((p.xAxis.cross p.yAxis).normalized o)

/-- `applyTransformation` (`3D/Object/Polygon.cpp` 266-284) -/
noncomputable def move (q : Order4) (t : DTrans) (p : DPolygon) : Res DPolygon :=
  if !t.isDefined then .error .undefined
  else if !p.isDefined then .error .undefined
  else do
    let c ← t.movePoint q p.origin
    return ⟨p.polygon, c, DT3.applyToVector q t.matrix p.xAxis, DT3.applyToVector q t.matrix p.yAxis⟩

end DPolygon

end Verif
