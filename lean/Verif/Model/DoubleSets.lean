import Verif.Model.DoublePoints
import Verif.Model.DoublePolygon

/-!
# Point sets, line strings, pyramids and composites of space moved by a transformation in double precision

Source: `applyTransformation` of the objects in `src/OpenSpaceToolkit/Mathematics/Geometry/3D/Object`, with the arithmetic of `Model/Double.lean` over the real numbers. A point set is the list of its points in
iteration order. A composite has no ellipsoids and no composites as members here, and what it is after a member could not be moved is not kept. `o` and `q` are the orders in which Eigen adds three and four
products.
-/

namespace Verif

/-- an object of space in double precision -/
inductive DShape3 where
  | point (p : DVec)
  | pointSet (ps : List DVec)
  | line (l : DVec × DVec)
  | ray (l : DVec × DVec)
  | segment (s : DVec × DVec)
  | lineString (ps : List DVec)
  | plane (l : DVec × DVec)
  | polygon (g : DPolygon)
  | pyramid (g : DPolygon × DVec)
  | sphere (s : DVec × F64 ℝ)
  | cone (c : DCone)
  | cuboid (c : DCuboid)

namespace DTrans

/-- `PointSet::applyTransformation` (`3D/Object/PointSet.cpp` 184-204) -/
noncomputable def movePointSet (q : Order4) (t : DTrans) (ps : List DVec) : Res (List DVec) :=
  if !t.isDefined then .error .undefined else DPoints.applyTransformation q t.matrix ps

/-- `LineString::applyTransformation` (`3D/Object/LineString.cpp` 142-158); a line string is defined if it is not empty (42-45) -/
noncomputable def moveLineString (q : Order4) (t : DTrans) (ps : List DVec) : Res (List DVec) :=
  if !t.isDefined then .error .undefined
  else if ps.isEmpty then .error .undefined
  else mapRes (movePoint q t) ps

/-- `Pyramid::applyTransformation` (`3D/Object/Pyramid.cpp` 510-524), the base and the apex -/
noncomputable def movePyramid (q : Order4) (t : DTrans) (g : DPolygon × DVec) : Res (DPolygon × DVec) :=
  if !t.isDefined then .error .undefined
  else if !(g.1.isDefined && g.2.isDefined) then .error .undefined
  else do
    let b ← DPolygon.move q t g.1
    let a ← t.movePoint q g.2
    return (b, a)

end DTrans

namespace DShape3

/-- `isDefined` of the objects (`3D/Object/Point.cpp` 93-96, `PointSet.cpp` 42-45, `Line.cpp` 65-68, `Ray.cpp` 60-63, `Segment.cpp` 54-57, `LineString.cpp` 42-45, `Plane.cpp` 53-56, `Polygon.cpp` 59-62,
`Pyramid.cpp` 58-61, `Sphere.cpp` 83-86, `Cone.cpp` 58-61, `Cuboid.cpp` 151-155) -/
noncomputable def isDefined : DShape3 → Bool
  | point p => p.isDefined
  | pointSet ps => !ps.isEmpty
  | line l => l.1.isDefined && l.2.isDefined
  | ray l => l.1.isDefined && l.2.isDefined
  | segment s => s.1.isDefined && s.2.isDefined
  | lineString ps => !ps.isEmpty
  | plane l => l.1.isDefined && l.2.isDefined
  | polygon g => g.isDefined
  | pyramid g => g.1.isDefined && g.2.isDefined
  | sphere s => s.1.isDefined && !(open Classical in decide (s.2 = .nan))
  | cone c => c.isDefined
  | cuboid c => c.isDefined

/-- `applyTransformation`, the virtual function -/
noncomputable def move (o : Bool) (q : Order4) (t : DTrans) : DShape3 → Res DShape3
  | point p => (t.movePoint q p).map point
  | pointSet ps => (t.movePointSet q ps).map pointSet
  | line l => (t.moveLine q l).map line
  | ray l => (t.moveLine q l).map ray
  | segment s => (t.moveSegment q s).map segment
  | lineString ps => (t.moveLineString q ps).map lineString
  | plane l => (t.moveLine q l).map plane
  | polygon g => (DPolygon.move q t g).map polygon
  | pyramid g => (t.movePyramid q g).map pyramid
  | sphere s => (t.moveSphere q s).map sphere
  | cone c => (t.moveCone o q c).map cone
  | cuboid c => (t.moveCuboid o q c).map cuboid

/-- `Composite::applyTransformation` (`3D/Object/Composite.cpp` 435-458) with the flag `defined_` and the members; `isDefined` is at 195-205 -/
noncomputable def moveComposite (o : Bool) (q : Order4) (t : DTrans) (c : Bool × List DShape3) : Res (Bool × List DShape3) :=
  if !t.isDefined then .error .undefined
  else if !(c.1 && c.2.all isDefined) then .error .undefined
  else if t.type = .identity then .ok c
  else do
    let cs ← mapRes (move o q t) c.2
    return (c.1, cs)

end DShape3

end Verif
