import Verif.Model.DoublePlaneMove

/-!
# Point sets, multi-polygons and composites of the plane moved by a transformation in double precision

Source: `applyTransformation` of the objects in `src/OpenSpaceToolkit/Mathematics/Geometry/2D/Object`, with the arithmetic of `Model/Double.lean` over the real numbers. A point set is the list of its points in
iteration order. A composite has no composites as members here, and what it is after a member could not be moved is not kept. `o` is the order in which Eigen adds three products.
-/

namespace Verif

/-- an object of the plane in double precision -/
inductive DShape2 where
  | point (p : DVec2)
  | pointSet (ps : List DVec2)
  | line (l : DVec2 × DVec2)
  | segment (s : DVec2 × DVec2)
  | lineString (ps : List DVec2)
  | polygon (g : List DVec2 × List (List DVec2))
  | multiPolygon (gs : List (List DVec2 × List (List DVec2)))

namespace DTrans2

/-- insertion of a range of points in a set; the hash throws on an undefined point (`2D/Object/PointSet.hpp` 49-64) -/
noncomputable def insertAll : List DVec2 → List DVec2 → Res (List DVec2)
  | s, [] => .ok s
  | s, p :: ps => if !p.isDefined then .error .undefined else insertAll (if s.any (DVec2.eq p) then s else s ++ [p]) ps

/-- `PointSet::applyTransformation` (`2D/Object/PointSet.cpp` 222-242); a point set is defined if it is not empty (41-44) -/
noncomputable def movePointSet (o : Bool) (t : DTrans2) (ps : List DVec2) : Res (List DVec2) :=
  if !t.isDefined then .error .undefined
  else if ps.isEmpty then .error .undefined
  else do
    let qs ← mapRes (DT2.applyTo o t.matrix) ps
    insertAll [] qs

/-- `MultiPolygon::applyTransformation` (`2D/Object/MultiPolygon.cpp` 232-255 and 502-515); a multi-polygon is defined if it is not empty (98-101) -/
noncomputable def moveMultiPolygon (t : DTrans2) (gs : List (List DVec2 × List (List DVec2))) : Res (List (List DVec2 × List (List DVec2))) :=
  if !t.isDefined then .error .undefined
  else if gs.isEmpty then .error .undefined
  else .ok (gs.map fun g => (g.1.map (boostPoint t.matrix), g.2.map fun r => r.map (boostPoint t.matrix)))

end DTrans2

namespace DShape2

/-- `isDefined` of the objects (`2D/Object/Point.cpp` 92-95, `PointSet.cpp` 41-44, `Line.cpp` 62-65, `Polygon.cpp` 139-142, `MultiPolygon.cpp` 98-101) -/
noncomputable def isDefined : DShape2 → Bool
  | point p => p.isDefined
  | pointSet ps => !ps.isEmpty
  | line l => l.1.isDefined && l.2.isDefined
  | segment s => s.1.isDefined && s.2.isDefined
  | lineString ps => !ps.isEmpty
  | polygon g => decide (3 ≤ g.1.length)
  | multiPolygon gs => !gs.isEmpty

/-- `applyTransformation`, the virtual function -/
noncomputable def move (o : Bool) (t : DTrans2) : DShape2 → Res DShape2
  | point p => (t.movePoint o p).map point
  | pointSet ps => (t.movePointSet o ps).map pointSet
  | line l => (t.moveLine o l).map line
  | segment s => (t.moveSegment o s).map segment
  | lineString ps => (t.moveLineString o ps).map lineString
  | polygon g => (t.movePolygon g).map polygon
  | multiPolygon gs => (t.moveMultiPolygon gs).map multiPolygon

/-- `Composite::applyTransformation` (`2D/Object/Composite.cpp` 524-545) with the flag `defined_` and the members; `isDefined` is at 195-205 -/
noncomputable def moveComposite (o : Bool) (t : DTrans2) (c : Bool × List DShape2) : Res (Bool × List DShape2) :=
  if !t.isDefined then .error .undefined
  else if !(c.1 && c.2.all isDefined) then .error .undefined
  else if t.type = .identity then .ok c
  else do
    let cs ← mapRes (move o t) c.2
    return (c.1, cs)

end DShape2

end Verif
