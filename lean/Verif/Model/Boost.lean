import Verif.Model.Objects3

/-!
# The geometry library

The code delegates the geometry of rings and polygons to `boost::geometry`, which is not part of the repository. Rings are
`boost::geometry::model::ring` with the default parameters (clockwise and closed). `correct` is modelled below in exact arithmetic. The algorithms
on regions are fields of the structure `Boost`: the model takes any such structure, and a theorem that needs a property of an algorithm has it as
a hypothesis.
-/

namespace Verif

/-- `boost::geometry` algorithms; an error stands for a thrown exception -/
structure Boost where
  /-- `covered_by (point, polygon)` -/
  coveredBy : V2 → Polygon2 → Res Bool
  /-- `covered_by (linestring, polygon)` -/
  coveredByLine : List V2 → Polygon2 → Res Bool
  /-- `covered_by (point, multi_polygon)` -/
  coveredByMulti : V2 → List Polygon2 → Res Bool
  /-- `intersects (polygon, polygon)` -/
  intersects : Polygon2 → Polygon2 → Res Bool
  /-- `equals (polygon, polygon)` -/
  equals : Polygon2 → Polygon2 → Bool
  /-- `equals (multi_polygon, multi_polygon)` -/
  equalsMulti : List Polygon2 → List Polygon2 → Bool
  /-- `is_valid (polygon)` -/
  isValid : Polygon2 → Bool
  /-- `is_valid (linestring)` -/
  isValidLine : List V2 → Bool
  /-- `intersection` with an output of polygons -/
  polygons : Polygon2 → Polygon2 → Res (List Polygon2)
  /-- `intersection` with an output of line strings -/
  lines : Polygon2 → Polygon2 → Res (List (List V2))
  /-- `intersection` with an output of points -/
  points : Polygon2 → Polygon2 → Res (List V2)
  /-- `difference` with an output of polygons -/
  difference : Polygon2 → Polygon2 → Res (List Polygon2)
  /-- `convex_hull (polygon)` -/
  convexHull : Polygon2 → Res Polygon2
  /-- `convex_hull (multi_polygon)` -/
  convexHullMulti : List Polygon2 → Res Polygon2
  /-- `union_ (multi_polygon, multi_polygon)` -/
  union : List Polygon2 → List Polygon2 → Res (List Polygon2)

/-- `catch (const std::exception&)` followed by `throw RuntimeError` -/
def rethrow {α : Type} : Res α → Res α
  | .ok a => .ok a
  | .error _ => .error .runtimeError

namespace Ring

/-- twice the area of a closed ring, positive if it is clockwise (`boost::geometry::area`) -/
def area2 : List V2 → ℝ
  | [] => 0
  | [_] => 0
  | p :: q :: r => (p.x + q.x) * (p.y - q.y) + area2 (q :: r)

open Classical in
/-- the first half of `correct`: a ring of more than two points is closed. The library compares the ends up to the precision of the numbers, the
model exactly. -/
noncomputable def close (r : List V2) : List V2 := if 2 < r.length ∧ r.head? ≠ r.getLast? then r ++ r.head?.toList else r

/-- the ring counts as having no area if it has less than four points -/
noncomputable def signedArea (r : List V2) : ℝ := if r.length < 4 then 0 else area2 r

/-- `correct` of a ring, and of the outer ring of a polygon: the ring becomes clockwise -/
noncomputable def correctOuter (r : List V2) : List V2 := if signedArea (close r) < 0 then (close r).reverse else close r

/-- `correct` of an inner ring of a polygon: the ring becomes counterclockwise -/
noncomputable def correctInner (r : List V2) : List V2 := if 0 < signedArea (close r) then (close r).reverse else close r

end Ring

/-- `correct` of a polygon -/
noncomputable def Polygon2.correct (p : Polygon2) : Polygon2 := ⟨Ring.correctOuter p.outer, p.inners.map Ring.correctInner⟩

end Verif
