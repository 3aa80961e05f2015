import Verif.Model.DoubleLine2

/-!
# Segments of the plane in double precision

Source: `src/OpenSpaceToolkit/Mathematics/Geometry/2D/Object/Segment.cpp`, with the arithmetic of `Model/Double.lean`.
-/

namespace Verif

namespace DSegment2

/-- `Segment::contains (Point)` (`2D/Object/Segment.cpp` 71-105), which makes vectors of space; `a` and `b` are `firstPoint_` and `secondPoint_` -/
noncomputable def contains (o : Bool) (a b p : DVec2) : Res Bool :=
  if !p.isDefined then .error .undefined
  else if !a.isDefined || !b.isDefined then .error .undefined
  else if a.eq b then .ok (a.eq p)
  else
    let ab : DVec := ⟨(b.sub a).x, (b.sub a).y, .fin 0⟩
    let ac : DVec := ⟨(p.sub a).x, (p.sub a).y, .fin 0⟩
    if ((ab.cross ac).squaredNorm o).eq (.fin 0) then .ok ((F64.fin 0).le (ab.dot o ac) && (ab.dot o ac).le (ab.dot o ab))
    else .ok false

/-- `Segment::getCenter` (`2D/Object/Segment.cpp` 139-147); the sum throws for a vector that is not defined (`2D/Object/Point.cpp` 47-60) -/
noncomputable def getCenter (a b : DVec2) : Res DVec2 :=
  if !a.isDefined || !b.isDefined then .error .undefined
  else
    let v : DVec2 := ⟨(b.sub a).x.div (.fin 2), (b.sub a).y.div (.fin 2)⟩
    if !v.isDefined then .error .undefined else .ok (a.add v)

/-- `a.dot(b)` for vectors of the plane -/
noncomputable def dot (a b : DVec2) : F64 ℝ := (a.x.mul b.x).add (a.y.mul b.y)

/-- `Segment::distanceTo (Point)` (`2D/Object/Segment.cpp` 174-207) -/
noncomputable def distanceTo (a b p : DVec2) : Res (F64 ℝ) :=
  if !p.isDefined then .error .undefined
  else if !a.isDefined || !b.isDefined then .error .undefined
  else if a.eq b then DPoint.distanceTo2 a p
  else
    let l2 := (b.sub a).squaredNorm
    let t := DSegment.max (.fin 0) (DSegment.min (.fin 1) ((dot (p.sub a) (b.sub a)).div l2))
    let v : DVec2 := ⟨t.mul (b.sub a).x, t.mul (b.sub a).y⟩
    if !v.isDefined then .error .undefined else DPoint.distanceTo2 (a.add v) p

end DSegment2

end Verif
