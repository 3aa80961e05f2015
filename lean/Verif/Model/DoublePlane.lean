import Verif.Model.DoubleSphere

/-!
# Lines, rays and segments that meet a plane, and distances to lines and rays, in double precision

Source: `Line.cpp`, `Ray.cpp` and `Segment.cpp` of `src/OpenSpaceToolkit/Mathematics/Geometry/3D/Object`, with the arithmetic of `Model/Double.lean` and the vectors of
`Model/DoubleVec.lean`. `o` is the order in which Eigen adds three products. A line or ray is its origin and its direction, a segment its two points, a plane its point and its normal.
-/

namespace Verif

/-- what `intersectionWith` returns: nothing, a point, or the line, ray or segment itself -/
inductive DMeet where
  | empty
  | point (p : DVec)
  | whole

/-- there is something in common -/
def DMeet.nonempty : DMeet → Bool
  | .empty => false
  | _ => true

namespace DLine

/-- `Line::intersects (Plane)` (`3D/Object/Line.cpp` 80-106) -/
noncomputable def intersectsPlane (o : Bool) (origin direction point normal : DVec) : Res Bool :=
  if !origin.isDefined || !direction.isDefined then .error .undefined
  else if !point.isDefined || !normal.isDefined then .error .undefined
  else if (normal.dot o direction).eq (.fin 0) then .ok ((normal.dot o (point.sub origin)).eq (.fin 0))
  else .ok true

/-- `Line::intersectionWith (Plane)` (`3D/Object/Line.cpp` 186-219) -/
noncomputable def intersectionWithPlane (o : Bool) (origin direction point normal : DVec) : Res DMeet :=
  if !origin.isDefined || !direction.isDefined then .error .undefined
  else if !point.isDefined || !normal.isDefined then .error .undefined
  else if (normal.dot o direction).eq (.fin 0) then
    if (normal.dot o (point.sub origin)).eq (.fin 0) then .ok .whole else .ok .empty
  else
    let t := (normal.dot o (point.sub origin)).div (normal.dot o direction)
    .ok (.point (origin.add (DVec.scale t direction)))

/-- `Line::distanceTo (Point)` (`3D/Object/Line.cpp` 176-184); the difference of points throws if one is undefined -/
noncomputable def distanceTo (o : Bool) (origin direction p : DVec) : Res (F64 ℝ) :=
  if !origin.isDefined || !direction.isDefined then .error .undefined
  else if !p.isDefined then .error .undefined
  else .ok ((direction.cross (p.sub origin)).norm o)

end DLine

namespace DRay

/-- `Ray::intersects (Plane)` (`3D/Object/Ray.cpp` 76-104) -/
noncomputable def intersectsPlane (o : Bool) (origin direction point normal : DVec) : Res Bool :=
  if !origin.isDefined || !direction.isDefined then .error .undefined
  else if !point.isDefined || !normal.isDefined then .error .undefined
  else if (normal.dot o direction).eq (.fin 0) then .ok ((normal.dot o (point.sub origin)).eq (.fin 0))
  else
    let t := (normal.dot o (point.sub origin)).div (normal.dot o direction)
    .ok ((F64.fin 0).le t)

/-- `Ray::intersectionWith (Plane)` (`3D/Object/Ray.cpp` 202-240) -/
noncomputable def intersectionWithPlane (o : Bool) (origin direction point normal : DVec) : Res DMeet :=
  if !origin.isDefined || !direction.isDefined then .error .undefined
  else if !point.isDefined || !normal.isDefined then .error .undefined
  else if (normal.dot o direction).eq (.fin 0) then
    if (normal.dot o (point.sub origin)).eq (.fin 0) then .ok .whole else .ok .empty
  else
    let t := (normal.dot o (point.sub origin)).div (normal.dot o direction)
    if t.lt (.fin 0) then .ok .empty
    else .ok (.point (origin.add (DVec.scale t direction)))

/-- `Ray::distanceTo (Point)` (`3D/Object/Ray.cpp` 175-200) -/
noncomputable def distanceTo (o : Bool) (origin direction p : DVec) : Res (F64 ℝ) :=
  if !p.isDefined then .error .undefined
  else if !origin.isDefined || !direction.isDefined then .error .undefined
  else if p.eq origin then .ok (.fin 0)
  else if ((p.sub origin).dot o direction).lt (.fin 0) then .ok ((p.sub origin).norm o)
  else .ok ((direction.cross (p.sub origin)).norm o)

end DRay

namespace DSegment

/-- `Segment::intersects (Plane)` (`3D/Object/Segment.cpp` 74-104) -/
noncomputable def intersectsPlane (o : Bool) (a b point normal : DVec) : Res Bool :=
  if !a.isDefined || !b.isDefined then .error .undefined
  else if !point.isDefined || !normal.isDefined then .error .undefined
  else if (normal.dot o (b.sub a)).eq (.fin 0) then .ok ((normal.dot o (point.sub a)).eq (.fin 0))
  else
    let t := (normal.dot o (point.sub a)).div (normal.dot o (b.sub a))
    .ok ((F64.fin 0).le t && t.le (.fin 1))

/-- `Segment::intersectionWith (Plane)` (`3D/Object/Segment.cpp` 267-307) -/
noncomputable def intersectionWithPlane (o : Bool) (a b point normal : DVec) : Res DMeet :=
  if !a.isDefined || !b.isDefined then .error .undefined
  else if !point.isDefined || !normal.isDefined then .error .undefined
  else if (normal.dot o (b.sub a)).eq (.fin 0) then
    if (normal.dot o (point.sub a)).eq (.fin 0) then .ok .whole else .ok .empty
  else
    let t := (normal.dot o (point.sub a)).div (normal.dot o (b.sub a))
    if t.lt (.fin 0) || (F64.fin 1).lt t then .ok .empty
    else .ok (.point (a.add (DVec.scale t (b.sub a))))

end DSegment

end Verif
