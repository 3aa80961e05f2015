import Verif.Model.DoublePlane
import Verif.Model.Objects3

/-!
# Equality of lines and planes, and what a plane contains, in double precision

Source: `Plane.cpp` and `Line.cpp` of `src/OpenSpaceToolkit/Mathematics/Geometry/3D/Object`, with the arithmetic of `Model/Double.lean` and the vectors of `Model/DoubleVec.lean`. `o` is the order in
which Eigen adds three products. A plane is its point and its normal, a line or ray its origin and its direction, a point set the list of its points in iteration order.
-/

namespace Verif

namespace DLine

/-- `Line::operator ==` (`3D/Object/Line.cpp` 45-58); `contains` does not throw here as both lines are defined -/
noncomputable def eq (o : Bool) (origin direction origin' direction' : DVec) : Bool :=
  if !(origin.isDefined && direction.isDefined) || !(origin'.isDefined && direction'.isDefined) then false
  else if direction.eq direction' || direction.eq direction'.neg then
    match contains o origin direction origin' with
    | .ok b => b
    | .error _ => false
  else false

end DLine

namespace DPlane

/-- `isDefined` (`3D/Object/Plane.cpp` 53-56) -/
noncomputable def isDefined (point normal : DVec) : Bool := point.isDefined && normal.isDefined

/-- `Plane::operator ==` (`3D/Object/Plane.cpp` 33-46); `contains` does not throw here as both planes are defined -/
noncomputable def eq (o : Bool) (point normal point' normal' : DVec) : Bool :=
  if !isDefined point normal || !isDefined point' normal' then false
  else if normal.eq normal' || normal.eq normal'.neg then
    point.eq point' ||
      match contains o point normal point' with
      | .ok b => b
      | .error _ => false
  else false

/-- `contains (PointSet)` (`3D/Object/Plane.cpp` 115-135); a point set is defined if it is not empty -/
noncomputable def containsSet (o : Bool) (point normal : DVec) (ps : List DVec) : Res Bool :=
  if ps.isEmpty then .error .undefined
  else if !isDefined point normal then .error .undefined
  else allOf (contains o point normal) ps

/-- `intersects (PointSet)` (`3D/Object/Plane.cpp` 63-83) -/
noncomputable def intersectsSet (o : Bool) (point normal : DVec) (ps : List DVec) : Res Bool :=
  if ps.isEmpty then .error .undefined
  else if !isDefined point normal then .error .undefined
  else anyOf (contains o point normal) ps

/-- `contains (Line)` and `contains (Ray)` (`3D/Object/Plane.cpp` 137-165, the same text) -/
noncomputable def containsLine (o : Bool) (point normal origin direction : DVec) : Res Bool :=
  if !(origin.isDefined && direction.isDefined) then .error .undefined
  else if !isDefined point normal then .error .undefined
  else do
    let b ← contains o point normal origin
    return b && (normal.dot o direction).eq (.fin 0)

/-- `contains (Segment)` (`3D/Object/Plane.cpp` 167-180) -/
noncomputable def containsSegment (o : Bool) (point normal a b : DVec) : Res Bool :=
  if !(a.isDefined && b.isDefined) then .error .undefined
  else if !isDefined point normal then .error .undefined
  else do
    let r ← contains o point normal a
    if r then contains o point normal b else return false

/-- the loop of `intersectionWith (PointSet)` (`3D/Object/Plane.cpp` 214-222) -/
noncomputable def keepContained (o : Bool) (point normal : DVec) : List DVec → Res (List DVec)
  | [] => .ok []
  | p :: ps => do
    let b ← contains o point normal p
    let r ← keepContained o point normal ps
    return if b then p :: r else r

/-- `intersectionWith (PointSet)` (`3D/Object/Plane.cpp` 207-227): the points that are returned, none for `Empty`, one for `Point` and more for `PointSet` -/
noncomputable def intersectionWithSet (o : Bool) (point normal : DVec) (ps : List DVec) : Res (List DVec) :=
  if !isDefined point normal then .error .undefined
  else keepContained o point normal ps

/-- `intersectionWith (Point)` (`3D/Object/Plane.cpp` 202-205), as the points that are returned -/
noncomputable def intersectionWithPoint (o : Bool) (point normal p : DVec) : Res (List DVec) := do
  let b ← contains o point normal p
  return if b then [p] else []

end DPlane

end Verif
