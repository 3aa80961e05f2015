import Verif.Model.DoubleTransform
import Verif.Model.Points

/-!
# Point sets and line strings in double precision

Source: `src/OpenSpaceToolkit/Mathematics/Geometry/3D/Object/PointSet.cpp`, `LineString.cpp` and `Segment.cpp`, with the arithmetic of `Model/Double.lean`. A point set is the list of its points in
iteration order, as in `Model/Points.lean`; the sources of the plane are the same text.
-/

namespace Verif

namespace DPoints

/-- `*std::min_element(..)` of values compared with `Real::operator <`; dereferencing the end of an empty range is undefined behaviour -/
noncomputable def minElement : List (F64 ℝ) → Res (F64 ℝ)
  | [] => .error .ub
  | d :: ds => .ok (ds.foldl (fun m x => if x.lt m then x else m) d)

/-- `PointSet::distanceTo` (`3D/Object/PointSet.cpp` 107-130) -/
noncomputable def distanceTo (o : Bool) (ps : List DVec) (p : DVec) : Res (F64 ℝ) :=
  if !p.isDefined then .error .undefined
  else if ps.isEmpty then .error .undefined
  else do
    let ds ← mapRes (fun q => DPoint.distanceTo o p q) ps
    minElement ds

/-- the loop of `getPointClosestTo` (`3D/Object/PointSet.cpp` 144-159, `3D/Object/LineString.cpp` 102-117); the least distance starts as undefined, which is `nan` -/
noncomputable def closestLoop (o : Bool) (p : DVec) : Option DVec → F64 ℝ → List DVec → Res (Option DVec)
  | b, _, [] => .ok b
  | b, m, q :: qs =>
    if !q.isDefined || !p.isDefined then .error .undefined
    else
      let d := (q.sub p).squaredNorm o
      open Classical in if m = .nan ∨ d.lt m = true then closestLoop o p (some q) d qs else closestLoop o p b m qs

/-- `getPointClosestTo` (`3D/Object/PointSet.cpp` 132-160, `3D/Object/LineString.cpp` 90-118); a null pointer is dereferenced when no point was taken -/
noncomputable def getPointClosestTo (o : Bool) (ps : List DVec) (p : DVec) : Res DVec :=
  if !p.isDefined then .error .undefined
  else if ps.isEmpty then .error .undefined
  else do
    let r ← closestLoop o p none .nan ps
    match r with
    | some q => .ok q
    | none => .error .ub

/-- `Segment::distanceTo (PointSet)` (`3D/Object/Segment.cpp` 242-267) -/
noncomputable def segmentDistanceTo (o : Bool) (a b : DVec) (ps : List DVec) : Res (F64 ℝ) :=
  if ps.isEmpty then .error .undefined
  else if !a.isDefined || !b.isDefined then .error .undefined
  else do
    let ds ← mapRes (fun q => DSegment.distanceTo o a b q) ps
    minElement ds

/-- insertion of a range of points; the hash throws on an undefined point (`3D/Object/PointSet.hpp` 50-64) -/
noncomputable def insertAll : List DVec → List DVec → Res (List DVec)
  | s, [] => .ok s
  | s, p :: ps => if !p.isDefined then .error .undefined else insertAll (if s.any (DVec.eq p) then s else s ++ [p]) ps

/-- `applyTransformation` (`3D/Object/PointSet.cpp` 184-204) for a defined transformation of matrix `m` -/
noncomputable def applyTransformation (o : Order4) (m : Fin 4 → Fin 4 → F64 ℝ) (ps : List DVec) : Res (List DVec) :=
  if ps.isEmpty then .error .undefined
  else do
    let qs ← mapRes (DT3.applyTo o m) ps
    insertAll [] qs

end DPoints

end Verif
