import Verif.Model.Objects3

/-!
# Lines, rays, segments and planes in 3D

Sources: `src/OpenSpaceToolkit/Mathematics/Geometry/3D/Object/{Line,Ray,Segment,Plane}.cpp`
-/

namespace Verif

open Classical

/-! ## Lines -/

namespace Line3

/-- constructor (`3D/Object/Line.cpp` 24-38) -/
noncomputable def ctor (o d : Option V3) : Res Line3 :=
  match d with
  | none => .ok ⟨o, none⟩
  | some d =>
    if d.normSq ≠ 1 then
      if d.normSq = 0 then .error .wrong else .ok ⟨o, some d.normalized⟩
    else .ok ⟨o, some d⟩

/-- `contains (Point)` (`3D/Object/Line.cpp` 118-131) -/
noncomputable def contains (l : Line3) (p : Option V3) : Res Bool := do
  let p ← need p
  let o ← need l.origin
  let d ← need l.direction
  return decide ((d.cross (p - o)).normSq = 0)

/-- `contains (PointSet)` (`3D/Object/Line.cpp` 133-154) -/
noncomputable def containsSet (l : Line3) (ps : List (Option V3)) : Res Bool :=
  if !l.isDefined then .error .undefined
  else if ps.isEmpty then .error .undefined
  else allOf l.contains ps

/-- `operator ==` (`3D/Object/Line.cpp` 45-58); `contains` does not throw here as both lines are defined -/
noncomputable def eq (a b : Line3) : Bool :=
  match a.origin, a.direction, b.origin, b.direction with
  | some _, some d, some o', some d' => if d = d' ∨ d = -d' then a.contains (some o') == .ok true else false
  | _, _, _, _ => false

/-- `distanceTo` (`3D/Object/Line.cpp` 176-184); the difference of points throws on an undefined point -/
noncomputable def distanceTo (l : Line3) (p : Option V3) : Res ℝ := do
  let o ← need l.origin
  let d ← need l.direction
  let v ← P3.sub p (some o)
  return (d.cross v).norm

/-- `intersects (Plane)` (`3D/Object/Line.cpp` 80-106) -/
noncomputable def intersects (l : Line3) (pl : Plane3) : Res Bool := do
  let P ← need l.origin
  let v ← need l.direction
  let Q ← need pl.point
  let n ← need pl.normal
  return if n.dot v = 0 then decide (n.dot (Q - P) = 0) else true

/-- `intersectionWith (Plane)` (`3D/Object/Line.cpp` 186-219) -/
noncomputable def intersectionWith (l : Line3) (pl : Plane3) : Res Isect3 := do
  let P ← need l.origin
  let v ← need l.direction
  let Q ← need pl.point
  let n ← need pl.normal
  return if n.dot v = 0 then
      if n.dot (Q - P) = 0 then .Line l else .Empty
    else .Point (some (P + (n.dot (Q - P) / n.dot v) • v))

/-- `applyTransformation` (`3D/Object/Line.cpp` 233-247) -/
def applyTransformation (t : T3) (l : Line3) : Res Line3 :=
  if !t.isDefined then .error .undefined
  else if !l.isDefined then .error .undefined
  else do
    let o ← P3.applyTransformation t l.origin
    return ⟨o, t.applyToVector l.direction⟩

/-- `Points` (`3D/Object/Line.cpp` 254-272) -/
noncomputable def Points (p q : Option V3) : Res Line3 := do
  let p' ← need p
  let q' ← need q
  if P3.eq p q then .error .runtimeError else ctor p (some (q' - p').normalized)

end Line3

/-! ## Rays -/

namespace Ray3

/-- constructor (`3D/Object/Ray.cpp` 24-38) -/
noncomputable def ctor (o d : Option V3) : Res Ray3 :=
  match d with
  | none => .ok ⟨o, none⟩
  | some d =>
    if d.normSq ≠ 1 then
      if d.normSq = 0 then .error .wrong else .ok ⟨o, some d.normalized⟩
    else .ok ⟨o, some d⟩

/-- `operator ==` (`3D/Object/Ray.cpp` 45-53) -/
noncomputable def eq (a b : Ray3) : Bool :=
  match a.direction, b.direction with
  | some d, some d' => P3.eq a.origin b.origin && decide (d = d')
  | _, _ => false

/-- `contains (Point)` (`3D/Object/Ray.cpp` 116-131), also `intersects (Point)` (65-68) -/
noncomputable def contains (r : Ray3) (p : Option V3) : Res Bool := do
  let p ← need p
  let o ← need r.origin
  let d ← need r.direction
  return decide ((d.cross (p - o)).normSq = 0) && decide (0 ≤ d.dot (p - o))

/-- `contains (PointSet)` (`3D/Object/Ray.cpp` 133-153) -/
noncomputable def containsSet (r : Ray3) (ps : List (Option V3)) : Res Bool :=
  if ps.isEmpty then .error .undefined
  else if !r.isDefined then .error .undefined
  else allOf r.contains ps

/-- `distanceTo` (`3D/Object/Ray.cpp` 175-200) -/
noncomputable def distanceTo (r : Ray3) (p : Option V3) : Res ℝ := do
  let p ← need p
  let o ← need r.origin
  let d ← need r.direction
  return if P3.eq (some p) (some o) then 0
    else if (p - o).dot d < 0 then (p - o).norm
    else (d.cross (p - o)).norm

/-- `intersects (Plane)` (`3D/Object/Ray.cpp` 76-104) -/
noncomputable def intersects (r : Ray3) (pl : Plane3) : Res Bool := do
  let P ← need r.origin
  let v ← need r.direction
  let Q ← need pl.point
  let n ← need pl.normal
  return if n.dot v = 0 then decide (n.dot (Q - P) = 0) else decide (0 ≤ n.dot (Q - P) / n.dot v)

/-- `intersectionWith (Plane)` (`3D/Object/Ray.cpp` 202-240) -/
noncomputable def intersectionWith (r : Ray3) (pl : Plane3) : Res Isect3 := do
  let P ← need r.origin
  let v ← need r.direction
  let Q ← need pl.point
  let n ← need pl.normal
  return if n.dot v = 0 then
      if n.dot (Q - P) = 0 then .Ray r else .Empty
    else if n.dot (Q - P) / n.dot v < 0 then .Empty
    else .Point (some (P + (n.dot (Q - P) / n.dot v) • v))

/-- `applyTransformation` (`3D/Object/Ray.cpp` 264-278) -/
def applyTransformation (t : T3) (r : Ray3) : Res Ray3 :=
  if !t.isDefined then .error .undefined
  else if !r.isDefined then .error .undefined
  else do
    let o ← P3.applyTransformation t r.origin
    return ⟨o, t.applyToVector r.direction⟩

end Ray3

/-! ## Segments -/

namespace Seg3

/-- `operator ==` (`3D/Object/Segment.cpp` 38-47) -/
noncomputable def eq (a b : Seg3) : Bool :=
  if !a.isDefined || !b.isDefined then false
  else (P3.eq a.first b.first && P3.eq a.second b.second) || (P3.eq a.first b.second && P3.eq a.second b.first)

/-- `isDegenerate` (`3D/Object/Segment.cpp` 59-67) -/
noncomputable def isDegenerate (s : Seg3) : Res Bool := if !s.isDefined then .error .undefined else .ok (P3.eq s.first s.second)

/-- `contains (Point)` (`3D/Object/Segment.cpp` 116-145) -/
noncomputable def contains (s : Seg3) (p : Option V3) : Res Bool := do
  let p ← need p
  let A ← need s.first
  let B ← need s.second
  return if P3.eq (some A) (some B) then P3.eq (some A) (some p)
    else if ((B - A).cross (p - A)).normSq = 0 then
      decide (0 ≤ (B - A).dot (p - A)) && decide ((B - A).dot (p - A) ≤ (B - A).dot (B - A))
    else false

/-- `getCenter` (`3D/Object/Segment.cpp` 172-180) -/
noncomputable def getCenter (s : Seg3) : Res V3 := do
  let A ← need s.first
  let B ← need s.second
  return A + (1 / 2 : ℝ) • (B - A)

/-- `getDirection` (`3D/Object/Segment.cpp` 182-195) -/
noncomputable def getDirection (s : Seg3) : Res V3 := do
  let A ← need s.first
  let B ← need s.second
  if P3.eq (some A) (some B) then .error .runtimeError else .ok (B - A).normalized

/-- `getLength` (`3D/Object/Segment.cpp` 197-205) -/
noncomputable def getLength (s : Seg3) : Res ℝ := do
  let A ← need s.first
  let B ← need s.second
  return (B - A).norm

/-- `distanceTo (Point)` (`3D/Object/Segment.cpp` 207-240) -/
noncomputable def distanceTo (s : Seg3) (p : Option V3) : Res ℝ := do
  let p ← need p
  let v ← need s.first
  let w ← need s.second
  return if P3.eq (some v) (some w) then (v - p).norm
    else (v + (max 0 (min 1 ((p - v).dot (w - v) / (w - v).normSq))) • (w - v) - p).norm

/-- `distanceTo (PointSet)` (`3D/Object/Segment.cpp` 242-265) -/
noncomputable def distanceToSet (s : Seg3) (ps : List (Option V3)) : Res ℝ :=
  if ps.isEmpty then .error .undefined
  else if !s.isDefined then .error .undefined
  else do
    let ds ← mapRes s.distanceTo ps
    minElement ds

/-- `intersects (Plane)` (`3D/Object/Segment.cpp` 74-104) -/
noncomputable def intersects (s : Seg3) (pl : Plane3) : Res Bool := do
  let A ← need s.first
  let B ← need s.second
  let Q ← need pl.point
  let n ← need pl.normal
  return if n.dot (B - A) = 0 then decide (n.dot (Q - A) = 0)
    else decide (0 ≤ n.dot (Q - A) / n.dot (B - A)) && decide (n.dot (Q - A) / n.dot (B - A) ≤ 1)

/-- `intersectionWith (Plane)` (`3D/Object/Segment.cpp` 267-307) -/
noncomputable def intersectionWith (s : Seg3) (pl : Plane3) : Res Isect3 := do
  let A ← need s.first
  let B ← need s.second
  let Q ← need pl.point
  let n ← need pl.normal
  return if n.dot (B - A) = 0 then
      if n.dot (Q - A) = 0 then .Segment s else .Empty
    else if n.dot (Q - A) / n.dot (B - A) < 0 ∨ 1 < n.dot (Q - A) / n.dot (B - A) then .Empty
    else .Point (some (A + (n.dot (Q - A) / n.dot (B - A)) • (B - A)))

/-- `toLine` (`3D/Object/Segment.cpp` 309-312) -/
noncomputable def toLine (s : Seg3) : Res Line3 := Line3.Points s.first s.second

/-- `applyTransformation` (`3D/Object/Segment.cpp` 326-340) -/
def applyTransformation (t : T3) (s : Seg3) : Res Seg3 :=
  if !t.isDefined then .error .undefined
  else if !s.isDefined then .error .undefined
  else do
    let a ← P3.applyTransformation t s.first
    let b ← P3.applyTransformation t s.second
    return ⟨a, b⟩

end Seg3

/-! ## Planes -/

namespace Plane3

/-- constructor (`3D/Object/Plane.cpp` 21-26): a zero normal stays zero -/
noncomputable def ctor (p n : Option V3) : Plane3 := ⟨p, n.map V3.normalized⟩

/-- `contains (Point)` (`3D/Object/Plane.cpp` 100-113), also `intersects (Point)` (58-61) -/
noncomputable def contains (pl : Plane3) (p : Option V3) : Res Bool := do
  let p ← need p
  let Q ← need pl.point
  let n ← need pl.normal
  return decide ((p - Q).dot n = 0)

/-- `operator ==` (`3D/Object/Plane.cpp` 33-46) -/
noncomputable def eq (a b : Plane3) : Bool :=
  match a.point, a.normal, b.point, b.normal with
  | some q, some n, some q', some n' =>
    if n = n' ∨ n = -n' then P3.eq (some q) (some q') || (a.contains (some q') == .ok true) else false
  | _, _, _, _ => false

/-- `contains (PointSet)` (`3D/Object/Plane.cpp` 115-135) -/
noncomputable def containsSet (pl : Plane3) (ps : List (Option V3)) : Res Bool :=
  if ps.isEmpty then .error .undefined
  else if !pl.isDefined then .error .undefined
  else allOf pl.contains ps

/-- `intersects (PointSet)` (`3D/Object/Plane.cpp` 63-83) -/
noncomputable def intersectsSet (pl : Plane3) (ps : List (Option V3)) : Res Bool :=
  if ps.isEmpty then .error .undefined
  else if !pl.isDefined then .error .undefined
  else anyOf pl.contains ps

/-- `contains (Line)` (`3D/Object/Plane.cpp` 137-150) -/
noncomputable def containsLine (pl : Plane3) (l : Line3) : Res Bool := do
  let o ← need l.origin
  let d ← need l.direction
  let _ ← need pl.point
  let n ← need pl.normal
  match pl.contains (some o) with
  | .error e => .error e
  | .ok b => return b && decide (n.dot d = 0)

/-- `contains (Ray)` (`3D/Object/Plane.cpp` 152-165) -/
noncomputable def containsRay (pl : Plane3) (r : Ray3) : Res Bool := do
  let o ← need r.origin
  let d ← need r.direction
  let _ ← need pl.point
  let n ← need pl.normal
  match pl.contains (some o) with
  | .error e => .error e
  | .ok b => return b && decide (n.dot d = 0)

/-- `contains (Segment)` (`3D/Object/Plane.cpp` 167-180) -/
noncomputable def containsSegment (pl : Plane3) (s : Seg3) : Res Bool :=
  if !s.isDefined then .error .undefined
  else if !pl.isDefined then .error .undefined
  else
    match pl.contains s.first with
    | .error e => .error e
    | .ok false => .ok false
    | .ok true => pl.contains s.second

/-- `intersectionWith (Point)` (`3D/Object/Plane.cpp` 202-205) -/
noncomputable def intersectionWithPoint (pl : Plane3) (p : Option V3) : Res Isect3 :=
  match pl.contains p with
  | .error e => .error e
  | .ok b => .ok (if b then .Point p else .Empty)

/-- the loop of `intersectionWith (PointSet)` (`3D/Object/Plane.cpp` 214-222) -/
noncomputable def keepContained (pl : Plane3) : List (Option V3) → Res (List (Option V3))
  | [] => .ok []
  | p :: ps =>
    match pl.contains p with
    | .error e => .error e
    | .ok b =>
      match keepContained pl ps with
      | .error e => .error e
      | .ok r => .ok (if b then p :: r else r)

/-- `intersectionWith (PointSet)` (`3D/Object/Plane.cpp` 207-227) -/
noncomputable def intersectionWithSet (pl : Plane3) (ps : List (Option V3)) : Res Isect3 :=
  if !pl.isDefined then .error .undefined
  else
    match pl.keepContained ps with
    | .error e => .error e
    | .ok [] => .ok .Empty
    | .ok [p] => .ok (.Point p)
    | .ok r => .ok (.PointSet r)

/-- `applyTransformation` (`3D/Object/Plane.cpp` 256-270) -/
def applyTransformation (t : T3) (pl : Plane3) : Res Plane3 :=
  if !t.isDefined then .error .undefined
  else if !pl.isDefined then .error .undefined
  else do
    let p ← P3.applyTransformation t pl.point
    return ⟨p, t.applyToVector pl.normal⟩

end Plane3

end Verif
