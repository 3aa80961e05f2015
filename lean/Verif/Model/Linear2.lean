import Verif.Model.Points

/-!
# Lines, segments and line strings in 2D

Sources: `src/OpenSpaceToolkit/Mathematics/Geometry/2D/Object/{Line,Segment,LineString}.cpp`
-/

namespace Verif

open Classical

/-- `d2::object::Line` (members `origin_`, `direction_`) -/
structure Line2 where
  origin : Option V2
  direction : Option V2

/-- `d2::object::Segment` (members `firstPoint_`, `secondPoint_`) -/
structure Seg2 where
  first : Option V2
  second : Option V2

/-! ## Lines -/

namespace Line2

/-- `isDefined` (`2D/Object/Line.cpp` 62-65) -/
def isDefined (l : Line2) : Bool := l.origin.isSome && l.direction.isSome

/-- constructor (`2D/Object/Line.cpp` 21-35) -/
noncomputable def ctor (o d : Option V2) : Res Line2 :=
  match d with
  | none => .ok ⟨o, none⟩
  | some d =>
    if d.normSq ≠ 1 then
      if d.normSq = 0 then .error .wrong else .ok ⟨o, some d.normalized⟩
    else .ok ⟨o, some d⟩

/-- `contains (Point)` (`2D/Object/Line.cpp` 72-100), also `intersects (Point)` (67-70) -/
noncomputable def contains (l : Line2) (p : Option V2) : Res Bool := do
  let p ← need p
  let o ← need l.origin
  let d ← need l.direction
  return if P2.eq (some p) (some o) then true
    else
      let p2 := o + d
      if p2.x = o.x then decide (p.x = o.x)
      else decide (p.y = (p2.y - o.y) / (p2.x - o.x) * (p.x - o.x) + o.y)

/-- `contains (PointSet)` (`2D/Object/Line.cpp` 102-123) -/
noncomputable def containsSet (l : Line2) (ps : List (Option V2)) : Res Bool :=
  if !l.isDefined then .error .undefined
  else if ps.isEmpty then .error .undefined
  else allOf l.contains ps

/-- `operator ==` (`2D/Object/Line.cpp` 42-55); `contains` does not throw here as both lines are defined -/
noncomputable def eq (a b : Line2) : Bool :=
  match a.origin, a.direction, b.origin, b.direction with
  | some _, some d, some o', some d' => if d = d' ∨ d = -d' then a.contains (some o') == .ok true else false
  | _, _, _, _ => false

/-- `distanceTo` (`2D/Object/Line.cpp` 145-159); the difference of points throws on an undefined point -/
noncomputable def distanceTo (l : Line2) (p : Option V2) : Res ℝ := do
  let a ← need l.origin
  let n ← need l.direction
  let v ← P2.sub p (some a)
  return (v - (v.dot n) • n).norm

/-- `applyTransformation` (`2D/Object/Line.cpp` 192-206) -/
def applyTransformation (t : T2) (l : Line2) : Res Line2 :=
  if !t.isDefined then .error .undefined
  else if !l.isDefined then .error .undefined
  else do
    let o ← P2.applyTransformation t l.origin
    return ⟨o, t.applyToVector l.direction⟩

/-- `Points` (`2D/Object/Line.cpp` 213-231) -/
noncomputable def Points (p q : Option V2) : Res Line2 := do
  let p' ← need p
  let q' ← need q
  if P2.eq p q then .error .runtimeError else ctor p (some (q' - p').normalized)

end Line2

/-! ## Segments -/

namespace Seg2

/-- `isDefined` (`2D/Object/Segment.cpp` 51-54) -/
def isDefined (s : Seg2) : Bool := s.first.isSome && s.second.isSome

/-- `operator ==` (`2D/Object/Segment.cpp` 35-44) -/
noncomputable def eq (a b : Seg2) : Bool :=
  if !a.isDefined || !b.isDefined then false
  else (P2.eq a.first b.first && P2.eq a.second b.second) || (P2.eq a.first b.second && P2.eq a.second b.first)

/-- `isDegenerate` (`2D/Object/Segment.cpp` 56-64) -/
noncomputable def isDegenerate (s : Seg2) : Res Bool := if !s.isDefined then .error .undefined else .ok (P2.eq s.first s.second)

/-- `contains (Point)` (`2D/Object/Segment.cpp` 71-105) -/
noncomputable def contains (s : Seg2) (p : Option V2) : Res Bool := do
  let p ← need p
  let A ← need s.first
  let B ← need s.second
  return if P2.eq (some A) (some B) then P2.eq (some A) (some p)
    else
      let AB : V3 := ⟨(B - A).x, (B - A).y, 0⟩
      let AC : V3 := ⟨(p - A).x, (p - A).y, 0⟩
      if (AB.cross AC).normSq = 0 then decide (0 ≤ AB.dot AC) && decide (AB.dot AC ≤ AB.dot AB)
      else false

/-- `contains (PointSet)` (`2D/Object/Segment.cpp` 107-117) -/
noncomputable def containsSet (s : Seg2) (ps : List (Option V2)) : Res Bool := if ps.isEmpty then .ok false else allOf s.contains ps

/-- `getCenter` (`2D/Object/Segment.cpp` 139-147) -/
noncomputable def getCenter (s : Seg2) : Res V2 := do
  let A ← need s.first
  let B ← need s.second
  return A + (1 / 2 : ℝ) • (B - A)

/-- `getDirection` (`2D/Object/Segment.cpp` 149-162) -/
noncomputable def getDirection (s : Seg2) : Res V2 := do
  let A ← need s.first
  let B ← need s.second
  if P2.eq (some A) (some B) then .error .runtimeError else .ok (B - A).normalized

/-- `getLength` (`2D/Object/Segment.cpp` 164-172) -/
noncomputable def getLength (s : Seg2) : Res ℝ := do
  let A ← need s.first
  let B ← need s.second
  return (B - A).norm

/-- `distanceTo (Point)` (`2D/Object/Segment.cpp` 174-207) -/
noncomputable def distanceTo (s : Seg2) (p : Option V2) : Res ℝ := do
  let p ← need p
  let v ← need s.first
  let w ← need s.second
  return if P2.eq (some v) (some w) then (v - p).norm
    else (v + (max 0 (min 1 ((p - v).dot (w - v) / (w - v).normSq))) • (w - v) - p).norm

/-- `distanceTo (PointSet)` (`2D/Object/Segment.cpp` 209-232) -/
noncomputable def distanceToSet (s : Seg2) (ps : List (Option V2)) : Res ℝ :=
  if ps.isEmpty then .error .undefined
  else if !s.isDefined then .error .undefined
  else do
    let ds ← mapRes s.distanceTo ps
    minElement ds

/-- `toLine` (`2D/Object/Segment.cpp` 234-237) -/
noncomputable def toLine (s : Seg2) : Res Line2 := Line2.Points s.first s.second

/-- `applyTransformation` (`2D/Object/Segment.cpp` 275-289) -/
def applyTransformation (t : T2) (s : Seg2) : Res Seg2 :=
  if !t.isDefined then .error .undefined
  else if !s.isDefined then .error .undefined
  else do
    let a ← P2.applyTransformation t s.first
    let b ← P2.applyTransformation t s.second
    return ⟨a, b⟩

end Seg2

/-! ## Line strings -/

namespace LineString2

/-- the loop of `contains` (`2D/Object/LineString.cpp` 73-85) over the segments of consecutive points -/
noncomputable def containsLoop (p : Option V2) : List (Option V2) → Res Bool
  | a :: b :: rest =>
    match Seg2.contains ⟨a, b⟩ p with
    | .error e => .error e
    | .ok true => .ok true
    | .ok false => containsLoop p (b :: rest)
  | _ => .ok false

/-- `contains (Point)` (`2D/Object/LineString.cpp` 52-88); the number of points is assumed to fit an `int` -/
noncomputable def contains (ps : List (Option V2)) (p : Option V2) : Res Bool := do
  let p' ← need p
  match ps with
  | [] => .error .undefined
  | [a] => .ok (P2.eq a (some p'))
  | _ => containsLoop p ps

/-- `Segment` (`2D/Object/LineString.cpp` 269-277) -/
def Segment (s : Seg2) : Res (List (Option V2)) := if !s.isDefined then .error .undefined else .ok [s.first, s.second]

end LineString2

end Verif
