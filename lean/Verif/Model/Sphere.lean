import Verif.Model.Gte
import Verif.Model.Points

/-!
# Spheres in 3D

Source: `src/OpenSpaceToolkit/Mathematics/Geometry/3D/Object/Sphere.cpp`. `eps` is `Real::Epsilon()`.
-/

namespace Verif

open Classical

namespace Sphere3

/-- `operator ==` (`3D/Object/Sphere.cpp` 63-71) -/
noncomputable def eq (a b : Sphere3) : Bool :=
  match a.radius, b.radius with
  | some r, some s => P3.eq a.center b.center && decide (r = s)
  | _, _ => false

/-- `isUnitary` (`3D/Object/Sphere.cpp` 88-96) -/
noncomputable def isUnitary (s : Sphere3) : Res Bool := do
  let _ ← need s.center
  let r ← need s.radius
  return decide (r = 1)

/-- `contains (Point)` (`3D/Object/Sphere.cpp` 263-278) -/
noncomputable def contains (eps : ℝ) (s : Sphere3) (p : Option V3) : Res Bool := do
  let p ← need p
  let c ← need s.center
  let r ← need s.radius
  return decide (|(p - c).normSq - r * r| < eps)

/-- `contains (PointSet)` (`3D/Object/Sphere.cpp` 280-295) -/
noncomputable def containsSet (eps : ℝ) (s : Sphere3) (ps : List (Option V3)) : Res Bool :=
  if !s.isDefined then .error .undefined
  else if ps.isEmpty then .ok false
  else allOf (s.contains eps) ps

/-- `intersects (PointSet)` (`3D/Object/Sphere.cpp` 103-118) -/
noncomputable def intersectsSet (eps : ℝ) (s : Sphere3) (ps : List (Option V3)) : Res Bool :=
  if !s.isDefined then .error .undefined
  else if ps.isEmpty then .ok false
  else anyOf (s.contains eps) ps

/-- `intersects (Line)` (`3D/Object/Sphere.cpp` 120-151) -/
noncomputable def intersectsLine (s : Sphere3) (l : Line3) : Res Bool := do
  let c ← need s.center
  let r ← need s.radius
  let o ← need l.origin
  let d ← need l.direction
  return Gte.testLineSphere o d c r

/-- `intersects (Ray)` (`3D/Object/Sphere.cpp` 153-184) -/
noncomputable def intersectsRay (s : Sphere3) (l : Ray3) : Res Bool := do
  let c ← need s.center
  let r ← need s.radius
  let o ← need l.origin
  let d ← need l.direction
  return Gte.testRaySphere o d c r

/-- `intersects (Segment)` (`3D/Object/Sphere.cpp` 186-217) -/
noncomputable def intersectsSegment (s : Sphere3) (l : Seg3) : Res Bool := do
  let c ← need s.center
  let r ← need s.radius
  let a ← need l.first
  let b ← need l.second
  return Gte.testSegmentSphere a b c r

/-- `intersects (Plane)` (`3D/Object/Sphere.cpp` 219-251) -/
noncomputable def intersectsPlane (s : Sphere3) (l : Plane3) : Res Bool := do
  let q ← need l.point
  let n ← need l.normal
  let c ← need s.center
  let r ← need s.radius
  return Gte.testPlaneSphere q n c r

/-- `getCenter` (`3D/Object/Sphere.cpp` 297-305) -/
def getCenter (s : Sphere3) : Res V3 := do
  let c ← need s.center
  let _ ← need s.radius
  return c

/-- `getRadius` (`3D/Object/Sphere.cpp` 307-315) -/
noncomputable def getRadius (s : Sphere3) : Res ℝ := do
  let _ ← need s.center
  let r ← need s.radius
  return r

/-- `intersectionWith (Line)` (`3D/Object/Sphere.cpp` 317-369) -/
noncomputable def intersectionWithLine (s : Sphere3) (l : Line3) : Res Isect3 := do
  let o ← need l.origin
  let d ← need l.direction
  let c ← need s.center
  let r ← need s.radius
  match Gte.lineSphere o d c r with
  | [] => .ok .Empty
  | [t] => .ok (.Point (some (o + t • d)))
  | [t, u] => do
    let ps ← PointSet3.ofArray [some (o + t • d), some (o + u • d)]
    return .PointSet ps
  | _ => .error .runtimeError

/-- `intersectionWith (Ray, onlyInSight)` (`3D/Object/Sphere.cpp` 371-448); `on p` is `this->contains(p)`, which does not throw here -/
noncomputable def intersectionWithRay (eps : ℝ) (s : Sphere3) (l : Ray3) (onlyInSight : Bool) : Res Isect3 := do
  let o ← need l.origin
  let d ← need l.direction
  let c ← need s.center
  let r ← need s.radius
  let on := fun p : V3 => decide (|(p - c).normSq - r * r| < eps)
  match Gte.raySphere o d c r with
  | [] => .ok .Empty
  | [t] =>
    let p := o + t • d
    if p = o ∧ !on p then .ok .Empty else .ok (.Point (some p))
  | [t, u] =>
    let p := o + t • d
    let q := o + u • d
    if p = o ∧ !on p then .ok (.Point (some q))
    else if q = o ∧ !on q then .ok (.Point (some p))
    else do
      let ps ← PointSet3.ofArray [some p, some q]
      if onlyInSight then do
        let x ← PointSet3.getPointClosestTo ps (some o)
        return .Point x
      else return .PointSet ps
  | _ => .error .runtimeError

/-- `intersectionWith (Segment)` (`3D/Object/Sphere.cpp` 450-556) -/
noncomputable def intersectionWithSegment (eps : ℝ) (s : Sphere3) (l : Seg3) : Res Isect3 := do
  let a ← need l.first
  let b ← need l.second
  let c ← need s.center
  let r ← need s.radius
  let on := fun p : V3 => decide (|(p - c).normSq - r * r| < eps)
  let (m, d, _) := Gte.centred a b
  match Gte.segmentSphere a b c r with
  | [] => .ok .Empty
  | [t] =>
    let p := m + t • d
    if (p = a ∨ p = b) ∧ !on p then .ok .Empty else .ok (.Point (some p))
  | [t, u] =>
    let p := m + t • d
    let q := m + u • d
    if p = a ∧ !on p then
      if q = b ∧ !on q then .ok .Empty else .ok (.Point (some q))
    else if p = b ∧ !on p then
      if q = a ∧ !on q then .ok .Empty else .ok (.Point (some q))
    else if q = a ∧ !on q then
      if p = b ∧ !on p then .ok .Empty else .ok (.Point (some p))
    else if q = b ∧ !on q then
      if p = a ∧ !on p then .ok .Empty else .ok (.Point (some p))
    else do
      let ps ← PointSet3.ofArray [some p, some q]
      return .PointSet ps
  | _ => .error .runtimeError

/-- `applyTransformation` (`3D/Object/Sphere.cpp` 580-598) -/
def applyTransformation (t : T3) (s : Sphere3) : Res Sphere3 :=
  if !t.isDefined then .error .undefined
  else if !s.isDefined then .error .undefined
  else do
    let rigid ← t.isRigid
    if !rigid then .error .runtimeError
    else do
      let c ← P3.applyTransformation t s.center
      return ⟨c, s.radius⟩

/-- `Undefined` (`3D/Object/Sphere.cpp` 600-603) -/
def Undefined : Sphere3 := ⟨none, none⟩

/-- `Unit` (`3D/Object/Sphere.cpp` 605-608) -/
noncomputable def Unit (c : Option V3) : Sphere3 := ⟨c, some 1⟩

end Sphere3

end Verif
