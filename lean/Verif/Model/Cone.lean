import Verif.Model.Ellipsoid
import Verif.Model.IntervalGrid
import Verif.Model.Sphere

/-!
# Cones in 3D

Source: `src/OpenSpaceToolkit/Mathematics/Geometry/3D/Object/Cone.cpp`. `eps` is `Real::Epsilon()`. The constructor (30-36) stores its arguments.
-/

namespace Verif

open Classical

namespace Cone3

/-- the test `if (!this->isDefined()) throw Undefined`, giving the apex and the axis -/
def need (c : Cone3) : Res (V3 × V3) :=
  match c.apex, c.axis, c.angle.isDefined with
  | some a, some d, true => .ok (a, d)
  | _, _, _ => .error .undefined

/-- `operator ==` (`3D/Object/Cone.cpp` 42-51) -/
noncomputable def eq (c e : Cone3) : Res Bool :=
  match c.apex, c.axis, c.angle.isDefined, e.apex, e.axis, e.angle.isDefined with
  | some a, some d, true, some b, some f, true =>
    if a ≠ b then .ok false
    else do
      let same ← if d = f then c.angle.eq e.angle else pure false
      if same then return true
      else if d = -f then do
        let other ← Angle.sub ⟨some 180, .degree⟩ e.angle
        c.angle.eq other
      else return false
  | _, _, _, _, _, _ => .ok false

/-- `intersects (Sphere)` (`3D/Object/Cone.cpp` 63-91). For a negative radius whose absolute value is over the distance, `std::asin` is not a number and
the comparison of line 90 is false. -/
noncomputable def intersectsSphere (c : Cone3) (s : Sphere3) : Res Bool := do
  let o ← Verif.need s.center
  let r ← Verif.need s.radius
  let (a, d) ← c.need
  let w := o - a
  if w.norm ≤ r then return true
  else do
    let t ← c.angle.inUnit .radian
    if r < -w.norm then return false
    else return decide (Real.arccos (d.normalized.dot w.normalized) ≤ t + Real.arcsin (r / w.norm))

/-- `contains (Point)` (`3D/Object/Cone.cpp` 117-142) -/
noncomputable def contains (eps : ℝ) (c : Cone3) (p : Option V3) : Res Bool := do
  let p ← Verif.need p
  let (a, d) ← c.need
  if p = a then return true
  else if (p - a).dot d < 0 then return false
  else do
    let b ← Angle.Between3 eps (some (p - a)) (some d)
    let x ← b.inDegrees (some 0) (some 360)
    let y ← c.angle.inDegrees (some 0) (some 360)
    return decide (x ≤ y)

/-- `contains (PointSet)` (`3D/Object/Cone.cpp` 144-159) -/
noncomputable def containsSet (eps : ℝ) (c : Cone3) (ps : List (Option V3)) : Res Bool :=
  if !c.isDefined then .error .undefined else allOf (c.contains eps) ps

/-- `contains (Segment)` (`3D/Object/Cone.cpp` 161-164) -/
noncomputable def containsSegment (eps : ℝ) (c : Cone3) (s : Seg3) : Res Bool :=
  if !s.isDefined then .error .undefined
  else do
    let x ← c.contains eps s.first
    if x then c.contains eps s.second else return false

/-- `contains (Ray)` (`3D/Object/Cone.cpp` 166-184) -/
noncomputable def containsRay (eps : ℝ) (c : Cone3) (l : Ray3) : Res Bool :=
  if !l.isDefined then .error .undefined
  else do
    let (_, d) ← c.need
    let x ← c.contains eps l.origin
    if x then do
      let b ← Angle.Between3 eps l.direction (some d)
      let x ← b.inDegrees (some 0) (some 360)
      let y ← c.angle.inDegrees (some 0) (some 360)
      return decide (x ≤ y)
    else return false

/-- the vector `nAxis` of `distanceTo` (`3D/Object/Cone.cpp` 315-331): perpendicular to the axis `d`, on the side of `v` if `v` is off the axis -/
noncomputable def side (eps : ℝ) (d v : V3) : V3 :=
  if (d.cross v).norm > eps then ((d.cross v).cross d).normalized
  else if (d.cross V3.X).norm > eps then ((d.cross V3.X).cross d).normalized
  else ((d.cross V3.Y).cross d).normalized

/-- `distanceTo` (`3D/Object/Cone.cpp` 289-336) -/
noncomputable def distanceTo (eps : ℝ) (c : Cone3) (p : Option V3) : Res ℝ := do
  let p ← Verif.need p
  let (a, d) ← c.need
  if p = a then return 0
  else if (p - a).dot d < 0 then return (p - a).norm
  else do
    let t ← c.angle.inUnit .radian
    let l ← Ray3.ctor (some a) (some (d.normalized + Real.tan t • side eps d (p - a)).normalized)
    l.distanceTo (some p)

/-- `contains (Sphere)` (`3D/Object/Cone.cpp` 186-199) -/
noncomputable def containsSphere (eps : ℝ) (c : Cone3) (s : Sphere3) : Res Bool := do
  let o ← Verif.need s.center
  let r ← Verif.need s.radius
  let _ ← c.need
  let x ← c.contains eps (some o)
  if x then do
    let k ← c.distanceTo eps (some o)
    return decide (k ≥ r)
  else return false

/-- `contains (Ellipsoid)` (`3D/Object/Cone.cpp` 201-216) -/
def containsEllipsoid (c : Cone3) (e : Ellipsoid3) : Res Bool :=
  if !e.isDefined then .error .undefined
  else if !c.isDefined then .error .undefined
  else .error .toBeImplemented

/-- `getApex` (`3D/Object/Cone.cpp` 218-226) -/
def getApex (c : Cone3) : Res V3 := do return (← c.need).1
/-- `getAxis` (`3D/Object/Cone.cpp` 228-236) -/
def getAxis (c : Cone3) : Res V3 := do return (← c.need).2
/-- `getAngle` (`3D/Object/Cone.cpp` 238-246) -/
def getAngle (c : Cone3) : Res Angle := do
  let _ ← c.need
  return c.angle

/-- the array `angles_rad` (`3D/Object/Cone.cpp` 268-270), which is in degrees -/
noncomputable def rayAngles (n : ℕ) : Res (List ℝ) :=
  if n > 1 then (⟨.halfOpenRight, some 0, some 360⟩ : Interval ℝ).generateArrayWithSize n else .ok [0]

/-- `getRaysOfLateralSurface` (`3D/Object/Cone.cpp` 248-287). There is no test that the cone is defined; the rotation vector about an undefined axis
makes `Quaternion::RotationVector` throw. -/
noncomputable def getRaysOfLateralSurface (eps : ℝ) (c : Cone3) (n : ℕ) : Res (List Ray3) :=
  if n = 0 then .error .wrong
  else do
    let d ← Verif.need c.axis
    let ref := if |d.dot V3.X| < 1 / 2 then (d.cross V3.X).normalized else (d.cross V3.Y).normalized
    let k ← RotVec.mk1 eps (some ref) c.angle
    let q ← Quat.RotationVector eps k
    let g ← QuatObj.rotateVector (some q.conj) (some d) (some eps)
    let first ← Ray3.ctor c.apex (some g)
    let angles ← rayAngles n
    mapRes (fun x => do
      let k ← RotVec.mk1 eps (some d) ⟨some x, .degree⟩
      let q ← Quat.RotationVector eps k
      let g ← QuatObj.rotateVector (some q.conj) first.direction (some eps)
      Ray3.ctor c.apex (some g)) angles

/-- `intersects (Ellipsoid)` (`3D/Object/Cone.cpp` 93-115) -/
noncomputable def intersectsEllipsoid (eps : ℝ) (c : Cone3) (e : Ellipsoid3) (n : ℕ) : Res Bool :=
  if !e.isDefined then .error .undefined
  else if !c.isDefined then .error .undefined
  else do
    let rays ← c.getRaysOfLateralSurface eps n
    anyOf (e.intersectsRay eps) rays

/-- the loop over the rays of `intersectionWith (Sphere)` (`3D/Object/Cone.cpp` 353-383): the points added to `firstIntersectionPoints` and to
`secondIntersectionPoints` -/
noncomputable def sphereLoop (eps : ℝ) (s : Sphere3) (onlyInSight : Bool) : List Ray3 → Res (List (Option V3) × List (Option V3))
  | [] => .ok ([], [])
  | l :: ls => do
    let i ← s.intersectionWithRay eps l onlyInSight
    let (first, second) ← match i.composite.objects with
      | [.point p] => pure ([p], [])
      | [.pointSet (p :: ps)] => pure (ps, [p])
      | _ => pure ([], [])
    let (firsts, seconds) ← sphereLoop eps s onlyInSight ls
    return (first ++ firsts, second ++ seconds)

/-- the result of `intersectionWith` (`3D/Object/Cone.cpp` 385-399 and 448-462) -/
def lineStrings (onlyInSight : Bool) (first second : List (Option V3)) : Res Isect3 :=
  if !first.isEmpty && !second.isEmpty && !onlyInSight then Isect3.add (.LineString first) (.LineString second)
  else if !first.isEmpty then .ok (.LineString first)
  else if !second.isEmpty then .ok (.LineString second)
  else .ok .Empty

/-- `intersectionWith (Sphere)` (`3D/Object/Cone.cpp` 338-400) -/
noncomputable def intersectionWithSphere (eps : ℝ) (c : Cone3) (s : Sphere3) (onlyInSight : Bool) (n : ℕ) : Res Isect3 :=
  if !s.isDefined then .error .undefined
  else if !c.isDefined then .error .undefined
  else do
    let rays ← c.getRaysOfLateralSurface eps n
    let (first, second) ← sphereLoop eps s onlyInSight rays
    lineStrings onlyInSight first second

/-- the loop over the rays of `intersectionWith (Ellipsoid)` (`3D/Object/Cone.cpp` 417-446) -/
noncomputable def ellipsoidLoop (eps : ℝ) (a : Option V3) (e : Ellipsoid3) (onlyInSight : Bool) :
    List Ray3 → Res (List (Option V3) × List (Option V3))
  | [] => .ok ([], [])
  | l :: ls => do
    let i ← e.intersectionWithRay eps l onlyInSight
    let (first, second) ← match i.composite.objects with
      | [.point p] => pure ([p], [])
      | [.pointSet ps] => do
        let closest ← PointSet3.getPointClosestTo ps a
        pure ([closest], (ps.filter (fun p => !P3.eq p closest)).take 1)
      | _ => pure ([], [])
    let (firsts, seconds) ← ellipsoidLoop eps a e onlyInSight ls
    return (first ++ firsts, second ++ seconds)

/-- `intersectionWith (Ellipsoid)` (`3D/Object/Cone.cpp` 402-463) -/
noncomputable def intersectionWithEllipsoid (eps : ℝ) (c : Cone3) (e : Ellipsoid3) (onlyInSight : Bool) (n : ℕ) : Res Isect3 :=
  if !e.isDefined then .error .undefined
  else if !c.isDefined then .error .undefined
  else do
    let rays ← c.getRaysOfLateralSurface eps n
    let (first, second) ← ellipsoidLoop eps c.apex e onlyInSight rays
    lineStrings onlyInSight first second

/-- `applyTransformation` (`3D/Object/Cone.cpp` 481-497). `normalize` of Eigen leaves the zero vector unchanged. -/
noncomputable def applyTransformation (t : T3) (c : Cone3) : Res Cone3 :=
  if !t.isDefined then .error .undefined
  else if !c.isDefined then .error .undefined
  else do
    let a ← t.applyTo c.apex
    return ⟨a, (t.applyToVector c.axis).map V3.normalized, c.angle⟩

/-- `Undefined` (`3D/Object/Cone.cpp` 499-502) -/
def Undefined : Cone3 := ⟨none, none, .Undefined⟩

end Cone3

end Verif
