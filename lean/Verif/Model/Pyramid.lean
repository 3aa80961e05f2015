import Verif.Model.Cone
import Verif.Model.Polygon
import Verif.Model.Linear3

/-!
# Pyramids in 3D

Source: `src/OpenSpaceToolkit/Mathematics/Geometry/3D/Object/Pyramid.cpp`. `eps` is `Real::Epsilon()`, `B` the algorithms of boost::geometry. The
constructor (31-36) stores its arguments. The loops over rays of `intersectionWith` are the same as those of `Cone.cpp`.
-/

namespace Verif

open Classical

namespace Pyramid3

/-- `operator ==` (`3D/Object/Pyramid.cpp` 43-51) -/
noncomputable def eq (B : Boost) (p q : Pyramid3) : Bool :=
  if !p.isDefined || !q.isDefined then false else p.base.eq B q.base && P3.eq p.apex q.apex

/-- `getBase` (`3D/Object/Pyramid.cpp` 212-220) -/
def getBase (p : Pyramid3) : Res Polygon3 := if !p.isDefined then .error .undefined else .ok p.base

/-- `getApex` (`3D/Object/Pyramid.cpp` 222-230) -/
def getApex (p : Pyramid3) : Res V3 := if !p.isDefined then .error .undefined else need p.apex

/-- the point of the base plane in the frame of the base (`3D/Object/Pyramid.cpp` 150-166) -/
noncomputable def inBaseFrame (eps : ℝ) (b : Polygon3) (q : Option V3) : Res V2 := do
  let o ← b.getOrigin
  let translation ← T3.Translation (some (-o))
  let x ← b.getXAxis
  let y ← b.getYAxis
  let z ← b.getNormalVector
  let m ← RotMat.Columns eps (some x) (some y) (some z)
  let rotation ← T3.RotationOfMatrix (some m)
  let t ← rotation.mul translation
  let r ← t.applyTo q
  let r ← need r
  return ⟨r.x, r.y⟩

/-- `contains (Point)` (`3D/Object/Pyramid.cpp` 111-171) -/
noncomputable def contains (eps : ℝ) (B : Boost) (p : Pyramid3) (q : Option V3) : Res Bool :=
  if q.isNone then .error .undefined
  else if !p.isDefined then .error .undefined
  else if P3.eq q p.apex then .ok true
  else do
    let q ← need q
    let a ← need p.apex
    let ray ← Ray3.ctor (some a) (some (q - a))
    let o ← p.base.getOrigin
    let n ← p.base.getNormalVector
    let i ← ray.intersectionWith (Plane3.ctor (some o) (some n))
    if i.isEmpty then return false
    if !i.isDefined then .error .undefined
    match i.composite.objects with
    | [.point w] => do
      let v ← inBaseFrame eps p.base w
      let base ← p.base.getPolygon2d
      base.contains B (some v)
    | _ => .error .runtimeError

/-- `contains (PointSet)` (`3D/Object/Pyramid.cpp` 173-188): an empty point set is contained -/
noncomputable def containsSet (eps : ℝ) (B : Boost) (p : Pyramid3) (qs : List (Option V3)) : Res Bool :=
  if !p.isDefined then .error .undefined else allOf (p.contains eps B) qs

/-- `contains (Segment)` (`3D/Object/Pyramid.cpp` 190-193) -/
noncomputable def containsSegment (eps : ℝ) (B : Boost) (p : Pyramid3) (s : Seg3) : Res Bool := do
  let a ← if !s.isDefined then .error .undefined else .ok s.first
  let r ← p.contains eps B a
  if !r then return false
  p.contains eps B s.second

/-- `contains (Ellipsoid)` (`3D/Object/Pyramid.cpp` 195-210) -/
def containsEllipsoid (p : Pyramid3) (e : Ellipsoid3) : Res Bool :=
  if !e.isDefined then .error .undefined
  else if !p.isDefined then .error .undefined
  else .error .toBeImplemented

/-- `getLateralFaceCount` (`3D/Object/Pyramid.cpp` 232-240) -/
def getLateralFaceCount (p : Pyramid3) : Res ℕ := if !p.isDefined then .error .undefined else p.base.getEdgeCount

/-- `getLateralFaceAt` (`3D/Object/Pyramid.cpp` 242-270) -/
noncomputable def getLateralFaceAt (eps : ℝ) (p : Pyramid3) (i : ℕ) : Res Polygon3 :=
  if !p.isDefined then .error .undefined
  else do
    let edge ← p.base.getEdgeAt i
    let f ← need edge.first
    let s ← need edge.second
    let a ← need p.apex
    let u := (f - a).normalized
    let v := (s - a).normalized
    let w := ((u.cross v).cross u).normalized
    let e := s - f
    let polygon ← Polygon2.ofPoints [some 0, some ⟨(f - a).norm, 0⟩, some ⟨(f - a).norm + e.dot u, e.dot w⟩]
    Polygon3.ctor eps polygon (some a) (some u) (some w)

/-- the array `angles_rad` (`3D/Object/Pyramid.cpp` 297-299) -/
noncomputable def rayAngles (x : ℝ) (n : ℕ) : Res (List ℝ) :=
  if n > 1 then (⟨.closed, some 0, some x⟩ : Interval ℝ).generateArrayWithSize n else .ok [0]

/-- `getRaysOfLateralFaceAt` (`3D/Object/Pyramid.cpp` 272-317): without a test that the pyramid is defined; subtracting an undefined point throws -/
noncomputable def getRaysOfLateralFaceAt (eps : ℝ) (p : Pyramid3) (i n : ℕ) : Res (List Ray3) := do
  let edge ← p.base.getEdgeAt i
  let f ← need edge.first
  let s ← need edge.second
  let a ← need p.apex
  let u := (f - a).normalized
  let v := (s - a).normalized
  if u = v then do
    let r ← Ray3.ctor (some a) (some u)
    return [r]
  else do
    let axis := (u.cross v).normalized
    let between ← Angle.Between3 eps (some u) (some v)
    let x ← between.inUnit .radian
    let angles ← rayAngles x n
    mapRes (fun x => do
      let k ← RotVec.mk1 eps (some axis) ⟨some x, .radian⟩
      let q ← Quat.RotationVector eps k
      let g ← QuatObj.rotateVector (some q.conj) (some u) (some eps)
      Ray3.ctor (some a) (some g)) angles

/-- `getRaysOfLateralFaces` (`3D/Object/Pyramid.cpp` 319-342) -/
noncomputable def getRaysOfLateralFaces (eps : ℝ) (p : Pyramid3) (n : ℕ) : Res (List Ray3) := do
  let k ← p.getLateralFaceCount
  if n < k then .error .runtimeError
  else do
    let rays ← mapRes (fun i => p.getRaysOfLateralFaceAt eps i (n / k)) (List.range k)
    return rays.flatten

/-- `intersects (Sphere)` (`3D/Object/Pyramid.cpp` 63-85) -/
noncomputable def intersectsSphere (eps : ℝ) (p : Pyramid3) (s : Sphere3) (n : ℕ) : Res Bool :=
  if !s.isDefined then .error .undefined
  else if !p.isDefined then .error .undefined
  else do
    let rays ← p.getRaysOfLateralFaces eps n
    anyOf s.intersectsRay rays

/-- `intersects (Ellipsoid)` (`3D/Object/Pyramid.cpp` 87-109) -/
noncomputable def intersectsEllipsoid (eps : ℝ) (p : Pyramid3) (e : Ellipsoid3) (n : ℕ) : Res Bool :=
  if !e.isDefined then .error .undefined
  else if !p.isDefined then .error .undefined
  else do
    let rays ← p.getRaysOfLateralFaces eps n
    anyOf (e.intersectsRay eps) rays

/-- `intersectionWith (Sphere)` (`3D/Object/Pyramid.cpp` 344-408); the loop (360-391) and the result (393-407) are those of `Cone.cpp` -/
noncomputable def intersectionWithSphere (eps : ℝ) (p : Pyramid3) (s : Sphere3) (onlyInSight : Bool) (n : ℕ) : Res Isect3 :=
  if !s.isDefined then .error .undefined
  else if !p.isDefined then .error .undefined
  else do
    let rays ← p.getRaysOfLateralFaces eps n
    let (first, second) ← Cone3.sphereLoop eps s onlyInSight rays
    Cone3.lineStrings onlyInSight first second

/-- `intersectionWith (Ellipsoid)` (`3D/Object/Pyramid.cpp` 410-495); the loop (427-478) and the result (480-494) are those of `Cone.cpp` -/
noncomputable def intersectionWithEllipsoid (eps : ℝ) (p : Pyramid3) (e : Ellipsoid3) (onlyInSight : Bool) (n : ℕ) : Res Isect3 :=
  if !e.isDefined then .error .undefined
  else if !p.isDefined then .error .undefined
  else do
    let rays ← p.getRaysOfLateralFaces eps n
    let (first, second) ← Cone3.ellipsoidLoop eps p.apex e onlyInSight rays
    Cone3.lineStrings onlyInSight first second

/-- `applyTransformation` (`3D/Object/Pyramid.cpp` 510-524) -/
def applyTransformation (t : T3) (p : Pyramid3) : Res Pyramid3 :=
  if !t.isDefined then .error .undefined
  else if !p.isDefined then .error .undefined
  else do
    let b ← p.base.applyTransformation t
    let a ← P3.applyTransformation t p.apex
    return ⟨b, a⟩

/-- `Undefined` (`3D/Object/Pyramid.cpp` 526-529) -/
def Undefined : Pyramid3 := ⟨.Undefined, none⟩

end Pyramid3

end Verif
