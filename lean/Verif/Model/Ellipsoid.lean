import Verif.Model.Gte
import Verif.Model.Points
import Verif.Model.Linear3

/-!
# Ellipsoids in 3D

Source: `src/OpenSpaceToolkit/Mathematics/Geometry/3D/Object/Ellipsoid.cpp`. `eps` is `Real::Epsilon()`.

A semi-axis of length zero, which the constructor accepts, leads to divisions by zero; the quotient is then not the one of C++. The theorems are about
positive semi-axes.
-/

namespace Verif

open Classical

/-- all members of a defined ellipsoid -/
structure EllipsoidData where
  center : V3
  a : ℝ
  b : ℝ
  c : ℝ
  q : Quat

/-- what `Eigen::SelfAdjointEigenSolver` returns when it succeeds: eigenvalues and eigenvectors -/
structure Eigen3 where
  l0 : ℝ
  l1 : ℝ
  l2 : ℝ
  v0 : V3
  v1 : V3
  v2 : V3

namespace Ellipsoid3

/-- constructors (`3D/Object/Ellipsoid.cpp` 66-94) -/
noncomputable def ctor (center : Option V3) (a b c : Option ℝ) (q : Option Quat) : Res Ellipsoid3 :=
  if a.any (fun x => decide (x < 0)) then .error .runtimeError
  else if b.any (fun x => decide (x < 0)) then .error .runtimeError
  else if c.any (fun x => decide (x < 0)) then .error .runtimeError
  else .ok ⟨center, a, b, c, q⟩

/-- the test `if (!this->isDefined()) throw Undefined` -/
def need (e : Ellipsoid3) : Res EllipsoidData := do
  let p ← Verif.need e.center
  let a ← Verif.need e.a
  let b ← Verif.need e.b
  let c ← Verif.need e.c
  let q ← Verif.need e.q
  return ⟨p, a, b, c, q⟩

/-- `getFirstAxis` (`3D/Object/Ellipsoid.cpp` 549-557) -/
noncomputable def getFirstAxis (eps : ℝ) (e : Ellipsoid3) : Res V3 := do
  let e ← e.need
  QuatObj.rotateVector (some e.q.conj) (some V3.X) (some eps)

/-- `getSecondAxis` (`3D/Object/Ellipsoid.cpp` 559-567) -/
noncomputable def getSecondAxis (eps : ℝ) (e : Ellipsoid3) : Res V3 := do
  let e ← e.need
  QuatObj.rotateVector (some e.q.conj) (some V3.Y) (some eps)

/-- `getThirdAxis` (`3D/Object/Ellipsoid.cpp` 569-577) -/
noncomputable def getThirdAxis (eps : ℝ) (e : Ellipsoid3) : Res V3 := do
  let e ← e.need
  QuatObj.rotateVector (some e.q.conj) (some V3.Z) (some eps)

/-- `getMatrix` (`3D/Object/Ellipsoid.cpp` 589-614) -/
noncomputable def getMatrix (eps : ℝ) (e : Ellipsoid3) : Res M3 := do
  let d ← e.need
  let u ← e.getFirstAxis eps
  let v ← e.getSecondAxis eps
  let w ← e.getThirdAxis eps
  let t := fun u : V3 => (⟨u.x * u.x, u.x * u.y, u.x * u.z, u.y * u.x, u.y * u.y, u.y * u.z, u.z * u.x, u.z * u.y, u.z * u.z⟩ : M3)
  return Gte.plus (Gte.plus (t ((1 / d.a) • u)) (t ((1 / d.b) • v))) (t ((1 / d.c) • w))

/-- the norm of a difference of matrices (Frobenius norm), as in `Eigen.hpp` 94 -/
noncomputable def matrixDistance (a b : M3) : ℝ :=
  Real.sqrt ((a.m00 - b.m00) ^ 2 + (a.m01 - b.m01) ^ 2 + (a.m02 - b.m02) ^ 2 + (a.m10 - b.m10) ^ 2 + (a.m11 - b.m11) ^ 2 +
    (a.m12 - b.m12) ^ 2 + (a.m20 - b.m20) ^ 2 + (a.m21 - b.m21) ^ 2 + (a.m22 - b.m22) ^ 2)

/-- `operator ==` (`3D/Object/Ellipsoid.cpp` 101-119) -/
noncomputable def eq (eps : ℝ) (e f : Ellipsoid3) : Res Bool :=
  match e.need, f.need with
  | .ok d, .ok g =>
    if P3.eq (some d.center) (some g.center) then
      if d.a = g.a ∧ d.b = g.b ∧ d.c = g.c ∧ QuatObj.eq (some d.q) (some g.q) then .ok true
      else do
        let m ← e.getMatrix eps
        let n ← f.getMatrix eps
        return decide (matrixDistance m n ≤ eps)
    else .ok false
  | _, _ => .ok false

/-- `contains (Point)` (`3D/Object/Ellipsoid.cpp` 458-485), also `intersects (Point)` (131-134) -/
noncomputable def contains (eps : ℝ) (e : Ellipsoid3) (p : Option V3) : Res Bool := do
  let p ← Verif.need p
  let e ← e.need
  let u ← QuatObj.rotateVector (some e.q) (some V3.X) (some eps)
  let v ← QuatObj.rotateVector (some e.q) (some V3.Y) (some eps)
  let w ← QuatObj.rotateVector (some e.q) (some V3.Z) (some eps)
  let r := (M3.rows u v w).mulVec (p - e.center)
  return decide (|r.x * r.x / (e.a * e.a) + r.y * r.y / (e.b * e.b) + r.z * r.z / (e.c * e.c) - 1| < eps)

/-- `contains (PointSet)` (`3D/Object/Ellipsoid.cpp` 487-502) -/
noncomputable def containsSet (eps : ℝ) (e : Ellipsoid3) (ps : List (Option V3)) : Res Bool :=
  if !e.isDefined then .error .undefined
  else if ps.isEmpty then .ok false
  else allOf (e.contains eps) ps

/-- `intersects (PointSet)` (`3D/Object/Ellipsoid.cpp` 136-151) -/
noncomputable def intersectsSet (eps : ℝ) (e : Ellipsoid3) (ps : List (Option V3)) : Res Bool :=
  if !e.isDefined then .error .undefined
  else if ps.isEmpty then .ok false
  else anyOf (e.contains eps) ps

/-- `contains (Segment)` (`3D/Object/Ellipsoid.cpp` 504-507); the points of an undefined segment throw -/
noncomputable def containsSegment (eps : ℝ) (e : Ellipsoid3) (s : Seg3) : Res Bool :=
  if !s.isDefined then .error .undefined
  else
    match e.contains eps s.first with
    | .error x => .error x
    | .ok false => .ok false
    | .ok true => e.contains eps s.second

/-- the conversion to the ellipsoid of the geometry library (for instance `3D/Object/Ellipsoid.cpp` 173-181) -/
noncomputable def toGte (eps : ℝ) (e : Ellipsoid3) : Res Gte.Ellipsoid := do
  let d ← e.need
  let u ← e.getFirstAxis eps
  let v ← e.getSecondAxis eps
  let w ← e.getThirdAxis eps
  return ⟨d.center, u, v, w, d.a, d.b, d.c⟩

/-- `intersects (Line)` (`3D/Object/Ellipsoid.cpp` 153-190) -/
noncomputable def intersectsLine (eps : ℝ) (e : Ellipsoid3) (l : Line3) : Res Bool := do
  let _ ← e.need
  let o ← Verif.need l.origin
  let d ← Verif.need l.direction
  let g ← e.toGte eps
  return Gte.testLineEllipsoid o d g

/-- `intersects (Ray)` (`3D/Object/Ellipsoid.cpp` 192-229) -/
noncomputable def intersectsRay (eps : ℝ) (e : Ellipsoid3) (l : Ray3) : Res Bool := do
  let _ ← e.need
  let o ← Verif.need l.origin
  let d ← Verif.need l.direction
  let g ← e.toGte eps
  return Gte.testRayEllipsoid o d g

/-- `intersects (Segment)` (`3D/Object/Ellipsoid.cpp` 231-341); `tol` is the constant `1e-25`. The tests on the two closed intervals (`Interval.cpp`,
both defined) are written out. -/
noncomputable def intersectsSegment (eps tol : ℝ) (e : Ellipsoid3) (s : Seg3) : Res Bool := do
  let f ← e.need
  let p ← Verif.need s.first
  let q ← Verif.need s.second
  if P3.eq (some p) (some q) then e.contains eps (some p)
  else do
    let d ← s.getDirection
    let c ← s.getCenter
    let l ← s.getLength
    let h := l / 2
    let m ← e.getMatrix eps
    let diff := c - f.center
    let a2 := d.dot (m.mulVec d)
    let a1 := d.dot (m.mulVec diff)
    let a0 := diff.dot (m.mulVec diff) - 1
    let disc := a1 * a1 - a0 * a2
    if disc < -tol then return false
    else if disc > tol then
      let t0 := (-a1 - Real.sqrt disc) * (1 / a2)
      let t1 := (-a1 + Real.sqrt disc) * (1 / a2)
      if ¬(t0 ≤ -h ∧ h ≤ t1) then return decide (t0 ≤ h ∧ -h ≤ t1) else return false
    else return decide (|-a1 / a2| ≤ h)

/-- `intersects (Plane)` (`3D/Object/Ellipsoid.cpp` 343-381) -/
noncomputable def intersectsPlane (eps : ℝ) (e : Ellipsoid3) (l : Plane3) : Res Bool := do
  let q ← Verif.need l.point
  let n ← Verif.need l.normal
  let g ← e.toGte eps
  return Gte.testPlaneEllipsoid q n g

/-- `intersectionWith (Line)` (`3D/Object/Ellipsoid.cpp` 616-674) -/
noncomputable def intersectionWithLine (eps : ℝ) (e : Ellipsoid3) (l : Line3) : Res Isect3 := do
  let o ← Verif.need l.origin
  let d ← Verif.need l.direction
  let g ← e.toGte eps
  match Gte.lineEllipsoid o d g with
  | [] => .ok .Empty
  | [t] => .ok (.Point (some (o + t • d)))
  | [t, u] => do
    let ps ← PointSet3.ofArray [some (o + t • d), some (o + u • d)]
    return .PointSet ps
  | _ => .error .runtimeError

/-- `intersectionWith (Ray, onlyInSight)` (`3D/Object/Ellipsoid.cpp` 676-764). The calls of `contains` are only made for the origin, and do not
throw, so one value stands for them. -/
noncomputable def intersectionWithRay (eps : ℝ) (e : Ellipsoid3) (l : Ray3) (onlyInSight : Bool) : Res Isect3 := do
  let o ← Verif.need l.origin
  let d ← Verif.need l.direction
  let g ← e.toGte eps
  let on ← e.contains eps (some o)
  match Gte.rayEllipsoid o d g with
  | [] => .ok .Empty
  | [t] =>
    let p := o + t • d
    if p = o ∧ !on then .ok .Empty else .ok (.Point (some p))
  | [t, u] =>
    let p := o + t • d
    let q := o + u • d
    if p = o ∧ !on then .ok (.Point (some q))
    else if q = o ∧ !on then .ok (.Point (some p))
    else if (p - q).norm < eps then .ok (.Point (some p))
    else do
      let ps ← PointSet3.ofArray [some p, some q]
      if onlyInSight then do
        let x ← PointSet3.getPointClosestTo ps (some o)
        return .Point x
      else return .PointSet ps
  | _ => .error .runtimeError

/-- `intersectionWith (Segment)` (`3D/Object/Ellipsoid.cpp` 766-888). For a degenerate segment the query divides zero by zero; the resulting point that
is not a number is discarded (829-832). `onA`, `onB` are the values of `contains` for the ends. -/
noncomputable def intersectionWithSegment (eps : ℝ) (e : Ellipsoid3) (l : Seg3) : Res Isect3 := do
  let a ← Verif.need l.first
  let b ← Verif.need l.second
  let onA ← e.contains eps (some a)
  let onB ← e.contains eps (some b)
  if a = b then
    if onA then .ok (.Point (some a)) else .ok .Empty
  else do
    let g ← e.toGte eps
    let (m, d, _) := Gte.centred a b
    match Gte.segmentEllipsoid a b g with
    | [] => .ok .Empty
    | [t] =>
      let p := m + t • d
      if (p = a ∧ !onA) ∨ (p = b ∧ !onB) then .ok .Empty else .ok (.Point (some p))
    | [t, u] =>
      let p := m + t • d
      let q := m + u • d
      if p = a ∧ !onA then
        if q = b ∧ !onB then .ok .Empty else .ok (.Point (some q))
      else if p = b ∧ !onB then
        if q = a ∧ !onA then .ok .Empty else .ok (.Point (some q))
      else if q = a ∧ !onA then
        if p = b ∧ !onB then .ok .Empty else .ok (.Point (some p))
      else if q = b ∧ !onB then
        if p = a ∧ !onA then .ok .Empty else .ok (.Point (some p))
      else do
        let ps ← PointSet3.ofArray [some p, some q]
        return .PointSet ps
    | _ => .error .runtimeError

/-- the upper left block of the matrix of a transformation -/
def block (m : Matrix (Fin 4) (Fin 4) ℝ) : M3 := ⟨m 0 0, m 0 1, m 0 2, m 1 0, m 1 1, m 1 2, m 2 0, m 2 1, m 2 2⟩

/-- Eigen `inverse` of a 3 by 3 matrix: cofactors over the determinant (no finite result for a singular matrix) -/
noncomputable def inverse3 (m : M3) : Option M3 :=
  let det := m.m00 * (m.m11 * m.m22 - m.m12 * m.m21) - m.m01 * (m.m10 * m.m22 - m.m12 * m.m20) + m.m02 * (m.m10 * m.m21 - m.m11 * m.m20)
  if det = 0 then none
  else some
    ⟨(m.m11 * m.m22 - m.m12 * m.m21) / det, (m.m02 * m.m21 - m.m01 * m.m22) / det, (m.m01 * m.m12 - m.m02 * m.m11) / det,
      (m.m12 * m.m20 - m.m10 * m.m22) / det, (m.m00 * m.m22 - m.m02 * m.m20) / det, (m.m02 * m.m10 - m.m00 * m.m12) / det,
      (m.m10 * m.m21 - m.m11 * m.m20) / det, (m.m01 * m.m20 - m.m00 * m.m21) / det, (m.m00 * m.m11 - m.m01 * m.m10) / det⟩

/-- `applyTransformation` (`3D/Object/Ellipsoid.cpp` 926-966). `solve` is the eigen solver, which fails or returns values and vectors. A matrix without
a finite inverse makes the solver fail. The matrix of the ellipsoid is taken after its centre was moved. -/
noncomputable def applyTransformation (eps : ℝ) (solve : M3 → Option Eigen3) (t : T3) (e : Ellipsoid3) : Res Ellipsoid3 :=
  if !t.isDefined then .error .undefined
  else if !e.isDefined then .error .undefined
  else do
    let id ← t.isIdentity
    if id then .ok e
    else do
      let c ← P3.applyTransformation t e.center
      let m ← t.getMatrix
      let g ← Ellipsoid3.getMatrix eps { e with center := c }
      match m.bind fun m => inverse3 (block m) with
      | none => .error .runtimeError
      | some r =>
        match solve ((r.transpose.mul g).mul r) with
        | none => .error .runtimeError
        | some x => do
          let k ← RotMat.Columns eps (some x.v0) (some x.v1) (some (x.v0.cross x.v1))
          let q ← Quat.RotationMatrix eps (some k)
          return ⟨c, some (Real.sqrt (1 / x.l0)), some (Real.sqrt (1 / x.l1)), some (Real.sqrt (1 / x.l2)), some q.conj⟩

/-- `Undefined` (`3D/Object/Ellipsoid.cpp` 968-971) -/
def Undefined : Ellipsoid3 := ⟨none, none, none, none, none⟩

end Ellipsoid3

end Verif
