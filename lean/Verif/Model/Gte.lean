import Verif.Model.Rotation

/-!
# The queries of the Geometric Tools Engine used for spheres and ellipsoids

The library is not part of the repository. These definitions say what is assumed of its queries (`GteIntrLine3Sphere3.h`,
`GteIntrRay3Sphere3.h`, `GteIntrSegment3Sphere3.h`, `GteIntrPlane3Sphere3.h`, and the same for `Ellipsoid3`) over exact reals; they are part of
the trusted base.
A find query is the list of the parameters of the points it returns, a test query a truth value.
-/

namespace Verif.Gte

open Classical

/-- find query of a line `o + t d` (`d` of length one) and a sphere: the roots of the quadratic -/
noncomputable def lineSphere (o d c : V3) (r : ℝ) : List ℝ :=
  let diff := o - c
  let a0 := diff.dot diff - r * r
  let a1 := d.dot diff
  let discr := a1 * a1 - a0
  if discr > 0 then [-a1 - Real.sqrt discr, -a1 + Real.sqrt discr]
  else if discr < 0 then []
  else [-a1]

/-- find query of two intervals: the first `[a, b]`, the second from `lo` to `hi` (`none` for no upper end) -/
noncomputable def overlap (a b lo : ℝ) (hi : Option ℝ) : List ℝ :=
  let l := max a lo
  let h := match hi with
    | some h => min b h
    | none => b
  if h < l then [] else if l = h then [l] else [l, h]

/-- the points of the line that the sphere cuts out, restricted to an interval of parameters; the sphere counts as solid here -/
noncomputable def clip (ts : List ℝ) (lo : ℝ) (hi : Option ℝ) : List ℝ :=
  match ts with
  | [a] => overlap a a lo hi
  | [a, b] => overlap a b lo hi
  | _ => []

/-- find query of a ray and a sphere -/
noncomputable def raySphere (o d c : V3) (r : ℝ) : List ℝ := clip (lineSphere o d c r) 0 none

/-- centred form of a segment: centre, unit direction (zero for a degenerate segment) and half length -/
noncomputable def centred (a b : V3) : V3 × V3 × ℝ := ((1 / 2 : ℝ) • (a + b), (b - a).normalized, (1 / 2) * (b - a).norm)

/-- find query of a segment and a sphere, with parameters for the centred form -/
noncomputable def segmentSphere (a b c : V3) (r : ℝ) : List ℝ :=
  let (m, d, e) := centred a b
  clip (lineSphere m d c r) (-e) (some e)

/-- test query of a line and a sphere -/
noncomputable def testLineSphere (o d c : V3) (r : ℝ) : Bool :=
  let diff := o - c
  let a0 := diff.dot diff - r * r
  let a1 := d.dot diff
  decide (0 ≤ a1 * a1 - a0)

/-- test query of a ray and a sphere -/
noncomputable def testRaySphere (o d c : V3) (r : ℝ) : Bool :=
  let diff := o - c
  let a0 := diff.dot diff - r * r
  if a0 ≤ 0 then true
  else
    let a1 := d.dot diff
    if 0 ≤ a1 then false else decide (a0 ≤ a1 * a1)

/-- test query of a segment and a sphere: whether the segment meets the surface -/
noncomputable def testSegmentSphere (a b c : V3) (r : ℝ) : Bool :=
  let (m, d, e) := centred a b
  let diff := m - c
  let a0 := diff.dot diff - r * r
  let a1 := d.dot diff
  let discr := a1 * a1 - a0
  if discr < 0 then false
  else
    let tmp0 := e * e + a0
    let tmp1 := 2 * a1 * e
    let qm := tmp0 - tmp1
    let qp := tmp0 + tmp1
    if qm * qp ≤ 0 then true else decide (0 < qm ∧ |a1| < e)

/-- test query of a plane (through `q` with unit normal `n`) and a sphere -/
noncomputable def testPlaneSphere (q n c : V3) (r : ℝ) : Bool := decide (|n.dot c - n.dot q| ≤ r)

/-! ## Ellipsoids -/

/-- a centre, three axes and three extents (`GteHyperellipsoid.h`) -/
structure Ellipsoid where
  center : V3
  axis0 : V3
  axis1 : V3
  axis2 : V3
  extent0 : ℝ
  extent1 : ℝ
  extent2 : ℝ

/-- outer product of a vector with itself -/
def outer (u : V3) : M3 := ⟨u.x * u.x, u.x * u.y, u.x * u.z, u.y * u.x, u.y * u.y, u.y * u.z, u.z * u.x, u.z * u.y, u.z * u.z⟩

/-- sum of matrices -/
def plus (a b : M3) : M3 :=
  ⟨a.m00 + b.m00, a.m01 + b.m01, a.m02 + b.m02, a.m10 + b.m10, a.m11 + b.m11, a.m12 + b.m12, a.m20 + b.m20, a.m21 + b.m21, a.m22 + b.m22⟩

namespace Ellipsoid

/-- `GetM`: the matrix of the quadratic form -/
noncomputable def getM (e : Ellipsoid) : M3 :=
  plus (plus (outer ((1 / e.extent0) • e.axis0)) (outer ((1 / e.extent1) • e.axis1))) (outer ((1 / e.extent2) • e.axis2))

/-- `GetMInverse` -/
def getMInverse (e : Ellipsoid) : M3 :=
  plus (plus (outer (e.extent0 • e.axis0)) (outer (e.extent1 • e.axis1))) (outer (e.extent2 • e.axis2))

end Ellipsoid

/-- find query of a line and an ellipsoid: the roots of the quadratic -/
noncomputable def lineEllipsoid (o d : V3) (e : Ellipsoid) : List ℝ :=
  let diff := o - e.center
  let matDir := e.getM.mulVec d
  let matDiff := e.getM.mulVec diff
  let a2 := d.dot matDir
  let a1 := d.dot matDiff
  let a0 := diff.dot matDiff - 1
  let discr := a1 * a1 - a0 * a2
  if discr > 0 then [(-a1 - Real.sqrt discr) / a2, (-a1 + Real.sqrt discr) / a2]
  else if discr < 0 then []
  else [-a1 / a2]

/-- find query of a ray and an ellipsoid -/
noncomputable def rayEllipsoid (o d : V3) (e : Ellipsoid) : List ℝ := clip (lineEllipsoid o d e) 0 none

/-- find query of a segment that is not degenerate and an ellipsoid, with parameters for the centred form -/
noncomputable def segmentEllipsoid (a b : V3) (e : Ellipsoid) : List ℝ :=
  let (m, d, h) := centred a b
  clip (lineEllipsoid m d e) (-h) (some h)

/-- test query of a line and an ellipsoid -/
noncomputable def testLineEllipsoid (o d : V3) (e : Ellipsoid) : Bool :=
  let diff := o - e.center
  let matDir := e.getM.mulVec d
  let matDiff := e.getM.mulVec diff
  let a2 := d.dot matDir
  let a1 := d.dot matDiff
  let a0 := diff.dot matDiff - 1
  decide (0 ≤ a1 * a1 - a0 * a2)

/-- test query of a ray and an ellipsoid -/
noncomputable def testRayEllipsoid (o d : V3) (e : Ellipsoid) : Bool :=
  let diff := o - e.center
  let matDir := e.getM.mulVec d
  let matDiff := e.getM.mulVec diff
  let a2 := d.dot matDir
  let a1 := d.dot matDiff
  let a0 := diff.dot matDiff - 1
  if 0 ≤ a1 * a1 - a0 * a2 then
    if a0 ≤ 0 then true else decide (a1 < 0)
  else false

/-- test query of a plane (through `q` with unit normal `n`) and an ellipsoid -/
noncomputable def testPlaneEllipsoid (q n : V3) (e : Ellipsoid) : Bool :=
  decide (|n.dot e.center - n.dot q| ≤ Real.sqrt (max (n.dot (e.getMInverse.mulVec n)) 0))

end Verif.Gte
