import Verif.Model.Objects3
import Verif.Model.Points

/-!
# Cuboids

Model of `Geometry/3D/Object/Cuboid.cpp`. The two queries of the Geometric Tools Engine (`GteIntrLine3OrientedBox3.h`,
`GteIntrOrientedBox3OrientedBox3.h`) are not part of the repository; `Gte.testLineBox` and `Gte.testBoxBox` say what they compute over exact reals and
are part of the trusted base. `print` is in `Model/Print.lean`.
-/

namespace Verif

open Classical

namespace Gte

/-- test query of a line and an oriented box (separating axes): `o` and `d` are the coordinates of the origin and direction along the axes -/
noncomputable def testLineBox (o d : V3) (ex ey ez : ℝ) : Bool :=
  let w := d.cross o
  if |w.x| > ey * |d.z| + ez * |d.y| then false
  else if |w.y| > ex * |d.z| + ez * |d.x| then false
  else if |w.z| > ex * |d.y| + ey * |d.x| then false
  else true

/-- whether the axis `l` separates two boxes, `d` being the difference of the centres and `g`, `h` the half axes, each scaled by its extent -/
noncomputable def separates (l d : V3) (g h : List V3) : Bool :=
  decide (|l.dot d| > (g.map fun v => |l.dot v|).sum + (h.map fun v => |l.dot v|).sum)

/-- test query of two oriented boxes: the axes of both and their cross products are tried as separating axes. (The library skips the cross products when two
axes have a dot product above one, which does not happen for unit axes and exact numbers. It multiplies by the extents after taking dot products.) -/
noncomputable def testBoxBox (d : V3) (a b : List V3) (g h : List V3) : Bool :=
  !((a ++ b ++ a.flatMap fun u => b.map fun v => u.cross v).any fun l => separates l d g h)

end Gte

namespace Cuboid3

/-- members of a defined cuboid -/
structure Parts where
  c : V3
  ax : V3
  ay : V3
  az : V3
  ex : ℝ
  ey : ℝ
  ez : ℝ

/-- the members, or the exception of the getters and operations on an undefined cuboid -/
def need (c : Cuboid3) : Res Parts :=
  match c.center, c.ax, c.ay, c.az, c.ex, c.ey, c.ez with
  | some c, some ax, some ay, some az, some ex, some ey, some ez => .ok ⟨c, ax, ay, az, ex, ey, ez⟩
  | _, _, _, _, _, _, _ => .error .undefined

/-- `((axes_[i] == aCuboid.axes_[j]) || (axes_[i] == -aCuboid.axes_[j])) && (extent_[i] == aCuboid.extent_[j])`, as in `operator ==` -/
noncomputable def sameAxis (a b : V3) (e f : ℝ) : Bool := (decide (a = b) || decide (a = -b)) && decide (e = f)

/-- `operator ==` (`3D/Object/Cuboid.cpp` 67-144) -/
noncomputable def eq (c d : Cuboid3) : Bool :=
  match c.need, d.need with
  | .ok p, .ok q =>
    if p.c = q.c then
      if sameAxis p.ax q.ax p.ex q.ex then
        if sameAxis p.ay q.ay p.ey q.ey then sameAxis p.az q.az p.ez q.ez
        else if sameAxis p.ay q.az p.ey q.ez then sameAxis p.az q.ay p.ez q.ey
        else false
      else if sameAxis p.ax q.ay p.ex q.ey then
        if sameAxis p.ay q.ax p.ey q.ex then sameAxis p.az q.az p.ez q.ez
        else if sameAxis p.ay q.az p.ey q.ez then sameAxis p.az q.ax p.ez q.ex
        else false
      else if sameAxis p.ax q.az p.ex q.ez then
        if sameAxis p.ay q.ax p.ey q.ex then sameAxis p.az q.ay p.ez q.ey
        else if sameAxis p.ay q.ay p.ey q.ey then sameAxis p.az q.ax p.ez q.ex
        else false
      else false
    else false
  | _, _ => false

/-- `getVertices` (`3D/Object/Cuboid.cpp` 411-436) -/
noncomputable def getVertices (c : Cuboid3) : Res (List V3) := do
  let p ← c.need
  let x := (p.ex / 2) • p.ax
  let y := (p.ey / 2) • p.ay
  let z := (p.ez / 2) • p.az
  return [p.c + x + y + z, p.c + x + y - z, p.c + x - y - z, p.c + x - y + z, p.c - x + y + z, p.c - x + y - z, p.c - x - y - z, p.c - x - y + z]

/-- `isNear` (`3D/Object/Cuboid.cpp` 157-175) -/
noncomputable def isNear (c d : Cuboid3) (tol : Option ℝ) : Res Bool :=
  if !d.isDefined then .error .undefined
  else match tol with
  | none => .error .undefined
  | some _ => do
    let vs ← c.getVertices
    let ws ← d.getVertices
    let ps ← PointSet3.ofArray (vs.map some)
    let qs ← PointSet3.ofArray (ws.map some)
    PointSet3.isNear ps qs tol

/-- `contains (Point)` (`3D/Object/Cuboid.cpp` 283-317) -/
noncomputable def contains (eps : ℝ) (c : Cuboid3) (x : Option V3) : Res Bool := do
  let x ← Verif.need x
  let p ← c.need
  let dx := x - p.c
  let a := |dx.dot p.ax|
  let b := |dx.dot p.ay|
  let c := |dx.dot p.az|
  return (if |a - p.ex| < eps then decide (b ≤ p.ey) && decide (c ≤ p.ez)
    else if |b - p.ey| < eps then decide (a ≤ p.ex) && decide (c ≤ p.ez)
    else if |c - p.ez| < eps then decide (a ≤ p.ex) && decide (b ≤ p.ey)
    else false)

/-- `intersects (Point)` (`3D/Object/Cuboid.cpp` 177-180) -/
noncomputable def intersectsPoint (eps : ℝ) (c : Cuboid3) (x : Option V3) : Res Bool := c.contains eps x

/-- `intersects (PointSet)` (`3D/Object/Cuboid.cpp` 182-197) -/
noncomputable def intersectsSet (eps : ℝ) (c : Cuboid3) (ps : List (Option V3)) : Res Bool :=
  if !c.isDefined then .error .undefined
  else if ps.isEmpty then .ok false
  else anyOf (c.contains eps) ps

/-- `intersects (Line)` (`3D/Object/Cuboid.cpp` 199-234) -/
noncomputable def intersectsLine (c : Cuboid3) (l : Line3) : Res Bool := do
  let p ← c.need
  let o ← Verif.need l.origin
  let d ← Verif.need l.direction
  let m := o - p.c
  return Gte.testLineBox ⟨m.dot p.ax, m.dot p.ay, m.dot p.az⟩ ⟨d.dot p.ax, d.dot p.ay, d.dot p.az⟩ p.ex p.ey p.ez

/-- `intersects (Cuboid)` (`3D/Object/Cuboid.cpp` 236-281) -/
noncomputable def intersectsCuboid (c d : Cuboid3) : Res Bool := do
  let p ← c.need
  let q ← d.need
  return Gte.testBoxBox (q.c - p.c) [p.ax, p.ay, p.az] [q.ax, q.ay, q.az] [p.ex • p.ax, p.ey • p.ay, p.ez • p.az] [q.ex • q.ax, q.ey • q.ay, q.ez • q.az]

/-- `contains (PointSet)` (`3D/Object/Cuboid.cpp` 319-334) -/
noncomputable def containsSet (eps : ℝ) (c : Cuboid3) (ps : List (Option V3)) : Res Bool :=
  if !c.isDefined then .error .undefined
  else if ps.isEmpty then .ok false
  else allOf (c.contains eps) ps

/-- `contains (Segment)` (`3D/Object/Cuboid.cpp` 336-339) -/
noncomputable def containsSegment (eps : ℝ) (c : Cuboid3) (s : Seg3) : Res Bool :=
  if !s.isDefined then .error .undefined
  else allOf (c.contains eps) [s.first, s.second]

/-- `getCenter` (`3D/Object/Cuboid.cpp` 341-349) -/
def getCenter (c : Cuboid3) : Res V3 := do return (← c.need).c
/-- `getFirstAxis` (`3D/Object/Cuboid.cpp` 351-359) -/
def getFirstAxis (c : Cuboid3) : Res V3 := do return (← c.need).ax
/-- `getSecondAxis` (`3D/Object/Cuboid.cpp` 361-369) -/
def getSecondAxis (c : Cuboid3) : Res V3 := do return (← c.need).ay
/-- `getThirdAxis` (`3D/Object/Cuboid.cpp` 371-379) -/
def getThirdAxis (c : Cuboid3) : Res V3 := do return (← c.need).az
/-- `getFirstExtent` (`3D/Object/Cuboid.cpp` 381-389) -/
def getFirstExtent (c : Cuboid3) : Res ℝ := do return (← c.need).ex
/-- `getSecondExtent` (`3D/Object/Cuboid.cpp` 391-399) -/
def getSecondExtent (c : Cuboid3) : Res ℝ := do return (← c.need).ey
/-- `getThirdExtent` (`3D/Object/Cuboid.cpp` 401-409) -/
def getThirdExtent (c : Cuboid3) : Res ℝ := do return (← c.need).ez

/-- `applyTransformation` (`3D/Object/Cuboid.cpp` 462-494) -/
noncomputable def applyTransformation (t : T3) (c : Cuboid3) : Res Cuboid3 :=
  if !t.isDefined then .error .undefined
  else do
    let p ← c.need
    let id ← t.isIdentity
    if id then return c
    else do
      let o ← t.applyTo (some p.c)
      let f := fun a : V3 => t.applyToVector (some a)
      let g := fun (a : V3) (e : ℝ) => (f a).map fun v => e * v.norm
      return ⟨o, (f p.ax).map V3.normalized, (f p.ay).map V3.normalized, (f p.az).map V3.normalized, g p.ax p.ex, g p.ay p.ey, g p.az p.ez⟩

/-- `Undefined` (`3D/Object/Cuboid.cpp` 496-503) -/
def Undefined : Cuboid3 := ⟨none, none, none, none, none, none, none⟩

/-- `Cube` (`3D/Object/Cuboid.cpp` 505-518) -/
def Cube (c : Option V3) (e : Option ℝ) : Res Cuboid3 := do
  let c ← Verif.need c
  let e ← Verif.need e
  return ⟨some c, some V3.X, some V3.Y, some V3.Z, some e, some e, some e⟩

end Cuboid3

end Verif
