import Verif.Model.Cuboid
import Verif.Model.Pyramid

/-!
# The base class of the objects of space

`src/OpenSpaceToolkit/Mathematics/Geometry/3D/Object.cpp` and the queries of `3D/Object/Composite.cpp`. The functions of the base class find the concrete types of both
operands with `dynamic_cast` and call the overload for the pair. Composites override `intersects`, `contains` and `intersectionWith`. The default arguments of the
overloads are inserted: 40 rays (`Pyramid.hpp` 36, `Cone.hpp` 36) and all the points, not only those in sight. Simplified: before `ToBeImplemented` is thrown both
operands are printed to the console (`3D/Object.cpp` 486-487, 848-849); for the ellipsoids whose printing throws (C124), that error is thrown in its place.
-/

namespace Verif

open Classical

/-- the constants of the environment: `Real::Epsilon ()`, the tolerance of the ellipsoid and segment query, the region algorithms of boost and the eigen solver -/
structure Env3 where
  eps : ℝ
  tol : ℝ
  boost : Boost
  solve : M3 → Option Eigen3

variable (E : Env3)

mutual
/-- `operator ==` (`3D/Object.cpp` 34-207); for composites also `3D/Object/Composite.cpp` 102-123 -/
noncomputable def Obj3.eq : Obj3 → Obj3 → Res Bool
  | .composite d os, b =>
    if !(d && Obj3.allDefined os) || !b.isDefined then .ok false
    else match b with
    | .composite _ ps => if os.length ≠ ps.length then .ok false else Obj3.eqLoop os ps
    | _ => .ok false
  | .point p, .point q => .ok (p.isSome && q.isSome && P3.eq p q)
  | .pointSet ps, .pointSet qs => .ok (!ps.isEmpty && !qs.isEmpty && PointSet3.eq ps qs)
  | .line l, .line m => .ok (l.isDefined && m.isDefined && l.eq m)
  | .ray r, .ray s => .ok (r.isDefined && s.isDefined && r.eq s)
  | .segment s, .segment t => .ok (s.isDefined && t.isDefined && s.eq t)
  | .lineString ps, .lineString qs => .ok (!ps.isEmpty && !qs.isEmpty && LineString3.eq ps qs)
  | .polygon p, .polygon q => .ok (p.isDefined && q.isDefined && p.eq E.boost q)
  | .plane p, .plane q => .ok (p.isDefined && q.isDefined && p.eq q)
  | .cuboid c, .cuboid d => .ok (c.isDefined && d.isDefined && c.eq d)
  | .sphere s, .sphere t => .ok (s.isDefined && t.isDefined && s.eq t)
  | .ellipsoid e, .ellipsoid f => if !e.isDefined || !f.isDefined then .ok false else e.eq E.eps f
  | .pyramid p, .pyramid q => .ok (p.isDefined && q.isDefined && p.eq E.boost q)
  | .cone c, .cone d => if !c.isDefined || !d.isDefined then .ok false else c.eq d
  | _, _ => .ok false
/-- the loop in `Composite::operator ==` (`3D/Object/Composite.cpp` 114-120) -/
noncomputable def Obj3.eqLoop : List Obj3 → List Obj3 → Res Bool
  | o :: os, p :: ps =>
    match Obj3.eq o p with
    | .error e => .error e
    | .ok false => .ok false
    | .ok true => Obj3.eqLoop os ps
  | _, _ => .ok true
end

/-- `Object::intersects (Object)` (`3D/Object.cpp` 221-492). The overloads of `Plane`, `Sphere` and `Ellipsoid`, and those of `Line`, `Ray` and `Segment` for spheres and
ellipsoids, call the overload of the other operand (`Plane.cpp` 85-98, `Sphere.cpp` 253-261, `Ellipsoid.cpp` 448-456, `Line.cpp` 108-116, `Ray.cpp` 106-114,
`Segment.cpp` 106-114). -/
noncomputable def Obj3.intersectsBase (a b : Obj3) : Res Bool :=
  if !b.isDefined then .error .undefined
  else match a, b with
  | .line l, .plane p => l.intersects p
  | .line l, .sphere s => s.intersectsLine l
  | .line l, .ellipsoid e => e.intersectsLine E.eps l
  | .ray r, .plane p => r.intersects p
  | .ray r, .sphere s => s.intersectsRay r
  | .ray r, .ellipsoid e => e.intersectsRay E.eps r
  | .segment t, .plane p => t.intersects p
  | .segment t, .sphere s => s.intersectsSegment t
  | .segment t, .ellipsoid e => e.intersectsSegment E.eps E.tol t
  | .plane p, .point q => p.contains q
  | .plane p, .pointSet qs => p.intersectsSet qs
  | .plane p, .line l => l.intersects p
  | .plane p, .ray r => r.intersects p
  | .plane p, .segment t => t.intersects p
  | .sphere s, .line l => s.intersectsLine l
  | .sphere s, .segment t => s.intersectsSegment t
  | .sphere s, .ray r => s.intersectsRay r
  | .sphere s, .pyramid p => p.intersectsSphere E.eps s 40
  | .sphere s, .cone c => c.intersectsSphere s
  | .ellipsoid e, .line l => e.intersectsLine E.eps l
  | .ellipsoid e, .segment t => e.intersectsSegment E.eps E.tol t
  | .ellipsoid e, .ray r => e.intersectsRay E.eps r
  | .ellipsoid e, .pyramid p => p.intersectsEllipsoid E.eps e 40
  | .ellipsoid e, .cone c => c.intersectsEllipsoid E.eps e 40
  | .pyramid p, .sphere s => p.intersectsSphere E.eps s 40
  | .pyramid p, .ellipsoid e => p.intersectsEllipsoid E.eps e 40
  | .cone c, .sphere s => c.intersectsSphere s
  | .cone c, .ellipsoid e => c.intersectsEllipsoid E.eps e 40
  | _, _ => .error .toBeImplemented

mutual
/-- the virtual function `intersects (Object)`; for composites `3D/Object/Composite.cpp` 217-237 -/
noncomputable def Obj3.intersects : Obj3 → Obj3 → Res Bool
  | .composite d os, b =>
    if !b.isDefined then .error .undefined
    else if !(d && Obj3.allDefined os) then .error .undefined
    else Obj3.anyIntersects os b
  | .point p, b => Obj3.intersectsBase E (.point p) b
  | .pointSet ps, b => Obj3.intersectsBase E (.pointSet ps) b
  | .line l, b => Obj3.intersectsBase E (.line l) b
  | .ray r, b => Obj3.intersectsBase E (.ray r) b
  | .segment s, b => Obj3.intersectsBase E (.segment s) b
  | .lineString ps, b => Obj3.intersectsBase E (.lineString ps) b
  | .polygon p, b => Obj3.intersectsBase E (.polygon p) b
  | .plane p, b => Obj3.intersectsBase E (.plane p) b
  | .cuboid c, b => Obj3.intersectsBase E (.cuboid c) b
  | .sphere s, b => Obj3.intersectsBase E (.sphere s) b
  | .ellipsoid e, b => Obj3.intersectsBase E (.ellipsoid e) b
  | .pyramid p, b => Obj3.intersectsBase E (.pyramid p) b
  | .cone c, b => Obj3.intersectsBase E (.cone c) b
/-- the loop in `Composite::intersects (Object)` (`3D/Object/Composite.cpp` 229-236) -/
noncomputable def Obj3.anyIntersects : List Obj3 → Obj3 → Res Bool
  | [], _ => .ok false
  | o :: os, b =>
    match Obj3.intersects o b with
    | .error e => .error e
    | .ok true => .ok true
    | .ok false => Obj3.anyIntersects os b
end

/-- `Object::contains (Object)` (`3D/Object.cpp` 494-679) -/
noncomputable def Obj3.containsBase (a b : Obj3) : Res Bool :=
  if !b.isDefined then .error .undefined
  else match a, b with
  | .plane p, .point q => p.contains q
  | .plane p, .pointSet qs => p.containsSet qs
  | .plane p, .line l => p.containsLine l
  | .plane p, .ray r => p.containsRay r
  | .plane p, .segment s => p.containsSegment s
  | .ellipsoid e, .segment s => e.containsSegment E.eps s
  | .pyramid p, .point q => p.contains E.eps E.boost q
  | .pyramid p, .pointSet qs => p.containsSet E.eps E.boost qs
  | .pyramid p, .segment s => p.containsSegment E.eps E.boost s
  | .pyramid p, .ellipsoid e => p.containsEllipsoid e
  | .cone c, .point q => c.contains E.eps q
  | .cone c, .pointSet qs => c.containsSet E.eps qs
  | .cone c, .segment s => c.containsSegment E.eps s
  | .cone c, .ray r => c.containsRay E.eps r
  | .cone c, .sphere s => c.containsSphere E.eps s
  | .cone c, .ellipsoid e => c.containsEllipsoid e
  | _, _ => .error .toBeImplemented

mutual
/-- the virtual function `contains (Object)`; for composites `3D/Object/Composite.cpp` 261-281, without a test for emptiness -/
noncomputable def Obj3.contains : Obj3 → Obj3 → Res Bool
  | .composite d os, b =>
    if !b.isDefined then .error .undefined
    else if !(d && Obj3.allDefined os) then .error .undefined
    else Obj3.allContain os b
  | .point p, b => Obj3.containsBase E (.point p) b
  | .pointSet ps, b => Obj3.containsBase E (.pointSet ps) b
  | .line l, b => Obj3.containsBase E (.line l) b
  | .ray r, b => Obj3.containsBase E (.ray r) b
  | .segment s, b => Obj3.containsBase E (.segment s) b
  | .lineString ps, b => Obj3.containsBase E (.lineString ps) b
  | .polygon p, b => Obj3.containsBase E (.polygon p) b
  | .plane p, b => Obj3.containsBase E (.plane p) b
  | .cuboid c, b => Obj3.containsBase E (.cuboid c) b
  | .sphere s, b => Obj3.containsBase E (.sphere s) b
  | .ellipsoid e, b => Obj3.containsBase E (.ellipsoid e) b
  | .pyramid p, b => Obj3.containsBase E (.pyramid p) b
  | .cone c, b => Obj3.containsBase E (.cone c) b
/-- the loop in `Composite::contains (Object)` (`3D/Object/Composite.cpp` 273-280) -/
noncomputable def Obj3.allContain : List Obj3 → Obj3 → Res Bool
  | [], _ => .ok true
  | o :: os, b =>
    match Obj3.contains o b with
    | .error e => .error e
    | .ok false => .ok false
    | .ok true => Obj3.allContain os b
end

/-- `Object::intersectionWith (Object)` (`3D/Object.cpp` 681-854) with a bound on the depth of the calls. For two polygons the call
`objectPtr->intersectionWith(*otherObjectPtr)` (842-848) has no overload of `Polygon` to go to (`3D/Object/Polygon.hpp` declares none, `3D/Object/Polygon.cpp` 242-245 is
commented out) and so is a call of this very function; when the stack is used up the behaviour is undefined. -/
noncomputable def Obj3.intersectionBase : ℕ → Obj3 → Obj3 → Res Isect3
  | 0, _, _ => .error .ub
  | n + 1, a, b =>
    if !b.isDefined then .error .undefined
    else match a, b with
    | .line l, .plane p => l.intersectionWith p
    | .ray r, .plane p => r.intersectionWith p
    | .ray r, .ellipsoid e => e.intersectionWithRay E.eps r false
    | .segment s, .plane p => s.intersectionWith p
    | .sphere s, .ray r => s.intersectionWithRay E.eps r false
    | .sphere s, .pyramid p => p.intersectionWithSphere E.eps s false 40
    | .sphere s, .cone c => c.intersectionWithSphere E.eps s false 40
    | .ellipsoid e, .ray r => e.intersectionWithRay E.eps r false
    | .ellipsoid e, .pyramid p => p.intersectionWithEllipsoid E.eps e false 40
    | .ellipsoid e, .cone c => c.intersectionWithEllipsoid E.eps e false 40
    | .pyramid p, .sphere s => p.intersectionWithSphere E.eps s false 40
    | .pyramid p, .ellipsoid e => p.intersectionWithEllipsoid E.eps e false 40
    | .cone c, .sphere s => c.intersectionWithSphere E.eps s false 40
    | .cone c, .ellipsoid e => c.intersectionWithEllipsoid E.eps e false 40
    | .polygon p, .polygon q => Obj3.intersectionBase n (.polygon p) (.polygon q)
    | _, _ => .error .toBeImplemented

mutual
/-- the virtual function `intersectionWith (Object)`; for composites `3D/Object/Composite.cpp` 340-365 -/
noncomputable def Obj3.intersectionWith (depth : ℕ) : Obj3 → Obj3 → Res Isect3
  | .composite d os, b =>
    if !b.isDefined then .error .undefined
    else if !(d && Obj3.allDefined os) then .error .undefined
    else Obj3.intersectAll depth .Empty os b
  | .point p, b => Obj3.intersectionBase E depth (.point p) b
  | .pointSet ps, b => Obj3.intersectionBase E depth (.pointSet ps) b
  | .line l, b => Obj3.intersectionBase E depth (.line l) b
  | .ray r, b => Obj3.intersectionBase E depth (.ray r) b
  | .segment s, b => Obj3.intersectionBase E depth (.segment s) b
  | .lineString ps, b => Obj3.intersectionBase E depth (.lineString ps) b
  | .polygon p, b => Obj3.intersectionBase E depth (.polygon p) b
  | .plane p, b => Obj3.intersectionBase E depth (.plane p) b
  | .cuboid c, b => Obj3.intersectionBase E depth (.cuboid c) b
  | .sphere s, b => Obj3.intersectionBase E depth (.sphere s) b
  | .ellipsoid e, b => Obj3.intersectionBase E depth (.ellipsoid e) b
  | .pyramid p, b => Obj3.intersectionBase E depth (.pyramid p) b
  | .cone c, b => Obj3.intersectionBase E depth (.cone c) b
/-- the loop in `Composite::intersectionWith (Object)` (`3D/Object/Composite.cpp` 352-364) -/
noncomputable def Obj3.intersectAll (depth : ℕ) : Isect3 → List Obj3 → Obj3 → Res Isect3
  | i, [], _ => .ok i
  | i, o :: os, b =>
    match Obj3.intersectionWith depth o b with
    | .error e => .error e
    | .ok j =>
      if j.isDefined && !j.isEmpty then
        match i.addAssign j with
        | .error e => .error e
        | .ok k => Obj3.intersectAll depth k os b
      else Obj3.intersectAll depth i os b
end

mutual
/-- the virtual function `applyTransformation`; for composites `3D/Object/Composite.cpp` 435-458. When a member throws, the members before it have already been
transformed in place; only the error is modelled. -/
noncomputable def Obj3.applyTransformation (t : T3) : Obj3 → Res Obj3
  | .composite d os =>
    if !t.isDefined then .error .undefined
    else if !(d && Obj3.allDefined os) then .error .undefined
    else match t.isIdentity with
    | .error e => .error e
    | .ok true => .ok (.composite d os)
    | .ok false =>
      match Obj3.transformAll t os with
      | .error e => .error e
      | .ok ps => .ok (.composite d ps)
  | .point p => (P3.applyTransformation t p).map .point
  | .pointSet ps => (PointSet3.applyTransformation t ps).map .pointSet
  | .line l => (l.applyTransformation t).map .line
  | .ray r => (r.applyTransformation t).map .ray
  | .segment s => (s.applyTransformation t).map .segment
  | .lineString ps => (LineString3.applyTransformation t ps).map .lineString
  | .polygon p => (p.applyTransformation t).map .polygon
  | .plane p => (p.applyTransformation t).map .plane
  | .cuboid c => (c.applyTransformation t).map .cuboid
  | .sphere s => (s.applyTransformation t).map .sphere
  | .ellipsoid e => (e.applyTransformation E.eps E.solve t).map .ellipsoid
  | .pyramid p => (p.applyTransformation t).map .pyramid
  | .cone c => (c.applyTransformation t).map .cone
/-- the loop in `Composite::applyTransformation` (`3D/Object/Composite.cpp` 454-457) -/
noncomputable def Obj3.transformAll (t : T3) : List Obj3 → Res (List Obj3)
  | [] => .ok []
  | o :: os =>
    match Obj3.applyTransformation t o with
    | .error e => .error e
    | .ok p =>
      match Obj3.transformAll t os with
      | .error e => .error e
      | .ok ps => .ok (p :: ps)
end

namespace Composite3

/-- a composite as an object -/
def toObj (c : Composite3) : Obj3 := .composite c.defined c.objects

/-- `operator ==` (`3D/Object/Composite.cpp` 102-123) -/
noncomputable def eq (c d : Composite3) : Res Bool :=
  if !c.isDefined || !d.isDefined then .ok false
  else if c.objects.length ≠ d.objects.length then .ok false
  else Obj3.eqLoop E c.objects d.objects

/-- `intersects (Composite)` (`3D/Object/Composite.cpp` 239-259) -/
noncomputable def intersectsComposite (c d : Composite3) : Res Bool :=
  if !d.isDefined then .error .undefined
  else if !c.isDefined then .error .undefined
  else anyOf (fun o => Obj3.intersects E c.toObj o) d.objects

/-- `contains (Composite)` (`3D/Object/Composite.cpp` 283-303) -/
noncomputable def containsComposite (c d : Composite3) : Res Bool :=
  if !d.isDefined then .error .undefined
  else if !c.isDefined then .error .undefined
  else allOf (fun o => Obj3.contains E c.toObj o) d.objects

/-- the loop in `intersectionWith (Composite)` (`3D/Object/Composite.cpp` 379-391) -/
noncomputable def intersectLoop (depth : ℕ) (c : Composite3) : Isect3 → List Obj3 → Res Isect3
  | i, [] => .ok i
  | i, o :: os => do
    let j ← Obj3.intersectionWith E depth c.toObj o
    if j.isDefined && !j.isEmpty then do
      let k ← i.addAssign j
      intersectLoop depth c k os
    else intersectLoop depth c i os

/-- `intersectionWith (Composite)` (`3D/Object/Composite.cpp` 367-392) -/
noncomputable def intersectionWithComposite (depth : ℕ) (c d : Composite3) : Res Isect3 :=
  if !d.isDefined then .error .undefined
  else if !c.isDefined then .error .undefined
  else intersectLoop E depth c .Empty d.objects

end Composite3

end Verif
