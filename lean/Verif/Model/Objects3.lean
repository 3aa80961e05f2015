import Verif.Model.Transformation

/-!
# The 3D objects, composites and intersections

Sources: `src/OpenSpaceToolkit/Mathematics/Geometry/3D/Object/*.cpp`, `.../3D/Object/Composite.cpp`, `.../3D/Intersection.cpp` and their headers.

A member that may be undefined is an `Option`. A point set (`std::unordered_set`) is the list of its points in iteration order; nothing is
assumed about that order. Objects are values: `clone` is the identity.
-/

namespace Verif

/-! ## Loops of the standard library with a body that may throw -/

/-- `std::all_of` -/
def allOf {α : Type} (f : α → Res Bool) : List α → Res Bool
  | [] => .ok true
  | a :: l =>
    match f a with
    | .error e => .error e
    | .ok false => .ok false
    | .ok true => allOf f l

/-- `std::any_of` -/
def anyOf {α : Type} (f : α → Res Bool) : List α → Res Bool
  | [] => .ok false
  | a :: l =>
    match f a with
    | .error e => .error e
    | .ok true => .ok true
    | .ok false => anyOf f l

/-- `Array::map` -/
def mapRes {α β : Type} (f : α → Res β) : List α → Res (List β)
  | [] => .ok []
  | a :: l =>
    match f a with
    | .error e => .error e
    | .ok b =>
      match mapRes f l with
      | .error e => .error e
      | .ok bs => .ok (b :: bs)

/-- `*std::min_element`: undefined behaviour on an empty range -/
noncomputable def minElement : List ℝ → Res ℝ
  | [] => .error .ub
  | a :: l => .ok (l.foldl (fun m x => if x < m then x else m) a)

/-! ## Data -/

/-- `d3::object::Line` (members `origin_`, `direction_`) -/
structure Line3 where
  origin : Option V3
  direction : Option V3

/-- `d3::object::Ray` (members `origin_`, `direction_`) -/
structure Ray3 where
  origin : Option V3
  direction : Option V3

/-- `d3::object::Segment` (members `firstPoint_`, `secondPoint_`) -/
structure Seg3 where
  first : Option V3
  second : Option V3

/-- `d3::object::Plane` (members `point_`, `normal_`) -/
structure Plane3 where
  point : Option V3
  normal : Option V3

/-- the closed rings of a `boost::geometry` polygon (`d2::object::Polygon::Impl`, member `polygon_`) -/
structure Polygon2 where
  outer : List V2
  inners : List (List V2)

/-- `Polygon::isDefined` (`2D/Object/Polygon.cpp` 139-142) -/
def Polygon2.isDefined (p : Polygon2) : Bool := decide (3 ≤ p.outer.length)

/-- `d3::object::Polygon` (members `polygon_`, `origin_`, `xAxis_`, `yAxis_`) -/
structure Polygon3 where
  polygon : Polygon2
  origin : Option V3
  xAxis : Option V3
  yAxis : Option V3

/-- `isDefined` (`3D/Object/Polygon.cpp` 59-62) -/
def Polygon3.isDefined (p : Polygon3) : Bool := p.polygon.isDefined && p.origin.isSome && p.xAxis.isSome && p.yAxis.isSome

/-- `d3::object::Cuboid` (members `center_`, `axes_`, `extent_`) -/
structure Cuboid3 where
  center : Option V3
  ax : Option V3
  ay : Option V3
  az : Option V3
  ex : Option ℝ
  ey : Option ℝ
  ez : Option ℝ

/-- `isDefined` (`3D/Object/Cuboid.cpp` 151-155) -/
def Cuboid3.isDefined (c : Cuboid3) : Bool :=
  c.center.isSome && c.ax.isSome && c.ay.isSome && c.az.isSome && c.ex.isSome && c.ey.isSome && c.ez.isSome

/-- `d3::object::Sphere` (members `center_`, `radius_`) -/
structure Sphere3 where
  center : Option V3
  radius : Option ℝ

/-- `isDefined` (`3D/Object/Sphere.cpp` 83-86) -/
def Sphere3.isDefined (s : Sphere3) : Bool := s.center.isSome && s.radius.isSome

/-- `d3::object::Ellipsoid` (members `center_`, `a_`, `b_`, `c_`, `q_`) -/
structure Ellipsoid3 where
  center : Option V3
  a : Option ℝ
  b : Option ℝ
  c : Option ℝ
  q : Option Quat

/-- `isDefined` (`3D/Object/Ellipsoid.cpp` 126-129) -/
def Ellipsoid3.isDefined (e : Ellipsoid3) : Bool := e.center.isSome && e.a.isSome && e.b.isSome && e.c.isSome && e.q.isSome

/-- `d3::object::Pyramid` (members `base_`, `apex_`) -/
structure Pyramid3 where
  base : Polygon3
  apex : Option V3

/-- `isDefined` (`3D/Object/Pyramid.cpp` 58-61) -/
def Pyramid3.isDefined (p : Pyramid3) : Bool := p.base.isDefined && p.apex.isSome

/-- `d3::object::Cone` (members `apex_`, `axis_`, `angle_`) -/
structure Cone3 where
  apex : Option V3
  axis : Option V3
  angle : Angle

/-- `isDefined` (`3D/Object/Cone.cpp` 58-61) -/
def Cone3.isDefined (c : Cone3) : Bool := c.apex.isSome && c.axis.isSome && c.angle.isDefined

/-- `isDefined` (`3D/Object/Line.cpp` 65-68) -/
def Line3.isDefined (l : Line3) : Bool := l.origin.isSome && l.direction.isSome
/-- `isDefined` (`3D/Object/Ray.cpp` 60-63) -/
def Ray3.isDefined (r : Ray3) : Bool := r.origin.isSome && r.direction.isSome
/-- `isDefined` (`3D/Object/Segment.cpp` 54-57) -/
def Seg3.isDefined (s : Seg3) : Bool := s.first.isSome && s.second.isSome
/-- `isDefined` (`3D/Object/Plane.cpp` 53-56) -/
def Plane3.isDefined (p : Plane3) : Bool := p.point.isSome && p.normal.isSome

/-- An object of a concrete class derived from `d3::Object`. A composite has the members `defined_` and `objects_`. -/
inductive Obj3 where
  | point (p : Option V3)
  | pointSet (ps : List (Option V3))
  | line (l : Line3)
  | ray (r : Ray3)
  | segment (s : Seg3)
  | lineString (ps : List (Option V3))
  | polygon (p : Polygon3)
  | plane (p : Plane3)
  | cuboid (c : Cuboid3)
  | sphere (s : Sphere3)
  | ellipsoid (e : Ellipsoid3)
  | pyramid (p : Pyramid3)
  | cone (c : Cone3)
  | composite (defined : Bool) (objects : List Obj3)

mutual
/-- the virtual function `isDefined`; for composites `3D/Object/Composite.cpp` 195-205 -/
def Obj3.isDefined : Obj3 → Bool
  | .point p => p.isSome
  | .pointSet ps => !ps.isEmpty
  | .line l => l.isDefined
  | .ray r => r.isDefined
  | .segment s => s.isDefined
  | .lineString ps => !ps.isEmpty
  | .polygon p => p.isDefined
  | .plane p => p.isDefined
  | .cuboid c => c.isDefined
  | .sphere s => s.isDefined
  | .ellipsoid e => e.isDefined
  | .pyramid p => p.isDefined
  | .cone c => c.isDefined
  | .composite d os => d && Obj3.allDefined os
/-- the loop in `Composite::isDefined` -/
def Obj3.allDefined : List Obj3 → Bool
  | [] => true
  | o :: os => o.isDefined && Obj3.allDefined os
end

/-! ## Composites -/

/-- `d3::object::Composite` as a value of its own (members `defined_`, `objects_`) -/
structure Composite3 where
  defined : Bool
  objects : List Obj3

namespace Composite3

/-- `isDefined` (`3D/Object/Composite.cpp` 195-205) -/
def isDefined (c : Composite3) : Bool := c.defined && Obj3.allDefined c.objects

/-- constructors from an object (`3D/Object/Composite.cpp` 21-35) -/
def ofObject (o : Obj3) : Composite3 := ⟨true, [o]⟩

/-- constructor from an array (`3D/Object/Composite.cpp` 37-53) -/
def ofArray (os : List Obj3) : Composite3 := ⟨true, os⟩

/-- `Undefined` (`3D/Object/Composite.cpp` 460-467) -/
def Undefined : Composite3 := ⟨false, []⟩

/-- `Empty` (`3D/Object/Composite.cpp` 469-472) -/
def Empty : Composite3 := ⟨true, []⟩

/-- `operator +` (`3D/Object/Composite.cpp` 130-166) -/
def add (a b : Composite3) : Res Composite3 :=
  if !b.isDefined then .error .undefined
  else if !a.isDefined then .error .undefined
  else .ok ⟨true, a.objects ++ b.objects⟩

/-- `operator +=` (`3D/Object/Composite.cpp` 168-193): the flag of the left operand stays -/
def addAssign (a b : Composite3) : Res Composite3 :=
  if !b.isDefined then .error .undefined
  else if !a.isDefined then .error .undefined
  else .ok ⟨a.defined, a.objects ++ b.objects⟩

/-- `isEmpty` (`3D/Object/Composite.cpp` 207-215) -/
def isEmpty (c : Composite3) : Res Bool := if !c.isDefined then .error .undefined else .ok c.objects.isEmpty

/-- `accessObjectAt` (`3D/Object/Composite.cpp` 305-318) -/
def accessObjectAt (c : Composite3) (i : ℕ) : Res Obj3 :=
  if !c.isDefined then .error .undefined
  else match c.objects[i]? with
  | some o => .ok o
  | none => .error .runtimeError

/-- `accessObjects` (`3D/Object/Composite.cpp` 320-328) -/
def accessObjects (c : Composite3) : Res (List Obj3) := if !c.isDefined then .error .undefined else .ok c.objects

/-- `getObjectCount` (`3D/Object/Composite.cpp` 330-338) -/
def getObjectCount (c : Composite3) : Res ℕ := if !c.isDefined then .error .undefined else .ok c.objects.length

end Composite3

/-! ## Intersections -/

/-- `d3::Intersection::Type` (`3D/Intersection.hpp`) -/
inductive IType3 where
  | undefined | empty | point | pointSet | line | ray | segment | lineString | polygon | plane | cuboid | sphere | ellipsoid | pyramid | complex
  deriving DecidableEq, Repr

/-- `TypeFromObjects (Unique<Object>)` (`3D/Intersection.cpp` 303-366): cones and composites have no type -/
def IType3.ofObject : Obj3 → IType3
  | .point _ => .point
  | .pointSet _ => .pointSet
  | .line _ => .line
  | .ray _ => .ray
  | .segment _ => .segment
  | .lineString _ => .lineString
  | .polygon _ => .polygon
  | .plane _ => .plane
  | .cuboid _ => .cuboid
  | .sphere _ => .sphere
  | .ellipsoid _ => .ellipsoid
  | .pyramid _ => .pyramid
  | .cone _ => .undefined
  | .composite _ _ => .undefined

/-- the loop of `TypeFromObjects (Array)` (`3D/Intersection.cpp` 284-300) -/
def IType3.loop : IType3 → List Obj3 → IType3
  | t, [] => t
  | t, o :: os =>
    if t = .undefined then IType3.loop (.ofObject o) os
    else if t ≠ .ofObject o then .complex
    else IType3.loop t os

/-- `TypeFromObjects (Array)` (`3D/Intersection.cpp` 277-301) -/
def IType3.ofObjects (os : List Obj3) : IType3 := if os.isEmpty then .empty else IType3.loop .undefined os

/-- `d3::Intersection` (members `type_`, `composite_`) -/
structure Isect3 where
  type : IType3
  composite : Composite3

namespace Isect3

/-- constructor from an array (`3D/Intersection.cpp` 17-21) -/
def ofArray (os : List Obj3) : Isect3 := ⟨.ofObjects os, .ofArray os⟩

/-- `isDefined` (`3D/Intersection.cpp` 102-105) -/
def isDefined (i : Isect3) : Bool := decide (i.type ≠ .undefined)

/-- `isEmpty` (`3D/Intersection.cpp` 107-110) -/
def isEmpty (i : Isect3) : Bool := decide (i.type = .empty)

/-- `isComplex` (`3D/Intersection.cpp` 112-115) -/
def isComplex (i : Isect3) : Bool := decide (i.type = .complex)

/-- `getType` (`3D/Intersection.cpp` 127-135) -/
def getType (i : Isect3) : Res IType3 := if !i.isDefined then .error .undefined else .ok i.type

/-- `accessComposite` (`3D/Intersection.cpp` 117-125) -/
def accessComposite (i : Isect3) : Res Composite3 := if !i.isDefined then .error .undefined else .ok i.composite

/-- `Undefined` (`3D/Intersection.cpp` 137-144) with the default constructor (271-275) -/
def Undefined : Isect3 := ⟨.undefined, .Undefined⟩

/-- `Empty` (`3D/Intersection.cpp` 146-149) -/
def Empty : Isect3 := .ofArray []

/-- `Point` (`3D/Intersection.cpp` 151-160) -/
def Point (p : Option V3) : Isect3 := ⟨.point, .ofObject (.point p)⟩
/-- `PointSet` (`3D/Intersection.cpp` 162-171) -/
def PointSet (ps : List (Option V3)) : Isect3 := ⟨.pointSet, .ofObject (.pointSet ps)⟩
/-- `LineString` (`3D/Intersection.cpp` 173-182) -/
def LineString (ps : List (Option V3)) : Isect3 := ⟨.lineString, .ofObject (.lineString ps)⟩
/-- `Line` (`3D/Intersection.cpp` 184-193) -/
def Line (l : Line3) : Isect3 := ⟨.line, .ofObject (.line l)⟩
/-- `Ray` (`3D/Intersection.cpp` 195-204) -/
def Ray (r : Ray3) : Isect3 := ⟨.ray, .ofObject (.ray r)⟩
/-- `Segment` (`3D/Intersection.cpp` 206-215) -/
def Segment (s : Seg3) : Isect3 := ⟨.segment, .ofObject (.segment s)⟩

/-- `operator +` (`3D/Intersection.cpp` 57-71) -/
def add (a b : Isect3) : Res Isect3 :=
  if !b.isDefined then .error .undefined
  else do
    let c ← a.composite.add b.composite
    let os ← c.accessObjects
    return ⟨.ofObjects os, c⟩

/-- `operator +=` (`3D/Intersection.cpp` 73-85) -/
def addAssign (a b : Isect3) : Res Isect3 :=
  if !b.isDefined then .error .undefined
  else do
    let c ← a.composite.addAssign b.composite
    let os ← c.accessObjects
    return ⟨.ofObjects os, c⟩

end Isect3

end Verif
