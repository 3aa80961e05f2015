import Verif.Model.Dispatch3
import Verif.Model.Names
import Verif.Model.Objects2

/-!
# Printing

The functions `print` and the operators `<<` of the geometric objects. What they write is a list of pieces: the frame (`Print::Header`, `Print::Footer`,
`Print::Separator` of ostk-core) and lines made of words (`Print::Line`). The texts of numbers, points, vectors, angles and orientations are parameters.
An exception ends the printing; what was written before it is not modelled.
-/

namespace Verif

/-- the functions `toString` of the members, into a type of texts with the literals and concatenation; the type is left open, as no function from the real numbers to
strings tells all of them apart -/
structure Texts where
  Text : Type
  lit : String → Text
  cat : Text → Text → Text
  real : ℝ → Text
  point3 : V3 → Text
  vector3 : V3 → Text
  point2 : V2 → Text
  vector2 : V2 → Text
  quaternion : Quat → Text
  angle : Angle → Text
  index : ℕ → String

/-- a piece of what is printed -/
inductive Piece (W : Type) where
  | header (title : String)
  | footer
  | separator (title : String)
  | line (words : List W)

namespace Print

variable (T : Texts)

/-- `x.isDefined() ? x.toString() : "Undefined"` -/
def word {α : Type} (f : α → T.Text) : Option α → T.Text
  | none => T.lit "Undefined"
  | some a => f a

/-- a line with a label -/
def member {α : Type} (label : String) (f : α → T.Text) (x : Option α) : Piece T.Text := .line [T.lit label, word T f x]

/-- `displayDecorators ? Header : void ()` and `Footer` around the rest -/
def frame {W : Type} (decorators : Bool) (title : String) (body : List (Piece W)) : List (Piece W) := if decorators then .header title :: body ++ [.footer] else body

end Print

open Print

variable (T : Texts)

/-! ## The plane -/

/-- the loop over the vertices of a ring -/
def Print.vertices (vs : List V2) : List (Piece T.Text) := vs.map fun v => .line [T.cat (T.lit "- ") (T.point2 v)]

/-- the loop over the inner rings (`2D/Object/Polygon.cpp` 983-991); `i` is `innerRingIndex` -/
def Print.inners : ℕ → List (List V2) → List (Piece T.Text)
  | _, [] => []
  | i, r :: rs => .separator ("Inner Ring @ " ++ T.index i) :: vertices T r.dropLast ++ Print.inners (i + 1) rs

/-- `Polygon::print` (`2D/Object/Polygon.cpp` 961-999) without decorators; the pointer is never null -/
def Polygon2.print (p : Polygon2) : List (Piece T.Text) :=
  .separator "Outer Ring" :: Print.vertices T p.outerVertices ++ .separator "Inner Rings" :: Print.inners T 0 p.inners

/-- `MultiPolygon::print` (`2D/Object/MultiPolygon.cpp` 473-490) without decorators; the pointer is never null -/
noncomputable def MultiPolygon2.print (ps : List Polygon2) : Res (List (Piece T.Text)) := do
  let qs ← MultiPolygon2.getPolygons ps
  return qs.flatMap (Polygon2.print T)

mutual
/-- the virtual function `print`: `2D/Object/Point.cpp` 175-183, `2D/Object/PointSet.cpp` 200-210, `2D/Object/Line.cpp` 180-190, `2D/Object/Segment.cpp` 263-273,
`2D/Object/LineString.cpp` 224-234, `2D/Object/Polygon.cpp` 961-999, `2D/Object/MultiPolygon.cpp` 473-490, `2D/Object/Composite.cpp` 503-522 -/
noncomputable def Obj2.print (d : Bool) : Obj2 → Res (List (Piece T.Text))
  | .point p => .ok (frame d "Point" [member T "X:" T.real (p.map V2.x), member T "Y:" T.real (p.map V2.y)])
  | .pointSet ps => .ok (frame d "Point Set" (ps.map fun p => .line [word T T.point2 p]))
  | .line l => .ok (frame d "Line" [member T "Origin:" T.point2 l.origin, member T "Direction:" T.vector2 l.direction])
  | .segment s => .ok (frame d "Segment" [member T "First point:" T.point2 s.first, member T "Second point:" T.point2 s.second])
  | .lineString ps => .ok (frame d "Line string" (ps.map fun p => .line [word T T.point2 p]))
  | .polygon p => .ok (frame d "Polygon" (p.print T))
  | .multiPolygon ps => (MultiPolygon2.print T ps).map (frame d "Multi-polygon")
  | .composite _ os =>
    match os with
    | [] => .ok (frame d "Composite" [.line [T.lit "Empty"]])
    | _ => (Obj2.printAll os).map fun s => frame d "Composite" (.separator "Objects" :: s)
/-- the loop over the members of a composite: `operator <<` (`2D/Object.cpp` 72-77) prints them with decorators -/
noncomputable def Obj2.printAll : List Obj2 → Res (List (Piece T.Text))
  | [] => .ok []
  | o :: os =>
    match Obj2.print true o with
    | .error e => .error e
    | .ok s => (Obj2.printAll os).map (s ++ ·)
end

/-- `operator <<` (`2D/Intersection.cpp` 87-100) -/
noncomputable def Isect2.print (i : Isect2) : Res (List (Piece T.Text)) := do
  let n ← Names.intersection2 i.type
  let s ← Obj2.print T false (.composite i.composite.defined i.composite.objects)
  return .header "Intersection" :: .line [T.lit "Type:", T.lit n] :: .line [T.lit "Composite:"] :: s ++ [.footer]

/-! ## Space -/

/-- `Polygon::print` (`3D/Object/Polygon.cpp` 247-264) without decorators -/
def Polygon3.print (p : Polygon3) : List (Piece T.Text) :=
  [member T "Origin:" T.point3 p.origin, member T "X axis:" T.vector3 p.xAxis, member T "Y axis:" T.vector3 p.yAxis, .separator "Polygon"] ++ p.polygon.print T

/-- `q_.isDefined() ? this->getFirstAxis().toString() : "Undefined"` -/
def Print.axis (q : Option Quat) (v : Res V3) : Res T.Text :=
  match q with
  | none => .ok (T.lit "Undefined")
  | some _ => v.map T.vector3

/-- `Ellipsoid::print` (`3D/Object/Ellipsoid.cpp` 900-924) without decorators: the axes are those of an ellipsoid that is all defined -/
noncomputable def Ellipsoid3.print (eps : ℝ) (e : Ellipsoid3) : Res (List (Piece T.Text)) := do
  let u ← axis T e.q (e.getFirstAxis eps)
  let v ← axis T e.q (e.getSecondAxis eps)
  let w ← axis T e.q (e.getThirdAxis eps)
  return [member T "Center:" T.point3 e.center, member T "First principal semi-axis:" T.real e.a, member T "Second principal semi-axis:" T.real e.b,
    member T "Third principal semi-axis:" T.real e.c, .line [T.lit "First axis:", u], .line [T.lit "Second axis:", v], .line [T.lit "Third axis:", w],
    member T "Orientation:" T.quaternion e.q]

/-- an angle that is defined, or nothing -/
def Print.defined (a : Angle) : Option Angle := if a.isDefined then some a else none

mutual
/-- the virtual function `print`: `3D/Object/Point.cpp` 173-182, `3D/Object/PointSet.cpp` 162-172, `3D/Object/Line.cpp` 221-231, `3D/Object/Ray.cpp` 252-262,
`3D/Object/Segment.cpp` 314-324, `3D/Object/LineString.cpp` 120-130, `3D/Object/Polygon.cpp` 247-264, `3D/Object/Plane.cpp` 244-254,
`3D/Object/Cuboid.cpp` 438-460, `3D/Object/Sphere.cpp` 568-578, `3D/Object/Ellipsoid.cpp` 900-924, `3D/Object/Pyramid.cpp` 497-508,
`3D/Object/Cone.cpp` 469-479, `3D/Object/Composite.cpp` 414-433 -/
noncomputable def Obj3.print (eps : ℝ) (d : Bool) : Obj3 → Res (List (Piece T.Text))
  | .point p => .ok (frame d "Point" [member T "X:" T.real (p.map V3.x), member T "Y:" T.real (p.map V3.y), member T "Z:" T.real (p.map V3.z)])
  | .pointSet ps => .ok (frame d "Point Set" (ps.map fun p => .line [word T T.point3 p]))
  | .line l => .ok (frame d "Line" [member T "Origin:" T.point3 l.origin, member T "Direction:" T.vector3 l.direction])
  | .ray l => .ok (frame d "Ray" [member T "Origin:" T.point3 l.origin, member T "Direction:" T.vector3 l.direction])
  | .segment s => .ok (frame d "Segment" [member T "First point:" T.point3 s.first, member T "Second point:" T.point3 s.second])
  | .lineString ps => .ok (frame d "Line String" (ps.map fun p => .line [word T T.point3 p]))
  | .polygon p => .ok (frame d "Polygon" (p.print T))
  | .plane p => .ok (frame d "Plane" [member T "Point:" T.point3 p.point, member T "Normal vector:" T.vector3 p.normal])
  | .cuboid c => .ok (frame d "Cuboid" [member T "Center:" T.point3 c.center, member T "First axis:" T.vector3 c.ax, member T "Second axis:" T.vector3 c.ay,
      member T "Third axis:" T.vector3 c.az, member T "First extent:" T.real c.ex, member T "Second extent:" T.real c.ey, member T "Third extent:" T.real c.ez])
  | .sphere s => .ok (frame d "Sphere" [member T "Center:" T.point3 s.center, member T "Radius:" T.real s.radius])
  | .ellipsoid e => (e.print T eps).map (frame d "Ellipsoid")
  | .pyramid p => .ok (frame d "Pyramid" (member T "Apex:" T.point3 p.apex :: .separator "Base:" :: p.base.print T))
  | .cone c => .ok (frame d "Cone" [member T "Apex:" T.point3 c.apex, member T "Axis:" T.vector3 c.axis, member T "Angle:" T.angle (defined c.angle)])
  | .composite _ os =>
    match os with
    | [] => .ok (frame d "Composite" [.line [T.lit "Empty"]])
    | _ => (Obj3.printAll eps os).map fun s => frame d "Composite" (.separator "Objects" :: s)
/-- the loop over the members of a composite: `operator <<` (`3D/Object.cpp` 214-219) prints them with decorators -/
noncomputable def Obj3.printAll (eps : ℝ) : List Obj3 → Res (List (Piece T.Text))
  | [] => .ok []
  | o :: os =>
    match Obj3.print eps true o with
    | .error e => .error e
    | .ok s => (Obj3.printAll eps os).map (s ++ ·)
end

/-- `operator <<` (`3D/Intersection.cpp` 87-100) -/
noncomputable def Isect3.print (eps : ℝ) (i : Isect3) : Res (List (Piece T.Text)) := do
  let n ← Names.intersection3 i.type
  let s ← Obj3.print T eps false (.composite i.composite.defined i.composite.objects)
  return .header "Intersection" :: .line [T.lit "Type:", T.lit n] :: .line [T.lit "Composite:"] :: s ++ [.footer]

end Verif
