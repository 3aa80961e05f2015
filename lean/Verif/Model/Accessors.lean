import Verif.Model.Transformation
import Verif.Model.Linear2
import Verif.Model.Linear3
import Verif.Model.Sphere
import Verif.Model.Ellipsoid
import Verif.Model.Rotation
import Verif.Model.Angle

/-!
# The accessors

The functions which read one member of an object: all of them throw `Undefined` when any member of the object is undefined,
also when the member that is read is defined. The accessors of cones, cuboids, spheres, polygons, pyramids, composites,
intersections and Euler angles are in the files of those classes. A member which the test has found defined is returned
through `need`, whose error is never reached.

Source: `src/OpenSpaceToolkit/Mathematics/Geometry/{2D,3D}/Object/*.cpp`, `Geometry/Angle.cpp`,
`Geometry/3D/Transformation/Rotation/{Quaternion,RotationVector,RotationMatrix}.cpp`.
-/

namespace Verif

/-! ## Points, coordinate by coordinate -/

/-- `d3::object::Point` with its three members `x_`, `y_`, `z_`, each of which may be undefined. Everywhere else in the model a
point is `Option V3`, as given by `Pt3.read`. -/
@[ext] structure Pt3 where
  cx : Option ℝ
  cy : Option ℝ
  cz : Option ℝ

namespace Pt3

/-- `isDefined` (`3D/Object/Point.cpp` 93-96) -/
def isDefined (p : Pt3) : Bool := p.cx.isSome && p.cy.isSome && p.cz.isSome
/-- the point as the rest of the model has it -/
def read (p : Pt3) : Option V3 := p.cx.bind fun a => p.cy.bind fun b => p.cz.map fun c => ⟨a, b, c⟩
/-- `x` (`3D/Object/Point.cpp` 108-116) -/
def x (p : Pt3) : Res ℝ := if !p.isDefined then .error .undefined else need p.cx
/-- `y` (`3D/Object/Point.cpp` 118-126) -/
def y (p : Pt3) : Res ℝ := if !p.isDefined then .error .undefined else need p.cy
/-- `z` (`3D/Object/Point.cpp` 128-136) -/
def z (p : Pt3) : Res ℝ := if !p.isDefined then .error .undefined else need p.cz
/-- `asVector` (`3D/Object/Point.cpp` 138-146) -/
def asVector (p : Pt3) : Res V3 :=
  if !p.isDefined then .error .undefined
  else do
    let a ← need p.cx
    let b ← need p.cy
    let c ← need p.cz
    return ⟨a, b, c⟩
/-- `Undefined` (`3D/Object/Point.cpp` 199-202) -/
def Undefined : Pt3 := ⟨none, none, none⟩
/-- `Origin` (`3D/Object/Point.cpp` 204-207) -/
def Origin : Pt3 := ⟨some 0, some 0, some 0⟩
/-- `Vector` (`3D/Object/Point.cpp` 209-212) -/
def Vector (v : V3) : Pt3 := ⟨some v.x, some v.y, some v.z⟩

end Pt3

/-- `d2::object::Point` with its two members `x_`, `y_` -/
@[ext] structure Pt2 where
  cx : Option ℝ
  cy : Option ℝ

namespace Pt2

/-- `isDefined` (`2D/Object/Point.cpp` 92-95) -/
def isDefined (p : Pt2) : Bool := p.cx.isSome && p.cy.isSome
/-- the point as the rest of the model has it -/
def read (p : Pt2) : Option V2 := p.cx.bind fun a => p.cy.map fun b => ⟨a, b⟩
/-- `x` (`2D/Object/Point.cpp` 107-115) -/
def x (p : Pt2) : Res ℝ := if !p.isDefined then .error .undefined else need p.cx
/-- `y` (`2D/Object/Point.cpp` 117-125) -/
def y (p : Pt2) : Res ℝ := if !p.isDefined then .error .undefined else need p.cy
/-- `asVector` (`2D/Object/Point.cpp` 127-135) -/
def asVector (p : Pt2) : Res V2 :=
  if !p.isDefined then .error .undefined
  else do
    let a ← need p.cx
    let b ← need p.cy
    return ⟨a, b⟩
/-- `Undefined` (`2D/Object/Point.cpp` 200-203) -/
def Undefined : Pt2 := ⟨none, none⟩
/-- `Origin` (`2D/Object/Point.cpp` 205-208) -/
def Origin : Pt2 := ⟨some 0, some 0⟩
/-- `Vector` (`2D/Object/Point.cpp` 210-213) -/
def Vector (v : V2) : Pt2 := ⟨some v.x, some v.y⟩

end Pt2

/-! ## Lines, rays, segments, planes -/

namespace Line3
/-- `getOrigin` (`3D/Object/Line.cpp` 156-164) -/
def getOrigin (l : Line3) : Res V3 := if !l.isDefined then .error .undefined else need l.origin
/-- `getDirection` (`3D/Object/Line.cpp` 166-174) -/
def getDirection (l : Line3) : Res V3 := if !l.isDefined then .error .undefined else need l.direction
end Line3

namespace Ray3
/-- `getOrigin` (`3D/Object/Ray.cpp` 155-163) -/
def getOrigin (r : Ray3) : Res V3 := if !r.isDefined then .error .undefined else need r.origin
/-- `getDirection` (`3D/Object/Ray.cpp` 165-173) -/
def getDirection (r : Ray3) : Res V3 := if !r.isDefined then .error .undefined else need r.direction
end Ray3

namespace Line2
/-- `getOrigin` (`2D/Object/Line.cpp` 125-133) -/
def getOrigin (l : Line2) : Res V2 := if !l.isDefined then .error .undefined else need l.origin
/-- `getDirection` (`2D/Object/Line.cpp` 135-143) -/
def getDirection (l : Line2) : Res V2 := if !l.isDefined then .error .undefined else need l.direction
end Line2

namespace Seg3
/-- `getFirstPoint` (`3D/Object/Segment.cpp` 152-160) -/
def getFirstPoint (s : Seg3) : Res V3 := if !s.isDefined then .error .undefined else need s.first
/-- `getSecondPoint` (`3D/Object/Segment.cpp` 162-170) -/
def getSecondPoint (s : Seg3) : Res V3 := if !s.isDefined then .error .undefined else need s.second
end Seg3

namespace Seg2
/-- `getFirstPoint` (`2D/Object/Segment.cpp` 119-127) -/
def getFirstPoint (s : Seg2) : Res V2 := if !s.isDefined then .error .undefined else need s.first
/-- `getSecondPoint` (`2D/Object/Segment.cpp` 129-137) -/
def getSecondPoint (s : Seg2) : Res V2 := if !s.isDefined then .error .undefined else need s.second
end Seg2

namespace Plane3
/-- `getPoint` (`3D/Object/Plane.cpp` 182-190) -/
def getPoint (p : Plane3) : Res V3 := if !p.isDefined then .error .undefined else need p.point
/-- `getNormalVector` (`3D/Object/Plane.cpp` 192-200) -/
def getNormalVector (p : Plane3) : Res V3 := if !p.isDefined then .error .undefined else need p.normal
end Plane3

/-! ## Ellipsoids -/

namespace Ellipsoid3
/-- `getCenter` (`3D/Object/Ellipsoid.cpp` 509-517) -/
def getCenter (e : Ellipsoid3) : Res V3 := if !e.isDefined then .error .undefined else Verif.need e.center
/-- `getFirstPrincipalSemiAxis` (`3D/Object/Ellipsoid.cpp` 519-527) -/
def getFirstPrincipalSemiAxis (e : Ellipsoid3) : Res ℝ := if !e.isDefined then .error .undefined else Verif.need e.a
/-- `getSecondPrincipalSemiAxis` (`3D/Object/Ellipsoid.cpp` 529-537) -/
def getSecondPrincipalSemiAxis (e : Ellipsoid3) : Res ℝ := if !e.isDefined then .error .undefined else Verif.need e.b
/-- `getThirdPrincipalSemiAxis` (`3D/Object/Ellipsoid.cpp` 539-547) -/
def getThirdPrincipalSemiAxis (e : Ellipsoid3) : Res ℝ := if !e.isDefined then .error .undefined else Verif.need e.c
/-- `getOrientation` (`3D/Object/Ellipsoid.cpp` 579-587) -/
def getOrientation (e : Ellipsoid3) : Res Quat := if !e.isDefined then .error .undefined else Verif.need e.q
end Ellipsoid3

/-! ## Angles -/

namespace Angle
/-- `getUnit` (`Angle.cpp` 294-302) -/
def getUnit (a : Angle) : Res AUnit := if !a.isDefined then .error .undefined else .ok a.unit
/-- `Radians` (`Angle.cpp` 459-462) -/
def Radians (v : Option ℝ) : Angle := ⟨v, .radian⟩
/-- `Degrees` (`Angle.cpp` 464-467) -/
def Degrees (v : Option ℝ) : Angle := ⟨v, .degree⟩
/-- `Arcminutes` (`Angle.cpp` 469-472) -/
def Arcminutes (v : Option ℝ) : Angle := ⟨v, .arcminute⟩
/-- `Arcseconds` (`Angle.cpp` 474-477) -/
def Arcseconds (v : Option ℝ) : Angle := ⟨v, .arcsecond⟩
/-- `Revolutions` (`Angle.cpp` 479-482) -/
def Revolutions (v : Option ℝ) : Angle := ⟨v, .revolution⟩
/-- `inRadians ()` (`Angle.cpp` 319-322) -/
noncomputable def asRadians (a : Angle) : Res ℝ := a.inUnit .radian
/-- `inDegrees ()` (`Angle.cpp` 344-347) -/
noncomputable def asDegrees (a : Angle) : Res ℝ := a.inUnit .degree
/-- `inArcminutes ()` (`Angle.cpp` 369-372) -/
noncomputable def asArcminutes (a : Angle) : Res ℝ := a.inUnit .arcminute
/-- `inArcseconds ()` (`Angle.cpp` 394-397) -/
noncomputable def asArcseconds (a : Angle) : Res ℝ := a.inUnit .arcsecond
/-- `inRevolutions ()` (`Angle.cpp` 419-422) -/
noncomputable def asRevolutions (a : Angle) : Res ℝ := a.inUnit .revolution
end Angle

/-! ## Quaternions and rotation vectors -/

namespace QuatObj
/-- `x` (`Quaternion.cpp` 195-203) -/
def x (q : Option Quat) : Res ℝ := do return (← need q).x
/-- `y` (`Quaternion.cpp` 205-213) -/
def y (q : Option Quat) : Res ℝ := do return (← need q).y
/-- `z` (`Quaternion.cpp` 215-223) -/
def z (q : Option Quat) : Res ℝ := do return (← need q).z
/-- `s` (`Quaternion.cpp` 225-233) -/
def s (q : Option Quat) : Res ℝ := do return (← need q).s
/-- `XYZS` (`Quaternion.cpp` 503-508) -/
def XYZS (a b c d : ℝ) : Option Quat := some ⟨a, b, c, d⟩
end QuatObj

namespace RotVec
/-- `getAxis` (`RotationVector.cpp` 84-92) -/
def getAxis (r : RotVec) : Res V3 := if !r.isDefined then .error .undefined else need r.axis
/-- `getAngle` (`RotationVector.cpp` 94-102) -/
def getAngle (r : RotVec) : Res Angle := if !r.isDefined then .error .undefined else .ok r.angle
/-- `X` (`RotationVector.cpp` 148-156) -/
noncomputable def X (eps : ℝ) (a : Angle) : Res RotVec := if !a.isDefined then .error .undefined else mk1 eps (some V3.X) a
/-- `Y` (`RotationVector.cpp` 158-166) -/
noncomputable def Y (eps : ℝ) (a : Angle) : Res RotVec := if !a.isDefined then .error .undefined else mk1 eps (some V3.Y) a
/-- `Z` (`RotationVector.cpp` 168-176) -/
noncomputable def Z (eps : ℝ) (a : Angle) : Res RotVec := if !a.isDefined then .error .undefined else mk1 eps (some V3.Z) a
end RotVec

end Verif
