import Verif.Model.Rotation

/-!
# Euler angles: the remaining functions

`src/OpenSpaceToolkit/Mathematics/Geometry/3D/Transformation/Rotation/EulerAngle.cpp` 25-45 and 105-204.
-/

namespace Verif

namespace Euler

/-- the constructor from a vector and a unit (`EulerAngle.cpp` 37-45); an element that is not a number gives an undefined angle -/
def ofVector (a b c : Option ℝ) (u : AUnit) (sq : AxisSequence) : Euler := ⟨⟨a, u⟩, ⟨b, u⟩, ⟨c, u⟩, sq⟩

/-- `isUnitary` (`EulerAngle.cpp` 105-108): `&&` evaluates from left to right -/
noncomputable def isUnitary (e : Euler) : Res Bool := eq3 e.phi.isZero e.theta.isZero e.psi.isZero

/-- `isNear` (`EulerAngle.cpp` 110-113) -/
noncomputable def isNear (eps : ℝ) (e f : Euler) (tol : Angle) : Res Bool := do
  let q ← Quat.EulerAngle eps e
  let p ← Quat.EulerAngle eps f
  q.isNear eps p tol

/-- `getPhi` (`EulerAngle.cpp` 115-123) -/
def getPhi (e : Euler) : Res Angle := if e.isDefined then .ok e.phi else .error .undefined

/-- `getTheta` (`EulerAngle.cpp` 125-133) -/
def getTheta (e : Euler) : Res Angle := if e.isDefined then .ok e.theta else .error .undefined

/-- `getPsi` (`EulerAngle.cpp` 135-143) -/
def getPsi (e : Euler) : Res Angle := if e.isDefined then .ok e.psi else .error .undefined

/-- `getAxisSequence` (`EulerAngle.cpp` 145-153) -/
def getAxisSequence (e : Euler) : Res AxisSequence := if e.isDefined then .ok e.sequence else .error .undefined

/-- `toVector` (`EulerAngle.cpp` 155-163) -/
noncomputable def toVector (e : Euler) (u : AUnit) : Res V3 :=
  if !e.isDefined then .error .undefined
  else do
    let a ← e.phi.inUnit u
    let b ← e.theta.inUnit u
    let c ← e.psi.inUnit u
    pure ⟨a, b, c⟩

/-- `Undefined` (`EulerAngle.cpp` 181-184) -/
def Undefined : Euler := ⟨⟨none, .undefined⟩, ⟨none, .undefined⟩, ⟨none, .undefined⟩, .undefined⟩

/-- `Unit` (`EulerAngle.cpp` 186-189) -/
noncomputable def Unit : Euler := ⟨Angle.Zero, Angle.Zero, Angle.Zero, .zyx⟩

/-- `XYZ` (`EulerAngle.cpp` 191-194) -/
def XYZ (a b c : Angle) : Euler := ⟨a, b, c, .xyz⟩

/-- `ZXY` (`EulerAngle.cpp` 196-199) -/
def ZXY (a b c : Angle) : Euler := ⟨a, b, c, .zxy⟩

/-- `ZYX` (`EulerAngle.cpp` 201-204) -/
def ZYX (a b c : Angle) : Euler := ⟨a, b, c, .zyx⟩

/-- `RotationVector` (`EulerAngle.cpp` 255-260) -/
noncomputable def RotationVector (eps : ℝ) (r : RotVec) (sq : AxisSequence) : Res Euler := do
  let q ← Quat.RotationVector eps r
  Euler.Quaternion eps (some q) sq

end Euler

end Verif
