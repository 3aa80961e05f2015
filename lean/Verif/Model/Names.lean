import Verif.Model.Angle
import Verif.Model.Interval
import Verif.Model.Objects2
import Verif.Model.Objects3
import Verif.Model.Rotation
import Verif.Model.Solver
import Verif.Model.Transformation

/-!
# The names of the enumerations, and the texts made of them

The functions `StringFrom…` and `SymbolFromUnit`. A value outside of the enumeration is not modelled.
-/

namespace Verif.Names

/-- `Angle::StringFromUnit` (`Angle.cpp` 563-591) -/
def unit : AUnit → Res String
  | .undefined => .ok "Undefined"
  | .radian => .ok "Radian"
  | .degree => .ok "Degree"
  | .arcminute => .ok "Arcminute"
  | .arcsecond => .ok "Arcsecond"
  | .revolution => .ok "Revolution"

/-- `Angle::SymbolFromUnit` (`Angle.cpp` 593-618) -/
def symbol : AUnit → Res String
  | .radian => .ok "rad"
  | .degree => .ok "deg"
  | .arcminute => .ok "amin"
  | .arcsecond => .ok "asec"
  | .revolution => .ok "rev"
  | .undefined => .error .wrong

/-- `Interval::StringFromType` (`Interval.tpp` 901-924) -/
def interval : IType → Res String
  | .undefined => .ok "Undefined"
  | .closed => .ok "Closed"
  | .opened => .ok "Open"
  | .halfOpenLeft => .ok "Half Open Left"
  | .halfOpenRight => .ok "Half Open Right"

/-- `Intersection::StringFromType` (`2D/Intersection.cpp` 217-254) -/
def intersection2 : IType2 → Res String
  | .undefined => .ok "Undefined"
  | .empty => .ok "Empty"
  | .point => .ok "Point"
  | .pointSet => .ok "PointSet"
  | .line => .ok "Line"
  | .segment => .ok "Segment"
  | .lineString => .ok "LineString"
  | .polygon => .ok "Polygon"
  | .complex => .ok "Complex"

/-- `Intersection::StringFromType` (`3D/Intersection.cpp` 217-269): there is no case for cuboids -/
def intersection3 : IType3 → Res String
  | .undefined => .ok "Undefined"
  | .empty => .ok "Empty"
  | .point => .ok "Point"
  | .pointSet => .ok "PointSet"
  | .line => .ok "Line"
  | .ray => .ok "Ray"
  | .segment => .ok "Segment"
  | .lineString => .ok "LineString"
  | .polygon => .ok "Polygon"
  | .plane => .ok "Plane"
  | .sphere => .ok "Sphere"
  | .ellipsoid => .ok "Ellipsoid"
  | .pyramid => .ok "Pyramid"
  | .complex => .ok "Complex"
  | .cuboid => .error .wrong

/-- `Transformation::StringFromType` (`2D/Transformation.cpp` 313-347, `3D/Transformation.cpp` 308-342) -/
def transformation : TType → Res String
  | .undefined => .ok "Undefined"
  | .identity => .ok "Identity"
  | .translation => .ok "Translation"
  | .rotation => .ok "Rotation"
  | .scaling => .ok "Scaling"
  | .reflection => .ok "Reflection"
  | .shear => .ok "Shear"
  | .affine => .ok "Affine"

/-- `EulerAngle::StringFromAxisSequence` (`EulerAngle.cpp` 316-332) -/
def sequence : AxisSequence → Res String
  | .xyz => .ok "XYZ"
  | .zxy => .ok "ZXY"
  | .zyx => .ok "ZYX"
  | .undefined => .error .wrong

/-- `NumericalSolver::StringFromLogType` (`NumericalSolver.cpp` 650-666) -/
def log (t : LogType) : Res String := .ok (NumSolver.stringFromLogType t)

/-- `NumericalSolver::StringFromStepperType` (`NumericalSolver.cpp` 668-696) -/
def stepper (t : StepperType) : Res String := .ok (NumSolver.stringFromStepperType t)

/-- `Angle::toString` (`Angle.cpp` 424-432), with the text of a number -/
noncomputable def angleToString (num : ℝ → List Char) (a : Angle) : Res (List Char) :=
  match a.isDefined, a.value with
  | true, some v => do
    let s ← symbol a.unit
    .ok (num v ++ " [".toList ++ s.toList ++ "]".toList)
  | _, _ => .error .undefined

/-- `EulerAngle::toString` (`EulerAngle.cpp` 165-179), with the text of a number -/
noncomputable def eulerToString (num : ℝ → List Char) (e : Euler) (u : AUnit) : Res (List Char) :=
  if !e.isDefined then .error .undefined
  else do
    let a ← e.phi.inUnit u
    let b ← e.theta.inUnit u
    let c ← e.psi.inUnit u
    let s ← sequence e.sequence
    .ok ("[".toList ++ num a ++ ", ".toList ++ num b ++ ", ".toList ++ num c ++ "] (".toList ++ s.toList ++ ")".toList)

end Verif.Names
