import Verif.Model.DoubleAround
import Verif.Model.DoubleCuboid
import Verif.Model.Transformation

/-!
# Objects of space moved by a transformation in double precision

Source: `applyTransformation` of the objects in `src/OpenSpaceToolkit/Mathematics/Geometry/3D/Object`, with the arithmetic of `Model/Double.lean` over the real numbers. `o` is the order in which Eigen adds
three products, `q` that of four.
-/

namespace Verif

/-- `Transformation` (members `type_`, `matrix_` and `isRigid_`) -/
structure DTrans where
  type : TType
  matrix : Fin 4 → Fin 4 → F64 ℝ
  rigid : Bool

namespace DTrans

/-- `isDefined` (`3D/Transformation.cpp` 171-174) -/
def isDefined (t : DTrans) : Bool := decide (t.type ≠ .undefined)

/-- `Undefined` (`3D/Transformation.cpp` 249-252) -/
def Undefined : DTrans := ⟨.undefined, fun _ _ => .nan, false⟩

/-- `Identity` (`3D/Transformation.cpp` 254-257) -/
def Identity : DTrans := ⟨.identity, DT3.Identity, true⟩

/-- `Translation` (`3D/Transformation.cpp` 259-272) -/
noncomputable def Translation (v : DVec) : Res DTrans := do
  let m ← DT3.Translation v
  return ⟨.translation, m, true⟩

/-- `Rotation (RotationVector)` (`3D/Transformation.cpp` 274-286) -/
noncomputable def Rotation (o : Bool) (eps : F64 ℝ) (sin cos : ℝ → ℝ) (r : DRotVec) : Res DTrans := do
  let m ← DT3.Rotation o eps sin cos r
  return ⟨.rotation, m, true⟩

/-- `Point::applyTransformation` (`3D/Object/Point.cpp` 184-197) -/
noncomputable def movePoint (q : Order4) (t : DTrans) (p : DVec) : Res DVec :=
  if !t.isDefined then .error .undefined
  else if !p.isDefined then .error .undefined
  else DT3.applyTo q t.matrix p

/-- `applyTransformation` of a line (`3D/Object/Line.cpp` 233-247), a ray (`3D/Object/Ray.cpp` 264-278) and a plane (`3D/Object/Plane.cpp` 256-270): the same text, with the origin and the direction or with
the point and the normal -/
noncomputable def moveLine (q : Order4) (t : DTrans) (l : DVec × DVec) : Res (DVec × DVec) :=
  if !t.isDefined then .error .undefined
  else if !l.1.isDefined || !l.2.isDefined then .error .undefined
  else do
    let p ← movePoint q t l.1
    return (p, DT3.applyToVector q t.matrix l.2)

/-- `Segment::applyTransformation` (`3D/Object/Segment.cpp` 326-340) -/
noncomputable def moveSegment (q : Order4) (t : DTrans) (s : DVec × DVec) : Res (DVec × DVec) :=
  if !t.isDefined then .error .undefined
  else if !s.1.isDefined || !s.2.isDefined then .error .undefined
  else do
    let a ← movePoint q t s.1
    let b ← movePoint q t s.2
    return (a, b)

/-- `Sphere::applyTransformation` (`3D/Object/Sphere.cpp` 580-598), the centre and the radius -/
noncomputable def moveSphere (q : Order4) (t : DTrans) (s : DVec × F64 ℝ) : Res (DVec × F64 ℝ) :=
  if !t.isDefined then .error .undefined
  else if !s.1.isDefined || (open Classical in decide (s.2 = .nan)) then .error .undefined
  else if !t.rigid then .error .runtimeError
  else do
    let c ← movePoint q t s.1
    return (c, s.2)

/-- `Cone::applyTransformation` (`3D/Object/Cone.cpp` 481-497) -/
noncomputable def moveCone (o : Bool) (q : Order4) (t : DTrans) (c : DCone) : Res DCone :=
  if !t.isDefined then .error .undefined
  else if !c.isDefined then .error .undefined
  else do
    let p ← DT3.applyTo q t.matrix c.apex
    return ⟨p, (DT3.applyToVector q t.matrix c.axis).normalized o, c.angle⟩

/-- `Cuboid::applyTransformation` (`3D/Object/Cuboid.cpp` 462-494) -/
noncomputable def moveCuboid (o : Bool) (q : Order4) (t : DTrans) (c : DCuboid) : Res DCuboid :=
  if !t.isDefined then .error .undefined
  else if !c.isDefined then .error .undefined
  else if t.type = .identity then .ok c
  else do
    let p ← movePoint q t c.center
    let x := DT3.applyToVector q t.matrix c.ax
    let y := DT3.applyToVector q t.matrix c.ay
    let z := DT3.applyToVector q t.matrix c.az
    return ⟨p, x.normalized o, y.normalized o, z.normalized o, c.ex.mul (x.norm o), c.ey.mul (y.norm o), c.ez.mul (z.norm o)⟩

/-- an object moved by several transformations, one after the other -/
def many {σ : Type} (F : DTrans → σ → Res σ) : List DTrans → σ → Res σ
  | [], s => .ok s
  | t :: ts, s => do
    let s' ← F t s
    many F ts s'

end DTrans

end Verif
