import Verif.Model.DoubleAround
import Verif.Model.DoubleLine2
import Verif.Model.Transformation
import Verif.Model.Objects3

/-!
# Objects of the plane moved by a transformation in double precision

Source: `applyTransformation` of the objects in `src/OpenSpaceToolkit/Mathematics/Geometry/2D/Object`, with the arithmetic of `Model/Double.lean` over the real numbers. `o` is the order in which Eigen adds
three products.
-/

namespace Verif

/-- `Transformation` of the plane (members `type_` and `matrix_`) -/
structure DTrans2 where
  type : TType
  matrix : Fin 3 → Fin 3 → F64 ℝ

namespace DTrans2

/-- `isDefined` (`2D/Transformation.cpp` 168-171) -/
def isDefined (t : DTrans2) : Bool := decide (t.type ≠ .undefined)

/-- `Undefined` (`2D/Transformation.cpp` 263-266) -/
def Undefined : DTrans2 := ⟨.undefined, fun _ _ => .nan⟩

/-- `Identity` (`2D/Transformation.cpp` 268-271) -/
def Identity : DTrans2 := ⟨.identity, DT2.Identity⟩

/-- `Translation` (`2D/Transformation.cpp` 273-285) -/
noncomputable def Translation (v : DVec2) : Res DTrans2 := do
  let m ← DT2.Translation v
  return ⟨.translation, m⟩

/-- `Rotation` (`2D/Transformation.cpp` 287-305) -/
noncomputable def Rotation (sin cos : ℝ → ℝ) (a : DAngle ℝ) : Res DTrans2 := do
  let m ← DT2.Rotation sin cos a
  return ⟨.rotation, m⟩

/-- `RotationAround` (`2D/Transformation.cpp` 307-311); the type is that of the two products (79-153) -/
noncomputable def RotationAround (o : Bool) (sin cos : ℝ → ℝ) (p : DVec2) (a : DAngle ℝ) : Res DTrans2 := do
  let m ← DT2.RotationAround o sin cos p a
  return ⟨((TType.translation.compose .rotation).compose .translation), m⟩

/-- `Point::applyTransformation` (`2D/Object/Point.cpp` 185-198) -/
noncomputable def movePoint (o : Bool) (t : DTrans2) (p : DVec2) : Res DVec2 :=
  if !t.isDefined then .error .undefined
  else if !p.isDefined then .error .undefined
  else DT2.applyTo o t.matrix p

/-- `Line::applyTransformation` (`2D/Object/Line.cpp` 192-206) -/
noncomputable def moveLine (o : Bool) (t : DTrans2) (l : DVec2 × DVec2) : Res (DVec2 × DVec2) :=
  if !t.isDefined then .error .undefined
  else if !l.1.isDefined || !l.2.isDefined then .error .undefined
  else do
    let p ← movePoint o t l.1
    return (p, DT2.applyToVector o t.matrix l.2)

/-- `Segment::applyTransformation` (`2D/Object/Segment.cpp` 275-289) -/
noncomputable def moveSegment (o : Bool) (t : DTrans2) (s : DVec2 × DVec2) : Res (DVec2 × DVec2) :=
  if !t.isDefined then .error .undefined
  else if !s.1.isDefined || !s.2.isDefined then .error .undefined
  else do
    let a ← movePoint o t s.1
    let b ← movePoint o t s.2
    return (a, b)

/-- `LineString::applyTransformation` (`2D/Object/LineString.cpp` 246-262); a line string is defined if it is not empty -/
noncomputable def moveLineString (o : Bool) (t : DTrans2) (ps : List DVec2) : Res (List DVec2) :=
  if !t.isDefined then .error .undefined
  else if ps.isEmpty then .error .undefined
  else mapRes (DT2.applyTo o t.matrix) ps

/-- a point as boost moves it (`matrix_transformer`, used in `2D/Object/Polygon.cpp` 627-639): the products of its coordinates with a row are added, then the last entry of the row -/
noncomputable def boostPoint (m : Fin 3 → Fin 3 → F64 ℝ) (p : DVec2) : DVec2 :=
  ⟨(((m 0 0).mul p.x).add ((m 0 1).mul p.y)).add (m 0 2), (((m 1 0).mul p.x).add ((m 1 1).mul p.y)).add (m 1 2)⟩

/-- `Polygon::applyTransformation` (`2D/Object/Polygon.cpp` 619-642 and 1041-1054), the outer ring and the inner rings; a polygon is defined if its outer ring has three points (139-142) -/
noncomputable def movePolygon (t : DTrans2) (p : List DVec2 × List (List DVec2)) : Res (List DVec2 × List (List DVec2)) :=
  if !t.isDefined then .error .undefined
  else if p.1.length < 3 then .error .undefined
  else .ok (p.1.map (boostPoint t.matrix), p.2.map (fun r => r.map (boostPoint t.matrix)))

/-- an object moved by several transformations, one after the other -/
def many {σ : Type} (F : DTrans2 → σ → Res σ) : List DTrans2 → σ → Res σ
  | [], s => .ok s
  | t :: ts, s => do
    let s' ← F t s
    many F ts s'

end DTrans2

end Verif
