import Verif.Model.DoubleMove

/-!
# Products of transformations of space in double precision

Source: `src/OpenSpaceToolkit/Mathematics/Geometry/3D/Transformation.cpp`, with the arithmetic of `Model/Double.lean` over the real numbers. `q` is the order in which Eigen adds four products.
-/

namespace Verif

namespace DTrans

/-- `operator *=` (`3D/Transformation.cpp` 66-162), also `operator *` (42-49) -/
noncomputable def mul (q : Order4) (a b : DTrans) : Res DTrans :=
  if !b.isDefined then .error .undefined
  else if !a.isDefined then .error .undefined
  else .ok ⟨a.type.compose b.type, DT3.mul q a.matrix b.matrix, a.rigid && b.rigid⟩

open Classical in
/-- `operator ==` (`3D/Transformation.cpp` 27-35): Eigen compares the coefficients -/
noncomputable def eq (a b : DTrans) : Bool :=
  if !a.isDefined || !b.isDefined then false
  else decide (∀ i j, (a.matrix i j).eq (b.matrix i j) = true)

/-- `RotationAround` (`3D/Transformation.cpp` 302-306), with the type and the flag; the product is read from the left -/
noncomputable def RotationAround (o : Bool) (q : Order4) (eps : F64 ℝ) (sin cos : ℝ → ℝ) (p : DVec) (r : DRotVec) : Res DTrans := do
  let v ← DT3.asVector p
  let a ← Translation v
  let b ← Rotation o eps sin cos r
  let c ← Translation ⟨v.x.neg, v.y.neg, v.z.neg⟩
  let d ← mul q a b
  mul q d c

end DTrans

end Verif
