import Verif.Model.DoublePlaneMove

/-!
# Products of transformations of the plane in double precision

Source: `src/OpenSpaceToolkit/Mathematics/Geometry/2D/Transformation.cpp`, with the arithmetic of `Model/Double.lean` over the real numbers. `o` is the order in which Eigen adds three products.
-/

namespace Verif

namespace DTrans2

/-- `operator *=` (`2D/Transformation.cpp` 64-159), also `operator *` (40-47) -/
noncomputable def mul (o : Bool) (a b : DTrans2) : Res DTrans2 :=
  if !b.isDefined then .error .undefined
  else if !a.isDefined then .error .undefined
  else .ok ⟨a.type.compose b.type, DT2.mul o a.matrix b.matrix⟩

open Classical in
/-- `operator ==` (`2D/Transformation.cpp` 25-33): Eigen compares the coefficients -/
noncomputable def eq (a b : DTrans2) : Bool :=
  if !a.isDefined || !b.isDefined then false
  else decide (∀ i j, (a.matrix i j).eq (b.matrix i j) = true)

end DTrans2

end Verif
