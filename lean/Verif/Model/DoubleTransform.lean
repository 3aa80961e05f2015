import Verif.Model.DoubleVec

/-!
# Transformations in double precision

Source: `src/OpenSpaceToolkit/Mathematics/Geometry/3D/Transformation.cpp` and `2D/Transformation.cpp`, with the arithmetic of `Model/Double.lean` over the real numbers.
Eigen is not in the repository: the four terms of a coefficient of a product are added in one of the orders of `Order4`, and products are rounded before they are
added. Only the matrix of a transformation is kept; its type and its flag, which do not depend on the arithmetic, are in `Model/Transformation.lean`. The inverse, which
Eigen computes, is in `Model/DoublePlaneInverse.lean` for the plane; that of space is not modelled in double precision.
-/

namespace Verif

/-- the orders in which Eigen adds four terms: one after the other, neighbours first, or terms at distance two first -/
inductive Order4 where
  | left
  | pairs
  | packets

namespace DT3

/-- the sum of four numbers -/
noncomputable def sum (o : Order4) (a b c d : F64 ℝ) : F64 ℝ :=
  match o with
  | .left => ((a.add b).add c).add d
  | .pairs => (a.add b).add (c.add d)
  | .packets => (a.add c).add (b.add d)

/-- `matrix_ * Vector4d(v, w)`, row `i` -/
noncomputable def row (o : Order4) (m : Fin 4 → Fin 4 → F64 ℝ) (i : Fin 4) (v : DVec) (w : F64 ℝ) : F64 ℝ :=
  sum o ((m i 0).mul v.x) ((m i 1).mul v.y) ((m i 2).mul v.z) ((m i 3).mul w)

/-- the head of `matrix_ * Vector4d(v, w)` -/
noncomputable def head (o : Order4) (m : Fin 4 → Fin 4 → F64 ℝ) (v : DVec) (w : F64 ℝ) : DVec := ⟨row o m 0 v w, row o m 1 v w, row o m 2 v w⟩

/-- `applyTo (Point)` (`3D/Transformation.cpp` 226-229); the coordinates of an undefined point throw (`3D/Object/Point.cpp` 108-136) -/
noncomputable def applyTo (o : Order4) (m : Fin 4 → Fin 4 → F64 ℝ) (p : DVec) : Res DVec :=
  if !p.isDefined then .error .undefined else .ok (head o m p (.fin 1))

/-- `applyTo (Vector3d)` (`3D/Transformation.cpp` 231-234) -/
noncomputable def applyToVector (o : Order4) (m : Fin 4 → Fin 4 → F64 ℝ) (v : DVec) : DVec := head o m v (.fin 0)

/-- `Identity` (`3D/Transformation.cpp` 254-257) -/
def Identity : Fin 4 → Fin 4 → F64 ℝ := fun i j => if i = j then .fin 1 else .fin 0

/-- `Translation` (`3D/Transformation.cpp` 259-272) -/
noncomputable def Translation (v : DVec) : Res (Fin 4 → Fin 4 → F64 ℝ) :=
  if !v.isDefined then .error .undefined
  else .ok ![![.fin 1, .fin 0, .fin 0, v.x], ![.fin 0, .fin 1, .fin 0, v.y], ![.fin 0, .fin 0, .fin 1, v.z], ![.fin 0, .fin 0, .fin 0, .fin 1]]

/-- `matrix_ *= ..` of `operator *=` (`3D/Transformation.cpp` 158) -/
noncomputable def mul (o : Order4) (a b : Fin 4 → Fin 4 → F64 ℝ) : Fin 4 → Fin 4 → F64 ℝ :=
  fun i j => sum o ((a i 0).mul (b 0 j)) ((a i 1).mul (b 1 j)) ((a i 2).mul (b 2 j)) ((a i 3).mul (b 3 j))

end DT3

namespace DT2

/-- `matrix_ * Vector3d(v, w)`, row `i` -/
noncomputable def row (o : Bool) (m : Fin 3 → Fin 3 → F64 ℝ) (i : Fin 3) (v : DVec2) (w : F64 ℝ) : F64 ℝ :=
  DVec.sum o ((m i 0).mul v.x) ((m i 1).mul v.y) ((m i 2).mul w)

/-- `applyTo (Point)` (`2D/Transformation.cpp` 229-232) -/
noncomputable def applyTo (o : Bool) (m : Fin 3 → Fin 3 → F64 ℝ) (p : DVec2) : Res DVec2 :=
  if p.x = .nan ∨ p.y = .nan then .error .undefined else .ok ⟨row o m 0 p (.fin 1), row o m 1 p (.fin 1)⟩

/-- `Identity` (`2D/Transformation.cpp` 268-271) -/
def Identity : Fin 3 → Fin 3 → F64 ℝ := fun i j => if i = j then .fin 1 else .fin 0

/-- `Translation` (`2D/Transformation.cpp` 273-285) -/
noncomputable def Translation (v : DVec2) : Res (Fin 3 → Fin 3 → F64 ℝ) :=
  if v.x = .nan ∨ v.y = .nan then .error .undefined
  else .ok ![![.fin 1, .fin 0, v.x], ![.fin 0, .fin 1, v.y], ![.fin 0, .fin 0, .fin 1]]

end DT2

end Verif
