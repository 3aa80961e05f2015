import Verif.Model.DoubleTransform
import Verif.Model.DoubleTurn

/-!
# Rotations as transformations in double precision

Source: `src/OpenSpaceToolkit/Mathematics/Geometry/3D/Transformation.cpp` and `2D/Transformation.cpp`, with the arithmetic of `Model/Double.lean` over the real numbers.
The three factors of `RotationAround` are arguments of a product: which of them is made first is not specified, so of two errors the one reported here is that of the leftmost factor.
-/

namespace Verif

namespace DT3

/-- the identity of size four with the transpose of a matrix as its leading block (`3D/Transformation.cpp` 281-283, 295-297) -/
noncomputable def ofMatrix (m : Fin 3 → Fin 3 → F64 ℝ) : Fin 4 → Fin 4 → F64 ℝ :=
  ![![m 0 0, m 1 0, m 2 0, .fin 0], ![m 0 1, m 1 1, m 2 1, .fin 0], ![m 0 2, m 1 2, m 2 2, .fin 0], ![.fin 0, .fin 0, .fin 0, .fin 1]]

/-- `Rotation (RotationVector)` (`3D/Transformation.cpp` 274-286) -/
noncomputable def Rotation (o : Bool) (eps : F64 ℝ) (sin cos : ℝ → ℝ) (r : DRotVec) : Res (Fin 4 → Fin 4 → F64 ℝ) :=
  if !r.isDefined then .error .undefined
  else do
    let m ← DRot.RotationVector o eps sin cos r
    return ofMatrix m

/-- `Rotation (RotationMatrix)` (`3D/Transformation.cpp` 288-300) -/
noncomputable def RotationOf (m : Fin 3 → Fin 3 → F64 ℝ) : Res (Fin 4 → Fin 4 → F64 ℝ) :=
  if !DRot.isDefined m then .error .undefined else .ok (ofMatrix m)

/-- `Point::asVector` (`3D/Object/Point.cpp` 138-146) -/
noncomputable def asVector (p : DVec) : Res DVec := if !p.isDefined then .error .undefined else .ok p

/-- `RotationAround` (`3D/Transformation.cpp` 302-306); `q` is the order of the sums of a product of matrices of size four -/
noncomputable def RotationAround (o : Bool) (q : Order4) (eps : F64 ℝ) (sin cos : ℝ → ℝ) (p : DVec) (r : DRotVec) : Res (Fin 4 → Fin 4 → F64 ℝ) := do
  let v ← asVector p
  let a ← Translation v
  let b ← Rotation o eps sin cos r
  let c ← Translation ⟨v.x.neg, v.y.neg, v.z.neg⟩
  return mul q (mul q a b) c

end DT3

namespace DT2

/-- `matrix_ *= ..` of `operator *=` (`2D/Transformation.cpp` 156) -/
noncomputable def mul (o : Bool) (a b : Fin 3 → Fin 3 → F64 ℝ) : Fin 3 → Fin 3 → F64 ℝ :=
  fun i j => DVec.sum o ((a i 0).mul (b 0 j)) ((a i 1).mul (b 1 j)) ((a i 2).mul (b 2 j))

/-- `applyTo (Vector2d)` (`2D/Transformation.cpp` 234-237) -/
noncomputable def applyToVector (o : Bool) (m : Fin 3 → Fin 3 → F64 ℝ) (v : DVec2) : DVec2 := ⟨row o m 0 v (.fin 0), row o m 1 v (.fin 0)⟩

/-- `Rotation` (`2D/Transformation.cpp` 287-305) -/
noncomputable def Rotation (sin cos : ℝ → ℝ) (a : DAngle ℝ) : Res (Fin 3 → Fin 3 → F64 ℝ) :=
  if !a.isDefined then .error .undefined
  else do
    let t ← a.inUnit .radian
    return ![![libm cos t, (libm sin t).neg, .fin 0], ![libm sin t, libm cos t, .fin 0], ![.fin 0, .fin 0, .fin 1]]

/-- `Point::asVector` (`2D/Object/Point.cpp` 127-135) -/
noncomputable def asVector (p : DVec2) : Res DVec2 := if p.x = .nan ∨ p.y = .nan then .error .undefined else .ok p

/-- `RotationAround` (`2D/Transformation.cpp` 307-311) -/
noncomputable def RotationAround (o : Bool) (sin cos : ℝ → ℝ) (p : DVec2) (a : DAngle ℝ) : Res (Fin 3 → Fin 3 → F64 ℝ) := do
  let v ← asVector p
  let x ← Translation v
  let y ← Rotation sin cos a
  let z ← Translation ⟨v.x.neg, v.y.neg⟩
  return mul o (mul o x y) z

end DT2

end Verif
