import Mathlib.LinearAlgebra.Matrix.NonsingularInverse
import Verif.Model.Rotation

/-!
# Points and transformations

Sources: `src/OpenSpaceToolkit/Mathematics/Geometry/2D/Transformation.cpp`, `.../3D/Transformation.cpp`,
`.../2D/Object/Point.cpp`, `.../3D/Object/Point.cpp`.

A point or vector that may be undefined is an `Option V2`/`Option V3`. A matrix with a coefficient that is not a finite number is
`none`; multiplying by such a matrix gives a result that is not finite, so again `none`. The matrices of Eigen are those of Mathlib.
-/

namespace Verif

/-- `Transformation::Type` (`2D/Transformation.hpp` 45-57, `3D/Transformation.hpp` 50-62; the same in 2D and 3D) -/
inductive TType where
  | undefined | identity | translation | rotation | scaling | reflection | shear | affine
  deriving DecidableEq, Repr

/-- `TypeCompositionMap` (`3D/Transformation.cpp` 81-155, `2D/Transformation.cpp` 79-153; the 64 entries are the same) -/
def TType.compose : TType → TType → TType
  | .undefined, _ => .undefined
  | _, .undefined => .undefined
  | .identity, t => t
  | t, .identity => t
  | .translation, .translation => .translation
  | .rotation, .rotation => .rotation
  | .scaling, .scaling => .scaling
  | _, _ => .affine

/-- Eigen `isIdentity (prec)`: diagonal coefficients approximately one, the others small -/
def nearIdentity {n : ℕ} (prec : ℝ) (m : Matrix (Fin n) (Fin n) ℝ) : Prop :=
  ∀ i j, if i = j then |m i j - 1| ≤ min |m i j| 1 * prec else |m i j| ≤ prec

/-- Eigen `inverse`: without a finite result for a singular matrix -/
noncomputable def inverseMatrix {n : ℕ} (m : Matrix (Fin n) (Fin n) ℝ) : Option (Matrix (Fin n) (Fin n) ℝ) :=
  if m.det = 0 then none else some m⁻¹

/-! ## 3D -/

/-- `d3::Transformation` (`3D/Transformation.hpp`, members `type_`, `matrix_`, `isRigid_`) -/
structure T3 where
  type : TType
  matrix : Option (Matrix (Fin 4) (Fin 4) ℝ)
  rigid : Bool

namespace T3

/-- `isDefined` (`3D/Transformation.cpp` 171-174) -/
def isDefined (t : T3) : Bool := decide (t.type ≠ .undefined)

open Classical in
/-- `IsRigid` (`3D/Transformation.cpp` 363-380); `prec` is the default precision of Eigen -/
noncomputable def IsRigid (prec : ℝ) : Option (Matrix (Fin 4) (Fin 4) ℝ) → Bool
  | none => false
  | some m =>
    if m 3 0 ≠ 0 ∨ m 3 1 ≠ 0 ∨ m 3 2 ≠ 0 ∨ m 3 3 ≠ 1 then false
    else
      let r : Matrix (Fin 3) (Fin 3) ℝ := m.submatrix (Fin.castLE (by omega)) (Fin.castLE (by omega))
      decide (nearIdentity prec (r.transpose * r))

open Classical in
/-- constructor from a matrix (`3D/Transformation.cpp` 20-25) with `TypeOfMatrix` (344-361) -/
noncomputable def ctor (prec : ℝ) (m : Option (Matrix (Fin 4) (Fin 4) ℝ)) : Res T3 :=
  match m with
  | none => .ok ⟨.undefined, none, IsRigid prec none⟩
  | some m => if nearIdentity prec m then .ok ⟨.identity, some m, IsRigid prec (some m)⟩ else .error .runtimeError

/-- `operator ==` (`3D/Transformation.cpp` 27-35). A comparison of matrices with a coefficient that is not a number is false. -/
noncomputable def eq (a b : T3) : Bool :=
  open Classical in
  if !a.isDefined || !b.isDefined then false
  else match a.matrix, b.matrix with
  | some m, some n => decide (m = n)
  | _, _ => false

/-- `operator *=` (`3D/Transformation.cpp` 66-162), also `operator *` (42-49). Both tests come before any assignment. -/
noncomputable def mul (a b : T3) : Res T3 :=
  if !b.isDefined then .error .undefined
  else if !a.isDefined then .error .undefined
  else .ok ⟨a.type.compose b.type, Option.map₂ (· * ·) a.matrix b.matrix, a.rigid && b.rigid⟩

/-- `isIdentity` (`3D/Transformation.cpp` 176-184) -/
def isIdentity (t : T3) : Res Bool := if !t.isDefined then .error .undefined else .ok (decide (t.type = .identity))

/-- `isRigid` (`3D/Transformation.cpp` 186-194) -/
def isRigid (t : T3) : Res Bool := if !t.isDefined then .error .undefined else .ok t.rigid

/-- `getType` (`3D/Transformation.cpp` 196-204) -/
def getType (t : T3) : Res TType := if !t.isDefined then .error .undefined else .ok t.type

/-- `getMatrix` (`3D/Transformation.cpp` 206-214) -/
def getMatrix (t : T3) : Res (Option (Matrix (Fin 4) (Fin 4) ℝ)) := if !t.isDefined then .error .undefined else .ok t.matrix

/-- `getInverse` (`3D/Transformation.cpp` 216-224) -/
noncomputable def getInverse (t : T3) : Res T3 :=
  if !t.isDefined then .error .undefined else .ok ⟨t.type, t.matrix.bind inverseMatrix, t.rigid⟩

/-- the first three coordinates of a product (`3D/Transformation.cpp` 228, 233) -/
def head (m : Matrix (Fin 4) (Fin 4) ℝ) (v : V3) (w : ℝ) : V3 :=
  let r := m.mulVec ![v.x, v.y, v.z, w]
  ⟨r 0, r 1, r 2⟩

/-- `applyTo (Point)` (`3D/Transformation.cpp` 226-229); the coordinates of an undefined point throw (`3D/Object/Point.cpp` 108-136) -/
def applyTo (t : T3) (p : Option V3) : Res (Option V3) := do
  let p ← need p
  return t.matrix.map fun m => head m p 1

/-- `applyTo (Vector3d)` (`3D/Transformation.cpp` 231-234), which tests nothing -/
def applyToVector (t : T3) (v : Option V3) : Option V3 := Option.map₂ (fun m v => head m v 0) t.matrix v

/-- `Undefined` (`3D/Transformation.cpp` 249-252) -/
def Undefined : T3 := ⟨.undefined, none, false⟩

/-- `Identity` (`3D/Transformation.cpp` 254-257) -/
def Identity : T3 := ⟨.identity, some 1, true⟩

/-- `Translation` (`3D/Transformation.cpp` 259-272) -/
def Translation (v : Option V3) : Res T3 := do
  let v ← need v
  return ⟨.translation, some !![1, 0, 0, v.x; 0, 1, 0, v.y; 0, 0, 1, v.z; 0, 0, 0, 1], true⟩

/-- `Rotation (RotationMatrix)` (`3D/Transformation.cpp` 288-300): the block is the transpose -/
def RotationOfMatrix (m : Option M3) : Res T3 := do
  let m ← need m
  return ⟨.rotation, some !![m.m00, m.m10, m.m20, 0; m.m01, m.m11, m.m21, 0; m.m02, m.m12, m.m22, 0; 0, 0, 0, 1], true⟩

/-- `Rotation (RotationVector)` (`3D/Transformation.cpp` 274-286) -/
noncomputable def Rotation (eps : ℝ) (r : RotVec) : Res T3 :=
  if !r.isDefined then .error .undefined
  else do
    let m ← RotMat.RotationVector eps r
    return ⟨.rotation, some !![m.m00, m.m10, m.m20, 0; m.m01, m.m11, m.m21, 0; m.m02, m.m12, m.m22, 0; 0, 0, 0, 1], true⟩

/-- `RotationAround` (`3D/Transformation.cpp` 302-306) -/
noncomputable def RotationAround (eps : ℝ) (p : Option V3) (r : RotVec) : Res T3 := do
  let p ← need p
  let a ← Translation (some p)
  let b ← Rotation eps r
  let ab ← a.mul b
  let c ← Translation (some (-p))
  ab.mul c

end T3

/-! ## 2D -/

/-- `d2::Transformation` (`2D/Transformation.hpp`, members `type_`, `matrix_`) -/
structure T2 where
  type : TType
  matrix : Option (Matrix (Fin 3) (Fin 3) ℝ)

namespace T2

/-- `isDefined` (`2D/Transformation.cpp` 168-171) -/
def isDefined (t : T2) : Bool := decide (t.type ≠ .undefined)

open Classical in
/-- constructor from a matrix (`2D/Transformation.cpp` 19-23) with `TypeOfMatrix` (349-366), which compares exactly -/
noncomputable def ctor (m : Option (Matrix (Fin 3) (Fin 3) ℝ)) : Res T2 :=
  match m with
  | none => .ok ⟨.undefined, none⟩
  | some m => if m = 1 then .ok ⟨.identity, some m⟩ else .error .runtimeError

/-- `operator ==` (`2D/Transformation.cpp` 25-33) -/
noncomputable def eq (a b : T2) : Bool :=
  open Classical in
  if !a.isDefined || !b.isDefined then false
  else match a.matrix, b.matrix with
  | some m, some n => decide (m = n)
  | _, _ => false

/-- `operator *=` (`2D/Transformation.cpp` 64-159), also `operator *` (40-47) -/
noncomputable def mul (a b : T2) : Res T2 :=
  if !b.isDefined then .error .undefined
  else if !a.isDefined then .error .undefined
  else .ok ⟨a.type.compose b.type, Option.map₂ (· * ·) a.matrix b.matrix⟩

/-- `isIdentity` (`2D/Transformation.cpp` 173-176): unlike in 3D it does not throw -/
def isIdentity (t : T2) : Bool := decide (t.type = .identity)

/-- `isRigid` (`2D/Transformation.cpp` 178-197) -/
def isRigid (t : T2) : Bool :=
  match t.type with
  | .identity | .translation | .rotation | .reflection => true
  | _ => false

/-- `getType` (`2D/Transformation.cpp` 199-207) -/
def getType (t : T2) : Res TType := if !t.isDefined then .error .undefined else .ok t.type

/-- `getInverse` (`2D/Transformation.cpp` 219-227) -/
noncomputable def getInverse (t : T2) : Res T2 :=
  if !t.isDefined then .error .undefined else .ok ⟨t.type, t.matrix.bind inverseMatrix⟩

/-- the first two coordinates of a product (`2D/Transformation.cpp` 231, 236) -/
def head (m : Matrix (Fin 3) (Fin 3) ℝ) (v : V2) (w : ℝ) : V2 :=
  let r := m.mulVec ![v.x, v.y, w]
  ⟨r 0, r 1⟩

/-- `applyTo (Point)` (`2D/Transformation.cpp` 229-232) -/
def applyTo (t : T2) (p : Option V2) : Res (Option V2) := do
  let p ← need p
  return t.matrix.map fun m => head m p 1

/-- `applyTo (Vector2d)` (`2D/Transformation.cpp` 234-237) -/
def applyToVector (t : T2) (v : Option V2) : Option V2 := Option.map₂ (fun m v => head m v 0) t.matrix v

/-- `Undefined` (`2D/Transformation.cpp` 263-266) -/
def Undefined : T2 := ⟨.undefined, none⟩

/-- `Identity` (`2D/Transformation.cpp` 268-271) -/
def Identity : T2 := ⟨.identity, some 1⟩

/-- `Translation` (`2D/Transformation.cpp` 273-285) -/
def Translation (v : Option V2) : Res T2 := do
  let v ← need v
  return ⟨.translation, some !![1, 0, v.x; 0, 1, v.y; 0, 0, 1]⟩

/-- `Rotation` (`2D/Transformation.cpp` 287-305) -/
noncomputable def Rotation (a : Angle) : Res T2 := do
  let t ← a.inUnit .radian
  return ⟨.rotation, some !![Real.cos t, -Real.sin t, 0; Real.sin t, Real.cos t, 0; 0, 0, 1]⟩

/-- `RotationAround` (`2D/Transformation.cpp` 307-311) -/
noncomputable def RotationAround (p : Option V2) (a : Angle) : Res T2 := do
  let p ← need p
  let s ← Translation (some p)
  let r ← Rotation a
  let sr ← s.mul r
  let c ← Translation (some (-p))
  sr.mul c

end T2

/-! ## Points -/

namespace P3

/-- `operator ==` (`3D/Object/Point.cpp` 33-41) -/
noncomputable def eq (p q : Option V3) : Bool :=
  match p, q with
  | some p, some q => decide (p.x = q.x) && decide (p.y = q.y) && decide (p.z = q.z)
  | _, _ => false

/-- `operator + (Vector3d)` (`3D/Object/Point.cpp` 48-61) -/
def add (p v : Option V3) : Res V3 := do return (← need p) + (← need v)
/-- `operator - (Vector3d)` (`3D/Object/Point.cpp` 63-76) -/
def subVec (p v : Option V3) : Res V3 := do return (← need p) - (← need v)
/-- `operator - (Point)` (`3D/Object/Point.cpp` 78-91) -/
def sub (p q : Option V3) : Res V3 := do
  let q ← need q
  let p ← need p
  return p - q
/-- `distanceTo` (`3D/Object/Point.cpp` 148-161) -/
noncomputable def distanceTo (p q : Option V3) : Res ℝ := do return (← sub p q).norm
/-- `isNear` (`3D/Object/Point.cpp` 98-106) -/
noncomputable def isNear (p q : Option V3) (tol : Option ℝ) : Res Bool := do
  let tol ← need tol
  let d ← distanceTo p q
  return decide (d ≤ tol)
/-- `applyTransformation` (`3D/Object/Point.cpp` 184-197) -/
def applyTransformation (t : T3) (p : Option V3) : Res (Option V3) :=
  if !t.isDefined then .error .undefined else t.applyTo p

end P3

namespace P2

/-- `operator ==` (`2D/Object/Point.cpp` 32-40) -/
noncomputable def eq (p q : Option V2) : Bool :=
  match p, q with
  | some p, some q => decide (p.x = q.x) && decide (p.y = q.y)
  | _, _ => false

/-- `operator + (Vector2d)` (`2D/Object/Point.cpp` 47-60) -/
def add (p v : Option V2) : Res V2 := do return (← need p) + (← need v)
/-- `operator - (Vector2d)` (`2D/Object/Point.cpp` 62-75) -/
def subVec (p v : Option V2) : Res V2 := do return (← need p) - (← need v)
/-- `operator - (Point)` (`2D/Object/Point.cpp` 77-90) -/
def sub (p q : Option V2) : Res V2 := do
  let p ← need p
  let q ← need q
  return p - q
/-- `distanceTo` (`2D/Object/Point.cpp` 137-150) -/
noncomputable def distanceTo (p q : Option V2) : Res ℝ := do return (← sub p q).norm
/-- `isNear` (`2D/Object/Point.cpp` 97-105) -/
noncomputable def isNear (p q : Option V2) (tol : Option ℝ) : Res Bool := do
  let tol ← need tol
  let d ← distanceTo p q
  return decide (d ≤ tol)
/-- `applyTransformation` (`2D/Object/Point.cpp` 185-198) -/
def applyTransformation (t : T2) (p : Option V2) : Res (Option V2) :=
  if !t.isDefined then .error .undefined else t.applyTo p

end P2

end Verif
