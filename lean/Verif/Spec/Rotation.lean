import Mathlib.Algebra.Quaternion
import Mathlib.LinearAlgebra.UnitaryGroup
import Verif.Model.Rotation

/-!
# Specification of rotations

Only the data types `Quat`, `M3`, `V3` of the model are used, and Mathlib.
-/

namespace Verif.Spec

open Verif

/-- The quaternion of Mathlib with the same components. -/
def hamilton (q : Quat) : Quaternion ℝ := ⟨q.s, q.x, q.y, q.z⟩

/-- The matrix of Mathlib with the same entries. -/
def toMatrix (m : M3) : Matrix (Fin 3) (Fin 3) ℝ := !![m.m00, m.m01, m.m02; m.m10, m.m11, m.m12; m.m20, m.m21, m.m22]

/-- The matrix is a proper rotation. -/
def IsRotation (m : M3) : Prop := toMatrix m ∈ Matrix.specialOrthogonalGroup (Fin 3) ℝ

/-- The quaternion has norm one. -/
def Unitary (q : Quat) : Prop := q.x ^ 2 + q.y ^ 2 + q.z ^ 2 + q.s ^ 2 = 1

/-- The map keeps dot products and cross products, hence lengths, angles and handedness. -/
def KeepsGeometry (f : V3 → V3) : Prop :=
  (∀ u v, (f u).dot (f v) = u.dot v) ∧ ∀ u v, (f u).cross (f v) = f (u.cross v)

/-- The map computed by a function that may throw. -/
def Computes {α β : Type} (f : α → Res β) (g : α → β) : Prop := ∀ a, f a = .ok (g a)

/-- Two quaternions are the same up to the sign. -/
def SameUpToSign (q p : Quat) : Prop := hamilton q = hamilton p ∨ hamilton q = -hamilton p

end Verif.Spec
