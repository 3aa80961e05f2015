import Verif.Spec.Rotation
import Verif.Model.Transformation

/-!
# Specification of maps of the plane and of space
-/

namespace Verif.Spec

open Verif

/-- The map keeps all distances. -/
def KeepsDistances (f : V3 → V3) : Prop := ∀ p q, (f p - f q).norm = (p - q).norm

/-- The map keeps all distances. -/
def KeepsDistances2 (f : V2 → V2) : Prop := ∀ p q, (f p - f q).norm = (p - q).norm

/-- The map keeps dot products and oriented areas, hence lengths, angles and handedness. -/
def KeepsGeometry2 (f : V2 → V2) : Prop :=
  (∀ u v, (f u).dot (f v) = u.dot v) ∧ ∀ u v, (f u).x * (f v).y - (f u).y * (f v).x = u.x * v.y - u.y * v.x

/-- `t` moves points by `f` (and never throws on a defined point). -/
def Moves (t : T3) (f : V3 → V3) : Prop := ∀ p, t.applyTo (some p) = .ok (some (f p))

/-- `t` acts on vectors by `g`. -/
def Turns (t : T3) (g : V3 → V3) : Prop := ∀ v, t.applyToVector (some v) = some (g v)

/-- `t` moves points by `f` (and never throws on a defined point). -/
def Moves2 (t : T2) (f : V2 → V2) : Prop := ∀ p, t.applyTo (some p) = .ok (some (f p))

/-- `t` acts on vectors by `g`. -/
def Turns2 (t : T2) (g : V2 → V2) : Prop := ∀ v, t.applyToVector (some v) = some (g v)

/-- The maps of the plane that a type of transformation names. -/
def OfKind2 : TType → (V2 → V2) → Prop
  | .undefined, _ => False
  | .identity, f => ∀ p, f p = p
  | .translation, f => ∃ v : V2, ∀ p, f p = p + v
  | .rotation, f => ∃ c s : ℝ, c ^ 2 + s ^ 2 = 1 ∧ ∀ p, f p = ⟨c * p.x - s * p.y, s * p.x + c * p.y⟩
  | .scaling, f => ∃ a b : ℝ, ∀ p, f p = ⟨a * p.x, b * p.y⟩
  | .reflection, f => ∃ c s : ℝ, c ^ 2 + s ^ 2 = 1 ∧ ∀ p, f p = ⟨c * p.x + s * p.y, s * p.x - c * p.y⟩
  | .shear, f => ∃ a b : ℝ, (a = 0 ∨ b = 0) ∧ ∀ p, f p = ⟨p.x + a * p.y, b * p.x + p.y⟩
  | .affine, f => ∃ a b c d x y : ℝ, ∀ p, f p = ⟨a * p.x + b * p.y + x, c * p.x + d * p.y + y⟩

end Verif.Spec
