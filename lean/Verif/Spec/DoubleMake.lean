import Mathlib.Analysis.Quaternion
import Mathlib.Analysis.SpecialFunctions.Trigonometric.Basic
import Verif.Spec.Double
import Verif.Model.Rotation

/-!
# Rotations as quaternions, and the accuracy of the mathematical library

The rotation about an axis and the three rotations of a sequence of Euler angles, as quaternions of Mathlib.
-/

namespace Verif.Spec

/-- a function of the mathematical library is accurate to `2 ^ -53`, which is less than one unit in the last place of a number between one half and one, and does not exceed one -/
def Accurate (f g : ℝ → ℝ) : Prop := ∀ x, Representable x → Representable (f x) ∧ |f x| ≤ 1 ∧ |f x - g x| ≤ 1 / 2 ^ 53

/-- the rotation about an axis, as a quaternion: the vector part is the unit vector of the axis times the sine of the half angle, the scalar part the cosine -/
noncomputable def turnAbout (x y z t : ℝ) : Quaternion ℝ :=
  let n := Real.sqrt (x ^ 2 + y ^ 2 + z ^ 2)
  ⟨Real.cos (t / 2), x / n * Real.sin (t / 2), y / n * Real.sin (t / 2), z / n * Real.sin (t / 2)⟩

/-- the three elementary rotations of a sequence, one after the other -/
noncomputable def threeTurns (p t s : ℝ) : AxisSequence → Quaternion ℝ
  | .xyz => turnAbout 1 0 0 p * turnAbout 0 1 0 t * turnAbout 0 0 1 s
  | .zxy => turnAbout 0 0 1 p * turnAbout 1 0 0 t * turnAbout 0 1 0 s
  | .zyx => turnAbout 0 0 1 p * turnAbout 0 1 0 t * turnAbout 1 0 0 s
  | .undefined => 1

/-- the angles of the rotations about x, y and z in `RotationMatrix::EulerAngle` -/
def axisAngles {α : Type} (p t s : α) : AxisSequence → α × α × α
  | .xyz => (p, t, s)
  | .zxy => (s, p, t)
  | _ => (s, t, p)

end Verif.Spec
