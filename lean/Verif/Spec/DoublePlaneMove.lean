import Mathlib.Analysis.SpecialFunctions.Complex.Circle

/-!
# Motions of the plane

A motion is a sequence of rotations about the origin or about a point and of translations. Points and vectors are complex numbers.
-/

namespace Verif.Spec

/-- a rotation about the origin, a translation, or a rotation about a point -/
inductive PlaneMotion where
  | turn (t : ℝ)
  | shift (v : ℂ)
  | around (p : ℂ) (t : ℝ)

namespace PlaneMotion

/-- what it does to a point -/
noncomputable def point : PlaneMotion → ℂ → ℂ
  | turn t, x => Complex.exp (t * Complex.I) * x
  | shift v, x => x + v
  | around p t, x => p + Complex.exp (t * Complex.I) * (x - p)

/-- what it does to a direction -/
noncomputable def direction : PlaneMotion → ℂ → ℂ
  | turn t, x => Complex.exp (t * Complex.I) * x
  | shift _, x => x
  | around _ t, x => Complex.exp (t * Complex.I) * x

/-- how far it may take a point away from the origin -/
noncomputable def reach : PlaneMotion → ℝ
  | turn _ => 0
  | shift v => ‖v‖
  | around p _ => 2 * ‖p‖

/-- how far several motions may take a point away from the origin -/
noncomputable def path (ms : List PlaneMotion) : ℝ := (ms.map reach).sum

/-- a point that is moved several times -/
noncomputable def points (ms : List PlaneMotion) (x : ℂ) : ℂ := ms.foldl (fun x m => m.point x) x

/-- a direction that is moved several times -/
noncomputable def directions (ms : List PlaneMotion) (x : ℂ) : ℂ := ms.foldl (fun x m => m.direction x) x

end PlaneMotion

/-- the error of a part of length `s` after `n` motions of the plane -/
noncomputable def planeDrift (n : ℕ) (s : ℝ) : ℝ := n * (2 ^ (-46 : ℤ) * s + 2 ^ (-1068 : ℤ))

end Verif.Spec
