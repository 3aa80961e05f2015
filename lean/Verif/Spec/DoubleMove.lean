import Mathlib.Analysis.Quaternion
import Verif.Model.Vec

/-!
# Motions of space

A motion is a sequence of rotations about axes through the origin, given by quaternions, and of translations. Points and vectors are quaternions without a real part.
-/

namespace Verif.Spec

/-- a rotation about an axis through the origin, or a translation -/
inductive Motion where
  | turn (w : Quaternion ℝ)
  | shift (v : Quaternion ℝ)

namespace Motion

/-- what it does to a point -/
noncomputable def point : Motion → Quaternion ℝ → Quaternion ℝ
  | turn w, x => w * (x * star w)
  | shift v, x => x + v

/-- what it does to a direction -/
noncomputable def direction : Motion → Quaternion ℝ → Quaternion ℝ
  | turn w, x => w * (x * star w)
  | shift _, x => x

/-- how far it may take a point away from the origin -/
noncomputable def reach : Motion → ℝ
  | turn _ => 0
  | shift v => ‖v‖

/-- how far several motions may take a point away from the origin -/
noncomputable def path (ms : List Motion) : ℝ := (ms.map reach).sum

/-- a point that is moved several times -/
noncomputable def points (ms : List Motion) (x : Quaternion ℝ) : Quaternion ℝ := ms.foldl (fun x m => m.point x) x

/-- a direction that is moved several times -/
noncomputable def directions (ms : List Motion) (x : Quaternion ℝ) : Quaternion ℝ := ms.foldl (fun x m => m.direction x) x

end Motion

/-- the error of a part of length `s` after `n` motions, when each adds at most `2 ^ k` of it -/
noncomputable def driftOf (k : ℤ) (n : ℕ) (s : ℝ) : ℝ := n * (2 ^ k * s + 2 ^ (-1069 : ℤ))

end Verif.Spec
