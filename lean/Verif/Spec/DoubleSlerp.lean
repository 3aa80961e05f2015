import Mathlib.Analysis.Normed.Algebra.QuaternionExponential
import Verif.Model.DoubleSlerp
import Verif.Spec.DoubleMake
import Verif.Spec.DoubleEuler
import Verif.Spec.Rotation

/-!
# Specification of powers and `SLERP` of quaternions in double precision

What is assumed of the mathematical library, and the formula of Shoemake over the real numbers. Nothing here comes from the code.
-/

namespace Verif.Spec

open Verif Verif.Double

/-- `std::log` between 1/8 and 8: a number of the format, within a unit in the last place of the logarithm -/
def Logarithm (log : F64 ℝ → F64 ℝ) : Prop := ∀ x, Representable x → 1 / 8 ≤ x → x ≤ 8 → ∃ y, log (.fin x) = .fin y ∧ Representable y ∧ |y - Real.log x| ≤ 2 ^ (-51 : ℤ)

/-- `std::exp` between -5 and 5: a number of the format, within two units in the last place of the exponential -/
def Exponential (exp : F64 ℝ → F64 ℝ) : Prop := ∀ x, Representable x → |x| ≤ 5 → ∃ y, exp (.fin x) = .fin y ∧ Representable y ∧ |y - Real.exp x| ≤ 2 ^ (-51 : ℤ) * Real.exp x

/-- what is assumed of the mathematical library -/
structure MathLib.Good (L : MathLib) : Prop where
  sin : Accurate L.sin Real.sin
  cos : Accurate L.cos Real.cos
  atan2 : Props.ArcTangent L.atan2
  exp : Exponential L.exp
  log : Logarithm L.log

/-- the point that divides the great arc from `P` to `Q`, two points of the sphere, in the ratio `r`: the formula of Shoemake -/
noncomputable def arcPoint (P Q : Quaternion ℝ) (r : ℝ) : Quaternion ℝ :=
  let θ := Real.arccos (star P * Q).re
  if Real.sin θ = 0 then P else (Real.sin ((1 - r) * θ) / Real.sin θ) • P + (Real.sin (r * θ) / Real.sin θ) • Q

/-- the quaternion of length one along `q` -/
noncomputable def along (q : Quat) : Quaternion ℝ := ‖hamilton q‖⁻¹ • hamilton q

/-- the unit quaternion of the angle `a` about the unit vector `m` -/
noncomputable def turnQ (m : V3) (a : ℝ) : Quat := ⟨Real.sin a * m.x, Real.sin a * m.y, Real.sin a * m.z, Real.cos a⟩

end Verif.Spec
