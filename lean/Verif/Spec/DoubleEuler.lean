import Verif.Props.DoubleDifference

/-! What is assumed of `std::asin` and `std::atan2`, and what Euler angles tell of a matrix -/

namespace Verif.Props

open Verif Verif.Spec Verif.Double

/-- the number π of the format -/
noncomputable def piD : ℝ := 7074237752028440 * 2 ^ (-51 : ℤ)

/-- `std::asin`: a number of the format, within a unit in the last place of the arc sine, between -π/2 and π/2 -/
def ArcSine (asin : ℝ → ℝ) : Prop := ∀ x, |x| ≤ 1 → Representable (asin x) ∧ |asin x| ≤ piD / 2 ∧ |asin x - Real.arcsin x| ≤ 2 ^ (-52 : ℤ)

/-- `std::atan2` of two numbers: a number of the format between -π and π, whose direction is that of the point, within a unit in the last place. Nothing is said of the direction of the origin, and of
which of π and -π is answered on the negative half of the axis. -/
def ArcTangent (atan2 : F64 ℝ → F64 ℝ → F64 ℝ) : Prop :=
  ∀ a b : ℝ, ∃ r, atan2 (.fin a) (.fin b) = .fin r ∧ Representable r ∧ |r| ≤ piD ∧ |b - √(a ^ 2 + b ^ 2) * Real.cos r| ≤ 2 ^ (-51 : ℤ) * √(a ^ 2 + b ^ 2) ∧
    |a - √(a ^ 2 + b ^ 2) * Real.sin r| ≤ 2 ^ (-51 : ℤ) * √(a ^ 2 + b ^ 2)

/-- the angles tell the numbers `a` to `d`, up to `e`: they are the sines and cosines of the first and third angle, times their length, and the sine of the second one. The second angle is
beyond a quarter turn, and the cosine of it negative, just when the others are turned by half a turn. -/
def Tells (e φ θ ψ a b t c d : ℝ) : Prop :=
  ∃ σ : ℝ, (σ = 1 ∨ σ = -1) ∧ |b - σ * √(a ^ 2 + b ^ 2) * Real.cos φ| ≤ e ∧ |a - σ * √(a ^ 2 + b ^ 2) * Real.sin φ| ≤ e ∧ |t - Real.sin θ| ≤ e ∧ -e ≤ σ * Real.cos θ ∧
    |d - σ * √(c ^ 2 + d ^ 2) * Real.cos ψ| ≤ e ∧ |c - σ * √(c ^ 2 + d ^ 2) * Real.sin ψ| ≤ e

/-- what the axis taken from the matrix is along -/
def skew (m : Fin 3 → Fin 3 → ℝ) : V3 := ⟨m 1 2 - m 2 1, m 2 0 - m 0 2, m 0 1 - m 1 0⟩

/-- the exact cosine of the angle of a rotation matrix -/
noncomputable def traceCosine (m : Fin 3 → Fin 3 → ℝ) : ℝ := (m 0 0 + m 1 1 + m 2 2 - 1) / 2

end Verif.Props
