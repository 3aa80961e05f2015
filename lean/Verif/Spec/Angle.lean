import Verif.Model.Angle

/-!
# Specification of angles

An angle is specified by the number of turns it measures.
-/

namespace Verif.Spec

/-- How many of the unit make a full turn. -/
noncomputable def perTurn : AUnit → ℝ
  | .undefined => 0
  | .radian => 2 * Real.pi
  | .degree => 360
  | .arcminute => 360 * 60
  | .arcsecond => 360 * 60 * 60
  | .revolution => 1

/-- `a` is defined and measures `x` turns. -/
def Measures (a : Angle) (x : ℝ) : Prop := ∃ v, a = ⟨some v, a.unit⟩ ∧ a.unit ≠ .undefined ∧ v = x * perTurn a.unit

/-- The numbers of turns `x` and `y` are the same up to whole turns. -/
def SameDirection (x y : ℝ) : Prop := ∃ k : ℤ, x - y = k

/-- The distance between directions is at most `t` turns. -/
def WithinTurns (t x y : ℝ) : Prop := ∃ k : ℤ, |x - y - k| ≤ t

end Verif.Spec
