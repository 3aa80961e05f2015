import Mathlib.Algebra.Order.Field.Basic
import Mathlib.Algebra.Order.AbsoluteValue.Basic
import Mathlib.Algebra.Field.Basic

/-!
# What IEEE 754 says of binary64

The set of numbers of the format and what it means to round to nearest with ties to even, without saying how. Used to state what the model of the arithmetic
in `Model/Double.lean` is meant to do.
-/

namespace Verif.Spec

variable {α : Type} [Field α] [LinearOrder α] [IsStrictOrderedRing α]

/-- the numbers of binary64, with no bound on the exponent from above: an integer of at most 53 bits times a power of two that is at least `2 ^ -1074` -/
def Representable (x : α) : Prop := ∃ m e : ℤ, |m| < 2 ^ 53 ∧ -1074 ≤ e ∧ x = m * 2 ^ e

/-- `r` is a number of the format, and no number of the format is nearer to `x` -/
def NearestDouble (x r : α) : Prop := Representable r ∧ ∀ f : α, Representable f → |r - x| ≤ |f - x|

/-- when another number of the format is as near, `r` is an even multiple of the distance between the two -/
def TiesEven (x r : α) : Prop := ∀ f : α, Representable f → f ≠ r → |f - x| = |r - x| → ∃ k : ℤ, r = 2 * k * |f - r|

end Verif.Spec
