import Verif.Model.Text

/-! # What reading back a text is meant to give -/

namespace Verif.Spec

variable {α : Type} [Field α] [LinearOrder α]

/-- the second double is the first up to an error: not a number and the infinities are kept -/
def Near (tol : α) : Dbl α → Dbl α → Prop
  | .nan, .nan => True
  | .inf a, .inf b => a = b
  | .fin x, .fin y => |y - x| ≤ tol
  | _, _ => False

/-- rounding to a nearest integer -/
def Nearest (rnd : α → ℤ) : Prop := ∀ x, |(rnd x : α) - x| ≤ 1 / 2

end Verif.Spec
