import Verif.Model.Rotation

/-!
# Boxes

A box has a centre, three orthonormal axes and three half extents.
-/

namespace Verif.Spec

open Verif

/-- three unit vectors orthogonal to each other -/
def Orthonormal (a b c : V3) : Prop := a.norm = 1 ∧ b.norm = 1 ∧ c.norm = 1 ∧ a.dot b = 0 ∧ a.dot c = 0 ∧ b.dot c = 0

/-- the points of a box with half extents `e`, `f`, `g` -/
def BoxSet (o a b c : V3) (e f g : ℝ) : Set V3 := {p | ∃ x y z : ℝ, p = o + x • a + y • b + z • c ∧ |x| ≤ e ∧ |y| ≤ f ∧ |z| ≤ g}

/-- the points of the faces of a box -/
def FaceSet (o a b c : V3) (e f g : ℝ) : Set V3 :=
  {p | ∃ x y z : ℝ, p = o + x • a + y • b + z • c ∧ |x| ≤ e ∧ |y| ≤ f ∧ |z| ≤ g ∧ (|x| = e ∨ |y| = f ∨ |z| = g)}

/-- the corners of a box -/
def CornerSet (o a b c : V3) (e f g : ℝ) : Set V3 := {p | ∃ x y z : ℝ, p = o + x • a + y • b + z • c ∧ |x| = e ∧ |y| = f ∧ |z| = g}

end Verif.Spec
