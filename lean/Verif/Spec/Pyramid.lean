import Verif.Spec.Linear
import Mathlib.Analysis.SpecialFunctions.Trigonometric.Inverse

/-!
# Specification of pyramids

A pyramid is the solid cone over a flat base: it consists of the apex and of the points that are seen from the apex in the direction of a point of the base. It is not
cut off at the base.
-/

namespace Verif.Spec

open Verif

/-- the region `R` of the plane laid out in space in the frame with origin `o` and axes `x` and `y` -/
def BaseSet (o x y : V3) (R : Set V2) : Set V3 := {q | ∃ v ∈ R, q = o + (v.x • x + v.y • y)}

/-- the solid with apex `a` over the base `S` -/
def PyramidSet (a : V3) (S : Set V3) : Set V3 := {p | p = a ∨ (RaySet a (p - a) ∩ S).Nonempty}

/-- the segment between two points of the region stays in the region -/
def ConvexRegion (R : Set V2) : Prop := ∀ v ∈ R, ∀ w ∈ R, ∀ s : ℝ, 0 ≤ s → s ≤ 1 → (1 - s) • v + s • w ∈ R

/-- `m` unit directions spread over the angle between the unit directions `u` and `v`: the first is `u`, the last (if there are two) is `v`, all lie between the two,
and the next one is always the same angle further -/
structure Fan (u v : V3) (m : ℕ) (g : ℕ → V3) : Prop where
  unit : ∀ j < m, (g j).norm = 1
  first : g 0 = u
  last : 2 ≤ m → g (m - 1) = v
  between : ∀ j < m, ∃ s t : ℝ, 0 ≤ s ∧ 0 ≤ t ∧ g j = s • u + t • v
  even : ∀ j, j + 1 < m → (g j).dot (g (j + 1)) = Real.cos (Real.arccos (u.dot v) / ((m - 1 : ℕ) : ℝ))

/-- the union of the lateral faces with apex `a` over the given edges, not cut off at the edges -/
def LateralFaces (a : V3) (es : List (V3 × V3)) : Set V3 := {p | ∃ e ∈ es, p ∈ PyramidSet a (SegSet e.1 e.2)}

end Verif.Spec
