import Mathlib.Analysis.SpecialFunctions.Trigonometric.Basic
import Verif.Spec.Linear

/-!
# Specification of cones

The solid cone is the set of points seen from the apex at most `t` (in radians) away from the axis; the lateral surface consists of the rays from the
apex that make the angle `t` with the axis.
-/

namespace Verif.Spec

open Verif

/-- the solid cone with apex `a`, axis `d` and half-angle `t` -/
def ConeSet (a d : V3) (t : ℝ) : Set V3 := {p | Real.cos t * ((p - a).norm * d.norm) ≤ (p - a).dot d}

/-- the lateral surface of the cone with apex `a`, axis `d` and half-angle `t` -/
def LateralSet (a d : V3) (t : ℝ) : Set V3 := {p | ∃ g : V3, g.norm = 1 ∧ g.dot d = Real.cos t * d.norm ∧ p ∈ RaySet a g}

/-- the closed ball with centre `c` and radius `r` -/
def BallSet (c : V3) (r : ℝ) : Set V3 := {p | (p - c).norm ≤ r}

end Verif.Spec
