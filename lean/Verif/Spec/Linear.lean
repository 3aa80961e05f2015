import Verif.Model.Vec

/-!
# Specification of lines, rays, segments and planes as sets of points
-/

namespace Verif.Spec

open Verif

/-- the line through `o` along `d` -/
def LineSet (o d : V3) : Set V3 := {p | ∃ t : ℝ, p = o + t • d}
/-- the ray from `o` along `d` -/
def RaySet (o d : V3) : Set V3 := {p | ∃ t : ℝ, 0 ≤ t ∧ p = o + t • d}
/-- the segment from `a` to `b` -/
def SegSet (a b : V3) : Set V3 := {p | ∃ t : ℝ, 0 ≤ t ∧ t ≤ 1 ∧ p = a + t • (b - a)}
/-- the plane through `q` orthogonal to `n` -/
def PlaneSet (q n : V3) : Set V3 := {p | n.dot (p - q) = 0}

/-- the sphere of centre `c` and radius `|r|` -/
noncomputable def SphereSet (c : V3) (r : ℝ) : Set V3 := {p | (p - c).norm = |r|}

/-- the ellipsoid of centre `c` with half axes of lengths `k`, `l`, `m` along the orthogonal unit vectors `u`, `v`, `w` -/
def EllipsoidSet (c : V3) (k l m : ℝ) (u v w : V3) : Set V3 :=
  {p | ((p - c).dot u / k) ^ 2 + ((p - c).dot v / l) ^ 2 + ((p - c).dot w / m) ^ 2 = 1}

/-- `d` is the least distance from `p` to a point of `s`, and is attained. -/
def IsDistance (s : Set V3) (p : V3) (d : ℝ) : Prop := (∃ q ∈ s, (q - p).norm = d) ∧ ∀ q ∈ s, d ≤ (q - p).norm

/-- the line through `o` along `d` -/
def LineSet2 (o d : V2) : Set V2 := {p | ∃ t : ℝ, p = o + t • d}
/-- the segment from `a` to `b` -/
def SegSet2 (a b : V2) : Set V2 := {p | ∃ t : ℝ, 0 ≤ t ∧ t ≤ 1 ∧ p = a + t • (b - a)}

/-- `d` is the least distance from `p` to a point of `s`, and is attained. -/
def IsDistance2 (s : Set V2) (p : V2) (d : ℝ) : Prop := (∃ q ∈ s, (q - p).norm = d) ∧ ∀ q ∈ s, d ≤ (q - p).norm

end Verif.Spec
