import Verif.Model.Vec
import Mathlib.Data.List.Basic

/-!
# Rings of vertices
-/

namespace Verif.Spec

open Verif

/-- the vertices of the ring given by a list of points: a last point equal to the first one only closes the ring -/
def RingVertices (ps vs : List V2) : Prop := (ps = vs ∧ ps.head? ≠ ps.getLast?) ∨ (∃ v, ps = vs ++ [v] ∧ ps.head? = some v)

/-- the same ring, with the same first vertex, run through the other way -/
def turnedRing : List V2 → List V2
  | [] => []
  | v :: vs => v :: vs.reverse

/-- twice the area enclosed by a ring of vertices, positive if it is clockwise (the shoelace formula) -/
def ringArea (vs : List V2) : ℝ := (List.zipWith (fun p q : V2 => q.x * p.y - p.x * q.y) vs (vs.rotate 1)).sum

end Verif.Spec
