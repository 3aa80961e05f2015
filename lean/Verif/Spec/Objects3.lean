import Verif.Spec.Linear
import Verif.Model.Objects3

/-!
# The set of points of an object

Only for the kinds of objects that intersections with planes are made of; a point with an undefined coordinate is no point.
-/

namespace Verif.Spec

open Verif

/-- the set of points of an object -/
def ObjPoints : Obj3 → Set V3
  | .point (some p) => {p}
  | .pointSet ps => {p | some p ∈ ps}
  | .line ⟨some o, some d⟩ => LineSet o d
  | .ray ⟨some o, some d⟩ => RaySet o d
  | .segment ⟨some a, some b⟩ => SegSet a b
  | .plane ⟨some q, some n⟩ => PlaneSet q n
  | _ => ∅

/-- the points of an intersection: those of its objects -/
def IsectPoints (i : Isect3) : Set V3 := {p | ∃ o ∈ i.composite.objects, p ∈ ObjPoints o}

end Verif.Spec
