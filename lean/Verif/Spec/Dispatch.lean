import Verif.Spec.Linear
import Verif.Spec.Rotation
import Verif.Model.Dispatch3

/-!
# What the objects of space stand for
-/

namespace Verif.Spec

open Verif

/-- `o` satisfies `P`, or is a composite with such an object somewhere inside. -/
inductive Has (P : Obj3 → Prop) : Obj3 → Prop
  | self {o} : P o → Has P o
  | member {d os o} : o ∈ os → Has P o → Has P (.composite d os)

/-- `o` is a point set or a line string one of whose points is undefined. -/
inductive Gap : Obj3 → Prop
  | pointSet {ps} : none ∈ ps → Gap (.pointSet ps)
  | lineString {ps} : none ∈ ps → Gap (.lineString ps)

/-- `o` is an object as the constructors make it and `S` is the set of its points. Directions have length one; the axes of an ellipsoid are positive and its orientation is
a unit quaternion; the points of spheres and ellipsoids are those of the surface; the points of a composite are those of its members. -/
inductive Denotes : Obj3 → Set V3 → Prop
  | point (p : V3) : Denotes (.point (some p)) {p}
  | pointSet (ps : List V3) : ps ≠ [] → ps.Nodup → Denotes (.pointSet (ps.map some)) {p | p ∈ ps}
  | line (o d : V3) : d.norm = 1 → Denotes (.line ⟨some o, some d⟩) (LineSet o d)
  | ray (o d : V3) : d.norm = 1 → Denotes (.ray ⟨some o, some d⟩) (RaySet o d)
  | segment (a b : V3) : Denotes (.segment ⟨some a, some b⟩) (SegSet a b)
  | plane (q n : V3) : n.norm = 1 → Denotes (.plane ⟨some q, some n⟩) (PlaneSet q n)
  | sphere (c : V3) (r : ℝ) : 0 ≤ r → Denotes (.sphere ⟨some c, some r⟩) (SphereSet c r)
  | ellipsoid (p : V3) (a b c : ℝ) (q : Quat) : 0 < a → 0 < b → 0 < c → Unitary q →
      Denotes (.ellipsoid ⟨some p, some a, some b, some c, some q⟩)
        (EllipsoidSet p a b c (RotMat.ofQuat q).row0 (RotMat.ofQuat q).row1 (RotMat.ofQuat q).row2)
  | composite (os : List Obj3) (f : Obj3 → Set V3) : (∀ o ∈ os, Denotes o (f o)) → Denotes (.composite true os) {p | ∃ o ∈ os, p ∈ f o}

/-- a line, a ray or a segment -/
inductive Straight : Obj3 → Prop
  | line (l) : Straight (.line l)
  | ray (r) : Straight (.ray r)
  | segment (s) : Straight (.segment s)

/-- a plane, a sphere or an ellipsoid -/
inductive Bent : Obj3 → Prop
  | plane (p) : Bent (.plane p)
  | sphere (s) : Bent (.sphere s)
  | ellipsoid (e) : Bent (.ellipsoid e)

end Verif.Spec
