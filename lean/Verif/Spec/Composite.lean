import Verif.Model.Objects2
import Verif.Model.Objects3

/-!
# Specification of the type of an intersection
-/

namespace Verif.Spec

open Verif

/-- The objects that have a type of their own in an intersection. -/
inductive HasKind2 : Obj2 → IType2 → Prop
  | point (p) : HasKind2 (.point p) .point
  | pointSet (ps) : HasKind2 (.pointSet ps) .pointSet
  | line (l) : HasKind2 (.line l) .line
  | segment (s) : HasKind2 (.segment s) .segment
  | lineString (ps) : HasKind2 (.lineString ps) .lineString
  | polygon (p) : HasKind2 (.polygon p) .polygon

/-- The objects that have a type of their own in an intersection. -/
inductive HasKind3 : Obj3 → IType3 → Prop
  | point (p) : HasKind3 (.point p) .point
  | pointSet (ps) : HasKind3 (.pointSet ps) .pointSet
  | line (l) : HasKind3 (.line l) .line
  | ray (r) : HasKind3 (.ray r) .ray
  | segment (s) : HasKind3 (.segment s) .segment
  | lineString (ps) : HasKind3 (.lineString ps) .lineString
  | polygon (p) : HasKind3 (.polygon p) .polygon
  | plane (p) : HasKind3 (.plane p) .plane
  | cuboid (c) : HasKind3 (.cuboid c) .cuboid
  | sphere (s) : HasKind3 (.sphere s) .sphere
  | ellipsoid (e) : HasKind3 (.ellipsoid e) .ellipsoid
  | pyramid (p) : HasKind3 (.pyramid p) .pyramid

/-- `t` summarises the objects: empty if there is none, their common type if they have one, complex if two of them have different types. -/
inductive Summary2 : List Obj2 → IType2 → Prop
  | empty : Summary2 [] .empty
  | common {os : List Obj2} {t : IType2} : os ≠ [] → (∀ o ∈ os, HasKind2 o t) → Summary2 os t
  | mixed {os : List Obj2} {a b : Obj2} {s t : IType2} : a ∈ os → b ∈ os → HasKind2 a s → HasKind2 b t → s ≠ t → Summary2 os .complex

/-- `t` summarises the objects: empty if there is none, their common type if they have one, complex if two of them have different types. -/
inductive Summary3 : List Obj3 → IType3 → Prop
  | empty : Summary3 [] .empty
  | common {os : List Obj3} {t : IType3} : os ≠ [] → (∀ o ∈ os, HasKind3 o t) → Summary3 os t
  | mixed {os : List Obj3} {a b : Obj3} {s t : IType3} : a ∈ os → b ∈ os → HasKind3 a s → HasKind3 b t → s ≠ t → Summary3 os .complex

end Verif.Spec
