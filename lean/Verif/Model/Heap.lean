import Verif.Model.Err
import Mathlib.Data.Set.Basic
import Mathlib.Logic.Function.Basic

/-!
# Composites in memory

A composite owns its members through pointers (`Array<Unique<Object>> objects_`, `2D/Object/Composite.hpp` 388-389 and `3D/Object/Composite.hpp` 389-390). The other models treat composites as
values; this one keeps the addresses, so that copies, assignments and changes can be told apart. `2D/Object/Composite.cpp` and `3D/Object/Composite.cpp` have the same code up to line 230.

Simplified: the objects that are not composites are one kind of cell with a value; memory is never used up and addresses are not used again; a composite stored in a variable is at an
address like the others. Using an address without an object is undefined behaviour. Functions that follow pointers have a number of turns: `none` means that they need more of them.
-/

namespace Verif.Heap

/-- an object in memory: one that is not a composite, or a composite with its flag `defined_` and the addresses of its members -/
inductive Cell (L : Type) where
  | leaf (v : L)
  | comp (defined : Bool) (members : List ℕ)

/-- the memory: what is at each address, and the first address never used -/
structure Heap (L : Type) where
  cell : ℕ → Option (Cell L)
  next : ℕ

variable {L : Type}

/-- a new object -/
def alloc (h : Heap L) (c : Cell L) : Heap L × ℕ := (⟨Function.update h.cell h.next (some c), h.next + 1⟩, h.next)

/-- changes the object at an address -/
def write (h : Heap L) (a : ℕ) (c : Cell L) : Heap L := ⟨Function.update h.cell a (some c), h.next⟩

/-- gives the memory of an object back -/
def free (h : Heap L) (a : ℕ) : Heap L := ⟨Function.update h.cell a none, h.next⟩

/-- `std::transform` into `std::back_inserter` of copies of the members (`2D/Object/Composite.cpp` 62-70) -/
def cloneAll (f : Heap L → ℕ → Option (Res (Heap L × ℕ))) : Heap L → List ℕ → Option (Res (Heap L × List ℕ))
  | h, [] => some (.ok (h, []))
  | h, a :: as =>
    match f h a with
    | none => none
    | some (.error e) => some (.error e)
    | some (.ok (h', b)) =>
      match cloneAll f h' as with
      | none => none
      | some (.error e) => some (.error e)
      | some (.ok (h'', bs)) => some (.ok (h'', b :: bs))

/-- `clone` (`2D/Object/Composite.cpp` 55-76; of the other objects, for instance `2D/Object/Point.cpp` 27-30): a new object with copies of the members -/
def clone : ℕ → Heap L → ℕ → Option (Res (Heap L × ℕ))
  | 0, _, _ => none
  | n + 1, h, a =>
    match h.cell a with
    | none => some (.error .ub)
    | some (.leaf v) => some (.ok (alloc h (.leaf v)))
    | some (.comp d as) =>
      match cloneAll (clone n) h as with
      | none => none
      | some (.error e) => some (.error e)
      | some (.ok (h', bs)) => some (.ok (alloc h' (.comp d bs)))

/-- the destructors of the elements of an array -/
def destroyAll (f : Heap L → ℕ → Option (Res (Heap L))) : Heap L → List ℕ → Option (Res (Heap L))
  | h, [] => some (.ok h)
  | h, a :: as =>
    match f h a with
    | none => none
    | some (.error e) => some (.error e)
    | some (.ok h') => destroyAll f h' as

/-- the destructor of an object (implicit for `Composite`, whose members are `Unique` pointers): the members are destroyed, then the object -/
def destroy : ℕ → Heap L → ℕ → Option (Res (Heap L))
  | 0, _, _ => none
  | n + 1, h, a =>
    match h.cell a with
    | none => some (.error .ub)
    | some (.leaf _) => some (.ok (free h a))
    | some (.comp _ as) =>
      match destroyAll (destroy n) h as with
      | none => none
      | some (.error e) => some (.error e)
      | some (.ok h') => some (.ok (free h' a))

/-- the members of the composite at an address -/
def membersAt (h : Heap L) (a : ℕ) : Res (Bool × List ℕ) :=
  match h.cell a with
  | some (.comp d as) => .ok (d, as)
  | _ => .error .ub

/-- `operator =` (`2D/Object/Composite.cpp` 78-100) of the composite at `a` with the composite at `b` on the right: the flag is copied, `objects_.clear()` destroys the members on the left, and
then the members on the right are copied -/
def assign (n : ℕ) (h : Heap L) (a b : ℕ) : Option (Res (Heap L)) :=
  if a = b then some (.ok h)
  else
    match membersAt h b, membersAt h a with
    | .error e, _ => some (.error e)
    | _, .error e => some (.error e)
    | .ok (d, _), .ok (_, as) =>
      match destroyAll (destroy n) h as with
      | none => none
      | some (.error e) => some (.error e)
      | some (.ok h₁) =>
        match membersAt (write h₁ a (.comp d [])) b with
        | .error e => some (.error e)
        | .ok (_, bs) =>
          match cloneAll (clone n) (write h₁ a (.comp d [])) bs with
          | none => none
          | some (.error e) => some (.error e)
          | some (.ok (h₂, cs)) => some (.ok (write h₂ a (.comp d cs)))

/-- `std::all_of` of `isDefined` over the members -/
def allDefined (f : ℕ → Option (Res Bool)) : List ℕ → Option (Res Bool)
  | [] => some (.ok true)
  | a :: as =>
    match f a with
    | none => none
    | some (.error e) => some (.error e)
    | some (.ok false) => some (.ok false)
    | some (.ok true) => allDefined f as

/-- `isDefined` (`2D/Object/Composite.cpp` 195-205); `ok` tells the objects that are not composites -/
def isDefined (ok : L → Bool) (h : Heap L) : ℕ → ℕ → Option (Res Bool)
  | 0, _ => none
  | n + 1, a =>
    match h.cell a with
    | none => some (.error .ub)
    | some (.leaf v) => some (.ok (ok v))
    | some (.comp false _) => some (.ok false)
    | some (.comp true as) => allDefined (isDefined ok h n) as

/-- `operator +=` (`2D/Object/Composite.cpp` 168-193): copies of the members on the right are put behind the members on the left. `reserve` comes first, so the iterators over the right
operand stay valid even if it is the left one. -/
def append (ok : L → Bool) (n : ℕ) (h : Heap L) (a b : ℕ) : Option (Res (Heap L)) :=
  match isDefined ok h n b, isDefined ok h n a with
  | none, _ => none
  | some (.error e), _ => some (.error e)
  | some (.ok false), _ => some (.error .undefined)
  | _, none => none
  | _, some (.error e) => some (.error e)
  | _, some (.ok false) => some (.error .undefined)
  | some (.ok true), some (.ok true) =>
    match membersAt h b with
    | .error e => some (.error e)
    | .ok (_, bs) =>
      match cloneAll (clone n) h bs with
      | none => none
      | some (.error e) => some (.error e)
      | some (.ok (h', cs)) =>
        match membersAt h' a with
        | .error e => some (.error e)
        | .ok (d, as) => some (.ok (write h' a (.comp d (as ++ cs))))

/-- the loop of `applyTransformation` over the members (`3D/Object/Composite.cpp` 454-457): the memory, and whether an exception ended the loop -/
def transformAll (f : Heap L → ℕ → Option (Heap L × Res Unit)) : Heap L → List ℕ → Option (Heap L × Res Unit)
  | h, [] => some (h, .ok ())
  | h, a :: as =>
    match f h a with
    | none => none
    | some (h', .error e) => some (h', .error e)
    | some (h', .ok ()) => transformAll f h' as

/-- `applyTransformation` (`3D/Object/Composite.cpp` 435-458) with a transformation that is defined and not the identity; `g` is what it does to an object that is not a composite, which may
throw (for instance `3D/Object/Sphere.cpp` 580-606) -/
def transform (ok : L → Bool) (g : L → Res L) : ℕ → Heap L → ℕ → Option (Heap L × Res Unit)
  | 0, _, _ => none
  | n + 1, h, a =>
    match h.cell a with
    | none => some (h, .error .ub)
    | some (.leaf v) =>
      match g v with
      | .error e => some (h, .error e)
      | .ok w => some (write h a (.leaf w), .ok ())
    | some (.comp _ as) =>
      match isDefined ok h (n + 1) a with
      | none => none
      | some (.error e) => some (h, .error e)
      | some (.ok false) => some (h, .error .undefined)
      | some (.ok true) => transformAll (transform ok g n) h as

end Verif.Heap
