import Verif.Model.Heap

/-!
# Programs over composites and polygons

Sequences of operations on variables that are composites (`2D/Object/Composite.cpp` and `3D/Object/Composite.cpp`, the same lines for both unless told) and on variables that are polygons or
multi-polygons, which keep what they are worth behind a pointer (`Unique<Polygon::Impl> implUPtr_`, `2D/Object/Polygon.hpp` 373; `2D/Object/MultiPolygon.hpp` 256). An exception is caught by the
program, which goes on with the next operation. An operation on a variable that does not exist, or the construction of one that does, is undefined behaviour here; a compiler refuses most of them.
-/

namespace Verif.Heap

variable {L : Type}

/-! ## Composites -/

/-- one operation of a program; the numbers are variables -/
inductive Command (L : Type) where
  /-- `Composite x = Composite::Empty()` -/
  | empty (x : ℕ)
  /-- `Composite x = Composite::Undefined()` -/
  | undefined (x : ℕ)
  /-- `Composite x(object)` for an object that is not a composite -/
  | make (x : ℕ) (v : L)
  /-- `Composite x(Unique<Object>(y.clone()))`: a composite with the composite `y` as its only member -/
  | wrap (x y : ℕ)
  /-- `Composite x(y)` -/
  | copy (x y : ℕ)
  /-- `x = y` -/
  | assign (x y : ℕ)
  /-- `Composite z = x + y` -/
  | add (z x y : ℕ)
  /-- `x += y` -/
  | append (x y : ℕ)
  /-- `x.applyTransformation(...)`, which does `g` to an object that is not a composite -/
  | transform (x : ℕ) (g : L → Res L)
  /-- the end of the life of `x` -/
  | destroy (x : ℕ)

/-- the memory and the address of each variable that exists -/
structure State (L : Type) where
  heap : Heap L
  var : ℕ → Option ℕ

/-- a new variable -/
def State.bind (s : State L) (x : ℕ) (r : Heap L × ℕ) : State L := ⟨r.1, Function.update s.var x (some r.2)⟩

/-- `operator +` (`2D/Object/Composite.cpp` 131-166) of the composites at `a` and `b`: a new composite with copies of the members of both -/
def plus (ok : L → Bool) (n : ℕ) (h : Heap L) (a b : ℕ) : Option (Res (Heap L × ℕ)) :=
  match isDefined ok h n b, isDefined ok h n a with
  | none, _ => none
  | some (.error e), _ => some (.error e)
  | some (.ok false), _ => some (.error .undefined)
  | _, none => none
  | _, some (.error e) => some (.error e)
  | _, some (.ok false) => some (.error .undefined)
  | some (.ok true), some (.ok true) =>
    match membersAt h a, membersAt h b with
    | .error e, _ => some (.error e)
    | _, .error e => some (.error e)
    | .ok (_, as), .ok (_, bs) =>
      match cloneAll (clone n) h as with
      | none => none
      | some (.error e) => some (.error e)
      | some (.ok (h₁, cs)) =>
        match cloneAll (clone n) h₁ bs with
        | none => none
        | some (.error e) => some (.error e)
        | some (.ok (h₂, ds)) => some (.ok (alloc h₂ (.comp true (cs ++ ds))))

/-- what becomes of an operation that gives a memory or throws: undefined behaviour ends the program, exceptions are caught and leave the state `s` -/
def caught (s : State L) {β : Type} (f : β → State L) : Option (Res β) → Option (Res (State L × Option Err))
  | none => none
  | some (.error .ub) => some (.error .ub)
  | some (.error e) => some (.ok (s, some e))
  | some (.ok r) => some (.ok (f r, none))

/-- one operation: the state after it and the exception that was thrown, if any -/
def step (ok : L → Bool) (n : ℕ) (s : State L) : Command L → Option (Res (State L × Option Err))
  /- `2D/Object/Composite.cpp` 556-559 -/
  | .empty x => if (s.var x).isSome then some (.error .ub) else some (.ok (s.bind x (alloc s.heap (.comp true [])), none))
  /- `2D/Object/Composite.cpp` 547-554 -/
  | .undefined x => if (s.var x).isSome then some (.error .ub) else some (.ok (s.bind x (alloc s.heap (.comp false [])), none))
  /- `2D/Object/Composite.cpp` 20-26 -/
  | .make x v =>
    if (s.var x).isSome then some (.error .ub)
    else some (.ok (s.bind x (alloc (alloc s.heap (.leaf v)).1 (.comp true [(alloc s.heap (.leaf v)).2])), none))
  /- `2D/Object/Composite.cpp` 28-34 -/
  | .wrap x y =>
    if (s.var x).isSome then some (.error .ub)
    else match s.var y with
    | none => some (.error .ub)
    | some b => caught s (fun r => s.bind x (alloc r.1 (.comp true [r.2]))) (clone n s.heap b)
  /- `2D/Object/Composite.cpp` 55-71 -/
  | .copy x y =>
    if (s.var x).isSome then some (.error .ub)
    else match s.var y with
    | none => some (.error .ub)
    | some b => caught s (s.bind x) (clone n s.heap b)
  | .assign x y =>
    match s.var x, s.var y with
    | some a, some b => caught s (fun h => ⟨h, s.var⟩) (Heap.assign n s.heap a b)
    | _, _ => some (.error .ub)
  | .add z x y =>
    if (s.var z).isSome then some (.error .ub)
    else match s.var x, s.var y with
    | some a, some b => caught s (s.bind z) (plus ok n s.heap a b)
    | _, _ => some (.error .ub)
  | .append x y =>
    match s.var x, s.var y with
    | some a, some b => caught s (fun h => ⟨h, s.var⟩) (Heap.append ok n s.heap a b)
    | _, _ => some (.error .ub)
  | .transform x g =>
    match s.var x with
    | none => some (.error .ub)
    | some a =>
      match Heap.transform ok g n s.heap a with
      | none => none
      | some (_, .error .ub) => some (.error .ub)
      | some (h, .error e) => some (.ok (⟨h, s.var⟩, some e))
      | some (h, .ok ()) => some (.ok (⟨h, s.var⟩, none))
  | .destroy x =>
    match s.var x with
    | none => some (.error .ub)
    | some a => caught s (fun h => ⟨h, Function.update s.var x none⟩) (Heap.destroy n s.heap a)

/-- a program: the state after it and what every operation threw -/
def run (ok : L → Bool) (n : ℕ) : State L → List (Command L) → Option (Res (State L × List (Option Err)))
  | s, [] => some (.ok (s, []))
  | s, c :: cs =>
    match step ok n s c with
    | none => none
    | some (.error e) => some (.error e)
    | some (.ok (s', e)) =>
      match run ok n s' cs with
      | none => none
      | some (.error e') => some (.error e')
      | some (.ok (s'', es)) => some (.ok (s'', e :: es))

/-- nothing in memory and no variable -/
def State.start : State L := ⟨⟨fun _ => none, 0⟩, fun _ => none⟩

end Verif.Heap

/-! ## Polygons -/

namespace Verif.Pimpl

variable {V : Type}

/-- one operation of a program over polygons -/
inductive Command (V : Type) where
  /-- `Polygon x(...)` -/
  | make (x : ℕ) (v : V)
  /-- `Polygon x(y)` -/
  | copy (x y : ℕ)
  /-- `x = y` -/
  | assign (x y : ℕ)
  /-- `x.applyTransformation(...)` -/
  | change (x : ℕ) (g : V → Res V)
  /-- the end of the life of `x` -/
  | destroy (x : ℕ)

/-- the variables that exist with their pointers, which may be null, and the memory behind the pointers -/
structure State (V : Type) where
  var : ℕ → Option (Option ℕ)
  impl : ℕ → Option V
  next : ℕ

/-- `(p != nullptr) ? new Impl(*p) : nullptr` (`2D/Object/Polygon.cpp` 721, 732; `2D/Object/MultiPolygon.cpp` 337, 349) -/
def copyOf (s : State V) : Option ℕ → Res (State V × Option ℕ)
  | none => .ok (s, none)
  | some a =>
    match s.impl a with
    | none => .error .ub
    | some v => .ok (⟨s.var, Function.update s.impl s.next (some v), s.next + 1⟩, some s.next)

/-- the memory behind a pointer is given back -/
def delete (s : State V) : Option ℕ → Res (State V)
  | none => .ok s
  | some a =>
    match s.impl a with
    | none => .error .ub
    | some _ => .ok ⟨s.var, Function.update s.impl a none, s.next⟩

/-- one operation: the state after it and the exception that was thrown, if any -/
def step (s : State V) : Command V → Res (State V × Option Err)
  /- `2D/Object/Polygon.cpp` 713-717; `2D/Object/MultiPolygon.cpp` 329-333 -/
  | .make x v =>
    if (s.var x).isSome then .error .ub else .ok (⟨Function.update s.var x (some (some s.next)), Function.update s.impl s.next (some v), s.next + 1⟩, none)
  /- `2D/Object/Polygon.cpp` 719-723; `2D/Object/MultiPolygon.cpp` 335-339 -/
  | .copy x y =>
    if (s.var x).isSome then .error .ub
    else match s.var y with
    | none => .error .ub
    | some p => do
      let (s', q) ← copyOf s p
      return (⟨Function.update s'.var x (some q), s'.impl, s'.next⟩, none)
  /- `2D/Object/Polygon.cpp` 727-737; `2D/Object/MultiPolygon.cpp` 343-355. `reset` puts the new pointer in place and then gives back what the old one points to. -/
  | .assign x y =>
    if x = y then (if (s.var x).isSome then .ok (s, none) else .error .ub)
    else match s.var x, s.var y with
    | some old, some p => do
      let (s', q) ← copyOf s p
      let s'' ← delete ⟨Function.update s'.var x (some q), s'.impl, s'.next⟩ old
      return (s'', none)
    | _, _ => .error .ub
  /- `2D/Object/Polygon.cpp` 619-642, 1041-1054; `2D/Object/MultiPolygon.cpp` 232-255, 502-515. The new polygon is computed beside the old one. A null pointer is not defined. -/
  | .change x g =>
    match s.var x with
    | none => .error .ub
    | some none => .ok (s, some .undefined)
    | some (some a) =>
      match s.impl a with
      | none => .error .ub
      | some v =>
        match g v with
        | .error e => .ok (s, some e)
        | .ok w => .ok (⟨s.var, Function.update s.impl a (some w), s.next⟩, none)
  /- `2D/Object/Polygon.cpp` 725; `2D/Object/MultiPolygon.cpp` 341 -/
  | .destroy x =>
    match s.var x with
    | none => .error .ub
    | some p => do
      let s' ← delete s p
      return (⟨Function.update s'.var x none, s'.impl, s'.next⟩, none)

/-- a program: the state after it and what every operation threw -/
def run : State V → List (Command V) → Res (State V × List (Option Err))
  | s, [] => .ok (s, [])
  | s, c :: cs => do
    let (s', e) ← step s c
    let (s'', es) ← run s' cs
    return (s'', e :: es)

/-- nothing in memory and no variable -/
def State.start : State V := ⟨fun _ => none, fun _ => none, 0⟩

end Verif.Pimpl
