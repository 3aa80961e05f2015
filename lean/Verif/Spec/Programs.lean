import Verif.Model.Programs
import Verif.Spec.Heap

/-!
# Programs over values

What programs over composites and polygons should do: variables are values, a copy is the same value, and an operation changes one variable. `none` marks a program that uses a variable that
does not exist or constructs one that does.
-/

namespace Verif.Spec

open Verif.Heap

variable {L V : Type}

/-- variables that are composites: the flag and the members -/
abbrev Store (L : Type) := ℕ → Option (Bool × Forest L)

/-- one operation on values -/
def valueStep (ok : L → Bool) (s : Store L) : Command L → Option (Store L × Option Err)
  | .empty x => if (s x).isSome then none else some (Function.update s x (some (true, .nil)), none)
  | .undefined x => if (s x).isSome then none else some (Function.update s x (some (false, .nil)), none)
  | .make x v => if (s x).isSome then none else some (Function.update s x (some (true, .leaf v .nil)), none)
  | .wrap x y =>
    if (s x).isSome then none
    else match s y with
    | none => none
    | some (d, m) => some (Function.update s x (some (true, .node d m .nil)), none)
  | .copy x y =>
    if (s x).isSome then none
    else match s y with
    | none => none
    | some v => some (Function.update s x (some v), none)
  | .assign x y =>
    match s x, s y with
    | some _, some v => some (Function.update s x (some v), none)
    | _, _ => none
  | .add z x y =>
    if (s z).isSome then none
    else match s x, s y with
    | some (d, m), some (d', m') =>
      if (d && m.allOk ok) && (d' && m'.allOk ok) then some (Function.update s z (some (true, m.append m')), none) else some (s, some .undefined)
    | _, _ => none
  | .append x y =>
    match s x, s y with
    | some (d, m), some (d', m') =>
      if (d && m.allOk ok) && (d' && m'.allOk ok) then some (Function.update s x (some (true, m.append m')), none) else some (s, some .undefined)
    | _, _ => none
  | .transform x g =>
    match s x with
    | none => none
    | some (d, m) =>
      if d && m.allOk ok then
        match m.transform ok g with
        | (m', .error e) => some (Function.update s x (some (true, m')), some e)
        | (m', .ok ()) => some (Function.update s x (some (true, m')), none)
      else some (s, some .undefined)
  | .destroy x => if (s x).isSome then some (Function.update s x none, none) else none

/-- a program on values -/
def valueRun (ok : L → Bool) : Store L → List (Command L) → Option (Store L × List (Option Err))
  | s, [] => some (s, [])
  | s, c :: cs =>
    match valueStep ok s c with
    | none => none
    | some (s', e) =>
      match valueRun ok s' cs with
      | none => none
      | some (s'', es) => some (s'', e :: es)

/-- no object throws undefined behaviour when it is transformed -/
def Tame : Command L → Prop
  | .transform _ g => ∀ v, g v ≠ .error .ub
  | _ => True

/-- the variables in memory are worth what the store says: each one has its own storage, and every object in memory belongs to a variable -/
def Represents (st : State L) (s : Store L) : Prop :=
  ∃ F : ℕ → Set ℕ,
    (∀ x, s x = none → st.var x = none ∧ F x = ∅) ∧
    (∀ x d m, s x = some (d, m) → ∃ a, st.var x = some a ∧ Holds st.heap (.node d m .nil) [a] (F x)) ∧
    (∀ x y, x ≠ y → Disjoint (F x) (F y)) ∧ Fresh st.heap ∧ ∀ a, st.heap.cell a ≠ none → ∃ x, a ∈ F x

/-- one operation on polygons as values -/
def polygonStep (s : ℕ → Option V) : Pimpl.Command V → Option ((ℕ → Option V) × Option Err)
  | .make x v => if (s x).isSome then none else some (Function.update s x (some v), none)
  | .copy x y =>
    if (s x).isSome then none
    else match s y with
    | none => none
    | some v => some (Function.update s x (some v), none)
  | .assign x y =>
    match s x, s y with
    | some _, some v => some (Function.update s x (some v), none)
    | _, _ => none
  | .change x g =>
    match s x with
    | none => none
    | some v =>
      match g v with
      | .error e => some (s, some e)
      | .ok w => some (Function.update s x (some w), none)
  | .destroy x => if (s x).isSome then some (Function.update s x none, none) else none

/-- a program on polygons as values -/
def polygonRun : (ℕ → Option V) → List (Pimpl.Command V) → Option ((ℕ → Option V) × List (Option Err))
  | s, [] => some (s, [])
  | s, c :: cs =>
    match polygonStep s c with
    | none => none
    | some (s', e) =>
      match polygonRun s' cs with
      | none => none
      | some (s'', es) => some (s'', e :: es)

/-- the polygons in memory are worth what the store says: each variable has a pointer of its own to its worth, and nothing else is in memory -/
def Owns (st : Pimpl.State V) (s : ℕ → Option V) : Prop :=
  (∀ x, s x = none → st.var x = none) ∧
  (∀ x v, s x = some v → ∃ a, st.var x = some (some a) ∧ st.impl a = some v) ∧
  (∀ x y a, st.var x = some (some a) → st.var y = some (some a) → x = y) ∧
  (∀ a, st.next ≤ a → st.impl a = none) ∧ ∀ a, st.impl a ≠ none → ∃ x, st.var x = some (some a)

end Verif.Spec
