import Mathlib.Order.Interval.Set.Defs
import Mathlib.Order.Interval.Set.OrdConnected
import Verif.Model.Interval

/-!
# Specification vocabulary for intervals

The meaning of an interval object is a set of values. Nothing here mentions the operations of the model.
-/

namespace Verif.Spec

variable {α : Type} [LinearOrder α]

/-- The set of values an interval stands for. An interval with an undefined type or bound stands for no value. -/
def pts : Interval α → Set α
  | ⟨.closed, some a, some b⟩ => Set.Icc a b
  | ⟨.opened, some a, some b⟩ => Set.Ioo a b
  | ⟨.halfOpenLeft, some a, some b⟩ => Set.Ioc a b
  | ⟨.halfOpenRight, some a, some b⟩ => Set.Ico a b
  | _ => ∅

/-- A defined interval whose bounds are in order, and are equal only if it is closed (what the constructor accepts). -/
def Valid (I : Interval α) : Prop :=
  ∃ a b, I.lb = some a ∧ I.ub = some b ∧
    ((I.type = .closed ∧ a ≤ b) ∨ (I.type ≠ .closed ∧ I.type ≠ .undefined ∧ a < b))

/-- The set of values covered by a list of intervals. -/
def cover (l : List (Interval α)) : Set α := {x | ∃ I ∈ l, x ∈ pts I}

/-- `I` lies below `J` with a hole in between: some value separates them and belongs to neither. -/
def SeparatedBelow (I J : Interval α) : Prop :=
  ∃ z, (∀ x ∈ pts I, x < z) ∧ (∀ y ∈ pts J, z < y)

/-- A normal form: valid intervals in increasing order with a hole between any two of them. -/
def Normal (l : List (Interval α)) : Prop :=
  (∀ I ∈ l, Valid I) ∧ l.Pairwise SeparatedBelow

/-- Just above `x` everything is in `P`: all values strictly between `x` and some greater value. -/
def RightOf (P : Set α) (x : α) : Prop := ∃ y, x < y ∧ Set.Ioo x y ⊆ P

/-- Just below `x` everything is in `P`. -/
def LeftOf (P : Set α) (x : α) : Prop := ∃ y, y < x ∧ Set.Ioo y x ⊆ P

/-- The values strictly between two covered values. -/
def hull (P : Set α) : Set α := {x | ∃ a ∈ P, ∃ b ∈ P, a < x ∧ x < b}

end Verif.Spec
