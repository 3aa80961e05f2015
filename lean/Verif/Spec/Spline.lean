import Mathlib.Algebra.Order.Field.Basic

/-! # What cubic splines are meant to be -/

namespace Verif.Spec

variable {α : Type} [Field α]

/-- a polynomial of degree at most three -/
structure Cubic (α : Type) where
  c0 : α
  c1 : α
  c2 : α
  c3 : α

/-- its value -/
def Cubic.eval (p : Cubic α) (x : α) : α := p.c0 + p.c1 * x + p.c2 * x ^ 2 + p.c3 * x ^ 3

/-- its derivative -/
def Cubic.slope (p : Cubic α) (x : α) : α := p.c1 + 2 * p.c2 * x + 3 * p.c3 * x ^ 2

/-- node `i` of the nodes that start at `x0` with step `h` -/
def node (x0 h : α) (i : ℕ) : α := x0 + (i : α) * h

end Verif.Spec
