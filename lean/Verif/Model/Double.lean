import Mathlib.Data.Int.Log
import Mathlib.Algebra.Order.Floor.Ring
import Mathlib.Algebra.Order.Field.Basic
import Mathlib.Algebra.Ring.Int.Parity

/-!
# Arithmetic of `double`

The C++ type `double` is taken to be binary64 of IEEE 754 with the default rounding, to nearest with ties to even; the class `Real` of ostk-core (not in the
repository) wraps a `double` and is taken to compute as it does, with comparisons with an undefined value false. The two zeros are one number here, so that
nothing is said about the sign of a zero.
-/

namespace Verif

variable {α : Type} [Field α] [LinearOrder α] [IsStrictOrderedRing α] [FloorRing α]

namespace Double

/-- exponent of the last place of a number of the size of `x`: 53 bits, but not below `2 ^ -1074` -/
def lastPlace (x : α) : ℤ := max (Int.log 2 |x| - 52) (-1074)

/-- the nearest integer, the even one if there are two -/
def nearEven (y : α) : ℤ := if Int.fract y < 1 / 2 ∨ (Int.fract y = 1 / 2 ∧ ⌊y⌋ % 2 = 0) then ⌊y⌋ else ⌊y⌋ + 1

/-- rounding to 53 bits, overflow aside -/
def rnd (x : α) : α := nearEven (x / 2 ^ lastPlace x) * 2 ^ lastPlace x

end Double

/-- a `double` -/
inductive F64 (α : Type) where
  | fin (x : α)
  | inf (negative : Bool)
  | nan
  deriving DecidableEq

namespace F64

/-- the result of an operation whose exact value is `x`: what is rounded to `2 ^ 1024` or more is infinite -/
def ofExact (x : α) : F64 α :=
  if 2 ^ 1024 ≤ |Double.rnd x| then .inf (decide (x < 0)) else .fin (Double.rnd x)

/-- `-x` -/
def neg : F64 α → F64 α
  | .fin x => .fin (-x)
  | .inf s => .inf (!s)
  | .nan => .nan

/-- `x + y` -/
def add : F64 α → F64 α → F64 α
  | .fin x, .fin y => ofExact (x + y)
  | .fin _, .inf s => .inf s
  | .inf s, .fin _ => .inf s
  | .inf s, .inf t => if s = t then .inf s else .nan
  | .nan, _ => .nan
  | _, .nan => .nan

/-- `x - y` -/
def sub (a b : F64 α) : F64 α := a.add b.neg

/-- `x * y` -/
def mul : F64 α → F64 α → F64 α
  | .fin x, .fin y => ofExact (x * y)
  | .fin x, .inf s => if x = 0 then .nan else .inf (xor s (decide (x < 0)))
  | .inf s, .fin y => if y = 0 then .nan else .inf (xor s (decide (y < 0)))
  | .inf s, .inf t => .inf (xor s t)
  | .nan, _ => .nan
  | _, .nan => .nan

/-- `x / y`; since the sign of zero is not modelled, dividing by zero is taken to be dividing by plus zero -/
def div : F64 α → F64 α → F64 α
  | .fin x, .fin y => if y = 0 then (if x = 0 then .nan else .inf (decide (x < 0))) else ofExact (x / y)
  | .fin _, .inf _ => .fin 0
  | .inf s, .fin y => .inf (xor s (decide (y < 0)))
  | .inf _, .inf _ => .nan
  | .nan, _ => .nan
  | _, .nan => .nan

/-- `x < y` -/
def lt : F64 α → F64 α → Bool
  | .fin x, .fin y => decide (x < y)
  | .fin _, .inf s => !s
  | .inf s, .fin _ => s
  | .inf s, .inf t => s && !t
  | .nan, _ => false
  | _, .nan => false

/-- `x <= y` -/
def le : F64 α → F64 α → Bool
  | .fin x, .fin y => decide (x ≤ y)
  | .fin _, .inf s => !s
  | .inf s, .fin _ => s
  | .inf s, .inf t => s || !t
  | .nan, _ => false
  | _, .nan => false

/-- `x == y` -/
def eq : F64 α → F64 α → Bool
  | .fin x, .fin y => decide (x = y)
  | .inf s, .inf t => s == t
  | _, _ => false

end F64

end Verif
